import Verif.Proofs.Enclosed
import Mathlib.Topology.Instances.Real.Lemmas
import Mathlib.Topology.Order.Compact
import Mathlib.Topology.MetricSpace.Basic
import Mathlib.Tactic.FunProp

/-!
# What a closed surface encloses does not change along a way that does not meet the surface
-/

namespace B3d.Enclose

open Spec

/-- A segment that misses a triangle still does after one end has been moved a little. -/
theorem seg_off {a b c p q : Vec3 ℝ} (d : Vec3 ℝ) (h : ∀ x, OnSegment p q x → ¬ InTriangle a b c x) :
    ∃ ε : ℝ, 0 < ε ∧ ∀ δ : ℝ, 0 ≤ δ → δ < ε → ∀ x, OnSegment p (q + δ • d) x → ¬ InTriangle a b c x := by
  obtain ⟨f, hf⟩ : ∃ f : (Vec3 ℝ → ℝ) → ℝ × ℝ × ℝ × ℝ → ℝ, f = fun g z =>
    g p + z.2.1 * (g q + z.1 * g d - g p) - (z.2.2.1 * g a + z.2.2.2 * g b + (1 - z.2.2.1 - z.2.2.2) * g c) := ⟨_, rfl⟩
  have hfc : ∀ g, Continuous (f g) := by
    intro g
    rw [hf]
    fun_prop
  obtain ⟨K, hK⟩ : ∃ K : Set (ℝ × ℝ × ℝ × ℝ), K = (Set.Icc 0 1 ×ˢ Set.Icc 0 1 ×ˢ Set.Icc 0 1 ×ˢ Set.Icc 0 1) ∩
    ({z | z.2.2.1 + z.2.2.2 ≤ 1} ∩ ({z | f Vec3.x z = 0} ∩ ({z | f Vec3.y z = 0} ∩ {z | f Vec3.z z = 0}))) := ⟨_, rfl⟩
  have hcomp : IsCompact K := by
    rw [hK]
    refine IsCompact.inter_right (isCompact_Icc.prod (isCompact_Icc.prod (isCompact_Icc.prod isCompact_Icc))) ?_
    refine IsClosed.inter (isClosed_le (by fun_prop) continuous_const) ?_
    exact (isClosed_eq (hfc _) continuous_const).inter
      ((isClosed_eq (hfc _) continuous_const).inter (isClosed_eq (hfc _) continuous_const))
  have hcl : IsClosed (Prod.fst '' K) := (hcomp.image continuous_fst).isClosed
  have h0 : (0 : ℝ) ∈ (Prod.fst '' K)ᶜ := by
    rintro ⟨⟨δ, k, r, s⟩, hz, he⟩
    simp only at he
    subst he
    rw [hK] at hz
    obtain ⟨⟨-, hk, hr, hs⟩, hrs, hx, hy, hzz⟩ := hz
    simp only [Set.mem_Icc, Set.mem_ofPred_eq, hf] at hk hr hs hrs hx hy hzz
    refine h (p + k • (q - p)) ⟨k, hk.1, hk.2, rfl⟩ ⟨r, s, 1 - r - s, hr.1, hs.1, by linarith, by ring, ?_⟩
    ext <;> simp only [Vec3.add_x, Vec3.add_y, Vec3.add_z, Vec3.smul_x, Vec3.smul_y, Vec3.smul_z, Vec3.sub_x, Vec3.sub_y,
      Vec3.sub_z]
    · linear_combination hx
    · linear_combination hy
    · linear_combination hzz
  obtain ⟨ε, hε, hball⟩ := Metric.isOpen_iff.1 hcl.isOpen_compl 0 h0
  refine ⟨min ε 1, lt_min hε one_pos, ?_⟩
  rintro δ hδ0 hδ x ⟨k, hk0, hk1, hx⟩ ⟨r, s, t, hr, hs, ht, hsum, hx'⟩
  rw [lt_min_iff] at hδ
  have hmem : δ ∈ Metric.ball (0 : ℝ) ε := by
    rw [Metric.mem_ball, Real.dist_eq, sub_zero, abs_of_nonneg hδ0]
    exact hδ.1
  apply hball hmem
  refine ⟨(δ, k, r, s), ?_, rfl⟩
  have ht' : t = 1 - r - s := by linarith
  subst ht'
  rw [hK]
  have hxx : p + k • (q + δ • d - p) = r • a + s • b + (1 - r - s) • c := by rw [← hx, hx']
  have e1 := congrArg Vec3.x hxx
  have e2 := congrArg Vec3.y hxx
  have e3 := congrArg Vec3.z hxx
  simp only [Vec3.add_x, Vec3.add_y, Vec3.add_z, Vec3.smul_x, Vec3.smul_y, Vec3.smul_z, Vec3.sub_x, Vec3.sub_y,
    Vec3.sub_z] at e1 e2 e3
  refine ⟨⟨⟨hδ0, hδ.2.le⟩, ⟨hk0, hk1⟩, ⟨hr, ?_⟩, ⟨hs, ?_⟩⟩, ?_, ?_, ?_, ?_⟩
  · show r ≤ 1; linarith
  · show s ≤ 1; linarith
  · show r + s ≤ 1; linarith
  · show f Vec3.x _ = 0; rw [hf]; linear_combination e1
  · show f Vec3.y _ = 0; rw [hf]; linear_combination e2
  · show f Vec3.z _ = 0; rw [hf]; linear_combination e3

/-- The same for a surface. -/
theorem segs_off {p q : Vec3 ℝ} (d : Vec3 ℝ) : ∀ {ts : List (Vec3 ℝ × Vec3 ℝ × Vec3 ℝ)},
    (∀ x, OnSegment p q x → OffSurface ts x) →
    ∃ ε : ℝ, 0 < ε ∧ ∀ δ : ℝ, 0 ≤ δ → δ < ε → ∀ x, OnSegment p (q + δ • d) x → OffSurface ts x
  | [], _ => ⟨1, one_pos, fun _ _ _ _ _ _ h => by simp at h⟩
  | t :: ts, h => by
    obtain ⟨ε, hε, h1⟩ := segs_off d (ts := ts) fun x hx t' ht' => h x hx t' (List.mem_cons_of_mem _ ht')
    obtain ⟨ε', hε', h2⟩ := seg_off d fun x hx => h x hx t List.mem_cons_self
    refine ⟨min ε ε', lt_min hε hε', fun δ h0 hδ x hx => ?_⟩
    rw [lt_min_iff] at hδ
    intro t' ht'
    rcases List.mem_cons.1 ht' with rfl | ht'
    · exact h2 δ h0 hδ.2 x hx
    · exact h1 δ h0 hδ.1 x hx t' ht'

theorem inTriangle_of_edge {a b c x : Vec3 ℝ} : (OnSegment a b x → InTriangle a b c x) ∧ (OnSegment b c x → InTriangle a b c x) ∧
    (OnSegment c a x → InTriangle a b c x) := by
  refine ⟨?_, ?_, ?_⟩ <;> rintro ⟨k, h0, h1, rfl⟩
  · exact ⟨1 - k, k, 0, by linarith, h0, le_rfl, by ring, by ext <;> simp <;> ring⟩
  · exact ⟨0, 1 - k, k, le_rfl, by linarith, h0, by ring, by ext <;> simp <;> ring⟩
  · exact ⟨k, 0, 1 - k, h0, le_rfl, by linarith, by ring, by ext <;> simp <;> ring⟩

theorem clear_forward {ts : List (Vec3 ℝ × Vec3 ℝ × Vec3 ℝ)} {x u : Vec3 ℝ} {k : ℝ} (hk : 0 ≤ k) (h : ClearRay ts x u) :
    ClearRay ts (x + k • u) u := by
  refine ⟨h.1, fun t ht s hs => ?_⟩
  have := h.2 t ht (k + s) (by linarith)
  rwa [add_smul, ← add_assoc] at this

theorem on_way {x u : Vec3 ℝ} {k s : ℝ} (hk : 0 < k) (h0 : 0 ≤ s) (hs : s ≤ k) : OnSegment x (x + k • u) (x + s • u) := by
  refine ⟨s / k, by positivity, by rw [div_le_one hk]; exact hs, ?_⟩
  rw [add_sub_cancel_left, smul_smul, div_mul_cancel₀ _ hk.ne']

theorem clear_back {ts : List (Vec3 ℝ × Vec3 ℝ × Vec3 ℝ)} {x u : Vec3 ℝ} {k : ℝ} (hk : 0 < k) (h : ClearRay ts (x + k • u) u)
    (hoff : ∀ y, OnSegment x (x + k • u) y → OffSurface ts y) : ClearRay ts x u := by
  refine ⟨h.1, fun t ht s hs => ?_⟩
  rcases le_total s k with hsk | hsk
  · have := hoff _ (on_way (u := u) hk hs hsk) t ht
    exact ⟨fun h => this (inTriangle_of_edge.1 h), fun h => this (inTriangle_of_edge.2.1 h),
      fun h => this (inTriangle_of_edge.2.2 h)⟩
  · have := h.2 t ht (s - k) (by linarith)
    rwa [add_assoc, ← add_smul, add_sub_cancel] at this

theorem crossings_forward {ts : List (Vec3 ℝ × Vec3 ℝ × Vec3 ℝ)} {x u : Vec3 ℝ} {k : ℝ} (hk : 0 < k)
    (hoff : ∀ y, OnSegment x (x + k • u) y → OffSurface ts y) : crossings ts x u = crossings ts (x + k • u) u := by
  classical
  unfold crossings
  apply List.countP_congr
  intro t ht
  simp only [decide_eq_true_eq]
  constructor
  · rintro ⟨s, hs, hin⟩
    rcases le_or_gt s k with hsk | hsk
    · refine absurd ?_ (hoff _ (on_way (u := u) hk hs.le hsk) t ht)
      obtain ⟨l, m, n, hl, hm, hn, h1, h2⟩ := hin
      exact ⟨l, m, n, hl.le, hm.le, hn.le, h1, h2⟩
    · exact ⟨s - k, by linarith, by rwa [add_assoc, ← add_smul, add_sub_cancel]⟩
  · rintro ⟨s, hs, hin⟩
    exact ⟨k + s, by linarith, by rwa [add_smul, ← add_assoc]⟩

theorem enclosed_iff {ts : List (Vec3 ℝ × Vec3 ℝ × Vec3 ℝ)} {x u : Vec3 ℝ} (hcl : ClosedSum ts)
    (hne : ∀ t ∈ ts, Vec3.cross (t.2.1 - t.1) (t.2.2 - t.1) ≠ 0) (hoff : OffSurface ts x) (hu : ClearRay ts x u) :
    Enclosed ts x ↔ Odd (crossings ts x u) :=
  ⟨fun h => h u hu, fun h _ hu' => (crossings_parity hcl hne hoff hu hu').1 h⟩

/-- **Inside and outside are separated by the surface**: along a segment that does not meet the surface, either all points
are enclosed or none is. -/
theorem enclosed_segment {ts : List (Vec3 ℝ × Vec3 ℝ × Vec3 ℝ)} {p q : Vec3 ℝ} (hcl : ClosedSum ts)
    (hne : ∀ t ∈ ts, Vec3.cross (t.2.1 - t.1) (t.2.2 - t.1) ≠ 0) (hoff : ∀ x, OnSegment p q x → OffSurface ts x) :
    Enclosed ts p ↔ Enclosed ts q := by
  have hp : OffSurface ts p := hoff p ⟨0, le_rfl, zero_le_one, by rw [zero_smul, add_zero]⟩
  have hq : OffSurface ts q := hoff q ⟨1, zero_le_one, le_rfl, by rw [one_smul, add_sub_cancel]⟩
  obtain ⟨d, hd⟩ := exists_gen (⟨1, 0, 0⟩ :: (planes (rel p ts) ++ planes (rel q ts)))
  obtain ⟨ε1, hε1, h1⟩ := segs_off d hoff
  obtain ⟨ε2, hε2, h2⟩ := segs_off (p := q) (q := q) d (ts := ts) (by
    rintro x ⟨k, -, -, rfl⟩
    rwa [sub_self, smul_zero, add_zero])
  obtain ⟨δ, hδ0, hδ, hgen⟩ := exists_step (u := q - p) (d := d) (L := ⟨1, 0, 0⟩ :: planes (rel p ts))
    (fun n hn hn0 h0 => absurd h0 (hd n (by
      rw [List.mem_cons] at hn ⊢
      rw [List.mem_append]
      exact hn.imp id .inl) hn0)) (lt_min hε1 hε2)
  rw [lt_min_iff] at hδ
  rw [List.forall_mem_cons] at hgen
  obtain ⟨w, hw⟩ : ∃ w, w = q - p + δ • d := ⟨_, rfl⟩
  rw [← hw] at hgen
  have hone : (⟨1, 0, 0⟩ : Vec3 ℝ) ≠ 0 := by simp [Vec3.ext_iff]
  have hw0 : w ≠ 0 := by
    rintro rfl
    exact hgen.1 hone (Vec3.dot_zero_left _)
  have hd0 : d ≠ 0 := by
    rintro rfl
    exact hd _ List.mem_cons_self hone (Vec3.dot_zero_left _)
  have hcw := clear_of_gen hne hp hw0 hgen.2
  have e : p + (1 : ℝ) • w = q + δ • d := by rw [one_smul, hw]; abel
  have hs1 : ∀ y, OnSegment p (p + (1 : ℝ) • w) y → OffSurface ts y := by
    rw [e]
    exact h1 δ hδ0.le hδ.1
  have hcd : ClearRay ts q (-d) := by
    refine clear_of_gen hne hq (by rwa [ne_eq, neg_eq_zero]) fun n hn hn0 h0 => ?_
    rw [Vec3.dot_neg_left, neg_eq_zero] at h0
    exact hd n (by rw [List.mem_cons, List.mem_append]; exact .inr (.inr hn)) hn0 h0
  have e2 : q + δ • d + δ • (-d) = q := by rw [smul_neg]; abel
  have hs2 : ∀ y, OnSegment (q + δ • d) (q + δ • d + δ • (-d)) y → OffSurface ts y := by
    rw [e2]
    rintro y ⟨k, hk0, hk1, rfl⟩
    refine h2 δ hδ0.le hδ.2 _ ⟨1 - k, by linarith, by linarith, ?_⟩
    ext <;> simp <;> ring
  have hcd' : ClearRay ts (q + δ • d) (-d) := clear_back hδ0 (by rw [e2]; exact hcd) hs2
  have hq' : OffSurface ts (q + δ • d) := hs2 _ ⟨0, le_rfl, zero_le_one, by rw [zero_smul, add_zero]⟩
  rw [enclosed_iff hcl hne hp hcw, crossings_forward one_pos hs1, ← enclosed_iff hcl hne (by rwa [e])
    (clear_forward zero_le_one hcw), e, enclosed_iff hcl hne hq' hcd', crossings_forward hδ0 hs2, e2,
    enclosed_iff hcl hne hq hcd]

end B3d.Enclose
