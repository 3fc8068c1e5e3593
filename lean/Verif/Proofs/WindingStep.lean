import Verif.Proofs.EarWinding
import Verif.Proofs.Plan

/-! # The winding number of an outline does not change in small steps off the outline -/

namespace B3d.Tiling

open Spec Triangles Filter Topology

theorem ht_step (n u x d v : V) (s : ℝ) :
    ht n u (x + s • d) v = ht n u x v - s * Vec3.dot (Vec3.cross n u) d := by
  simp only [ht, Vec3.dot, Vec3.cross_x, Vec3.cross_y, Vec3.cross_z, Vec3.sub_x, Vec3.sub_y, Vec3.sub_z,
    Vec3.smul_x, Vec3.smul_y, Vec3.smul_z, Vec3.add_x, Vec3.add_y, Vec3.add_z]
  ring

theorem side_step (n x d v w : V) (s : ℝ) :
    sideOf n (x + s • d) v w = sideOf n x v w + s * Vec3.dot n (Vec3.cross (w - v) d) := by
  simp only [sideOf, Vec3.dot, Vec3.cross_x, Vec3.cross_y, Vec3.cross_z, Vec3.sub_x, Vec3.sub_y, Vec3.sub_z,
    Vec3.smul_x, Vec3.smul_y, Vec3.smul_z, Vec3.add_x, Vec3.add_y, Vec3.add_z]
  ring

/-- The side of an edge that is crossed by the line is not zero off the edge. -/
theorem side_ne {n u x v w : V} {e : ℝ} (hn : n ≠ 0) (hu : Vec3.dot n u = 0) (hv : Vec3.dot n v = e)
    (hw : Vec3.dot n w = e) (hx : Vec3.dot n x = e) (hoff : ¬ OnSegment v w x)
    (h : (ht n u x v ≤ 0 ∧ 0 < ht n u x w) ∨ (0 < ht n u x v ∧ ht n u x w ≤ 0)) : sideOf n x v w ≠ 0 := by
  intro h0
  have hm := meet_comb hn hu hv hw hx
  rw [h0, zero_smul, zero_sub] at hm
  rcases h with ⟨a, b⟩ | ⟨a, b⟩
  · rcases lt_or_eq_of_le a with a | a
    · exact hoff (onSegment_of_heights hn hu hv hw hx h0 (mul_neg_of_neg_of_pos a b))
    · rw [a, zero_smul, add_zero, neg_eq_zero] at hm
      have := sub_eq_zero.1 ((smul_eq_zero.1 hm).resolve_left b.ne')
      exact hoff (this ▸ onSegment_left v w)
  · rcases lt_or_eq_of_le b with b | b
    · exact hoff (onSegment_of_heights hn hu hv hw hx h0 (mul_neg_of_pos_of_neg a b))
    · rw [b, zero_smul, neg_zero, zero_add] at hm
      have := sub_eq_zero.1 ((smul_eq_zero.1 hm).resolve_left a.ne')
      exact hoff (this ▸ onSegment_right v w)

theorem pos_eventually {p q : ℝ} (hp : 0 < p) : ∀ᶠ s : ℝ in 𝓝[>] 0, 0 < p + s * q := by
  have hc : Continuous fun s : ℝ => p + s * q := by fun_prop
  exact Filter.Eventually.filter_mono nhdsWithin_le_nhds
    ((hc.tendsto 0).eventually (lt_mem_nhds (show 0 < p + 0 * q by rw [zero_mul, add_zero]; exact hp)))

theorem neg_eventually {p q : ℝ} (hp : p < 0) : ∀ᶠ s : ℝ in 𝓝[>] 0, p + s * q < 0 := by
  filter_upwards [pos_eventually (p := -p) (q := -q) (by linarith)] with s hs
  linarith

theorem ne_eventually {p q : ℝ} (h : p ≠ 0 ∨ q ≠ 0) : ∀ᶠ s : ℝ in 𝓝[>] 0, p + s * q ≠ 0 := by
  rcases lt_trichotomy p 0 with hp | hp | hp
  · filter_upwards [neg_eventually (q := q) hp] with s hs using hs.ne
  · filter_upwards [self_mem_nhdsWithin] with s hs
    rw [hp, zero_add]
    exact mul_ne_zero (ne_of_gt hs) (h.resolve_left fun h => h hp)
  · filter_upwards [pos_eventually (q := q) hp] with s hs using hs.ne'

/-- A small step up, off the edge, does not change how the edge crosses the ray. -/
theorem edge_step {n u x d v w : V} {e : ℝ} (hn : n ≠ 0) (hu : Vec3.dot n u = 0) (hv : Vec3.dot n v = e)
    (hw : Vec3.dot n w = e) (hx : Vec3.dot n x = e) (hup : 0 ≤ Vec3.dot (Vec3.cross n u) d)
    (hoff : ¬ OnSegment v w x) : ∀ᶠ s : ℝ in 𝓝[>] 0, crossing n u (x + s • d) v w = crossing n u x v w := by
  have low : ∀ r, ht n u x r ≤ 0 → ∀ᶠ s : ℝ in 𝓝[>] 0, ht n u (x + s • d) r ≤ 0 := by
    intro r hr
    filter_upwards [self_mem_nhdsWithin] with s hs
    rw [ht_step]
    have := mul_nonneg (le_of_lt hs) hup
    linarith
  have high : ∀ r, 0 < ht n u x r → ∀ᶠ s : ℝ in 𝓝[>] 0, 0 < ht n u (x + s • d) r := by
    intro r hr
    filter_upwards [pos_eventually (q := -Vec3.dot (Vec3.cross n u) d) hr] with s hs
    rw [ht_step]
    linarith
  have sgn : ((ht n u x v ≤ 0 ∧ 0 < ht n u x w) ∨ (0 < ht n u x v ∧ ht n u x w ≤ 0)) →
      ∀ᶠ s : ℝ in 𝓝[>] 0, (0 < sideOf n x v w ∧ 0 < sideOf n (x + s • d) v w) ∨
        (sideOf n x v w < 0 ∧ sideOf n (x + s • d) v w < 0) := by
    intro h
    rcases lt_or_gt_of_ne (side_ne hn hu hv hw hx hoff h) with h0 | h0
    · filter_upwards [neg_eventually (q := Vec3.dot n (Vec3.cross (w - v) d)) h0] with s hs
      rw [side_step]
      exact .inr ⟨h0, hs⟩
    · filter_upwards [pos_eventually (q := Vec3.dot n (Vec3.cross (w - v) d)) h0] with s hs
      rw [side_step]
      exact .inl ⟨h0, hs⟩
  rcases le_or_gt (ht n u x v) 0 with a | a <;> rcases le_or_gt (ht n u x w) 0 with b | b
  · filter_upwards [low v a, low w b] with s h1 h2
    rw [crossing_ht, crossing_ht, cr_low a b, cr_low h1 h2]
  · filter_upwards [low v a, high w b, sgn (.inl ⟨a, b⟩)] with s h1 h2 h3
    rw [crossing_ht, crossing_ht, cr_up a b, cr_up h1 h2]
    rcases h3 with ⟨c, d⟩ | ⟨c, d⟩
    · rw [if_pos c, if_pos d]
    · rw [if_neg (not_lt.2 c.le), if_neg (not_lt.2 d.le)]
  · filter_upwards [high v a, low w b, sgn (.inr ⟨a, b⟩)] with s h1 h2 h3
    rw [crossing_ht, crossing_ht, cr_down a b, cr_down h1 h2]
    rcases h3 with ⟨c, d⟩ | ⟨c, d⟩
    · rw [if_neg (not_lt.2 c.le), if_neg (not_lt.2 d.le)]
    · rw [if_pos c, if_pos d]
  · filter_upwards [high v a, high w b] with s h1 h2
    rw [crossing_ht, crossing_ht, cr_high a b, cr_high h1 h2]

theorem edge_mem {α : Type} {l : List α} {f : α × α} (h : f ∈ cycEdges l) : f.1 ∈ l ∧ f.2 ∈ l := by
  cases l with
  | nil => simp [cycEdges] at h
  | cons a l =>
    obtain ⟨x, y⟩ := f
    have := List.of_mem_zip h
    simp only [List.mem_append, List.mem_cons] at this ⊢
    tauto

/-- A small step up does not change the winding number. -/
theorem winding_step {n u x d : V} {e : ℝ} {pts : List V} (hn : n ≠ 0) (hu : Vec3.dot n u = 0)
    (hpl : ∀ p ∈ pts, Vec3.dot n p = e) (hx : Vec3.dot n x = e) (hup : 0 ≤ Vec3.dot (Vec3.cross n u) d)
    (hoff : ¬ OnOutline pts x) : ∀ᶠ s : ℝ in 𝓝[>] 0, winding n u (x + s • d) pts = winding n u x pts := by
  have := list_eventually (l := 𝓝[>] (0 : ℝ)) (cycEdges pts) (P := fun f s =>
      crossing n u (x + s • d) f.1 f.2 = crossing n u x f.1 f.2) (by
    intro f hf
    have hm := edge_mem hf
    exact edge_step hn hu (hpl _ hm.1) (hpl _ hm.2) hx hup fun h => hoff ⟨f, hf, h⟩)
  filter_upwards [this] with s hs
  unfold winding
  rw [List.map_congr_left fun f hf => hs f hf]

/-- A small step does not lead to a segment. -/
theorem segment_step {x d v w : V} (hoff : ¬ OnSegment v w x) : ∀ᶠ s : ℝ in 𝓝[>] 0, ¬ OnSegment v w (x + s • d) := by
  have hcl : IsClosed {s : ℝ | OnSegment v w (x + s • d)} := by
    have : {s : ℝ | OnSegment v w (x + s • d)} = Prod.fst '' {q : ℝ × Set.Icc (0 : ℝ) 1 |
        (x + q.1 • d).x = (v + (q.2 : ℝ) • (w - v)).x ∧ (x + q.1 • d).y = (v + (q.2 : ℝ) • (w - v)).y ∧
        (x + q.1 • d).z = (v + (q.2 : ℝ) • (w - v)).z} := by
      ext s
      simp only [Set.mem_ofPred_eq, Set.mem_image, Prod.exists, exists_and_right, exists_eq_right, OnSegment,
        Subtype.exists, Set.mem_Icc]
      constructor
      · rintro ⟨t, a, b, c⟩
        rw [Vec3.ext_iff] at c
        exact ⟨t, ⟨⟨a, b⟩, c.1⟩, c.2⟩
      · rintro ⟨t, ⟨⟨a, b⟩, c⟩, c'⟩
        exact ⟨t, a, b, Vec3.ext_iff.2 ⟨c, c'⟩⟩
    rw [this]
    refine isClosedMap_fst_of_compactSpace _ ?_
    simp only [Vec3.add_x, Vec3.add_y, Vec3.add_z, Vec3.smul_x, Vec3.smul_y, Vec3.smul_z]
    refine IsClosed.inter ?_ (IsClosed.inter ?_ ?_) <;> refine isClosed_eq ?_ ?_ <;> fun_prop
  have h0 : (0 : ℝ) ∈ {s : ℝ | OnSegment v w (x + s • d)}ᶜ := by
    simpa using hoff
  exact Filter.Eventually.filter_mono nhdsWithin_le_nhds (hcl.isOpen_compl.mem_nhds h0)

theorem outline_step {x d : V} {pts : List V} (hoff : ¬ OnOutline pts x) :
    ∀ᶠ s : ℝ in 𝓝[>] 0, ¬ OnOutline pts (x + s • d) := by
  have := list_eventually (l := 𝓝[>] (0 : ℝ)) (cycEdges pts) (P := fun f s => ¬ OnSegment f.1 f.2 (x + s • d))
    fun f hf => segment_step fun h => hoff ⟨f, hf, h⟩
  filter_upwards [this] with s hs
  rintro ⟨f, hf, h⟩
  exact hs f hf h

/-! ### Directions along no edge -/

/-- The area spanned by two vectors of the plane. -/
def span (n a b : V) : ℝ := Vec3.dot n (Vec3.cross a b)

theorem span_comb {n a b c : V} (hn : n ≠ 0) (ha : Vec3.dot n a = 0) (hb : Vec3.dot n b = 0) (hc : Vec3.dot n c = 0) :
    span n b c • a + span n c a • b + span n a b • c = 0 := by
  have h := side_comb (x := 0) hn ha hb hc (Vec3.dot_zero_right n)
  have e : ∀ p q : V, sideOf n 0 p q = span n p q := by
    intro p q
    simp only [sideOf, span, Vec3.dot, Vec3.cross_x, Vec3.cross_y, Vec3.cross_z, Vec3.sub_x, Vec3.sub_y, Vec3.sub_z,
      Vec3.zero_x, Vec3.zero_y, Vec3.zero_z]
    ring
  simpa only [e, sub_zero] using h

theorem span_swap (n a b : V) : span n a b = -span n b a := by
  simp only [span, Vec3.dot, Vec3.cross_x, Vec3.cross_y, Vec3.cross_z]; ring

theorem span_mix (n l a b : V) (t : ℝ) : span n l (a + t • (b - a)) = span n l a + t * (span n l b - span n l a) := by
  simp only [span, Vec3.dot, Vec3.cross_x, Vec3.cross_y, Vec3.cross_z, Vec3.sub_x, Vec3.sub_y, Vec3.sub_z,
    Vec3.smul_x, Vec3.smul_y, Vec3.smul_z, Vec3.add_x, Vec3.add_y, Vec3.add_z]
  ring

/-- Between two directions there is one which is parallel to none of finitely many vectors. -/
theorem exists_dir {n a b : V} (hn : n ≠ 0) (ha : Vec3.dot n a = 0) (hb : Vec3.dot n b = 0) (hab : span n a b ≠ 0)
    (L : List V) (hL : ∀ l ∈ L, l ≠ 0 ∧ Vec3.dot n l = 0) :
    ∃ t : ℝ, 0 < t ∧ t < 1 ∧ ∀ l ∈ L, span n l (a + t • (b - a)) ≠ 0 := by
  have one : ∀ l ∈ L, {t : ℝ | span n l (a + t • (b - a)) = 0}.Finite := by
    intro l hl
    by_cases hk : span n l b - span n l a = 0
    · have h0 : span n l a ≠ 0 := by
        intro h0
        have h1 : span n l b = 0 := by linarith
        have := span_comb hn ha hb (hL l hl).2
        rw [span_swap n b l, h1, h0, neg_zero, zero_smul, zero_smul, zero_add, zero_add] at this
        exact (hL l hl).1 ((smul_eq_zero.1 this).resolve_left hab)
      convert Set.finite_empty
      ext t
      simp only [Set.mem_ofPred_eq, Set.mem_empty_iff_false, iff_false]
      rw [span_mix, hk, mul_zero, add_zero]
      exact h0
    · refine (Set.finite_singleton (-span n l a / (span n l b - span n l a))).subset ?_
      intro t h
      rw [Set.mem_ofPred_eq, span_mix] at h
      rw [Set.mem_singleton_iff, eq_div_iff hk]
      linarith
  have hfin : (⋃ l ∈ {l | l ∈ L}, {t : ℝ | span n l (a + t • (b - a)) = 0}).Finite :=
    Set.Finite.biUnion (List.finite_toSet L) one
  obtain ⟨t, ⟨t0, t1⟩, ht⟩ := ((Set.Ioo_infinite (zero_lt_one (α := ℝ))).sdiff hfin).nonempty
  refine ⟨t, t0, t1, fun l hl h => ht ?_⟩
  exact Set.mem_biUnion (show l ∈ {l | l ∈ L} from hl) h

/-- The edges of triangles as vectors. -/
def edgeVecs (ts : List (V × V × V)) : List V := ts.flatMap fun T => [T.2.1 - T.1, T.2.2 - T.2.1, T.1 - T.2.2]

/-- A small step in a direction along no edge leads to no edge. -/
theorem off_step {n x d : V} {ts : List (V × V × V)} (hd : ∀ l ∈ edgeVecs ts, span n l d ≠ 0) :
    ∀ᶠ s : ℝ in 𝓝[>] 0, ∀ T ∈ ts, Off n T (x + s • d) := by
  refine list_eventually ts fun T hT => ?_
  have m : ∀ l ∈ [T.2.1 - T.1, T.2.2 - T.2.1, T.1 - T.2.2], span n l d ≠ 0 := fun l hl =>
    hd l (List.mem_flatMap.2 ⟨T, hT, hl⟩)
  have one : ∀ v w : V, span n (w - v) d ≠ 0 → ∀ᶠ s : ℝ in 𝓝[>] 0, sideOf n (x + s • d) v w ≠ 0 := by
    intro v w h
    filter_upwards [ne_eventually (p := sideOf n x v w) (.inr h)] with s hs
    rw [side_step]
    exact hs
  filter_upwards [one T.1 T.2.1 (m _ (by simp)), one T.2.1 T.2.2 (m _ (by simp)),
    one T.2.2 T.1 (m _ (by simp))] with s h1 h2 h3
  exact ⟨h1, h2, h3⟩

/-! ### The winding number of triangles -/

section triangles

variable {n : V} {e : ℝ} {pts : List V} {ts : List (V × V × V)}

/-- Triangles with corners in the plane, counter-clockwise, whose edges add up to the outline. -/
structure Fills (n : V) (e : ℝ) (pts : List V) (ts : List (V × V × V)) : Prop where
  ne : n ≠ 0
  plane : ∀ p ∈ pts, Vec3.dot n p = e
  tris : ∀ T ∈ ts, InPl n e T ∧ 0 < area n T
  sum : ∀ g : V → V → ℤ, (∀ a b, g a b = -g b a) →
    ((cycEdges pts).map fun e => g e.1 e.2).sum = (ts.map (around g)).sum

theorem Fills.vecs (h : Fills n e pts ts) : ∀ l ∈ edgeVecs ts, l ≠ 0 ∧ Vec3.dot n l = 0 := by
  intro l hl
  obtain ⟨T, hT, hl⟩ := List.mem_flatMap.1 hl
  obtain ⟨⟨p1, p2, p3⟩, hA⟩ := h.tris T hT
  obtain ⟨d1, d2, d3⟩ := area_ne hA
  simp only [List.mem_cons, List.not_mem_nil, or_false] at hl
  rcases hl with rfl | rfl | rfl
  · exact ⟨sub_ne_zero.2 d1.symm, by rw [Vec3.dot_sub_right, p1, p2, sub_self]⟩
  · exact ⟨sub_ne_zero.2 d2.symm, by rw [Vec3.dot_sub_right, p3, p2, sub_self]⟩
  · exact ⟨sub_ne_zero.2 d3.symm, by rw [Vec3.dot_sub_right, p1, p3, sub_self]⟩

open Classical in
/-- Off all edges, the winding number is the number of triangles around the point. -/
theorem Fills.count (h : Fills n e pts ts) {u y : V} (hu0 : u ≠ 0) (hu : Vec3.dot n u = 0) (hy : Vec3.dot n y = e)
    (hoff : ∀ T ∈ ts, InTriangle T.1 T.2.1 T.2.2 y → Ins T y) : winding n u y pts = ts.countP fun T => Ins T y := by
  unfold winding
  rw [h.sum _ (crossing_antisymm n u y)]
  have hval : ∀ T ∈ ts, around (crossing n u y) T = if Ins T y then 1 else 0 := by
    intro T hT
    obtain ⟨⟨p1, p2, p3⟩, hA⟩ := h.tris T hT
    have ct := crossing_triangle h.ne hu0 hu p1 p2 p3 hy hA
    split
    · rename_i hi
      exact ct.2 hi
    · rename_i hni
      exact ct.1 fun hin => hni (hoff T hT hin)
  rw [List.map_congr_left hval]
  clear hval hoff h
  induction ts with
  | nil => simp
  | cons T ts ih =>
    rw [List.map_cons, List.sum_cons, ih, List.countP_cons]
    by_cases hT : Ins T y
    · simp [hT]; ring
    · simp [hT]

theorem Fills.strict (h : Fills n e pts ts) {y : V} (hy : Vec3.dot n y = e) (hoff : ∀ T ∈ ts, Off n T y) :
    ∀ T ∈ ts, InTriangle T.1 T.2.1 T.2.2 y → Ins T y := by
  intro T hT hin
  obtain ⟨⟨p1, p2, p3⟩, hA⟩ := h.tris T hT
  rw [inTriangle_iff h.ne p1 p2 p3 hy hA] at hin
  obtain ⟨o1, o2, o3⟩ := hoff T hT
  exact (insideTriangle_iff h.ne p1 p2 p3 hy hA).2
    ⟨lt_of_le_of_ne hin.1 o1.symm, lt_of_le_of_ne hin.2.1 o2.symm, lt_of_le_of_ne hin.2.2 o3.symm⟩

theorem dot_cross_perp (n u : V) : Vec3.dot n (Vec3.cross n u) = 0 := by
  simp only [Vec3.dot, Vec3.cross_x, Vec3.cross_y, Vec3.cross_z]; ring

/-- For rays which are not parallel. -/
theorem Fills.indep_aux (h : Fills n e pts ts) {u u' x : V} (hu : Vec3.dot n u = 0) (hu' : Vec3.dot n u' = 0)
    (huu : span n u u' ≠ 0) (hx : Vec3.dot n x = e) (hoff : ¬ OnOutline pts x) :
    winding n u x pts = winding n u' x pts := by
  have hu0 : u ≠ 0 := by rintro rfl; exact huu (by simp [span])
  have hu0' : u' ≠ 0 := by rintro rfl; exact huu (by simp [span])
  have ed : ∀ v w : V, Vec3.dot (Vec3.cross n v) w = span n v w := by
    intro v w
    simp only [span, Vec3.dot, Vec3.cross_x, Vec3.cross_y, Vec3.cross_z]; ring
  -- a direction above both
  obtain ⟨a, b, ha, hb, hab, h1, h2, h3, h4⟩ : ∃ a b : V, Vec3.dot n a = 0 ∧ Vec3.dot n b = 0 ∧ span n a b ≠ 0 ∧
      0 ≤ span n u a ∧ 0 ≤ span n u b ∧ 0 ≤ span n u' a ∧ 0 ≤ span n u' b := by
    have z : ∀ v : V, span n v v = 0 := by
      intro v; simp only [span, Vec3.dot, Vec3.cross_x, Vec3.cross_y, Vec3.cross_z]; ring
    have sn : ∀ v w : V, span n v (-w) = -span n v w := by
      intro v w; simp only [span, Vec3.dot, Vec3.cross_x, Vec3.cross_y, Vec3.cross_z, Vec3.neg_x, Vec3.neg_y, Vec3.neg_z]; ring
    have ns : ∀ v w : V, span n (-v) w = -span n v w := by
      intro v w; simp only [span, Vec3.dot, Vec3.cross_x, Vec3.cross_y, Vec3.cross_z, Vec3.neg_x, Vec3.neg_y, Vec3.neg_z]; ring
    rcases lt_or_gt_of_ne huu with hlt | hgt
    · refine ⟨-u', u, by rw [Vec3.dot_neg_right, hu', neg_zero], hu, ?_, ?_, (z u).ge, ?_, ?_⟩
      · rw [ns, span_swap, neg_neg]; exact huu
      · rw [sn]; linarith
      · rw [sn, z, neg_zero]
      · rw [span_swap]; linarith
    · refine ⟨u', -u, hu', by rw [Vec3.dot_neg_right, hu, neg_zero], ?_, hgt.le, ?_, (z u').ge, ?_⟩
      · rw [sn, span_swap, neg_neg]; exact huu
      · rw [sn, z, neg_zero]
      · rw [sn, span_swap, neg_neg]; exact hgt.le
  obtain ⟨t, t0, t1, ht⟩ := exists_dir h.ne ha hb hab _ h.vecs
  have up : ∀ v : V, 0 ≤ span n v a → 0 ≤ span n v b → 0 ≤ Vec3.dot (Vec3.cross n v) (a + t • (b - a)) := by
    intro v p q
    rw [ed, span_mix]
    have := mul_nonneg t0.le q
    have := mul_nonneg (sub_nonneg.2 t1.le) p
    linarith
  obtain ⟨s, ⟨⟨w1, w2⟩, w3⟩, hs⟩ := (((winding_step h.ne hu h.plane hx (up u h1 h2) hoff).and
    (winding_step h.ne hu' h.plane hx (up u' h3 h4) hoff)).and (off_step (x := x) ht)).and self_mem_nhdsWithin |>.exists
  have hy : Vec3.dot n (x + s • (a + t • (b - a))) = e := by
    rw [Vec3.dot_add_right, Vec3.dot_smul_right, dot_seg ha hb, hx, mul_zero, add_zero]
  rw [← w1, ← w2, h.count hu0 hu hy (h.strict hy w3), h.count hu0' hu' hy (h.strict hy w3)]

/-- The winding number around a point off the outline does not depend on the ray. -/
theorem Fills.indep (h : Fills n e pts ts) {u u' x : V} (hu0 : u ≠ 0) (hu0' : u' ≠ 0) (hu : Vec3.dot n u = 0)
    (hu' : Vec3.dot n u' = 0) (hx : Vec3.dot n x = e) (hoff : ¬ OnOutline pts x) :
    winding n u x pts = winding n u' x pts := by
  by_cases huu : span n u u' = 0
  · have hd : Vec3.dot n (Vec3.cross n u) = 0 := dot_cross_perp n u
    have nn : ∀ v : V, v ≠ 0 → Vec3.dot v v ≠ 0 := fun v hv h0 => hv (Vec3.normSq_eq_zero.1 h0)
    have e1 : ∀ v : V, Vec3.dot n v = 0 → span n v (Vec3.cross n u) = Vec3.dot n n * Vec3.dot v u := by
      intro v hv
      have : span n v (Vec3.cross n u) = Vec3.dot n n * Vec3.dot v u - Vec3.dot n v * Vec3.dot n u := by
        simp only [span, Vec3.dot, Vec3.cross_x, Vec3.cross_y, Vec3.cross_z]; ring
      rw [this, hu, mul_zero, sub_zero]
    have h2 : Vec3.dot u' u ≠ 0 := by
      intro h0
      have := span_comb h.ne hu hu' hd
      have z : span n u (Vec3.cross n u) ≠ 0 := by
        rw [e1 u hu]; exact mul_ne_zero (nn n h.ne) (nn u hu0)
      rw [e1 u' hu', h0, mul_zero, zero_smul, zero_add, huu, zero_smul, add_zero, span_swap] at this
      exact hu0' ((smul_eq_zero.1 this).resolve_left (neg_ne_zero.2 z))
    rw [h.indep_aux hu hd (by rw [e1 u hu]; exact mul_ne_zero (nn n h.ne) (nn u hu0)) hx hoff,
      ← h.indep_aux hu' hd (by rw [e1 u' hu']; exact mul_ne_zero (nn n h.ne) h2) hx hoff]
  · exact h.indep_aux hu hu' huu hx hoff

/-- From a point of a closed triangle towards an inner point. -/
theorem inside_towards {a b c x z : V} (hx : InTriangle a b c x) (hz : InsideTriangle a b c z) {s : ℝ} (h0 : 0 < s)
    (h1 : s ≤ 1) : InsideTriangle a b c (x + s • (z - x)) := by
  obtain ⟨r, p, q, hr, hp, hq, hs, rfl⟩ := hx
  obtain ⟨r', p', q', hr', hp', hq', hs', rfl⟩ := hz
  have key : ∀ k k' : ℝ, 0 ≤ k → 0 < k' → 0 < (1 - s) * k + s * k' := fun k k' hk hk' =>
    add_pos_of_nonneg_of_pos (mul_nonneg (by linarith) hk) (mul_pos h0 hk')
  refine ⟨_, _, _, key r r' hr hr', key p p' hp hp', key q q' hq hq', ?_, ?_⟩
  · linear_combination (1 - s) * hs + s * hs'
  · ext <;> simp <;> ring

/-- In every triangle around or at a point, there is a direction towards its inside along no edge. -/
theorem Fills.towards (h : Fills n e pts ts) {T : V × V × V} (hT : T ∈ ts) {x : V} (hx : Vec3.dot n x = e)
    (hin : InTriangle T.1 T.2.1 T.2.2 x) : ∃ z, Ins T z ∧ ∀ l ∈ edgeVecs ts, span n l (z - x) ≠ 0 := by
  obtain ⟨⟨p1, p2, p3⟩, hA⟩ := h.tris T hT
  obtain ⟨a, b, c⟩ := T
  simp only [area] at p1 p2 p3 hA hin
  obtain ⟨z1, hz1⟩ : ∃ z : V, z = (2 / 3 : ℝ) • a + (1 / 6 : ℝ) • b + (1 / 6 : ℝ) • c := ⟨_, rfl⟩
  obtain ⟨z2, hz2⟩ : ∃ z : V, z = (1 / 6 : ℝ) • a + (2 / 3 : ℝ) • b + (1 / 6 : ℝ) • c := ⟨_, rfl⟩
  obtain ⟨z3, hz3⟩ : ∃ z : V, z = (1 / 6 : ℝ) • a + (1 / 6 : ℝ) • b + (2 / 3 : ℝ) • c := ⟨_, rfl⟩
  have i1 : InsideTriangle a b c z1 := ⟨_, _, _, by norm_num, by norm_num, by norm_num, by norm_num, hz1⟩
  have i2 : InsideTriangle a b c z2 := ⟨_, _, _, by norm_num, by norm_num, by norm_num, by norm_num, hz2⟩
  have i3 : InsideTriangle a b c z3 := ⟨_, _, _, by norm_num, by norm_num, by norm_num, by norm_num, hz3⟩
  have pl : ∀ z, InsideTriangle a b c z → Vec3.dot n (z - x) = 0 := by
    rintro z ⟨r, s, t, -, -, -, hs, rfl⟩
    rw [Vec3.dot_sub_right, Vec3.dot_add_right, Vec3.dot_add_right, Vec3.dot_smul_right, Vec3.dot_smul_right,
      Vec3.dot_smul_right, p1, p2, p3, hx]
    linear_combination e * hs
  have hsum : span n (z1 - x) (z2 - x) + span n (z2 - x) (z3 - x) + span n (z3 - x) (z1 - x) =
      1 / 4 * Vec3.dot n (Vec3.cross (b - a) (c - a)) := by
    rw [hz1, hz2, hz3]
    simp only [span, Vec3.dot, Vec3.cross_x, Vec3.cross_y, Vec3.cross_z, Vec3.sub_x, Vec3.sub_y, Vec3.sub_z,
      Vec3.smul_x, Vec3.smul_y, Vec3.smul_z, Vec3.add_x, Vec3.add_y, Vec3.add_z]
    ring
  have pair : ∀ z z', InsideTriangle a b c z → InsideTriangle a b c z' → span n (z - x) (z' - x) ≠ 0 →
      ∃ w, Ins (a, b, c) w ∧ ∀ l ∈ edgeVecs ts, span n l (w - x) ≠ 0 := by
    intro z z' hz hz' hne
    obtain ⟨t, t0, t1, ht⟩ := exists_dir h.ne (pl z hz) (pl z' hz') hne _ h.vecs
    refine ⟨z + t • (z' - z), inside_towards (by
      obtain ⟨r, s, t, hr, hs, ht, h1, h2⟩ := hz
      exact ⟨r, s, t, hr.le, hs.le, ht.le, h1, h2⟩) hz' t0 t1.le, fun l hl => ?_⟩
    have : z + t • (z' - z) - x = z - x + t • (z' - x - (z - x)) := by ext <;> simp <;> ring
    rw [this]
    exact ht l hl
  by_cases h1 : span n (z1 - x) (z2 - x) = 0
  · by_cases h2 : span n (z2 - x) (z3 - x) = 0
    · refine pair z3 z1 i3 i1 fun h3 => ?_
      rw [h1, h2, h3] at hsum
      linarith
    · exact pair z2 z3 i2 i3 h2
  · exact pair z1 z2 i1 i2 h1

open Classical in
/-- The winding number around a point of a triangle, off the outline, is the number of triangles around a point inside
this triangle. -/
theorem Fills.near (h : Fills n e pts ts) {u x : V} (hu0 : u ≠ 0) (hu : Vec3.dot n u = 0) (hx : Vec3.dot n x = e)
    (hoff : ¬ OnOutline pts x) (hin : ∃ T ∈ ts, InTriangle T.1 T.2.1 T.2.2 x) :
    ∃ T ∈ ts, ∃ y, Ins T y ∧ winding n u x pts = ts.countP fun T => Ins T y := by
  obtain ⟨T, hT, hin⟩ := hin
  obtain ⟨z, hz, hd⟩ := h.towards hT hx hin
  obtain ⟨u', hu'⟩ : ∃ u' : V, u' = -Vec3.cross n (z - x) := ⟨_, rfl⟩
  have hzx : Vec3.dot n (z - x) = 0 := by
    obtain ⟨⟨p1, p2, p3⟩, hA⟩ := h.tris T hT
    obtain ⟨r, s, t, -, -, -, hs, rfl⟩ := hz
    rw [Vec3.dot_sub_right, Vec3.dot_add_right, Vec3.dot_add_right, Vec3.dot_smul_right, Vec3.dot_smul_right,
      Vec3.dot_smul_right, p1, p2, p3, hx]
    linear_combination e * hs
  have hz0 : z - x ≠ 0 := by
    intro h0
    refine hd (T.2.1 - T.1) (List.mem_flatMap.2 ⟨T, hT, by simp⟩) ?_
    rw [h0]; simp [span]
  have hpos : 0 < Vec3.dot n n * Vec3.dot (z - x) (z - x) := by
    have p : ∀ v : V, v ≠ 0 → 0 < Vec3.dot v v := fun v hv =>
      lt_of_le_of_ne (Vec3.normSq_nonneg v) fun h0 => hv (Vec3.normSq_eq_zero.1 h0.symm)
    exact mul_pos (p n h.ne) (p _ hz0)
  have hup : Vec3.dot (Vec3.cross n u') (z - x) = Vec3.dot n n * Vec3.dot (z - x) (z - x) := by
    have : Vec3.dot (Vec3.cross n u') (z - x) = Vec3.dot n n * Vec3.dot (z - x) (z - x) -
        Vec3.dot n (z - x) * Vec3.dot n (z - x) := by
      rw [hu']
      simp only [Vec3.dot, Vec3.cross_x, Vec3.cross_y, Vec3.cross_z, Vec3.neg_x, Vec3.neg_y, Vec3.neg_z]; ring
    rw [this, hzx, mul_zero, sub_zero]
  have hu1 : Vec3.dot n u' = 0 := by rw [hu', Vec3.dot_neg_right, dot_cross_perp, neg_zero]
  have hu2 : u' ≠ 0 := by
    rintro h0
    rw [h0] at hup
    simp at hup
    rcases hup with h1 | h1 <;> rw [h1] at hpos <;> simp at hpos
  rw [h.indep hu0 hu2 hu hu1 hx hoff]
  have hlt : ∀ᶠ s : ℝ in 𝓝[>] 0, s < 1 :=
    Filter.Eventually.filter_mono nhdsWithin_le_nhds (gt_mem_nhds zero_lt_one)
  obtain ⟨s, ⟨⟨w1, w2⟩, w3⟩, hs⟩ := (((winding_step h.ne hu1 h.plane hx (by rw [hup]; exact hpos.le) hoff).and
    (off_step (x := x) hd)).and hlt).and self_mem_nhdsWithin |>.exists
  have hy : Vec3.dot n (x + s • (z - x)) = e := by
    rw [Vec3.dot_add_right, Vec3.dot_smul_right, hzx, hx, mul_zero, add_zero]
  exact ⟨T, hT, _, inside_towards hin hz hs w3.le, by rw [← w1, h.count hu2 hu1 hy (h.strict hy w2)]⟩

theorem Fills.winding_zero (h : Fills n e pts ts) {u x : V} (hu0 : u ≠ 0) (hu : Vec3.dot n u = 0)
    (hx : Vec3.dot n x = e) (hno : ¬ ∃ T ∈ ts, InTriangle T.1 T.2.1 T.2.2 x) : winding n u x pts = 0 := by
  unfold winding
  rw [h.sum _ (crossing_antisymm n u x)]
  apply List.sum_eq_zero
  intro k hk
  obtain ⟨T, hT, rfl⟩ := List.mem_map.1 hk
  obtain ⟨⟨p1, p2, p3⟩, hA⟩ := h.tris T hT
  exact (crossing_triangle h.ne hu0 hu p1 p2 p3 hx hA).1 fun hin => hno ⟨T, hT, hin⟩

/-- The outline runs around every point of a triangle off the outline. -/
theorem Fills.winding_pos (h : Fills n e pts ts) {u x : V} (hu0 : u ≠ 0) (hu : Vec3.dot n u = 0)
    (hx : Vec3.dot n x = e) (hoff : ¬ OnOutline pts x) (hin : ∃ T ∈ ts, InTriangle T.1 T.2.1 T.2.2 x) :
    1 ≤ winding n u x pts := by
  classical
  obtain ⟨T, hT, y, hy, hw⟩ := h.near hu0 hu hx hoff hin
  rw [hw]
  have : 0 < ts.countP fun T => decide (Ins T y) :=
    List.countP_pos_iff.2 ⟨T, hT, by rw [decide_eq_true_eq]; exact hy⟩
  exact_mod_cast this

open Classical in
theorem countP_le_one {y : V} : ∀ {l : List (V × V × V)}, l.Pairwise (fun T T' => ∀ x, Ins T x → Ins T' x → False) →
    l.countP (fun T => decide (Ins T y)) ≤ 1
  | [], _ => by simp
  | T :: l, hp => by
    obtain ⟨h1, h2⟩ := List.pairwise_cons.1 hp
    rw [List.countP_cons]
    by_cases hT : Ins T y
    · have : l.countP (fun T => decide (Ins T y)) = 0 := by
        rw [List.countP_eq_zero]
        intro T' hT'
        rw [decide_eq_true_eq]
        exact fun h => h1 T' hT' _ hT h
      rw [this]; split <;> simp
    · rw [if_neg (by rw [decide_eq_true_eq]; exact hT), add_zero]
      exact countP_le_one h2

/-- If no two triangles overlap, the outline runs once around every point of a triangle off the outline. -/
theorem Fills.winding_one (h : Fills n e pts ts) (hdis : ts.Pairwise fun T T' => ∀ x, Ins T x → Ins T' x → False)
    {u x : V} (hu0 : u ≠ 0) (hu : Vec3.dot n u = 0) (hx : Vec3.dot n x = e) (hoff : ¬ OnOutline pts x)
    (hin : ∃ T ∈ ts, InTriangle T.1 T.2.1 T.2.2 x) : winding n u x pts = 1 := by
  classical
  have h1 := h.winding_pos hu0 hu hx hoff hin
  obtain ⟨T, hT, y, hy, hw⟩ := h.near hu0 hu hx hoff hin
  have h2 := countP_le_one (y := y) hdis
  rw [hw] at h1 ⊢
  omega

end triangles

end B3d.Tiling
