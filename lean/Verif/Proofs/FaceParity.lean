import Verif.Props.PointInSolid
import Verif.Props.Tiling
import Mathlib.Topology.Algebra.Field
import Mathlib.Analysis.SpecialFunctions.Sqrt

/-! # Counting faces instead of triangles along a ray (helper lemmas for C114) -/

namespace B3d.Solids

open Spec Polygon Triangles Points Enclose Filter Topology

/-- No point is strictly inside two of the triangles. -/
def NoOverlap (ts : List (Vec3 ℝ × Vec3 ℝ × Vec3 ℝ)) : Prop :=
  ts.Pairwise fun T T' => ∀ y, InsideTriangle T.1 T.2.1 T.2.2 y → ¬ InsideTriangle T'.1 T'.2.1 T'.2.2 y

theorem segment_far {p q h : Vec3 ℝ} (hoff : ¬ OnSegment p q h) :
    ∃ ε > (0 : ℝ), ∀ y, OnSegment p q y → ε ≤ Vec3.norm (h - y) := by
  have hcont : Continuous fun t : ℝ => Vec3.norm (h - (p + t • (q - p))) := by
    simp only [Vec3.norm, Vec3.normSq, Vec3.dot, Vec3.sub_x, Vec3.sub_y, Vec3.sub_z, Vec3.add_x, Vec3.add_y, Vec3.add_z,
      Vec3.smul_x, Vec3.smul_y, Vec3.smul_z]
    fun_prop
  obtain ⟨t, ⟨h0, h1⟩, hmin⟩ := (isCompact_Icc (a := (0 : ℝ)) (b := 1)).exists_isMinOn ⟨0, by simp⟩ hcont.continuousOn
  refine ⟨Vec3.norm (h - (p + t • (q - p))), ?_, ?_⟩
  · refine lt_of_le_of_ne (Vec3.norm_nonneg _) fun he => hoff ⟨t, h0, h1, ?_⟩
    exact sub_eq_zero.1 (Vec3.norm_eq_zero.1 he.symm)
  · rintro y ⟨s, s0, s1, rfl⟩
    exact hmin (show s ∈ Set.Icc (0 : ℝ) 1 from ⟨s0, s1⟩)

theorem edges_far {h : Vec3 ℝ} : ∀ L : List (Vec3 ℝ × Vec3 ℝ), (∀ e ∈ L, ¬ OnSegment e.1 e.2 h) →
    ∃ ε > (0 : ℝ), ∀ e ∈ L, ∀ y, OnSegment e.1 e.2 y → ε ≤ Vec3.norm (h - y)
  | [], _ => ⟨1, one_pos, by simp⟩
  | e :: L, hL => by
    rw [List.forall_mem_cons] at hL
    obtain ⟨ε, h1, h2⟩ := edges_far L hL.2
    obtain ⟨ε', h1', h2'⟩ := segment_far hL.1
    refine ⟨min ε ε', lt_min h1 h1', ?_⟩
    rw [List.forall_mem_cons]
    exact ⟨fun y hy => (min_le_right _ _).trans (h2' y hy), fun e he y hy => (min_le_left _ _).trans (h2 e he y hy)⟩

theorem outline_far {pts : List (Vec3 ℝ)} {h : Vec3 ℝ} (hoff : ¬ OnOutline pts h) :
    ∃ ε > (0 : ℝ), ∀ y, OnOutline pts y → ε ≤ Vec3.norm (h - y) := by
  obtain ⟨ε, h1, h2⟩ := edges_far (h := h) (cycEdges pts) fun e he hon => hoff ⟨e, he, hon⟩
  exact ⟨ε, h1, fun y ⟨e, he, hy⟩ => h2 e he y hy⟩

/-- The point where the ray meets a plane moves little if the ray is turned a little. -/
theorem hit_moves {n x u d : Vec3 ℝ} {s : ℝ} (hu : Vec3.dot n u ≠ 0) {ε : ℝ} (hε : 0 < ε) :
    ∃ η > (0 : ℝ), ∀ δ, 0 < δ → δ < η → 0 < Vec3.dot n u * Vec3.dot n (u + δ • d) ∧
      Vec3.norm ((x + s • u) - (x + (s * Vec3.dot n u / Vec3.dot n (u + δ • d)) • (u + δ • d))) < ε := by
  have hlin : ∀ δ : ℝ, Vec3.dot n (u + δ • d) = Vec3.dot n u + δ * Vec3.dot n d := by
    intro δ; rw [Vec3.dot_add_right, Vec3.dot_smul_right]
  have hc : ContinuousAt (fun δ : ℝ => Vec3.norm ((x + s • u) -
      (x + (s * Vec3.dot n u / (Vec3.dot n u + δ * Vec3.dot n d)) • (u + δ • d)))) 0 := by
    have hk : ContinuousAt (fun δ : ℝ => s * Vec3.dot n u / (Vec3.dot n u + δ * Vec3.dot n d)) 0 := by
      refine ContinuousAt.div (by fun_prop) (by fun_prop) ?_
      rw [zero_mul, add_zero]; exact hu
    simp only [Vec3.norm, Vec3.normSq, Vec3.dot, Vec3.sub_x, Vec3.sub_y, Vec3.sub_z, Vec3.add_x, Vec3.add_y, Vec3.add_z,
      Vec3.smul_x, Vec3.smul_y, Vec3.smul_z] at hk ⊢
    fun_prop
  have hp : ContinuousAt (fun δ : ℝ => Vec3.dot n u * (Vec3.dot n u + δ * Vec3.dot n d)) 0 := by fun_prop
  have e1 : ∀ᶠ δ in 𝓝 (0 : ℝ), Vec3.norm ((x + s • u) -
      (x + (s * Vec3.dot n u / (Vec3.dot n u + δ * Vec3.dot n d)) • (u + δ • d))) < ε := by
    refine hc.eventually (gt_mem_nhds ?_)
    simp only []
    rw [zero_mul, add_zero, mul_div_assoc, div_self hu, mul_one, zero_smul, add_zero, sub_self,
      (Vec3.norm_eq_zero (a := 0)).2 rfl]
    exact hε
  have e2 : ∀ᶠ δ in 𝓝 (0 : ℝ), 0 < Vec3.dot n u * (Vec3.dot n u + δ * Vec3.dot n d) := by
    refine hp.eventually (lt_mem_nhds ?_)
    simp only []
    rw [zero_mul, add_zero]
    exact mul_self_pos.2 hu
  obtain ⟨η, h1, h2⟩ := Metric.eventually_nhds_iff.1 (e1.and e2)
  refine ⟨η, h1, fun δ h3 h4 => ?_⟩
  have := h2 (y := δ) (by rw [Real.dist_eq, sub_zero, abs_of_pos h3]; exact h4)
  rw [hlin]
  exact ⟨this.2, this.1⟩

open Classical in
/-- If no point is strictly inside two triangles, then a ray that meets their plane once and no edge crosses one triangle
or none. -/
theorem crossings_one {x u : Vec3 ℝ} {s : ℝ} : ∀ {ts : List (Vec3 ℝ × Vec3 ℝ × Vec3 ℝ)}, NoOverlap ts →
    (∀ t ∈ ts, ∀ s', InTriangle t.1 t.2.1 t.2.2 (x + s' • u) → s' = s) → 0 < s →
    (∃ t ∈ ts, InsideTriangle t.1 t.2.1 t.2.2 (x + s • u)) → crossings ts x u = 1
  | [], _, _, _, h => by simp at h
  | t :: ts, hno, honce, hs, h => by
    rw [NoOverlap, List.pairwise_cons] at hno
    rw [List.forall_mem_cons] at honce
    unfold crossings
    rw [List.countP_cons]
    by_cases hin : InsideTriangle t.1 t.2.1 t.2.2 (x + s • u)
    · rw [if_pos (by simpa using ⟨s, hs, hin⟩), Nat.add_eq_right, List.countP_eq_zero]
      intro t' ht' hcr
      obtain ⟨s', -, hin'⟩ := of_decide_eq_true hcr
      obtain rfl := honce.2 t' ht' s' (inside_in hin')
      exact hno.1 t' ht' _ hin hin'
    · rw [if_neg, add_zero]
      · refine crossings_one hno.2 honce.2 hs ?_
        obtain ⟨t', ht', h'⟩ := h
        rcases List.mem_cons.1 ht' with rfl | ht'
        · exact absurd h' hin
        · exact ⟨t', ht', h'⟩
      · rintro hcr
        obtain ⟨s', -, hin'⟩ := of_decide_eq_true hcr
        obtain rfl := honce.1 s' (inside_in hin')
        exact hin hin'

theorem inside_of_clear {a b c y : Vec3 ℝ} (h : InTriangle a b c y) (h1 : ¬ OnSegment a b y) (h2 : ¬ OnSegment b c y)
    (h3 : ¬ OnSegment c a y) : InsideTriangle a b c y := by
  obtain ⟨r, s, t, hr, hs, ht, hsum, rfl⟩ := h
  refine ⟨r, s, t, lt_of_le_of_ne hr fun h0 => h2 ?_, lt_of_le_of_ne hs fun h0 => h3 ?_,
    lt_of_le_of_ne ht fun h0 => h1 ?_, hsum, rfl⟩
  · subst h0
    obtain rfl : s = 1 - t := by linarith
    exact ⟨t, ht, by linarith, by ext <;> simp <;> ring⟩
  · subst h0
    obtain rfl : t = 1 - r := by linarith
    exact ⟨r, hr, by linarith, by ext <;> simp <;> ring⟩
  · subst h0
    obtain rfl : r = 1 - s := by linarith
    exact ⟨s, hs, by linarith, by ext <;> simp <;> ring⟩

open Classical in
/-- One face: a ray which meets no edge of a triangle, close to a ray that does not meet the outline, crosses one triangle or
none, and one exactly if the ray meets the face. -/
theorem face_parity {P : Poly} {v : Vec3 ℝ} {e : ℝ} (hf : Flat P.pts P.tri v e) (hj : Joined P.pts P.tri)
    (hno : NoOverlap (trianglesOf P.pts P.tri)) {x u : Vec3 ℝ} {s : ℝ} (hu : Vec3.dot v u ≠ 0)
    (hs : Vec3.dot v (x + s • u) = e)
    (hout : 0 < s → ¬ OnOutline P.pts (x + s • u)) (d : Vec3 ℝ) :
    ∃ η > (0 : ℝ), ∀ δ, 0 < δ → δ < η → ClearRay (trianglesOf P.pts P.tri) x (u + δ • d) →
      crossings (trianglesOf P.pts P.tri) x (u + δ • d) = if 0 < s ∧ Region P.pts P.tri (x + s • u) then 1 else 0 := by
  have hreg : ∀ t ∈ trianglesOf P.pts P.tri, ∀ y, InTriangle t.1 t.2.1 t.2.2 y → Region P.pts P.tri y := by
    intro t ht y hy
    obtain ⟨t', htm, ha, hb, hc⟩ := mem_trianglesOf.1 (show (t.1, t.2.1, t.2.2) ∈ _ from ht)
    exact ⟨t', htm, _, _, _, ha, hb, hc, hy⟩
  have hplane : ∀ y, Region P.pts P.tri y → Vec3.dot v y = e := fun y hy => region_plane hf.plane hy
  obtain ⟨ε, hε, hfar⟩ : ∃ ε > (0 : ℝ), 0 < s → ∀ y, OnOutline P.pts y → ε ≤ Vec3.norm (x + s • u - y) := by
    by_cases h0 : 0 < s
    · obtain ⟨ε, h1, h2⟩ := outline_far (hout h0)
      exact ⟨ε, h1, fun _ => h2⟩
    · exact ⟨1, one_pos, fun h => absurd h h0⟩
  obtain ⟨η, hη, hmove⟩ := hit_moves (x := x) (d := d) (s := s) hu hε
  refine ⟨η, hη, fun δ h1 h2 hcl => ?_⟩
  obtain ⟨hsame, hclose⟩ := hmove δ h1 h2
  have hu' : Vec3.dot v (u + δ • d) ≠ 0 := fun h0 => by rw [h0, mul_zero] at hsame; exact lt_irrefl _ hsame
  obtain ⟨s', hs'⟩ : ∃ s', s' = s * Vec3.dot v u / Vec3.dot v (u + δ • d) := ⟨_, rfl⟩
  rw [← hs'] at hclose
  have hs'' : s' * Vec3.dot v (u + δ • d) = s * Vec3.dot v u := by rw [hs']; field_simp
  have hpl' : Vec3.dot v (x + s' • (u + δ • d)) = e := by
    rw [Vec3.dot_add_right, Vec3.dot_smul_right, hs'', ← Vec3.dot_smul_right, ← Vec3.dot_add_right]; exact hs
  have honce : ∀ t ∈ trianglesOf P.pts P.tri, ∀ σ : ℝ, InTriangle t.1 t.2.1 t.2.2 (x + σ • (u + δ • d)) → σ = s' := by
    intro t ht σ hin
    have h3 := hplane _ (hreg t ht _ hin)
    rw [Vec3.dot_add_right, Vec3.dot_smul_right] at h3 hpl'
    exact mul_right_cancel₀ hu' (add_left_cancel (h3.trans hpl'.symm))
  have hpos : 0 < s' ↔ 0 < s := by
    have hq : s' * (Vec3.dot v u * Vec3.dot v (u + δ • d)) = s * (Vec3.dot v u * Vec3.dot v u) := by
      linear_combination Vec3.dot v u * hs''
    have hsq := mul_self_pos.2 hu
    constructor
    · intro h
      have := mul_pos h hsame
      rw [hq] at this
      exact (mul_pos_iff_of_pos_right hsq).1 this
    · intro h
      have := mul_pos h hsq
      rw [← hq] at this
      exact (mul_pos_iff_of_pos_right hsame).1 this
  have between : ∀ {y z w : Vec3 ℝ}, OnSegment y z w → Vec3.norm (y - w) ≤ Vec3.norm (y - z) ∧
      Vec3.norm (z - w) ≤ Vec3.norm (y - z) := by
    rintro y z w ⟨t, t0, t1, rfl⟩
    have e1 : y - (y + t • (z - y)) = t • (y - z) := by ext <;> simp <;> ring
    have e2 : z - (y + t • (z - y)) = (-(1 - t)) • (y - z) := by ext <;> simp <;> ring
    rw [e1, e2, Vec3.norm_smul, Vec3.norm_smul, abs_neg, abs_of_nonneg t0, abs_of_nonneg (sub_nonneg.2 t1)]
    have := Vec3.norm_nonneg (y - z)
    constructor <;> nlinarith
  by_cases h0 : 0 < s
  swap
  · rw [if_neg (fun h => h0 h.1), crossings, List.countP_eq_zero]
    intro t ht hcr
    obtain ⟨σ, hσ, hin⟩ := of_decide_eq_true hcr
    obtain rfl := honce t ht σ (inside_in hin)
    exact h0 (hpos.1 hσ)
  by_cases hR : Region P.pts P.tri (x + s • u)
  · rw [if_pos ⟨h0, hR⟩]
    have hR' : Region P.pts P.tri (x + s' • (u + δ • d)) := by
      by_contra hR'
      obtain ⟨z, hz, hseg⟩ := meets_outline hf hj hR hpl' hR'
      have := hfar h0 z hz
      linarith [(between hseg).1]
    refine crossings_one hno honce (hpos.2 h0) ?_
    obtain ⟨t, ht, a, b, c, ha, hb, hc, hin⟩ := hR'
    have hm : (a, b, c) ∈ trianglesOf P.pts P.tri := mem_trianglesOf.2 ⟨t, ht, ha, hb, hc⟩
    obtain ⟨k1, k2, k3⟩ := hcl.2 _ hm s' (hpos.2 h0).le
    exact ⟨_, hm, inside_of_clear hin k1 k2 k3⟩
  · rw [if_neg (fun h => hR h.2), crossings, List.countP_eq_zero]
    intro t ht hcr
    obtain ⟨σ, hσ, hin⟩ := of_decide_eq_true hcr
    obtain rfl := honce t ht σ (inside_in hin)
    obtain ⟨z, hz, hseg⟩ := meets_outline hf hj (hreg t ht _ (inside_in hin)) hs hR
    have := hfar h0 z hz
    have h5 := (between hseg).2
    have h6 : Vec3.norm (x + σ • (u + δ • d) - (x + s • u)) = Vec3.norm (x + s • u - (x + σ • (u + δ • d))) := by
      rw [← neg_sub, Vec3.norm_neg]
    linarith

open Classical in
/-- A ray that does not meet the outline of a face: the number of faces it meets is odd exactly if the point is enclosed. -/
theorem faces_parity {S : SolidG} {x u : Vec3 ℝ} (hface : ∀ P ∈ facesOf S, ∃ v w e, Face P v w e)
    (hc : Closed ((facesOf S).map Poly.pts)) (hoff : OffSurface (facets S) x) {M : Poly → Prop}
    (hray : ∀ P ∈ facesOf S, ∃ (v : Vec3 ℝ) (e s : ℝ), P.vn = some v ∧ (∀ p ∈ P.pts, Vec3.dot v p = e) ∧ NoOverlap (trianglesOf P.pts P.tri) ∧
      Vec3.dot v u ≠ 0 ∧ Vec3.dot v (x + s • u) = e ∧ (0 < s → ¬ OnOutline P.pts (x + s • u)) ∧
      (M P ↔ 0 < s ∧ Region P.pts P.tri (x + s • u))) :
    Odd ((facesOf S).countP fun P => M P) ↔ Enclosed (facets S) x := by
  obtain ⟨d, hd⟩ := exists_clear (facets_ne hface) hoff u
  have hall : ∀ Fs : List Poly, (∀ P ∈ Fs, P ∈ facesOf S) → ∃ η > (0 : ℝ), ∀ δ, 0 < δ → δ < η →
      ClearRay (Fs.flatMap fun P => trianglesOf P.pts P.tri) x (u + δ • d) →
      crossings (Fs.flatMap fun P => trianglesOf P.pts P.tri) x (u + δ • d) = Fs.countP fun P => M P := by
    intro Fs
    induction Fs with
    | nil => intro _; exact ⟨1, one_pos, fun δ _ _ _ => rfl⟩
    | cons P Fs ih =>
      intro hF
      rw [List.forall_mem_cons] at hF
      obtain ⟨η, h1, h2⟩ := ih hF.2
      obtain ⟨v, e, s, hv, hpl, hno, hu, hs, hout, hM⟩ := hray P hF.1
      obtain ⟨v', w, e', hfa⟩ := hface P hF.1
      have hvv := hfa.vn
      rw [hv, Option.some.injEq] at hvv
      subst hvv
      obtain ⟨pts, vn, hn⟩ := hfa.new
      obtain ⟨η', h1', h2'⟩ := face_parity (polygonNew_flat hn hv hpl) (polygonNew_joined hn) hno hu hs hout d
      refine ⟨min η η', lt_min h1 h1', fun δ h3 h4 hcl => ?_⟩
      rw [List.flatMap_cons] at hcl ⊢
      have c1 := h2 δ h3 (h4.trans_le (min_le_left _ _)) ⟨hcl.1, fun t ht => hcl.2 t (List.mem_append_right _ ht)⟩
      have c2 := h2' δ h3 (h4.trans_le (min_le_right _ _)) ⟨hcl.1, fun t ht => hcl.2 t (List.mem_append_left _ ht)⟩
      rw [crossings_append, c1, c2, List.countP_cons, add_comm]
      congr 1
      by_cases hm : M P
      · rw [if_pos (hM.1 hm), if_pos (by simpa using hm)]
      · rw [if_neg (fun h => hm (hM.2 h)), if_neg (by simpa using hm)]
  obtain ⟨η, h1, h2⟩ := hall (facesOf S) fun P hP => hP
  obtain ⟨δ, h3, h4, h5⟩ := hd η h1
  have h6 : crossings (facets S) x (u + δ • d) = (facesOf S).countP fun P => M P := h2 δ h3 h4 h5
  rw [← (C74_any_ray hface hc hoff).2 _ h5, h6]

end B3d.Solids
