import Verif.Model.Solids
import Verif.Spec.Solid
import Verif.Props.PolygonObj
import Verif.Proofs.Tactics

/-! # Lemmas about solids -/

namespace B3d.Solids

open Triangles Polygon Spec

/-! ### Volume -/

/-- Tolerance of one tetrahedron. -/
noncomputable def tetraTol : ℝ := 1 / 10 ^ 6 / 12

/-- The points of a polygon lie in a plane orthogonal to its normal, and its triangles are triangles of this
plane, counter-clockwise around the normal, and add up to the outline. -/
structure Proper (P : Poly) (v : Vec3 ℝ) : Prop where
  vn : P.vn = some v
  ne : v ≠ 0
  flat : ∀ p ∈ P.pts, ∀ q ∈ P.pts, Vec3.dot v p = Vec3.dot v q
  index : ∀ t ∈ P.tri, ∃ a b c, P.pts[t.1]? = some a ∧ P.pts[t.2.1]? = some b ∧ P.pts[t.2.2]? = some c
  pos : ∀ t ∈ P.tri, 0 ≤ signedArea2 P.pts v t
  sum : ∀ w, (P.tri.map (signedArea2 P.pts w)).sum = Vec3.dot (cycSum Vec3.cross P.pts) w

theorem cross_parallel {v u w : Vec3 ℝ} (hv : v ≠ 0) (hu : Vec3.dot v u = 0) (hw : Vec3.dot v w = 0) :
    Vec3.cross u w = (Vec3.dot (Vec3.cross u w) v / Vec3.normSq v) • v := by
  have hn : Vec3.normSq v ≠ 0 := fun e => hv (Vec3.normSq_eq_zero.1 e)
  have key : Vec3.normSq v • Vec3.cross u w = Vec3.dot (Vec3.cross u w) v • v := by
    simp only [Vec3.dot] at hu hw
    ext
    · simp only [Vec3.smul_x, Vec3.normSq_def, Vec3.cross_x, Vec3.dot, Vec3.cross_y, Vec3.cross_z]
      linear_combination (v.y * w.z - v.z * w.y) * hu - (v.y * u.z - v.z * u.y) * hw
    · simp only [Vec3.smul_y, Vec3.normSq_def, Vec3.cross_x, Vec3.dot, Vec3.cross_y, Vec3.cross_z]
      linear_combination (v.z * w.x - v.x * w.z) * hu - (v.z * u.x - v.x * u.z) * hw
    · simp only [Vec3.smul_z, Vec3.normSq_def, Vec3.cross_x, Vec3.dot, Vec3.cross_y, Vec3.cross_z]
      linear_combination (v.x * w.y - v.y * w.x) * hu - (v.x * u.y - v.y * u.x) * hw
  have : Vec3.cross u w = (1 / Vec3.normSq v) • (Vec3.normSq v • Vec3.cross u w) := by
    rw [smul_smul]; field_simp; rw [one_smul]
  rw [key, smul_smul] at this
  rw [div_eq_inv_mul, ← one_div]
  exact this

/-- One tetrahedron: the sign is right, up to the regularisation. -/
theorem tetra_term {P : Poly} {v p1 p2 p3 : Vec3 ℝ} (hP : Proper P v) (h1 : p1 ∈ P.pts) (h2 : p2 ∈ P.pts)
    (h3 : p3 ∈ P.pts) (hpos : 0 ≤ Vec3.dot (Vec3.cross (p2 - p1) (p3 - p1)) v) :
    |tetraSign P.vn p1 p2 * tetrahedronVolume 0 p1 p2 p3 -
      Vec3.dot (Vec3.cross (p2 - p1) (p3 - p1)) p1 / 6| ≤ tetraTol := by
  obtain ⟨hlo, hhi⟩ := C30_tetrahedron_volume 0 p1 p2 p3
  simp only [sub_zero] at hlo hhi
  have hc := cross_parallel (v := v) (u := p2 - p1) (w := p3 - p1) hP.ne
    (by rw [Vec3.dot_sub_right, hP.flat p2 h2 p1 h1, sub_self])
    (by rw [Vec3.dot_sub_right, hP.flat p3 h3 p1 h1, sub_self])
  have hnn : 0 < Vec3.normSq v := Vec3.normSq_pos hP.ne
  obtain ⟨k, hk⟩ : ∃ k, k = Vec3.dot (Vec3.cross (p2 - p1) (p3 - p1)) v / Vec3.normSq v := ⟨_, rfl⟩
  rw [← hk] at hc
  have hk0 : 0 ≤ k := by rw [hk]; positivity
  have hT : Vec3.dot p1 (Vec3.cross p2 p3) = Vec3.dot (Vec3.cross (p2 - p1) (p3 - p1)) p1 := by
    simp only [Vec3.dot, Vec3.cross_x, Vec3.cross_y, Vec3.cross_z, Vec3.sub_x, Vec3.sub_y, Vec3.sub_z]
    ring
  rw [hT] at hlo hhi
  have hT2 : Vec3.dot (Vec3.cross (p2 - p1) (p3 - p1)) p1 = k * Vec3.dot v p1 := by
    rw [hc, Vec3.dot_smul_left]
  rw [hT2] at hlo hhi ⊢
  rw [hP.vn]
  unfold tetraTol
  simp only [tetraSign, sub_zero]
  rcases lt_trichotomy (Vec3.dot v p1) 0 with hd | hd | hd
  · rw [if_neg hd.ne, if_neg (not_lt.2 hd.le)]
    have hx : k * Vec3.dot v p1 ≤ 0 := mul_nonpos_of_nonneg_of_nonpos hk0 hd.le
    rw [abs_of_nonpos hx] at hlo hhi
    rw [abs_le]
    constructor <;> linarith
  · rw [if_pos hd]
    rw [hd, mul_zero] at hlo hhi ⊢
    rw [abs_zero] at hlo hhi
    split
    · rw [abs_le]; constructor <;> linarith
    · rw [abs_le]; constructor <;> linarith
  · rw [if_neg hd.ne', if_pos hd]
    have hx : 0 ≤ k * Vec3.dot v p1 := mul_nonneg hk0 hd.le
    rw [abs_of_nonneg hx] at hlo hhi
    rw [abs_le]
    constructor <;> linarith

theorem addTriangles_spec {P : Poly} {v p0 : Vec3 ℝ} (hP : Proper P v) (hp0 : p0 ∈ P.pts) :
    ∀ (ts : List Tri), (∀ t ∈ ts, t ∈ P.tri) → ∀ total : ℝ, ∃ r, addTriangles P ts total = .ok r ∧
      |r - (total + (ts.map (signedArea2 P.pts p0)).sum / 6)| ≤ ts.length * tetraTol
  | [], _, total => ⟨total, rfl, by simp⟩
  | (i, j, k) :: ts, hts, total => by
    have ht := hts _ List.mem_cons_self
    obtain ⟨a, b, c, ha, hb, hc⟩ := hP.index _ ht
    have hpos := hP.pos _ ht
    simp only at ha hb hc
    simp only [signedArea2, ha, hb, hc] at hpos
    have hterm := tetra_term hP (List.mem_of_getElem? ha) (List.mem_of_getElem? hb)
      (List.mem_of_getElem? hc) hpos
    obtain ⟨r, hr, hb'⟩ := addTriangles_spec hP hp0 ts (fun t h => hts t (List.mem_cons_of_mem _ h))
      (total + tetraSign P.vn a b * tetrahedronVolume 0 a b c)
    refine ⟨r, ?_, ?_⟩
    · simp only [addTriangles, ha, hb, hc]
      exact hr
    · have e : Vec3.dot (Vec3.cross (b - a) (c - a)) p0 = Vec3.dot (Vec3.cross (b - a) (c - a)) a := by
        rw [cross_parallel (v := v) hP.ne
          (by rw [Vec3.dot_sub_right, hP.flat b (List.mem_of_getElem? hb) a (List.mem_of_getElem? ha), sub_self])
          (by rw [Vec3.dot_sub_right, hP.flat c (List.mem_of_getElem? hc) a (List.mem_of_getElem? ha), sub_self]),
          Vec3.dot_smul_left, Vec3.dot_smul_left, hP.flat p0 hp0 a (List.mem_of_getElem? ha)]
      simp only [List.map_cons, List.sum_cons, List.length_cons, Nat.cast_add, Nat.cast_one, signedArea2, ha, hb,
        hc, e]
      rw [abs_le] at hterm hb' ⊢
      constructor <;> linarith [hterm.1, hterm.2, hb'.1, hb'.2]

theorem addPolygons_spec : ∀ (Ps : List Poly), (∀ P ∈ Ps, P.pts ≠ [] ∧ ∃ v, Proper P v) → ∀ total : ℝ,
    ∃ r, addPolygons Ps total = .ok r ∧
      |r - (total + signedVolume 0 (Ps.map Poly.pts))| ≤ (Ps.map fun P => P.tri.length).sum * tetraTol
  | [], _, total => ⟨total, rfl, by simp [signedVolume]⟩
  | P :: Ps, h, total => by
    obtain ⟨hne, v, hP⟩ := h P List.mem_cons_self
    obtain ⟨p0, rest, hpts⟩ := List.exists_cons_of_ne_nil hne
    have hp0 : p0 ∈ P.pts := by rw [hpts]; exact List.mem_cons_self
    obtain ⟨r, hr, hb⟩ := addTriangles_spec hP hp0 P.tri (fun t h => h) total
    obtain ⟨r', hr', hb'⟩ := addPolygons_spec Ps (fun Q hQ => h Q (List.mem_cons_of_mem _ hQ)) r
    refine ⟨r', by simp only [addPolygons, hr, hr'], ?_⟩
    rw [hP.sum p0] at hb
    have hcone : coneVolume 0 P.pts = Vec3.dot (cycSum Vec3.cross P.pts) p0 / 6 := by
      simp only [coneVolume, areaVector2, sub_zero]
      rw [show P.pts.headD 0 = p0 by rw [hpts]; rfl]
    simp only [signedVolume, List.map_cons, List.sum_cons, Nat.cast_add] at hb' ⊢
    rw [hcone]
    rw [abs_le] at hb hb' ⊢
    constructor <;> linarith [hb.1, hb.2, hb'.1, hb'.2]

/-- Polygons made from points that lie exactly in one plane are proper. -/
theorem proper_of_new {pts : List (Vec3 ℝ)} {vn : Option (Vec3 ℝ)} {P : Poly} {v : Vec3 ℝ}
    (h : polygonNew pts none vn = .ok P) (hv : P.vn = some v)
    (hflat : ∀ p ∈ pts, ∀ q ∈ pts, Vec3.dot v p = Vec3.dot v q) : P.pts ≠ [] ∧ Proper P v := by
  obtain ⟨hn, w, hw, hc, ht, -, -⟩ := polygonNew_ok h
  obtain rfl : v = w := by rw [hv, Option.some.injEq] at hw; exact hw
  obtain ⟨h1, h2, h3, h4⟩ := triangulate_orientation hn ht
  obtain ⟨-, hg⟩ := triangulateTries_good _ _ _ _ _ pts hn _ _ ht
  have hmem : ∀ p, p ∈ P.pts → p ∈ pts := by
    intro p hp
    rcases h1 with e | e <;> rw [e] at hp
    · exact hp
    · exact List.mem_reverse.1 hp
  refine ⟨?_, hv, ?_, fun p hp q hq => hflat p (hmem p hp) q (hmem q hq), ?_, fun t ht => (h3 t ht).le,
    fun w => triangles_sum _ _ _ w hg⟩
  · intro e
    rw [e] at h1
    rcases h1 with h1 | h1
    · rw [← h1] at hn; simp at hn
    · have := congrArg List.length h1; simp at this; rw [← this] at hn; simp at hn
  · rintro rfl
    simp at h4
  · intro t htt
    obtain ⟨_, a, b, c, ha, hb, hc, _⟩ := hg.each t htt
    exact ⟨a, b, c, ha, hb, hc⟩

/-! ### Closed surfaces -/

theorem cycSum_cross_edges (pts : List (Vec3 ℝ)) :
    cycSum Vec3.cross pts = ((cycEdges pts).map fun e => Vec3.cross e.1 e.2).sum := by
  exact cycSum_eq_edges (f := Vec3.cross) pts

theorem closed_areaVector {faces : List (List (Vec3 ℝ))} (h : Closed faces) :
    (faces.map areaVector2).sum = 0 := by
  have e : ∀ fs : List (List (Vec3 ℝ)), (fs.map areaVector2).sum =
      ((allEdges fs).map fun e => Vec3.cross e.1 e.2).sum := by
    intro fs
    induction fs with
    | nil => rfl
    | cons f fs ih =>
      rw [List.map_cons, List.sum_cons, ih, allEdges, allEdges, List.flatMap_cons, List.map_append,
        List.sum_append, areaVector2, cycSum_cross_edges]
  have h2 := (h.map fun e => Vec3.cross e.1 e.2).sum_eq
  rw [List.map_map] at h2
  have h3 : ∀ l : List (Vec3 ℝ × Vec3 ℝ), (l.map ((fun e => Vec3.cross e.1 e.2) ∘ Prod.swap)).sum =
      -(l.map fun e => Vec3.cross e.1 e.2).sum := by
    intro l
    induction l with
    | nil => simp
    | cons a l ih =>
      simp only [List.map_cons, List.sum_cons, ih, Function.comp_apply, Prod.fst_swap, Prod.snd_swap]
      rw [Vec3.cross_swap, neg_add]
  rw [h3] at h2
  rw [e]
  have h4 : ∀ x : Vec3 ℝ, x = -x → x = 0 := by
    intro x hx
    have hx1 := congrArg Vec3.x hx
    have hx2 := congrArg Vec3.y hx
    have hx3 := congrArg Vec3.z hx
    simp only [Vec3.neg_x, Vec3.neg_y, Vec3.neg_z] at hx1 hx2 hx3
    ext <;> simp <;> linarith
  exact h4 _ h2

theorem signedVolume_shift (o o' : Vec3 ℝ) (faces : List (List (Vec3 ℝ))) :
    signedVolume o faces = signedVolume o' faces + Vec3.dot ((faces.map areaVector2).sum) (o' - o) / 6 := by
  unfold signedVolume
  induction faces with
  | nil => simp
  | cons f fs ih =>
    simp only [List.map_cons, List.sum_cons, ih, coneVolume, Vec3.dot_add_left]
    have : Vec3.dot (areaVector2 f) (f.headD 0 - o) =
        Vec3.dot (areaVector2 f) (f.headD 0 - o') + Vec3.dot (areaVector2 f) (o' - o) := by
      rw [← Vec3.dot_add_right]; congr 1; abel
    rw [this]
    ring

end B3d.Solids
