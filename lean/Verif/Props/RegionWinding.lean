import Verif.Proofs.WindingStep
import Verif.Props.PointInSolid

/-! # C20: a polygon is what its outline encloses -/

namespace B3d.Polygon

open Spec Triangles Tiling Solids

theorem mem_triangles_iff {pts : List (Vec3 ℝ)} {tri : List Tri} {x : Vec3 ℝ} :
    (∃ T ∈ trianglesOf pts tri, InTriangle T.1 T.2.1 T.2.2 x) ↔ Region pts tri x := by
  constructor
  · rintro ⟨⟨a, b, c⟩, hT, hx⟩
    obtain ⟨t, ht, ha, hb, hc⟩ := mem_trianglesOf.1 hT
    exact ⟨t, ht, a, b, c, ha, hb, hc, hx⟩
  · rintro ⟨t, ht, a, b, c, ha, hb, hc, hx⟩
    exact ⟨(a, b, c), mem_trianglesOf.2 ⟨t, ht, ha, hb, hc⟩, hx⟩

theorem fills {fuel : Nat} {pts pts' : List (Vec3 ℝ)} {vn : Vec3 ℝ} {tri : List Tri}
    (hn : 3 ≤ pts.length) (h : triangulate fuel pts vn = some (.ok (pts', tri))) {e : ℝ}
    (hpl : ∀ p ∈ pts, Vec3.dot vn p = e) : Fills vn e pts' (trianglesOf pts' tri) := by
  obtain ⟨-, hg⟩ := triangulateTries_good _ _ _ _ _ pts hn pts' tri h
  obtain ⟨hne, hpl', hpos⟩ := triangulate_flat hn h hpl
  refine ⟨hne, hpl', ?_, ?_⟩
  · rintro ⟨a, b, c⟩ hT
    obtain ⟨t, ht, ha, hb, hc⟩ := mem_trianglesOf.1 hT
    exact ⟨⟨hpl' _ (List.mem_of_getElem? ha), hpl' _ (List.mem_of_getElem? hb), hpl' _ (List.mem_of_getElem? hc)⟩,
      (triangleWith_eq ha hb hc).1 (hpos t ht)⟩
  · intro g hga
    have := sum_edgeSum hg g hga
    rw [← edgesSum_trianglesOf, cycSum_eq_edges] at this
    exact this.symm

theorem polygonNew_fills {pts : List (Vec3 ℝ)} {vn : Option (Vec3 ℝ)} {P : Poly} {v : Vec3 ℝ} {e : ℝ}
    (h : polygonNew pts none vn = .ok P) (hv : P.vn = some v) (hpl : ∀ p ∈ P.pts, Vec3.dot v p = e) :
    Fills v e P.pts (trianglesOf P.pts P.tri) := by
  obtain ⟨hn, v', hv', -, ht, -, -⟩ := polygonNew_ok h
  rw [hv, Option.some.injEq] at hv'
  subst hv'
  refine fills hn ht fun p hp => hpl p ?_
  obtain ⟨hrev, -⟩ := triangulateTries_good _ _ _ _ _ pts hn P.pts P.tri ht
  rcases hrev with e | e
  · rw [e]; exact hp
  · rw [e]; exact List.mem_reverse.2 hp

/-- **C20, a polygon is what its outline encloses.**  For every flat polygon the constructor makes and every point of its
plane off the outline: the number of times the outline runs around the point does not depend on the ray it is counted
on, it is not negative, and it is positive exactly for the points of the triangles. -/
theorem C20_encloses {pts : List (Vec3 ℝ)} {vn : Option (Vec3 ℝ)} {P : Poly} {v : Vec3 ℝ} {e : ℝ}
    (h : polygonNew pts none vn = .ok P) (hv : P.vn = some v) (hpl : ∀ p ∈ P.pts, Vec3.dot v p = e) {x : Vec3 ℝ}
    (hx : Vec3.dot v x = e) (hoff : ¬ OnOutline P.pts x) : ∃ k : ℤ, 0 ≤ k ∧ (0 < k ↔ Region P.pts P.tri x) ∧
      ∀ u : Vec3 ℝ, u ≠ 0 → Vec3.dot v u = 0 → winding v u x P.pts = k := by
  have hF := polygonNew_fills h hv hpl
  obtain ⟨u, hu0, hu⟩ : ∃ u : Vec3 ℝ, u ≠ 0 ∧ Vec3.dot v u = 0 := by
    by_cases h0 : v.x = 0 ∧ v.y = 0
    · exact ⟨⟨1, 0, 0⟩, by simp [Vec3.ext_iff], by simp [Vec3.dot, h0.1]⟩
    · refine ⟨⟨-v.y, v.x, 0⟩, ?_, by simp [Vec3.dot]; ring⟩
      rw [Ne, Vec3.ext_iff]
      simp only [Vec3.zero_x, Vec3.zero_y, Vec3.zero_z, neg_eq_zero, and_true]
      exact fun h => h0 ⟨h.2, h.1⟩
  refine ⟨winding v u x P.pts, ?_, ?_, fun u' hu0' hu' => hF.indep hu0' hu0 hu' hu hx hoff⟩
  · by_cases hR : Region P.pts P.tri x
    · have := hF.winding_pos hu0 hu hx hoff (mem_triangles_iff.2 hR)
      omega
    · rw [hF.winding_zero hu0 hu hx fun h => hR (mem_triangles_iff.1 h)]
  · constructor
    · intro hk
      by_contra hR
      rw [hF.winding_zero hu0 hu hx fun h => hR (mem_triangles_iff.1 h)] at hk
      exact lt_irrefl _ hk
    · intro hR
      have := hF.winding_pos hu0 hu hx hoff (mem_triangles_iff.2 hR)
      omega

/-- Non-vacuity: a point on the edge between the two triangles of the arrow head, which is off the outline. -/
example : ∃ P v, polygonNew [⟨1, 4, 0⟩, ⟨0, 0, 0⟩, ⟨4, 1, 0⟩, ⟨1, 1, 0⟩] none none = .ok P ∧ P.vn = some v ∧
    (∀ p ∈ P.pts, Vec3.dot v p = 0) ∧ Vec3.dot v ⟨1 / 2, 1 / 2, 0⟩ = 0 ∧ ¬ OnOutline P.pts ⟨1 / 2, 1 / 2, 0⟩ ∧
    winding v ⟨1, 0, 0⟩ ⟨1 / 2, 1 / 2, 0⟩ P.pts = 1 := by
  obtain ⟨P, h, hp, hv, -⟩ := C33_arrow 0
  refine ⟨P, _, h, hv, by rw [hp]; simp [Vec3.dot], by simp [Vec3.dot], ?_, ?_⟩
  · rw [hp]
    rintro ⟨f, hf, t, h0, h1, ht⟩
    simp [cycEdges] at hf
    rcases hf with rfl | rfl | rfl | rfl <;> have hx := congrArg Vec3.x ht <;> have hy := congrArg Vec3.y ht <;>
      simp at hx hy <;> linarith
  · rw [hp]
    norm_num [winding, cycEdges, crossing, Vec3.dot, Vec3.cross]

end B3d.Polygon
