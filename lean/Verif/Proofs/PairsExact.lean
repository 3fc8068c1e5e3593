import Verif.Spec.Pairs
import Verif.Proofs.ConvexPairs
import Verif.Proofs.Prism

/-!
# Tests of points for polygons drawn in either direction
-/

namespace B3d.PairsExact

open Spec Planar Points Slice Polygon Triangles ConvexEars PointExact SliceConvex ConvexPairs

variable {o u w : Vec3 ℝ} {m : ℝ} {pts S : List (ℝ × ℝ)} {P : Poly} {vn : Option (Vec3 ℝ)} {z : ℝ × ℝ}

/-! ### The axes exchanged -/

theorem inPlane_swap (z : ℝ × ℝ) : inPlane o w u z.swap = inPlane o u w z := by
  unfold inPlane
  ext <;> simp <;> ring

theorem map_swap (L : List (ℝ × ℝ)) : (L.map Prod.swap).map (inPlane o w u) = L.map (inPlane o u w) := by
  rw [List.map_map]
  exact List.map_congr_left fun z _ => inPlane_swap z

theorem axes_swap (hx : Axes u w) : Axes w u := ⟨hx.unitW, hx.unitU, by rw [Vec3.dot_comm]; exact hx.perp⟩

theorem area_swapped (a b c : ℝ × ℝ) : signedArea a.swap b.swap c.swap = -signedArea a b c := by
  unfold signedArea; simp only [Prod.fst_swap, Prod.snd_swap]; ring

theorem crisp_swapped (hc : Crisp m S) : Crisp m (S.map Prod.swap) := by
  refine ⟨hc.scale, ?_, ?_, ?_⟩
  · simp only [List.forall_mem_map]
    intro p hp q hq hne
    have := hc.far p hp q hq fun h => hne (by rw [h])
    unfold distSq at this ⊢
    simp only [Prod.fst_swap, Prod.snd_swap]
    linarith
  · simp only [List.forall_mem_map]
    intro p hp q hq
    have := hc.near p hp q hq
    unfold distSq at this ⊢
    simp only [Prod.fst_swap, Prod.snd_swap]
    linarith
  · simp only [List.forall_mem_map]
    intro a ha b hb c hc'
    rw [area_swapped, abs_neg, neg_eq_zero]
    exact hc.sides a ha b hb c hc'

theorem cross_swapped : Vec3.cross w u = -Vec3.cross u w := by
  ext <;> simp [Vec3.cross] <;> ring

/-- The normal of the polygon is one of the two normals of the plane. -/
def Normal (u w : Vec3 ℝ) (P : Poly) : Prop := P.vn = some (Vec3.cross u w) ∨ P.vn = some (-Vec3.cross u w)

/-- With and without the outline, for both normals. -/
theorem inside_any (hx : Axes u w) (hc : Crisp m S) (hr : ∀ p ∈ S, Reach m (inPlane o u w p)) (hS : ∀ p ∈ pts, p ∈ S)
    (h : polygonNew (pts.map (inPlane o u w)) none vn = .ok P) (hv : Normal u w P) (hz : z ∈ S) (b : Bool) :
    ∃ r, Polygon.isPointInside (inPlane o u w z) P.pts P.tri b = .ok r ∧
      (r = true ↔ Region P.pts P.tri (inPlane o u w z) ∧ (b = false → ¬ OnOutline P.pts (inPlane o u w z))) := by
  rcases hv with hv | hv
  · exact inside_both hx hc hr hS h hv hz b
  · rw [← map_swap] at h
    rw [← cross_swapped] at hv
    rw [← inPlane_swap z]
    refine inside_both (S := S.map Prod.swap) (axes_swap hx) (crisp_swapped hc) ?_ ?_ h hv (List.mem_map_of_mem hz) b
    · simp only [List.forall_mem_map]
      intro p hp
      rw [inPlane_swap]
      exact hr p hp
    · simp only [List.forall_mem_map]
      exact fun p hp => List.mem_map_of_mem (hS p hp)

/-- The points of the polygon are the given ones, in the given or the opposite order. -/
theorem points_cases (h : polygonNew (pts.map (inPlane o u w)) none vn = .ok P) :
    P.pts = pts.map (inPlane o u w) ∨ P.pts = pts.reverse.map (inPlane o u w) := by
  obtain ⟨hn, v, hv', -, htr, -⟩ := polygonNew_ok h
  obtain ⟨h1, -⟩ := C20_triangulate_valid _ _ _ _ _ _ _ hn htr
  rcases h1 with e | e
  · exact .inl e
  · exact .inr (by rw [e, List.map_reverse])

theorem edges_drawn (h : polygonNew (pts.map (inPlane o u w)) none vn = .ok P) {e : Vec3 ℝ × Vec3 ℝ}
    (he : e ∈ cycEdges P.pts) : ∃ i a b, Side pts i a b ∧
      (e = (inPlane o u w a, inPlane o u w b) ∨ e = (inPlane o u w b, inPlane o u w a)) := by
  rcases points_cases h with hp | hp <;> rw [hp, Solids.cycEdges_map, List.mem_map] at he <;>
    obtain ⟨⟨a, b⟩, hab, rfl⟩ := he
  · obtain ⟨i, hi⟩ := side_of_cycEdges hab
    exact ⟨i, a, b, hi, .inl rfl⟩
  · have := (Solids.cycEdges_reverse_perm pts).subset hab
    obtain ⟨⟨c, d⟩, hcd, e⟩ := List.mem_map.1 this
    cases e
    obtain ⟨i, hi⟩ := side_of_cycEdges hcd
    exact ⟨i, c, d, hi, .inr rfl⟩

theorem lerp_back (a b : ℝ × ℝ) (k : ℝ) : lerp b a k = lerp a b (1 - k) := by
  unfold lerp; ext <;> simp <;> ring

/-- Points which divide the edges of the polygon are points which divide the sides of the drawing. -/
theorem edgePoint_drawn {n : Nat} (hn : n ≠ 0) (h : polygonNew (pts.map (inPlane o u w)) none vn = .ok P)
    {x : Vec3 ℝ} (hx : EdgePoint n P.pts x) : ∃ z, SidePoint n pts z ∧ x = inPlane o u w z := by
  obtain ⟨e, he, j, hj, rfl⟩ := hx
  obtain ⟨i, a, b, hi, rfl | rfl⟩ := edges_drawn h he
  · exact ⟨_, ⟨i, a, b, hi, j, hj, rfl⟩, (inPlane_between ..).symm⟩
  · refine ⟨_, ⟨i, a, b, hi, n - j, by omega, rfl⟩, ?_⟩
    rw [← inPlane_between, lerp_back]
    congr 2
    have : (n : ℝ) ≠ 0 := by exact_mod_cast hn
    rw [Nat.cast_sub hj]
    field_simp

theorem corner_side {n : Nat} {p : ℝ × ℝ} (hp : p ∈ pts) : SidePoint n pts p := by
  obtain ⟨i, hi⟩ := List.getElem?_of_mem hp
  have hl := (List.getElem?_eq_some_iff.1 hi).1
  refine ⟨i, p, _, ⟨hi, List.getElem?_eq_getElem (Nat.mod_lt _ (by omega))⟩, 0, by omega, ?_⟩
  unfold lerp; ext <;> simp

theorem corners_drawn (h : polygonNew (pts.map (inPlane o u w)) none vn = .ok P) {p : Vec3 ℝ} :
    p ∈ P.pts ↔ ∃ z ∈ pts, p = inPlane o u w z := by
  rcases points_cases h with e | e <;> rw [e] <;> simp [eq_comm]

/-- The points of the polygon are in the plane of the drawing. -/
theorem region_drawn (h : polygonNew (pts.map (inPlane o u w)) none vn = .ok P) {x : Vec3 ℝ} (hx : Region P.pts P.tri x) :
    ∃ z, x = inPlane o u w z := by
  obtain ⟨t, -, a, b, c, ha, hb, hc, r, s, q, -, -, -, h1, rfl⟩ := hx
  obtain ⟨a', -, rfl⟩ := (corners_drawn h).1 (List.mem_of_getElem? ha)
  obtain ⟨b', -, rfl⟩ := (corners_drawn h).1 (List.mem_of_getElem? hb)
  obtain ⟨c', -, rfl⟩ := (corners_drawn h).1 (List.mem_of_getElem? hc)
  exact ⟨_, comb_inPlane _ _ _ h1⟩

/-! ### Convex polygons drawn in either direction -/

/-- What is needed about a convex polygon. -/
structure Shape (o u w : Vec3 ℝ) (qs : List (ℝ × ℝ)) (Q : Poly) : Prop where
  normal : Normal u w Q
  region : ∀ z, Region Q.pts Q.tri (inPlane o u w z) ↔ In qs z
  outline : ∀ z, OnOutline Q.pts (inPlane o u w z) ↔ AtOutline qs z

theorem shape_left (hx : Axes u w) (hc : Crisp m pts) (hr : ∀ p ∈ pts, Reach m (inPlane o u w p)) (hp : ConvexCorners pts)
    (h : polygonNew (pts.map (inPlane o u w)) none none = .ok P) : Shape o u w pts P := by
  obtain ⟨P', hf⟩ := fan_exists hx hc hr hp.corners hp.turns
  have e := hf.made
  rw [h, Except.ok.injEq] at e
  subst e
  exact ⟨.inl hf.normal, fun z => region_convex hx hp.corners hp.turns hf.points hf.tri z,
    fun z => by rw [hf.points]; exact onOutline_iff hx z⟩

theorem convex_swapped (hp : ConvexCorners pts) : ConvexCorners (pts.reverse.map Prod.swap) := by
  refine ⟨by simpa using hp.corners, fun a b c hs => ?_⟩
  have h1 := hs.map Prod.swap
  rw [List.map_map, Prod.swap_swap_eq, List.map_id] at h1
  have h2 := h1.reverse
  rw [List.reverse_reverse] at h2
  have h3 := hp.turns c.swap b.swap a.swap (by simpa using h2)
  rw [area_swapped] at h3
  have e : signedArea a b c = -signedArea c b a := by unfold signedArea; ring
  rw [e]
  exact h3

theorem shape_right (hx : Axes u w) (hc : Crisp m pts) (hr : ∀ p ∈ pts, Reach m (inPlane o u w p)) (hp : ConvexCorners pts)
    (h : polygonNew (pts.reverse.map (inPlane o u w)) none none = .ok P) : Shape o u w pts P := by
  rw [← map_swap] at h
  have hs := shape_left (o := o) (axes_swap hx) (m := m) (pts := pts.reverse.map Prod.swap)
    (crisp_swap (crisp_swapped hc) (by simp)) (by
      simp only [List.forall_mem_map]
      intro p hp
      rw [inPlane_swap]
      exact hr p (List.mem_reverse.1 hp)) (convex_swapped hp) h
  have edge : ∀ {L : List (ℝ × ℝ)} {a b : ℝ × ℝ}, (∃ i, Side L i a b) →
      ∃ i, Side (L.reverse.map Prod.swap) i b.swap a.swap := by
    rintro L a b ⟨i, hi⟩
    refine side_of_cycEdges ?_
    rw [Solids.cycEdges_map, List.mem_map]
    exact ⟨(b, a), (Solids.cycEdges_reverse_perm L).symm.subset (List.mem_map.2 ⟨(a, b), cycEdges_of_side hi, rfl⟩), rfl⟩
  have back : ∀ {a b : ℝ × ℝ}, (∃ i, Side (pts.reverse.map Prod.swap) i a b) → ∃ i, Side pts i b.swap a.swap := by
    intro a b hi
    have := edge hi
    rwa [← List.map_reverse, List.map_map, Prod.swap_swap_eq, List.map_id, List.reverse_reverse] at this
  have area : ∀ a b z : ℝ × ℝ, signedArea b.swap a.swap z.swap = signedArea a b z := by
    intro a b z
    rw [area_swapped]; unfold signedArea; ring
  refine ⟨?_, fun z => ?_, fun z => ?_⟩
  · rcases hs.normal with e | e
    · right; rw [e, cross_swapped]
    · left; rw [e, cross_swapped, neg_neg]
  · rw [← inPlane_swap z, hs.region]
    constructor
    · intro h i a b hi
      obtain ⟨j, hj⟩ := edge ⟨i, hi⟩
      have := h j _ _ hj
      rwa [area] at this
    · intro h i a b hi
      obtain ⟨j, hj⟩ := back ⟨i, hi⟩
      have := h j _ _ hj
      rwa [← area, Prod.swap_swap, Prod.swap_swap] at this
  · rw [← inPlane_swap z, hs.outline]
    have sw : ∀ (a b : ℝ × ℝ) (k : ℝ), (lerp a b k).swap = lerp b.swap a.swap (1 - k) := by
      intro a b k
      unfold lerp; ext <;> simp <;> ring
    constructor
    · rintro ⟨i, a, b, k, hi, k0, k1, hk⟩
      obtain ⟨j, hj⟩ := back ⟨i, hi⟩
      refine ⟨j, _, _, 1 - k, hj, by linarith, by linarith, ?_⟩
      rw [← sw, ← hk, Prod.swap_swap]
    · rintro ⟨i, a, b, k, hi, k0, k1, rfl⟩
      obtain ⟨j, hj⟩ := edge ⟨i, hi⟩
      exact ⟨j, _, _, 1 - k, hj, by linarith, by linarith, sw _ _ _⟩

end B3d.PairsExact
