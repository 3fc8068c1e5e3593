import Verif.Proofs.RoundedPlane
import Verif.Proofs.Binary

/-!
# C119: points and polygons in rounded arithmetic

As in C109 the outline is in a plane parallel to two coordinate axes and without doubtful cases, and corners on a line are on
a line parallel to an axis.  The polygon is made with rounded numbers, and points are tested with rounded numbers.
`Region` is what the triangles of the polygon cover.
-/

namespace B3d.Rounded

open Spec Planar Polygon Triangles

variable {o u w : Vec3 ℝ} {m : ℝ} {pts : List (ℝ × ℝ)} {z : ℝ × ℝ} {q : List (Vec3 ℝ)} {v : Vec3 ℝ} {tri : List Tri}

theorem inside_any (A : Arith) (hx : Axes u w) (hf : AxisPlane u w) (hc : Crisp m (z :: pts)) (hm : m ≤ 10 ^ 6)
    (hr : ∀ p ∈ z :: pts, Reach m (inPlane o u w p)) {P : Poly}
    (h : Polygon.polygonNew (pts.map (inPlane o u w)) none none = .ok P) (b : Bool) {rb : Bool}
    (hb : isPointAtBoundary A (inPlane o u w z) P.pts = .ok rb) : ∃ r, pointInPolygon A (inPlane o u w z) P.pts P.tri b = .ok r ∧
      (r = true ↔ Region P.pts P.tri (inPlane o u w z) ∧ (b = false → rb = false)) := by
  have hS : ∀ p ∈ pts, p ∈ z :: pts := fun p hp => List.mem_cons_of_mem _ hp
  rcases normal_of_new hx (SliceConvex.crisp_swap hc hS) (fun p hp => hr p (hS p hp)) h with hv | hv
  · exact inside_left A hx hf hc hm hr hS h hv (by simp) b hb
  · rw [← PairsExact.map_swap] at h
    rw [← PairsExact.cross_swapped] at hv
    rw [← PairsExact.inPlane_swap z] at hb ⊢
    refine inside_left A (S := (z :: pts).map Prod.swap) (PairsExact.axes_swap hx) hf.symm (PairsExact.crisp_swapped hc) hm ?_ ?_
      h hv (by simp) b hb
    · simp only [List.forall_mem_map]
      intro p hp
      rw [PairsExact.inPlane_swap]
      exact hr p hp
    · simp only [List.forall_mem_map]
      exact fun p hp => List.mem_map_of_mem (hS p hp)

/-- **C119, points in a polygon.**  The polygon was made with rounded numbers, `z` is a point of its plane which together with
the corners is without doubtful cases.  The rounded test raises no exception and says whether the point is in the polygon.  The
point may be on a slanted edge or on a line between two triangles. -/
theorem C119_inside (A : Arith) (hx : Axes u w) (hf : AxisPlane u w) (hc : Crisp m (z :: pts)) (hm : m ≤ 10 ^ 6)
    (hs : StraightOnAxes o u w pts) (hr : ∀ p ∈ z :: pts, Reach m (inPlane o u w p))
    (h : polygonNew A (pts.map (inPlane o u w)) = .ok (q, v, tri)) :
    ∃ r : Bool, pointInPolygon A (inPlane o u w z) q tri true = .ok r ∧ (r = true ↔ Region q tri (inPlane o u w z)) := by
  have hS : ∀ p ∈ pts, p ∈ z :: pts := fun p hp => List.mem_cons_of_mem _ hp
  obtain ⟨P, hP, rfl, rfl⟩ := exact_of_rounded A hx hf (SliceConvex.crisp_swap hc hS) hm hs (fun p hp => hr p (hS p hp)) h
  obtain ⟨r, h1, h2⟩ := inside_any A hx hf hc hm hr hP true (atBoundary_eq A (polygonNew_sturdy hP).1 _)
  exact ⟨r, h1, by simpa using h2⟩

/-- **C119, the outline.**  Here also the point must not be on a slanted line through two corners.  The rounded test of the
outline says whether the point is on the outline, and the test without the outline whether it is in the polygon and not on the
outline. -/
theorem C119_outline (A : Arith) (hx : Axes u w) (hf : AxisPlane u w) (hc : Crisp m (z :: pts)) (hm : m ≤ 10 ^ 6)
    (hs : StraightOnAxes o u w (z :: pts)) (hr : ∀ p ∈ z :: pts, Reach m (inPlane o u w p))
    (h : polygonNew A (pts.map (inPlane o u w)) = .ok (q, v, tri)) :
    ∃ r1 r2 : Bool, pointInPolygon A (inPlane o u w z) q tri false = .ok r1 ∧
      isPointAtBoundary A (inPlane o u w z) q = .ok r2 ∧
      (r1 = true ↔ Region q tri (inPlane o u w z) ∧ ¬ OnOutline q (inPlane o u w z)) ∧
      (r2 = true ↔ OnOutline q (inPlane o u w z)) := by
  have hS : ∀ p ∈ pts, p ∈ z :: pts := fun p hp => List.mem_cons_of_mem _ hp
  have hs' : StraightOnAxes o u w pts := fun a ha b hb c hc => hs a (hS a ha) b (hS b hb) c (hS c hc)
  obtain ⟨P, hP, rfl, rfl⟩ := exact_of_rounded A hx hf (SliceConvex.crisp_swap hc hS) hm hs' (fun p hp => hr p (hS p hp)) h
  obtain ⟨rb, hb, kb⟩ := atBoundary_flat A hx hf hc hs hr hS hP (z := z) (by simp)
  obtain ⟨r, h1, h2⟩ := inside_any A hx hf hc hm hr hP false hb
  exact ⟨r, rb, h1, hb, by rw [h2, ← kb]; simp, kb⟩

/-- **C119, points beside the plane.**  A point at least `m / 10⁹` away from the plane of the polygon is never said to be in
the polygon. -/
theorem C119_beside (A : Arith) (hx : Axes u w) (hf : AxisPlane u w) (hc : Crisp m pts) (hm : m ≤ 10 ^ 6)
    (hs : StraightOnAxes o u w pts) (hr : ∀ p ∈ pts, Reach m (inPlane o u w p))
    (h : polygonNew A (pts.map (inPlane o u w)) = .ok (q, v, tri)) {k : ℝ} (hk : m / 10 ^ 9 ≤ |k|) (b : Bool) :
    pointInPolygon A (inPlane o u w z + k • Vec3.cross u w) q tri b = .ok false := by
  obtain ⟨P, hP, rfl, rfl⟩ := exact_of_rounded A hx hf hc hm hs hr h
  have hP' : ∀ p ∈ P.pts, Reach m p := by
    intro p hp
    obtain ⟨q, hq, rfl⟩ := (PairsExact.corners_drawn hP).1 hp
    exact hr q hq
  obtain ⟨rx, hx1, -⟩ := insideBbox_ok A hm (polygonNew_sturdy hP).1 hP' (inPlane o u w z + k • Vec3.cross u w)
  have hsp : Spread pts := by
    rcases normal_of_new hx hc hr hP with hv | hv
    · exact spread_of hx hc hP hv
    · have h' := hP
      rw [← PairsExact.map_swap] at h'
      rw [← PairsExact.cross_swapped] at hv
      obtain ⟨a, ma, b, mb, c, mc, h0⟩ := spread_of (PairsExact.axes_swap hx) (PairsExact.crisp_swapped hc) h' hv
      obtain ⟨a, ma', rfl⟩ := List.mem_map.1 ma
      obtain ⟨b, mb', rfl⟩ := List.mem_map.1 mb
      obtain ⟨c, mc', rfl⟩ := List.mem_map.1 mc
      rw [PairsExact.area_swapped, neg_ne_zero] at h0
      exact ⟨a, ma', b, mb', c, mc', h0⟩
  have hcop : arePointsCoplanar A (P.pts ++ [inPlane o u w z + k • Vec3.cross u w]) = false := by
    rcases PairsExact.points_cases hP with e | e
    · have := not_coplanar A hx hf hc hr (L := pts) (z := z) (fun p hp => hp) (steps_of hx hP e) hsp hk
      rw [e]; exact this
    · have := not_coplanar A hx hf hc hr (L := pts.reverse) (z := z) (fun p hp => List.mem_reverse.1 hp) (steps_of hx hP e)
        (by
          obtain ⟨a, ma, b, mb, c, mc, h0⟩ := hsp
          exact ⟨a, List.mem_reverse.2 ma, b, List.mem_reverse.2 mb, c, List.mem_reverse.2 mc, h0⟩) hk
      rw [e]; exact this
  unfold pointInPolygon
  rw [hx1]
  cases rx with
  | false => rfl
  | true => simp only [hcop, if_true]

/-- **C119, convex polygons.**  The rounded constructor accepts the convex outline, and the rounded test says whether the point
is on the left of all sides or on their lines. -/
theorem C119_convex (A : Arith) (hx : Axes u w) (hf : AxisPlane u w) (hp : ConvexCorners pts) (hc : Crisp m (z :: pts))
    (hm : m ≤ 10 ^ 6) (hr : ∀ p ∈ z :: pts, Reach m (inPlane o u w p)) :
    ∃ q v tri r, polygonNew A (pts.map (inPlane o u w)) = .ok (q, v, tri) ∧
      pointInPolygon A (inPlane o u w z) q tri true = .ok r ∧
      (r = true ↔ ∀ i a b, Side pts i a b → 0 ≤ signedArea a b z) := by
  have hS : ∀ p ∈ pts, p ∈ z :: pts := fun p hp => List.mem_cons_of_mem _ hp
  obtain ⟨hn, hpos⟩ := hp
  have hpos' : SliceConvex.Pos pts := hpos
  obtain ⟨v, -, hq⟩ := C109_convex A (o := o) hx hf (SliceConvex.crisp_swap hc hS) hm hn (hpos'.nodup hn) hpos
    (fun p hp => hr p (hS p hp))
  obtain ⟨r, h1, h2⟩ := C119_inside A hx hf hc hm (straight_of_sorted fun a b c hs => (hpos a b c hs).ne') hr hq
  refine ⟨_, v, _, r, hq, h1, ?_⟩
  rw [h2, PointExact.region_convex hx hn hpos rfl rfl]

/-! ### Non-vacuity -/

/-- Non-vacuity of `C119_inside`, `C119_convex` and `C119_beside`: a hexagon on a wall, tested with 53 binary digits.  The point
on a slanted edge is in the polygon, and the point a tenth of a micrometre before it is not. -/
example : ∃ q v tri, polygonNew binary ([(2, 0), (5, 0), (7, 2), (7, 6), (2, 6), (0, 2)].map
      (inPlane ⟨1001 / 10, -70, 1000⟩ ⟨0, 1, 0⟩ ⟨0, 0, 1⟩)) = .ok (q, v, tri) ∧
    pointInPolygon binary (inPlane ⟨1001 / 10, -70, 1000⟩ ⟨0, 1, 0⟩ ⟨0, 0, 1⟩ (6, 1)) q tri true = .ok true ∧
    pointInPolygon binary (inPlane ⟨1001 / 10, -70, 1000⟩ ⟨0, 1, 0⟩ ⟨0, 0, 1⟩ (6, 1) +
      (1 / 10 ^ 7 : ℝ) • Vec3.cross ⟨0, 1, 0⟩ ⟨0, 0, 1⟩) q tri true = .ok false := by
  have hx : Axes ⟨0, 1, 0⟩ ⟨0, 0, 1⟩ := ⟨by norm_num [Vec3.dot], by norm_num [Vec3.dot], by norm_num [Vec3.dot]⟩
  have hf : AxisPlane ⟨0, 1, 0⟩ ⟨0, 0, 1⟩ := .inl ⟨rfl, rfl⟩
  have hp := SliceConvex.convex_int (L := [(2, 0), (5, 0), (7, 2), (7, 6), (2, 6), (0, 2)]) (by decide) (by decide +kernel)
  have hc := crisp_int (pts := [(6, 1), (2, 0), (5, 0), (7, 2), (7, 6), (2, 6), (0, 2)]) (by decide)
  have hp' : ConvexCorners [((2 : ℝ), (0 : ℝ)), (5, 0), (7, 2), (7, 6), (2, 6), (0, 2)] := by simpa using hp
  have hc' : Crisp 1 (((6 : ℝ), (1 : ℝ)) :: [((2 : ℝ), (0 : ℝ)), (5, 0), (7, 2), (7, 6), (2, 6), (0, 2)]) := by simpa using hc
  have hr : ∀ p ∈ ((6 : ℝ), (1 : ℝ)) :: [((2 : ℝ), (0 : ℝ)), (5, 0), (7, 2), (7, 6), (2, 6), (0, 2)],
      Reach 1 (inPlane ⟨1001 / 10, -70, 1000⟩ ⟨0, 1, 0⟩ ⟨0, 0, 1⟩ p) := by
    simp only [List.mem_cons, List.not_mem_nil, or_false, forall_eq_or_imp, forall_eq, Reach, inPlane]
    norm_num [abs_le]
  obtain ⟨q, v, tri, r, h, h1, k1⟩ := C119_convex binary (o := ⟨1001 / 10, -70, 1000⟩) (z := (6, 1)) (m := 1) hx hf
    (pts := [(2, 0), (5, 0), (7, 2), (7, 6), (2, 6), (0, 2)]) hp' hc' (by norm_num) hr
  have hS : ∀ p ∈ [((2 : ℝ), (0 : ℝ)), (5, 0), (7, 2), (7, 6), (2, 6), (0, 2)],
      p ∈ ((6 : ℝ), (1 : ℝ)) :: [((2 : ℝ), (0 : ℝ)), (5, 0), (7, 2), (7, 6), (2, 6), (0, 2)] :=
    fun p hp => List.mem_cons_of_mem _ hp
  have hb := C119_beside binary (o := ⟨1001 / 10, -70, 1000⟩) (z := (6, 1)) (m := 1) hx hf (SliceConvex.crisp_swap hc' hS)
    (by norm_num) (straight_of_sorted fun a b c hs => (hp'.turns a b c hs).ne') (fun p hp => hr p (hS p hp)) h
    (k := 1 / 10 ^ 7) (by norm_num) true
  have hin : ∀ i a b, Side [(2, 0), (5, 0), (7, 2), (7, 6), (2, 6), (0, 2)] i a b → 0 ≤ signedArea a b (6, 1) := by
    rintro i a b ⟨h1, h2⟩
    have hi := (List.getElem?_eq_some_iff.1 h1).1
    simp only [List.length_cons, List.length_nil] at hi
    interval_cases i <;> simp at h1 h2 <;> subst h1 h2 <;> norm_num [signedArea]
  exact ⟨q, v, tri, h, by rw [h1, k1.2 hin], hb⟩

/-- Non-vacuity of `C119_outline`: a point on an edge of a triangle. -/
example : ∃ q v tri, polygonNew binary ([(0, 0), (8, 0), (0, 6)].map (inPlane ⟨1 / 10, 2, 3⟩ ⟨1, 0, 0⟩ ⟨0, 1, 0⟩)) =
      .ok (q, v, tri) ∧
    isPointAtBoundary binary (inPlane ⟨1 / 10, 2, 3⟩ ⟨1, 0, 0⟩ ⟨0, 1, 0⟩ (3, 0)) q = .ok true ∧
    pointInPolygon binary (inPlane ⟨1 / 10, 2, 3⟩ ⟨1, 0, 0⟩ ⟨0, 1, 0⟩ (3, 0)) q tri false = .ok false := by
  have hx : Axes ⟨1, 0, 0⟩ ⟨0, 1, 0⟩ := ⟨by norm_num [Vec3.dot], by norm_num [Vec3.dot], by norm_num [Vec3.dot]⟩
  have hf : AxisPlane ⟨1, 0, 0⟩ ⟨0, 1, 0⟩ := .inr (.inr ⟨rfl, rfl⟩)
  have hp := SliceConvex.convex_int (L := [(0, 0), (8, 0), (0, 6)]) (by decide) (by decide +kernel)
  have hc := crisp_int (pts := [(3, 0), (0, 0), (8, 0), (0, 6)]) (by decide)
  have hp' : ConvexCorners [((0 : ℝ), (0 : ℝ)), (8, 0), (0, 6)] := by simpa using hp
  have hc' : Crisp 1 (((3 : ℝ), (0 : ℝ)) :: [((0 : ℝ), (0 : ℝ)), (8, 0), (0, 6)]) := by simpa using hc
  have hr : ∀ p ∈ ((3 : ℝ), (0 : ℝ)) :: [((0 : ℝ), (0 : ℝ)), (8, 0), (0, 6)],
      Reach 1 (inPlane ⟨1 / 10, 2, 3⟩ ⟨1, 0, 0⟩ ⟨0, 1, 0⟩ p) := by
    simp only [List.mem_cons, List.not_mem_nil, or_false, forall_eq_or_imp, forall_eq, Reach, inPlane]
    norm_num [abs_le]
  have hs : StraightOnAxes ⟨1 / 10, 2, 3⟩ ⟨1, 0, 0⟩ ⟨0, 1, 0⟩ (((3 : ℝ), (0 : ℝ)) :: [((0 : ℝ), (0 : ℝ)), (8, 0), (0, 6)]) := by
    intro a ha b hb c hc hab hbc hac h0
    simp only [List.mem_cons, List.not_mem_nil, or_false] at ha hb hc
    rcases ha with rfl | rfl | rfl | rfl <;> rcases hb with rfl | rfl | rfl | rfl <;> rcases hc with rfl | rfl | rfl | rfl <;>
      first
      | exact (hab rfl).elim
      | exact (hbc rfl).elim
      | exact (hac rfl).elim
      | (exfalso; norm_num [signedArea] at h0; done)
      | (refine .inl ?_; norm_num [inPlane])
  obtain ⟨q, v, tri, r, h, -⟩ := C119_convex binary (o := ⟨1 / 10, 2, 3⟩) (z := (3, 0)) (m := 1) hx hf
    (pts := [(0, 0), (8, 0), (0, 6)]) hp' hc' (by norm_num) hr
  obtain ⟨r1, r2, h1, h2, k1, k2⟩ := C119_outline binary hx hf hc' (by norm_num) hs hr h
  obtain ⟨v', -, hq⟩ := C109_convex binary (o := ⟨1 / 10, 2, 3⟩) hx hf
    (SliceConvex.crisp_swap hc' fun p hp => List.mem_cons_of_mem _ hp) (by norm_num) hp'.corners (by norm_num) hp'.turns
    (fun p hp => hr p (List.mem_cons_of_mem _ hp))
  have hon : OnOutline q (inPlane ⟨1 / 10, 2, 3⟩ ⟨1, 0, 0⟩ ⟨0, 1, 0⟩ (3, 0)) := by
    rw [h] at hq
    cases hq
    refine ⟨_, List.mem_cons_self, 3 / 8, by norm_num, by norm_num, ?_⟩
    ext <;> norm_num [inPlane]
  refine ⟨q, v, tri, h, by rw [h2, k2.2 hon], ?_⟩
  rw [h1]
  congr 1
  rw [← Bool.not_eq_true, k1]
  exact fun hh => hh.2 hon

end B3d.Rounded
