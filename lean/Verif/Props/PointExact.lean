import Verif.Proofs.PointExact
import Verif.Props.SliceConvex

/-!
# C113: tests of points without doubtful cases

The corners of a polygon are drawn in a plane, `z` is another point of the drawing, and `z` together with the corners is
without doubtful cases (`Crisp`): different points are not too close, and three points are either on a line or span a
triangle which is not too small.  Points given by whole numbers always are (`crisp_int`).  Then the tests of points, which
compare with tolerances, give the exact answers.  `Region` is what the triangles of the polygon cover.
-/

namespace B3d.PointExact

open Spec Planar Points Polygon Triangles SliceConvex

variable {o u w : Vec3 ℝ} {m : ℝ} {pts qs : List (ℝ × ℝ)} {P Q : Poly} {vn vn' : Option (Vec3 ℝ)} {z : ℝ × ℝ}

/-- **C113, points in a polygon.**  The test with the outline says whether the point is in the polygon, the test without the
outline whether it is in the polygon and not on the outline, and the test of the outline whether it is on the outline.  The
polygon need not be convex, and the point may be on a line between two of its triangles. -/
theorem C113_inside (hx : Axes u w) (hc : Crisp m (z :: pts)) (hr : ∀ p ∈ z :: pts, Reach m (inPlane o u w p))
    (h : polygonNew (pts.map (inPlane o u w)) none vn = .ok P) (hv : P.vn = some (Vec3.cross u w)) :
    ∃ r1 r2 r3 : Bool, Polygon.isPointInside (inPlane o u w z) P.pts P.tri true = .ok r1 ∧
      Polygon.isPointInside (inPlane o u w z) P.pts P.tri false = .ok r2 ∧
      isPointAtBoundary (inPlane o u w z) P.pts = .ok r3 ∧
      (r1 = true ↔ Region P.pts P.tri (inPlane o u w z)) ∧
      (r2 = true ↔ Region P.pts P.tri (inPlane o u w z) ∧ ¬ OnOutline P.pts (inPlane o u w z)) ∧
      (r3 = true ↔ OnOutline P.pts (inPlane o u w z)) := by
  have hS : ∀ p ∈ pts, p ∈ z :: pts := fun p hp => List.mem_cons_of_mem _ hp
  obtain ⟨r1, h1, k1⟩ := inside_both hx hc hr hS h hv (z := z) (by simp) true
  obtain ⟨r2, h2, k2⟩ := inside_both hx hc hr hS h hv (z := z) (by simp) false
  obtain ⟨r3, h3, k3⟩ := atBoundary_exact hx hc hr hS h (z := z) (by simp)
  exact ⟨r1, r2, r3, h1, h2, h3, by simpa using k1, by simpa using k2, k3⟩

/-- **C113, rays.**  A ray which is not almost parallel to the polygon and meets its plane at the point `z` of the drawing
hits the polygon exactly if this point is in the polygon; if only the forward direction counts, the point must not be behind
the start of the ray. -/
theorem C113_ray (hx : Axes u w) (hc : Crisp m (z :: pts)) (hr : ∀ p ∈ z :: pts, Reach m (inPlane o u w p))
    (h : polygonNew (pts.map (inPlane o u w)) none vn = .ok P) (hv : P.vn = some (Vec3.cross u w)) {n x d : Vec3 ℝ}
    {s atol : ℝ} (hw : CornerNormal P.pts n) (hat : 0 < atol) (hd : atol ≤ |Vec3.dot n d|)
    (hz : x + s • d = inPlane o u w z) (fwd : Bool) :
    ∃ r, isPointInsideProjection x d P.pts P.tri fwd atol = .ok r ∧
      (r = true ↔ (fwd = true → 0 ≤ s) ∧ Region P.pts P.tri (x + s • d)) := by
  have hf := polygonNew_flat h hv (plane_of h)
  have hd0 : Vec3.dot n d ≠ 0 := by
    intro h0
    rw [h0, abs_zero] at hd
    linarith
  obtain ⟨s', hs', heq⟩ := (isPointInsideProjection_eq hf hw x d fwd atol).2 (not_lt.2 hd) hd0
  have hp : Vec3.dot (Vec3.cross u w) (x + s • d) = Vec3.dot (Vec3.cross u w) o := by
    rw [hz]
    exact plane_inPlane o [z] _ (by simp)
  have hss : s' = s := by
    have := plane_of_corner hf hw hs' hp
    rw [Vec3.dot_add_right, Vec3.dot_add_right, Vec3.dot_smul_right, Vec3.dot_smul_right] at this
    exact mul_right_cancel₀ hd0 (add_left_cancel this)
  subst hss
  obtain ⟨r, h1, k1⟩ := inside_exact hx hc hr (drawn hx hc (fun p hp => List.mem_cons_of_mem _ hp) h hv)
    (polygonNew_sturdy h) hf hat (z := z) (by simp)
  rw [heq]
  by_cases hneg : fwd = true ∧ s' < 0
  · rw [if_pos hneg]
    refine ⟨false, rfl, ?_⟩
    constructor
    · intro hh; cases hh
    · rintro ⟨hh, -⟩
      exact absurd (hh hneg.1) (not_le.2 hneg.2)
  · rw [if_neg hneg, hz]
    refine ⟨r, h1, ?_⟩
    rw [k1]
    constructor
    · intro hh
      exact ⟨fun hfw => by by_contra hc'; exact hneg ⟨hfw, not_le.1 hc'⟩, hh⟩
    · exact fun hh => hh.2

/-- **C113, distances.**  The point at the height `k` above the point `z` of the drawing; the corners of the polygon moved by
`k` along the normal must not be too far away either.  The distance of the point from the polygon is the distance to one
of its points, and no point of the polygon is closer. -/
theorem C113_distance (hx : Axes u w) (hc : Crisp m (z :: pts))
    (h : polygonNew (pts.map (inPlane o u w)) none vn = .ok P) (hv : P.vn = some (Vec3.cross u w)) {n x : Vec3 ℝ} {k : ℝ}
    (hw : CornerNormal P.pts n) (hr : ∀ p ∈ z :: pts, Reach m (inPlane o u w p + k • n))
    (hz : x = inPlane o u w z + k • n) :
    ∃ y, Region P.pts P.tri y ∧ distancePointToPolygon x P.pts P.tri n = .ok (some (Vec3.norm (x - y))) ∧
      ∀ y', Region P.pts P.tri y' → Vec3.norm (x - y) ≤ Vec3.norm (x - y') := by
  rw [hz]
  exact distance_exact hx hc (fun p hp => List.mem_cons_of_mem _ hp) h hv (by simp) hw hr

/-- **C113, convex polygons.**  The test with the outline says whether the point is on the left of all sides or on their
lines, the test without the outline whether it is strictly on the left of all sides. -/
theorem C113_convex (hx : Axes u w) (hp : ConvexCorners pts) (hc : Crisp m (z :: pts))
    (hr : ∀ p ∈ z :: pts, Reach m (inPlane o u w p)) :
    ∃ (P : Poly) (r1 r2 : Bool), polygonNew (pts.map (inPlane o u w)) none none = .ok P ∧
      Polygon.isPointInside (inPlane o u w z) P.pts P.tri true = .ok r1 ∧
      Polygon.isPointInside (inPlane o u w z) P.pts P.tri false = .ok r2 ∧
      (r1 = true ↔ ∀ i a b, Side pts i a b → 0 ≤ signedArea a b z) ∧
      (r2 = true ↔ ∀ i a b, Side pts i a b → 0 < signedArea a b z) := by
  obtain ⟨hn, hpos⟩ := hp
  have hS : ∀ p ∈ pts, p ∈ z :: pts := fun p hp => List.mem_cons_of_mem _ hp
  obtain ⟨P, hf⟩ := fan_exists hx (crisp_swap hc hS) (fun p hp => hr p (hS p hp)) hn hpos
  obtain ⟨r1, r2, -, h1, h2, -, k1, k2, -⟩ := C113_inside hx hc hr hf.made hf.normal
  refine ⟨P, r1, r2, hf.made, h1, h2, ?_, ?_⟩
  · rw [k1, region_convex hx hn hpos hf.points hf.tri]
  · rw [k2, region_convex hx hn hpos hf.points hf.tri, hf.points, onOutline_iff hx]
    exact strict_iff hn hpos

/-- **C113, polygons in a convex polygon.**  A convex polygon `P` and any polygon `Q` in the same plane, whose corners
together are without doubtful cases: `P` is said to contain `Q` exactly if every point of `Q` is in `P` and not on its
outline. -/
theorem C113_contains (hx : Axes u w) (hp : ConvexCorners pts) (hc : Crisp m (qs ++ pts))
    (hr : ∀ p ∈ qs ++ pts, Reach m (inPlane o u w p))
    (h : polygonNew (pts.map (inPlane o u w)) none none = .ok P)
    (hq : polygonNew (qs.map (inPlane o u w)) none vn' = .ok Q) :
    ∃ r, containsPolygon P Q = .ok r ∧
      (r = true ↔ ∀ y, Region Q.pts Q.tri y → Region P.pts P.tri y ∧ ¬ OnOutline P.pts y) := by
  obtain ⟨hn, hpos⟩ := hp
  have hS : ∀ p ∈ pts, p ∈ qs ++ pts := fun p hp => List.mem_append_right _ hp
  obtain ⟨P', hf⟩ := fan_exists hx (crisp_swap hc hS) (fun p hp => hr p (hS p hp)) hn hpos
  have e := hf.made
  rw [h, Except.ok.injEq] at e
  subst e
  obtain ⟨r, h1, k1⟩ := C71_contains_partial h Q GEOM_ATOL
  refine ⟨r, h1, ?_⟩
  rw [k1]
  have strict : ∀ z : ℝ × ℝ, (Region P.pts P.tri (inPlane o u w z) ∧ ¬ OnOutline P.pts (inPlane o u w z)) ↔
      ∀ i a b, Side pts i a b → 0 < signedArea a b z := by
    intro z
    rw [region_convex hx hn hpos hf.points hf.tri, hf.points, onOutline_iff hx]
    exact strict_iff hn hpos
  have memQ : ∀ q ∈ Q.pts, ∃ q' ∈ qs, q = inPlane o u w q' := by
    obtain ⟨hn', v, hv', -, htr, -⟩ := polygonNew_ok hq
    obtain ⟨hq1, -⟩ := C20_triangulate_valid _ _ _ _ _ _ _ hn' htr
    intro p hp
    rcases hq1 with e | e <;> rw [e] at hp
    · obtain ⟨q', m1, rfl⟩ := List.mem_map.1 hp
      exact ⟨q', m1, rfl⟩
    · obtain ⟨q', m1, rfl⟩ := List.mem_map.1 (List.mem_reverse.1 hp)
      exact ⟨q', m1, rfl⟩
  have hin : ∀ q' ∈ qs, (Polygon.isPointInside (inPlane o u w q') P.pts P.tri = .ok true ∧
      ∀ y, OnOutline P.pts y → GEOM_ATOL ≤ Vec3.norm (inPlane o u w q' - y)) ↔
      ∀ i a b, Side pts i a b → 0 < signedArea a b q' := by
    intro q' mq
    have mq' : q' ∈ qs ++ pts := List.mem_append_left _ mq
    obtain ⟨r0, h0, k0⟩ := inside_both hx hc hr hS h hf.normal mq' true
    have h0' : Polygon.isPointInside (inPlane o u w q') P.pts P.tri = .ok r0 := h0
    constructor
    · rintro ⟨a1, a2⟩
      rw [h0', Except.ok.injEq] at a1
      refine (strict q').1 ⟨(k0.1 a1).1, fun hon => ?_⟩
      have := a2 _ hon
      rw [sub_self, (Vec3.norm_eq_zero (a := 0)).2 rfl] at this
      have : (0 : ℝ) < GEOM_ATOL := Points.GEOM_ATOL_pos
      linarith
    · intro hs
      obtain ⟨a1, a2⟩ := (strict q').2 hs
      refine ⟨by rw [h0', k0.2 ⟨a1, by simp⟩], ?_⟩
      rintro y ⟨e, he, k, -, -, rfl⟩
      rw [hf.points, Solids.cycEdges_map, List.mem_map] at he
      obtain ⟨⟨a, b⟩, hab, rfl⟩ := he
      obtain ⟨i, hsi⟩ := side_of_cycEdges hab
      have hb := far_from_line (o := o) hx hc (hS a (List.mem_of_getElem? hsi.1)) (hS b (List.mem_of_getElem? hsi.2)) mq'
        (hs i a b hsi) k
      have hflip : ∀ p q : Vec3 ℝ, Vec3.norm (p - q) = Vec3.norm (q - p) := by
        intro p q
        rw [← neg_sub, Vec3.norm_neg]
      rw [hflip]
      refine le_trans ?_ hb
      norm_num [GEOM_ATOL]
  constructor
  · intro hall y hy
    obtain ⟨t, ht, a, b, c, ha, hb, hc', r, s, q, r0, s0, q0, h4, rfl⟩ := hy
    obtain ⟨a', ma, rfl⟩ := memQ a (List.mem_of_getElem? ha)
    obtain ⟨b', mb, rfl⟩ := memQ b (List.mem_of_getElem? hb)
    obtain ⟨c', mc, rfl⟩ := memQ c (List.mem_of_getElem? hc')
    rw [comb_inPlane _ _ _ h4, strict]
    intro i e1 e2 hs
    have s1 := (hin a' ma).1 (hall _ (List.mem_of_getElem? ha)) i e1 e2 hs
    have s2 := (hin b' mb).1 (hall _ (List.mem_of_getElem? hb)) i e1 e2 hs
    have s3 := (hin c' mc).1 (hall _ (List.mem_of_getElem? hc')) i e1 e2 hs
    have e : signedArea e1 e2 (r * a'.1 + s * b'.1 + q * c'.1, r * a'.2 + s * b'.2 + q * c'.2) =
        r * signedArea e1 e2 a' + s * signedArea e1 e2 b' + q * signedArea e1 e2 c' := by
      obtain rfl : r = 1 - s - q := by linarith
      unfold signedArea; ring
    rw [e]
    by_contra hcon
    have t1 := mul_nonneg r0 s1.le
    have t2 := mul_nonneg s0 s2.le
    have t3 := mul_nonneg q0 s3.le
    have z1 : r * signedArea e1 e2 a' = 0 := by linarith
    have z2 : s * signedArea e1 e2 b' = 0 := by linarith
    have z3 : q * signedArea e1 e2 c' = 0 := by linarith
    have y1 := (mul_eq_zero.1 z1).resolve_right s1.ne'
    have y2 := (mul_eq_zero.1 z2).resolve_right s2.ne'
    have y3 := (mul_eq_zero.1 z3).resolve_right s3.ne'
    rw [y1, y2, y3] at h4
    norm_num at h4
  · intro hall q mq
    have hreg : Region Q.pts Q.tri q := by
      obtain ⟨t, ht, a, b, c, ha, hb, hc', hcor⟩ := polygonNew_vertex hq mq
      refine ⟨t, ht, a, b, c, ha, hb, hc', ?_⟩
      rcases hcor with e1 | e1 | e1 <;> rw [e1]
      · exact ⟨1, 0, 0, zero_le_one, le_refl _, le_refl _, by ring, by simp⟩
      · exact ⟨0, 1, 0, le_refl _, zero_le_one, le_refl _, by ring, by simp⟩
      · exact ⟨0, 0, 1, le_refl _, le_refl _, zero_le_one, by ring, by simp⟩
    obtain ⟨q', mq', rfl⟩ := memQ q mq
    exact (hin q' mq').2 ((strict q').1 (hall _ hreg))

/-! ### Non-vacuity -/

/-- Non-vacuity of `C113_inside` and `C113_convex`: a hexagon in an inclined plane and a point on a diagonal of it; the tests
say that it is inside and not on the outline. -/
example : ∃ P, polygonNew ([(2, 0), (5, 0), (7, 2), (7, 6), (2, 6), (0, 2)].map
      (inPlane ⟨100, -70, 1000⟩ ⟨3 / 5, 4 / 5, 0⟩ ⟨0, 0, 1⟩)) none none = .ok P ∧
    Polygon.isPointInside (inPlane ⟨100, -70, 1000⟩ ⟨3 / 5, 4 / 5, 0⟩ ⟨0, 0, 1⟩ (5, 2)) P.pts P.tri true = .ok true ∧
    Polygon.isPointInside (inPlane ⟨100, -70, 1000⟩ ⟨3 / 5, 4 / 5, 0⟩ ⟨0, 0, 1⟩ (5, 2)) P.pts P.tri false = .ok true := by
  have hx : Axes ⟨3 / 5, 4 / 5, 0⟩ ⟨0, 0, 1⟩ := ⟨by norm_num [Vec3.dot], by norm_num [Vec3.dot], by norm_num [Vec3.dot]⟩
  have hp := convex_int (L := [(2, 0), (5, 0), (7, 2), (7, 6), (2, 6), (0, 2)]) (by decide) (by decide +kernel)
  have hc := crisp_int (pts := [(5, 2), (2, 0), (5, 0), (7, 2), (7, 6), (2, 6), (0, 2)]) (by decide)
  obtain ⟨P, r1, r2, h, h1, h2, k1, k2⟩ := C113_convex (o := ⟨100, -70, 1000⟩) (z := (5, 2)) (m := 1) hx
    (pts := [(2, 0), (5, 0), (7, 2), (7, 6), (2, 6), (0, 2)]) (by simpa using hp) (by simpa using hc) (by
      simp only [List.mem_cons, List.not_mem_nil, or_false, forall_eq_or_imp, forall_eq, Reach, inPlane]
      norm_num [abs_le])
  have hin : ∀ i a b, Side [(2, 0), (5, 0), (7, 2), (7, 6), (2, 6), (0, 2)] i a b → 0 < signedArea a b (5, 2) := by
    rintro i a b ⟨h1, h2⟩
    have hi := (List.getElem?_eq_some_iff.1 h1).1
    simp only [List.length_cons, List.length_nil] at hi
    interval_cases i <;> simp at h1 h2 <;> subst h1 h2 <;> norm_num [signedArea]
  refine ⟨P, h, ?_, ?_⟩
  · rw [h1, k1.2 fun i a b hs => (hin i a b hs).le]
  · rw [h2, k2.2 hin]

/-- Non-vacuity of `C113_ray` and `C113_distance`: a square, and the middle of it, which is on a line between two of its
triangles; a ray from above, and a point at the height 3. -/
example : ∃ (P : Poly) (n : Vec3 ℝ), polygonNew ([(0, 0), (4, 0), (4, 4), (0, 4)].map (inPlane 0 ⟨1, 0, 0⟩ ⟨0, 1, 0⟩)) none none =
      .ok P ∧ P.vn = some (Vec3.cross ⟨1, 0, 0⟩ ⟨0, 1, 0⟩) ∧ Axes ⟨1, 0, 0⟩ ⟨0, 1, 0⟩ ∧
    Crisp 1 [(2, 2), (0, 0), (4, 0), (4, 4), (0, 4)] ∧ CornerNormal P.pts n ∧
    (∀ p ∈ [(2, 2), (0, 0), (4, 0), (4, 4), (0, 4)], Reach 1 (inPlane 0 ⟨1, 0, 0⟩ ⟨0, 1, 0⟩ p)) ∧
    (∀ p ∈ [(2, 2), (0, 0), (4, 0), (4, 4), (0, 4)], Reach 1 (inPlane 0 ⟨1, 0, 0⟩ ⟨0, 1, 0⟩ p + (3 : ℝ) • n)) ∧
    1 / 10 ^ 3 ≤ |Vec3.dot n ⟨0, 0, -1⟩| ∧
    (⟨2, 2, 5⟩ + (5 : ℝ) • ⟨0, 0, -1⟩ : Vec3 ℝ) = inPlane 0 ⟨1, 0, 0⟩ ⟨0, 1, 0⟩ (2, 2) := by
  have hx : Axes ⟨1, 0, 0⟩ ⟨0, 1, 0⟩ := ⟨by norm_num [Vec3.dot], by norm_num [Vec3.dot], by norm_num [Vec3.dot]⟩
  have hp : ConvexCorners [((0 : ℝ), (0 : ℝ)), (4, 0), (4, 4), (0, 4)] := by
    simpa using convex_int (L := [(0, 0), (4, 0), (4, 4), (0, 4)]) (by decide) (by decide +kernel)
  have hc : Crisp 1 [((2 : ℝ), (2 : ℝ)), (0, 0), (4, 0), (4, 4), (0, 4)] := by
    simpa using crisp_int (pts := [(2, 2), (0, 0), (4, 0), (4, 4), (0, 4)]) (by decide)
  have hr : ∀ p ∈ [((2 : ℝ), (2 : ℝ)), (0, 0), (4, 0), (4, 4), (0, 4)], Reach 1 (inPlane 0 ⟨1, 0, 0⟩ ⟨0, 1, 0⟩ p) := by
    simp only [List.mem_cons, List.not_mem_nil, or_false, forall_eq_or_imp, forall_eq, Reach, inPlane]
    norm_num [abs_le]
  obtain ⟨P, hf⟩ := fan_exists hx (crisp_swap hc fun p hp => List.mem_cons_of_mem _ hp)
    (fun p hp => hr p (List.mem_cons_of_mem _ hp)) hp.corners hp.turns
  have hcr : Vec3.cross ((inPlane 0 ⟨1, 0, 0⟩ ⟨0, 1, 0⟩ (0, 0) : Vec3 ℝ) - inPlane 0 ⟨1, 0, 0⟩ ⟨0, 1, 0⟩ (0, 4))
      (inPlane 0 ⟨1, 0, 0⟩ ⟨0, 1, 0⟩ (4, 0) - inPlane 0 ⟨1, 0, 0⟩ ⟨0, 1, 0⟩ (0, 4)) = (16 : ℝ) • ⟨0, 0, 1⟩ := by
    ext <;> norm_num [inPlane, Vec3.cross]
  have h1 : Vec3.norm (⟨0, 0, 1⟩ : Vec3 ℝ) = 1 := by norm_num [Vec3.norm, Vec3.normSq, Vec3.dot]
  refine ⟨P, ⟨0, 0, 1⟩, hf.made, hf.normal, hx, hc, ?_, hr, ?_, ?_, ?_⟩
  · refine ⟨h1, inPlane 0 ⟨1, 0, 0⟩ ⟨0, 1, 0⟩ (0, 4), inPlane 0 ⟨1, 0, 0⟩ ⟨0, 1, 0⟩ (0, 0),
      inPlane 0 ⟨1, 0, 0⟩ ⟨0, 1, 0⟩ (4, 0), by rw [hf.points]; rfl, by rw [hf.points]; rfl, by rw [hf.points]; rfl, ?_, ?_⟩
    · rw [hcr, Vec3.norm_smul, h1]; norm_num
    · rw [hcr, Vec3.norm_smul, h1]; norm_num
  · simp only [List.mem_cons, List.not_mem_nil, or_false, forall_eq_or_imp, forall_eq, Reach, inPlane]
    norm_num [abs_le]
  · norm_num [Vec3.dot]
  · ext <;> norm_num [inPlane]

/-- Non-vacuity of `C113_contains`: a triangle in the square. -/
example : ∃ P Q : Poly, polygonNew ([(0, 0), (4, 0), (4, 4), (0, 4)].map (inPlane 0 ⟨1, 0, 0⟩ ⟨0, 1, 0⟩)) none none = .ok P ∧
    polygonNew ([(1, 1), (3, 1), (2, 3)].map (inPlane 0 ⟨1, 0, 0⟩ ⟨0, 1, 0⟩)) none none = .ok Q ∧
    Crisp 1 ([(1, 1), (3, 1), (2, 3)] ++ [(0, 0), (4, 0), (4, 4), (0, 4)]) ∧ containsPolygon P Q = .ok true := by
  have hx : Axes ⟨1, 0, 0⟩ ⟨0, 1, 0⟩ := ⟨by norm_num [Vec3.dot], by norm_num [Vec3.dot], by norm_num [Vec3.dot]⟩
  have hp : ConvexCorners [((0 : ℝ), (0 : ℝ)), (4, 0), (4, 4), (0, 4)] := by
    simpa using convex_int (L := [(0, 0), (4, 0), (4, 4), (0, 4)]) (by decide) (by decide +kernel)
  have hp' : ConvexCorners [((1 : ℝ), (1 : ℝ)), (3, 1), (2, 3)] := by
    simpa using convex_int (L := [(1, 1), (3, 1), (2, 3)]) (by decide) (by decide +kernel)
  have hc : Crisp 1 ([((1 : ℝ), (1 : ℝ)), (3, 1), (2, 3)] ++ [(0, 0), (4, 0), (4, 4), (0, 4)]) := by
    simpa using crisp_int (pts := [(1, 1), (3, 1), (2, 3), (0, 0), (4, 0), (4, 4), (0, 4)]) (by decide)
  have hr : ∀ p ∈ [((1 : ℝ), (1 : ℝ)), (3, 1), (2, 3)] ++ [(0, 0), (4, 0), (4, 4), (0, 4)],
      Reach 1 (inPlane 0 ⟨1, 0, 0⟩ ⟨0, 1, 0⟩ p) := by
    simp only [List.cons_append, List.nil_append, List.mem_cons, List.not_mem_nil, or_false, forall_eq_or_imp, forall_eq,
      Reach, inPlane]
    norm_num [abs_le]
  obtain ⟨P, hf⟩ := fan_exists hx (crisp_swap hc fun p hp => List.mem_append_right _ hp)
    (fun p hp => hr p (List.mem_append_right _ hp)) hp.corners hp.turns
  obtain ⟨Q, hg⟩ := fan_exists hx (crisp_swap hc fun p hp => List.mem_append_left _ hp)
    (fun p hp => hr p (List.mem_append_left _ hp)) hp'.corners hp'.turns
  refine ⟨P, Q, hf.made, hg.made, hc, ?_⟩
  obtain ⟨r, h1, k1⟩ := C113_contains hx hp hc hr hf.made hg.made
  rw [h1, k1.2 ?_]
  intro y hy
  obtain ⟨t, ht, a, b, c, ha, hb, hc', r, s, q, r0, s0, q0, h4, rfl⟩ := hy
  have mem : ∀ p ∈ Q.pts, ∃ p', p = inPlane 0 ⟨1, 0, 0⟩ ⟨0, 1, 0⟩ p' ∧ 1 ≤ p'.1 ∧ p'.1 ≤ 3 ∧ 1 ≤ p'.2 ∧ p'.2 ≤ 3 := by
    intro p hp
    rw [hg.points] at hp
    obtain ⟨p', hp', rfl⟩ := List.mem_map.1 hp
    refine ⟨p', rfl, ?_⟩
    simp only [List.mem_cons, List.not_mem_nil, or_false] at hp'
    rcases hp' with rfl | rfl | rfl <;> norm_num
  obtain ⟨a', rfl, a1, a2, a3, a4⟩ := mem a (List.mem_of_getElem? ha)
  obtain ⟨b', rfl, b1, b2, b3, b4⟩ := mem b (List.mem_of_getElem? hb)
  obtain ⟨c', rfl, c1, c2, c3, c4⟩ := mem c (List.mem_of_getElem? hc')
  rw [comb_inPlane _ _ _ h4, region_convex hx hp.corners hp.turns hf.points hf.tri, hf.points, onOutline_iff hx,
    strict_iff hp.corners hp.turns]
  obtain rfl : r = 1 - s - q := by linarith
  rintro i a b ⟨h1, h2⟩
  have hi := (List.getElem?_eq_some_iff.1 h1).1
  simp only [List.length_cons, List.length_nil] at hi
  interval_cases i <;> simp at h1 h2 <;> subst h1 h2 <;> norm_num [signedArea] <;> nlinarith

end B3d.PointExact
