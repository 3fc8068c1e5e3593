import Verif.Props.StitchSurface
import Verif.Props.SliceCases
import Verif.Props.CrossingCases

/-!
# C81: two runs of the stitching

A square and a rectangle which covers three quarters of it are stitched; a square and a strip across its middle are not,
the recursion does not end.
-/

namespace B3d.Solids

open Spec Polygon Slice Points Triangles

/-- A refused slice is tried again and again: if the two polygons which are chosen are left as they are, the recursion
does not end (Python raises `RecursionError`). -/
theorem C81_stuck {rnd : Nat → Str} {S1 S2 : SolidG} {p1 p2 : Str × Poly}
    (h : nextAdjacentPolygons S1 S2 = .ok (some (p1, p2)))
    (hs : ∀ r, sliceBothAndReplace S1 p1 S2 p2 r = ((S1, S2), .ok ())) (fuel : Nat) :
    stitchSolids rnd fuel S1 S2 = none := by
  induction fuel with
  | zero => rfl
  | succ fuel ih =>
    rw [stitchSolids, h]
    simp only [hs]
    exact ih

/-! ### Tools -/

theorem contains_boundary {pts : List (Vec3 ℝ)} {vn : Option (Vec3 ℝ)} {P Q : Poly}
    (h : polygonNew pts none vn = .ok P) {q : Vec3 ℝ} (hq : q ∈ Q.pts) (ho : OnOutline P.pts q) :
    containsPolygon P Q = .ok false := by
  obtain ⟨r, hr, hir⟩ := C71_contains_partial h Q GEOM_ATOL
  cases r with
  | false => exact hr
  | true =>
    have := (hir.1 rfl q hq).2 q ho
    rw [sub_self, Vec3.norm_eq_zero.2 rfl] at this
    exact absurd this (not_le.2 GEOM_ATOL_pos)

theorem contains_outside {pts : List (Vec3 ℝ)} {vn : Option (Vec3 ℝ)} {P Q : Poly} (m : ℝ)
    (h : polygonNew pts none vn = .ok P) {q : Vec3 ℝ} (hq : q ∈ Q.pts)
    (ho : Polygon.isPointInside q P.pts P.tri ≠ .ok true) : containsPolygon P Q m = .ok false := by
  obtain ⟨r, hr, hir⟩ := C71_contains_partial h Q m
  cases r with
  | false => exact hr
  | true => exact absurd (hir.1 rfl q hq).1 ho

theorem contains_all {pts : List (Vec3 ℝ)} {vn : Option (Vec3 ℝ)} {P Q : Poly}
    (h : polygonNew pts none vn = .ok P) (ho : ∀ q ∈ Q.pts, Polygon.isPointInside q P.pts P.tri = .ok true) :
    containsPolygon P Q (-10 ^ 6) = .ok true := by
  obtain ⟨r, hr, hir⟩ := C71_contains_partial h Q (-10 ^ 6)
  rw [hr, hir.2 fun q hq => ⟨ho q hq, fun y _ => le_trans (by norm_num) (Vec3.norm_nonneg _)⟩]

/-- The points differ by a metre in one of the first two coordinates. -/
def Far (x y : Vec3 ℝ) : Prop := 1 ≤ |x.x - y.x| ∨ 1 ≤ |x.y - y.y|

theorem far_norm {x y : Vec3 ℝ} (h : Far x y) : (2 / 10 ^ 4 * 150 + 5 / 10 ^ 5 : ℝ) < Vec3.norm (x - y) := by
  refine lt_of_lt_of_le (by norm_num) (b := 1) ?_
  rcases h with h | h
  · exact le_trans h (Vec3.abs_x_le (x - y))
  · exact le_trans h (Vec3.abs_y_le (x - y))

theorem far_none {a b c d : Vec3 ℝ} (ha : Vec3.norm a ≤ 150) (hb : Vec3.norm b ≤ 150) (hc : Vec3.norm c ≤ 150)
    (hd : Vec3.norm d ≤ 150) (h : ∀ x y, OnSegment a b x → OnSegment c d y → Far x y) :
    lineSegmentIntersection a b c d = none := by
  cases hp : lineSegmentIntersection a b c d with
  | none => rfl
  | some p =>
    obtain ⟨y, z, hy, hz, hd⟩ := intersection_near ha hb hc hd hp
    exact absurd hd (not_le.2 (far_norm (h y z hy hz)))

/-- Polygons the edges of which have an end in common or are far apart do not cross. -/
theorem not_crossing {pts1 pts2 : List (Vec3 ℝ)} {vn1 vn2 : Option (Vec3 ℝ)} {P Q : Poly}
    (h1 : polygonNew pts1 none vn1 = .ok P) (h2 : polygonNew pts2 none vn2 = .ok Q)
    (hM1 : ∀ p ∈ P.pts, Vec3.norm p ≤ 150) (hM2 : ∀ p ∈ Q.pts, Vec3.norm p ≤ 150)
    (h : ∀ e ∈ cycEdges P.pts, ∀ e' ∈ cycEdges Q.pts, (e.1 = e'.1 ∨ e.1 = e'.2 ∨ e.2 = e'.2 ∨ e.2 = e'.1) ∨
      ∀ x y, OnSegment e.1 e.2 x → OnSegment e'.1 e'.2 y → Far x y) :
    arePolygonsCrossing P.pts P.tri Q.pts Q.tri = .ok false := by
  obtain ⟨r, b1, b2, hr, hb1, hb2, hir⟩ := crossing_iff (polygonNew_sturdy h1) (polygonNew_sturdy h2)
    (fun e he => polygonNew_edges_ne h1 he) (fun e he => polygonNew_edges_ne h2 he)
  cases r with
  | false => exact hr
  | true =>
    exfalso
    obtain ⟨-, -, e1, he1, e2, he2, ⟨n1, n2, n3, n4⟩, p, hp, -⟩ := hir.1 rfl
    rcases h e1 he1 e2 he2 with k | k
    · have hne : ∀ {a b : Vec3 ℝ}, pointsEqual a b = false → a ≠ b := by
        rintro a b h rfl
        rw [pointsEqual_refl] at h
        cases h
      rcases k with k | k | k | k
      · exact hne n1 k
      · exact hne n2 k
      · exact hne n3 k
      · exact hne n4 k
    · have m1 := mem_of_edge he1
      have m2 := mem_of_edge he2
      rw [far_none (hM1 _ m1.1) (hM1 _ m1.2) (hM2 _ m2.1) (hM2 _ m2.2) k] at hp
      cases hp

/-- Where a line along the y axis and a line along the x axis cross. -/
theorem intersection_yx {x0 x1 y x y0 y1 t s : ℝ} (hx : 1 ≤ |x1 - x0|) (hy : 1 ≤ |y1 - y0|) (t0 : 0 ≤ t) (t1 : t ≤ 1)
    (s0 : 0 ≤ s) (s1 : s ≤ 1) (ht : x = x0 + t * (x1 - x0)) (hs : y = y0 + s * (y1 - y0)) :
    lineSegmentIntersection ⟨x, y0, 0⟩ ⟨x, y1, 0⟩ ⟨x0, y, 0⟩ ⟨x1, y, 0⟩ = some (⟨x, y, 0⟩ : Vec3 ℝ) := by
  have e1 : (⟨x1, y, 0⟩ : Vec3 ℝ) - ⟨x0, y, 0⟩ = ⟨x1 - x0, 0, 0⟩ := by ext <;> simp
  have e2 : (⟨x, y1, 0⟩ : Vec3 ℝ) - ⟨x, y0, 0⟩ = ⟨0, y1 - y0, 0⟩ := by ext <;> simp
  have := C37_complete_partial (pa2 := ⟨x0, y, 0⟩) (pb2 := ⟨x1, y, 0⟩) (pa1 := ⟨x, y0, 0⟩) (pb1 := ⟨x, y1, 0⟩)
    (t := s) (s := t) (by rw [e2]; exact notShort_y hy) (by rw [e1]; exact notShort_x hx)
    (by rw [e1, e2]; exact notParallel_yx hy) ⟨s0, s1⟩ ⟨t0, t1⟩ (by rw [e1, e2]; ext <;> simp [ht, hs])
  rw [this, e2]
  congr 1
  ext <;> simp [hs]

/-- A rectangle in the plane `z = 0` that faces down. -/
theorem down_polygon {a b c d : Vec3 ℝ} {x1 y1 x2 y2 p q : ℝ} (ha : a.z = 0) (hb : b = a + ⟨x1, y1, 0⟩)
    (hc : c = a + ⟨x1, y1, 0⟩ + ⟨x2, y2, 0⟩) (hd : d = a + ⟨x2, y2, 0⟩) (h : x1 * x2 + y1 * y2 = 0)
    (h2 : x1 * y2 - y1 * x2 ≤ -1) (hu : x1 ^ 2 + y1 ^ 2 = p ^ 2) (hw : x2 ^ 2 + y2 ^ 2 = q ^ 2) (p1 : 1 ≤ p)
    (p2 : p ≤ 100) (q1 : 1 ≤ q) (q2 : q ≤ 100) (cd : pointsEqual c d = false) (ca : pointsEqual c a = false)
    (cb : pointsEqual c b = false) : ∃ Q, polygonNew [a, b, c, d] none none = .ok Q ∧ Q.pts = [a, b, c, d] ∧
      Q.vn = some ⟨0, 0, -1⟩ ∧ Q.tri = [(3, 0, 1), (3, 1, 2)] := by
  have hr := rect_good hb hc hd h hu hw p1 p2 q1 q2 cd ca cb
  subst hb hc hd
  obtain ⟨ax, ay, az⟩ := a
  obtain rfl : az = 0 := ha
  have hrn : rectNormal (⟨x1, y1, 0⟩ : Vec3 ℝ) ⟨x2, y2, 0⟩ = ⟨0, 0, -1⟩ := by
    have e : Vec3.cross (⟨x1, y1, 0⟩ : Vec3 ℝ) ⟨x2, y2, 0⟩ = ⟨0, 0, x1 * y2 - y1 * x2⟩ := by
      ext <;> simp
    rw [rectNormal, e, norm_z, abs_of_neg (by linarith)]
    have h3 : y1 * x2 - x1 * y2 ≠ 0 := by linarith
    ext <;> simp
    rw [inv_mul_eq_div, div_eq_iff h3]
    ring
  have ht := hr.triangles
  rw [hrn] at ht
  have e1 : (⟨ax, ay, 0⟩ + ⟨x1, y1, 0⟩ : Vec3 ℝ) = ⟨ax + x1, ay + y1, 0⟩ := by ext <;> simp
  have e2 : (⟨ax, ay, 0⟩ + ⟨x1, y1, 0⟩ + ⟨x2, y2, 0⟩ : Vec3 ℝ) = ⟨ax + x1 + x2, ay + y1 + y2, 0⟩ := by ext <;> simp
  have e3 : (⟨ax, ay, 0⟩ + ⟨x2, y2, 0⟩ : Vec3 ℝ) = ⟨ax + x2, ay + y2, 0⟩ := by ext <;> simp
  rw [e2, e3, e1] at ht ⊢
  refine polygonNew_intro ?_ (by simp) ?_ ht
  · have := coplanar_z [(ax, ay), (ax + x1, ay + y1), (ax + x1 + x2, ay + y1 + y2), (ax + x2, ay + y2)]
    simpa using this
  · simp only [chooseNormal, List.getLast?_cons_cons, List.getLast?_singleton, List.getElem?_cons_zero,
      List.getElem?_cons_succ, Except.ok.injEq]
    exact normal_z (.inr rfl) (by nlinarith)

theorem norm150 {x y : ℝ} (hx : |x| ≤ 100) (hy : |y| ≤ 100) : Vec3.norm (⟨x, y, 0⟩ : Vec3 ℝ) ≤ 150 := by
  apply Vec3.norm_le_of_sq (by norm_num)
  have h1 := sq_le_sq' (neg_le_of_abs_le hx) (le_of_abs_le hx)
  have h2 := sq_le_sq' (neg_le_of_abs_le hy) (le_of_abs_le hy)
  simp only [Vec3.normSq_def]
  nlinarith

/-- Segments one of which is left of the other by a metre. -/
theorem far_left {a b c d : Vec3 ℝ} (m : ℝ) (h1 : a.x ≤ m) (h2 : b.x ≤ m) (h3 : m + 1 ≤ c.x) (h4 : m + 1 ≤ d.x) :
    ∀ x y, OnSegment a b x → OnSegment c d y → Far x y := by
  rintro x y ⟨t, t0, t1, rfl⟩ ⟨r, r0, r1, rfl⟩
  refine .inl (le_abs.2 (.inr ?_))
  simp only [Vec3.add_x, Vec3.smul_x, Vec3.sub_x]
  nlinarith

theorem far_right {a b c d : Vec3 ℝ} (m : ℝ) (h1 : m + 1 ≤ a.x) (h2 : m + 1 ≤ b.x) (h3 : c.x ≤ m) (h4 : d.x ≤ m) :
    ∀ x y, OnSegment a b x → OnSegment c d y → Far x y := by
  intro x y hx hy
  rcases far_left m h3 h4 h1 h2 y x hy hx with h | h
  · exact .inl (by rwa [abs_sub_comm])
  · exact .inr (by rwa [abs_sub_comm])

theorem far_up {a b c d : Vec3 ℝ} (m : ℝ) (h1 : m + 1 ≤ a.y) (h2 : m + 1 ≤ b.y) (h3 : c.y ≤ m) (h4 : d.y ≤ m) :
    ∀ x y, OnSegment a b x → OnSegment c d y → Far x y := by
  rintro x y ⟨t, t0, t1, rfl⟩ ⟨r, r0, r1, rfl⟩
  refine .inr (le_abs.2 (.inl ?_))
  simp only [Vec3.add_y, Vec3.smul_y, Vec3.sub_y]
  nlinarith

theorem far_down {a b c d : Vec3 ℝ} (m : ℝ) (h1 : a.y ≤ m) (h2 : b.y ≤ m) (h3 : m + 1 ≤ c.y) (h4 : m + 1 ≤ d.y) :
    ∀ x y, OnSegment a b x → OnSegment c d y → Far x y := by
  intro x y hx hy
  rcases far_up m h3 h4 h1 h2 y x hy hx with h | h
  · exact .inl (by rwa [abs_sub_comm])
  · exact .inr (by rwa [abs_sub_comm])

/-! ### The strip -/

/-- A strip across the middle of the square, seen from below. -/
noncomputable def strip : List (Vec3 ℝ) := [⟨1, 4, 0⟩, ⟨3, 4, 0⟩, ⟨3, 0, 0⟩, ⟨1, 0, 0⟩]

theorem strip_edges : cycEdges strip = [(⟨1, 4, 0⟩, ⟨3, 4, 0⟩), (⟨3, 4, 0⟩, ⟨3, 0, 0⟩), (⟨3, 0, 0⟩, ⟨1, 0, 0⟩),
    (⟨1, 0, 0⟩, ⟨1, 4, 0⟩)] := rfl

theorem strip_polygon : ∃ Q, polygonNew strip none none = .ok Q ∧ Q.pts = strip ∧ Q.vn = some ⟨0, 0, -1⟩ := by
  obtain ⟨Q, h1, h2, h3, -⟩ := down_polygon (a := ⟨1, 4, 0⟩) (b := ⟨3, 4, 0⟩) (c := ⟨3, 0, 0⟩) (d := ⟨1, 0, 0⟩)
    (x1 := 2) (y1 := 0) (x2 := 0) (y2 := -4) (p := 2) (q := 4) rfl (by ext <;> norm_num) (by ext <;> norm_num)
    (by ext <;> norm_num) (by norm_num) (by norm_num) (by norm_num) (by norm_num) (by norm_num) (by norm_num)
    (by norm_num) (by norm_num) (notEqual_x (by norm_num) (by norm_num)) (notEqual_x (by norm_num) (by norm_num))
    (notEqual_y (by norm_num) (by norm_num))
  exact ⟨Q, h1, h2, h3⟩

theorem strip_inside : ∀ q ∈ strip, Polygon.isPointInside q square squareTri = .ok true := by
  intro q hq
  simp only [strip, List.mem_cons, List.not_mem_nil, or_false] at hq
  rcases hq with rfl | rfl | rfl | rfl
  · exact square_second (t := 1 / 4) (by norm_num) (by norm_num) (by norm_num) rfl
  · exact square_second (t := 3 / 4) (by norm_num) (by norm_num) (by norm_num) rfl
  · exact square_first (.inl ⟨3 / 4, by norm_num, by norm_num, by norm_num, rfl⟩)
  · exact square_first (.inl ⟨1 / 4, by norm_num, by norm_num, by norm_num, rfl⟩)

/-- No point is added where the strip meets the square. -/
theorem strip_intersections : addIntersectionPoints square strip = .ok (square, strip) := by
  have he : polygonEdges 0 strip = .ok (cycEdges strip) := polygonEdges_eq 0 _ (by simp [strip])
  have n0 : ∀ x y : ℝ, |x| ≤ 100 → |y| ≤ 100 → Vec3.norm (⟨x, y, 0⟩ : Vec3 ℝ) ≤ 150 := fun x y => norm150
  have b1 : lineSegmentIntersection ⟨0, 0, 0⟩ ⟨4, 0, 0⟩ ⟨1, 0, 0⟩ ⟨1, 4, 0⟩ = some (⟨1, 0, 0⟩ : Vec3 ℝ) :=
    intersection_xy (t := 1 / 4) (s := 0) (by norm_num) (by norm_num) (by norm_num) (by norm_num) (by norm_num)
      (by norm_num) (by norm_num) (by norm_num)
  have b2 : lineSegmentIntersection ⟨0, 0, 0⟩ ⟨4, 0, 0⟩ ⟨3, 4, 0⟩ ⟨3, 0, 0⟩ = some (⟨3, 0, 0⟩ : Vec3 ℝ) :=
    intersection_xy (t := 3 / 4) (s := 1) (by norm_num) (by norm_num) (by norm_num) (by norm_num) (by norm_num)
      (by norm_num) (by norm_num) (by norm_num)
  have t1 : lineSegmentIntersection ⟨4, 4, 0⟩ ⟨0, 4, 0⟩ ⟨1, 0, 0⟩ ⟨1, 4, 0⟩ = some (⟨1, 4, 0⟩ : Vec3 ℝ) :=
    intersection_xy (t := 3 / 4) (s := 1) (by norm_num) (by norm_num) (by norm_num) (by norm_num) (by norm_num)
      (by norm_num) (by norm_num) (by norm_num)
  have t2 : lineSegmentIntersection ⟨4, 4, 0⟩ ⟨0, 4, 0⟩ ⟨3, 4, 0⟩ ⟨3, 0, 0⟩ = some (⟨3, 4, 0⟩ : Vec3 ℝ) :=
    intersection_xy (t := 1 / 4) (s := 0) (by norm_num) (by norm_num) (by norm_num) (by norm_num) (by norm_num)
      (by norm_num) (by norm_num) (by norm_num)
  have b3 : lineSegmentIntersection (⟨0, 0, 0⟩ : Vec3 ℝ) ⟨4, 0, 0⟩ ⟨1, 4, 0⟩ ⟨3, 4, 0⟩ = none :=
    intersection_xx (k := 1 / 2) (by norm_num) rfl rfl
  have b4 : lineSegmentIntersection (⟨0, 0, 0⟩ : Vec3 ℝ) ⟨4, 0, 0⟩ ⟨3, 0, 0⟩ ⟨1, 0, 0⟩ = none :=
    intersection_xx (k := -1 / 2) (by norm_num) rfl rfl
  have t3 : lineSegmentIntersection (⟨4, 4, 0⟩ : Vec3 ℝ) ⟨0, 4, 0⟩ ⟨1, 4, 0⟩ ⟨3, 4, 0⟩ = none :=
    intersection_xx (k := -1 / 2) (by norm_num) rfl rfl
  have t4 : lineSegmentIntersection (⟨4, 4, 0⟩ : Vec3 ℝ) ⟨0, 4, 0⟩ ⟨3, 0, 0⟩ ⟨1, 0, 0⟩ = none :=
    intersection_xx (k := 1 / 2) (by norm_num) rfl rfl
  have r : ∀ e ∈ cycEdges strip, lineSegmentIntersection (⟨4, 0, 0⟩ : Vec3 ℝ) ⟨4, 4, 0⟩ e.1 e.2 = none := by
    intro e he
    rw [strip_edges] at he
    simp only [List.mem_cons, List.not_mem_nil, or_false] at he
    rcases he with rfl | rfl | rfl | rfl <;>
    exact far_none (n0 _ _ (by norm_num) (by norm_num)) (n0 _ _ (by norm_num) (by norm_num))
      (n0 _ _ (by norm_num) (by norm_num)) (n0 _ _ (by norm_num) (by norm_num))
      (far_right 3 (by norm_num) (by norm_num) (by norm_num) (by norm_num))
  have l : ∀ e ∈ cycEdges strip, lineSegmentIntersection (⟨0, 4, 0⟩ : Vec3 ℝ) ⟨0, 0, 0⟩ e.1 e.2 = none := by
    intro e he
    rw [strip_edges] at he
    simp only [List.mem_cons, List.not_mem_nil, or_false] at he
    rcases he with rfl | rfl | rfl | rfl <;>
    exact far_none (n0 _ _ (by norm_num) (by norm_num)) (n0 _ _ (by norm_num) (by norm_num))
      (n0 _ _ (by norm_num) (by norm_num)) (n0 _ _ (by norm_num) (by norm_num))
      (far_left 0 (by norm_num) (by norm_num) (by norm_num) (by norm_num))
  have hi : intersections (cycEdges square) (cycEdges strip) = [] := by
    simp only [strip_edges, List.forall_mem_cons, List.not_mem_nil, false_imp_iff, implies_true, and_true] at r l
    obtain ⟨r1, r2, r3, r4⟩ := r
    obtain ⟨l1, l2, l3, l4⟩ := l
    simp [intersections, square_edges, strip_edges, b1, b2, b3, b4, t1, t2, t3, t4, r1, r2, r3, r4, l1, l2, l3, l4,
      pointsEqual_refl]
  simp only [addIntersectionPoints, square_polygonEdges, he, hi]
  rw [square_edges, strip_edges]
  simp [square, strip]

/-- Only one corner of the strip is kept as a point of the cutting line. -/
theorem strip_kept : removeRedundantPoints strip square squareTri = .ok [⟨3, 4, 0⟩] := by
  have hl : locatePoints strip square squareTri (cycEdges square) =
      .ok [(⟨1, 4, 0⟩, .edge, 2), (⟨3, 4, 0⟩, .edge, 2), (⟨3, 0, 0⟩, .edge, 0), (⟨1, 0, 0⟩, .edge, 0)] := by
    simp [locatePoints, locateAll, strip, square_bottom (le_refl (1 : ℝ)) (by norm_num),
      square_bottom (x := 3) (by norm_num) (by norm_num),
      square_top (le_refl (1 : ℝ)) (by norm_num), square_top (x := 3) (by norm_num) (by norm_num)]
  simp only [removeRedundantPoints, square_polygonEdges, hl]
  simp [rollAndKeep, keepPoints, keepLoop, keepPoint, nextLoc, count]

/-- A point left of all corners by a metre is not inside. -/
theorem left_outside {pts : List (Vec3 ℝ)} {vn : Option (Vec3 ℝ)} {P : Poly} {v : Vec3 ℝ} {e : ℝ}
    (h : polygonNew pts none vn = .ok P) (hv : P.vn = some v) (hpl : ∀ p ∈ P.pts, Vec3.dot v p = e)
    (hs : SpansPlane P.pts) (hM : ∀ p ∈ P.pts, Vec3.norm p ≤ 150) {x : Vec3 ℝ} (hx : ∀ p ∈ P.pts, x.x + 1 ≤ p.x) :
    Polygon.isPointInside x P.pts P.tri ≠ .ok true := by
  intro hin
  obtain ⟨y, ⟨t, -, a, b, c, ha, hb, hc, r, s, u, r0, s0, u0, h1, rfl⟩, hd⟩ := C71_sound_partial h hv hpl hs hM hin
  have ka := hx _ (List.mem_of_getElem? ha)
  have kb := hx _ (List.mem_of_getElem? hb)
  have kc := hx _ (List.mem_of_getElem? hc)
  have h2 := (abs_le.1 ((Vec3.abs_x_le _).trans hd)).1
  simp only [Vec3.sub_x, Vec3.add_x, Vec3.smul_x] at h2
  have h3 : x.x + 1 ≤ r * a.x + s * b.x + u * c.x := by
    have e : x.x + 1 = r * (x.x + 1) + s * (x.x + 1) + u * (x.x + 1) := by rw [← add_mul, ← add_mul, h1, one_mul]
    linarith [mul_le_mul_of_nonneg_left ka r0, mul_le_mul_of_nonneg_left kb s0, mul_le_mul_of_nonneg_left kc u0]
  norm_num at h2
  linarith

theorem strip_norm : ∀ p ∈ strip, Vec3.norm p ≤ 150 := by
  intro p hp
  simp only [strip, List.mem_cons, List.not_mem_nil, or_false] at hp
  rcases hp with rfl | rfl | rfl | rfl <;> exact norm150 (by norm_num) (by norm_num)

theorem strip_spans : SpansPlane strip := by
  refine ⟨⟨0, _, _, _, rfl, rfl, rfl, ?_⟩, 0, _, _, _, rfl, rfl, rfl, ?_, ?_, ?_⟩
  · refine lt_of_lt_of_le ?_ (Vec3.abs_z_le _)
    norm_num
  · refine le_trans ?_ (Vec3.abs_x_le _)
    norm_num
  · refine le_trans ?_ (Vec3.abs_x_le _)
    norm_num
  · norm_num [Vec3.dot, Vec3.normSq]

theorem strip_crosses {P Q : Poly} (hP : polygonNew square none none = .ok P) (hp : P.pts = square)
    (hv : P.vn = some ⟨0, 0, 1⟩) (ht : P.tri = squareTri) (hQ : polygonNew strip none none = .ok Q)
    (hq : Q.pts = strip) (hw : Q.vn = some ⟨0, 0, -1⟩) : arePolygonsCrossing P.pts P.tri Q.pts Q.tri = .ok true := by
  have s1 : (⟨4, 0, 0⟩ : Vec3 ℝ) - ⟨0, 0, 0⟩ = ⟨4, 0, 0⟩ := by ext <;> simp
  have s2 : (⟨1, 4, 0⟩ : Vec3 ℝ) - ⟨1, 0, 0⟩ = ⟨0, 4, 0⟩ := by ext <;> norm_num
  refine C76_complete_partial hP hQ hv hw (e := 0) (f := 0) (n := ⟨0, 0, 1⟩) (g := 0) (by rw [hp]; exact square_flat)
    (by rw [hq]; simp [strip, Vec3.dot]) ?_ ?_ (e1 := (⟨0, 0, 0⟩, ⟨4, 0, 0⟩)) (e2 := (⟨1, 0, 0⟩, ⟨1, 4, 0⟩)) ?_ ?_ ?_
    ?_ ?_ ?_ (x := ⟨1, 0, 0⟩) ?_ ?_ ⟨4, by norm_num, .inr ?_⟩
  · intro e
    have := congrArg Vec3.z e
    simp at this
  · rw [hp, hq]
    simp [square, strip, Vec3.dot]
  · rw [hp, square_edges]; simp
  · rw [hq, strip_edges]; simp
  · refine noShared_of ?_ ?_ ?_ ?_ ?_ ?_ ?_ ?_ <;> norm_num
  · simp only [s1]; exact notShort_x (by norm_num)
  · simp only [s2]; exact notShort_y (by norm_num)
  · simp only [s1, s2]; exact notParallel_xy (by norm_num)
  · exact ⟨1 / 4, by norm_num, by norm_num, by simp only [s1]; ext <;> norm_num⟩
  · exact ⟨0, by norm_num, by norm_num, by simp only [s2]; ext <;> norm_num⟩
  · have := rect_deep (x := 1) (y := 16 / 9) (box_of 0 4 0 4 (by norm_num)) (by norm_num) (by norm_num) (by norm_num)
      (by norm_num) (by norm_num) (by norm_num) (by norm_num) hp ht
    convert this using 1
    simp only [s2]
    ext <;> norm_num

/-- Slicing the square along the strip is refused. -/
theorem strip_refused {P : Poly} (hp : P.pts = square) (ht : P.tri = squareTri) (n rnd : Str) :
    sliceOne (n, P) strip rnd = .ok none := by
  have hc : arePointsCoplanar (P.pts ++ strip) = true := by
    have := coplanar_z [(0, 0), (4, 0), (4, 4), (0, 4), (1, 4), (3, 4), (3, 0), (1, 0)]
    rw [hp]
    simpa [square, strip] using this
  have i1 : addIntersectionPoints P.pts strip = .ok (square, strip) := by rw [hp, strip_intersections]
  have i2 : removeRedundantPoints strip P.pts P.tri = .ok [⟨3, 4, 0⟩] := by rw [hp, ht, strip_kept]
  have i3 : removeOutsidePoints P strip = .ok strip := by
    have := strip_inside
    simp only [strip, List.forall_mem_cons, List.not_mem_nil, false_imp_iff, implies_true, and_true] at this
    obtain ⟨h1, h2, h3, h4⟩ := this
    simp [strip, removeOutsidePoints, hp, ht, h1, h2, h3, h4]
  have i4 : slicePolygon P strip none (some (mainName n)) none (some (supName n)) rnd rnd = .error .geometryError := by
    simp [slicePolygon, hc, i1, i2]
  have i5 : ¬ strip.length < 2 := by simp [strip]
  simp only [sliceOne, i1, i3, if_neg i5, i4]

/-- **C81 is false as stated: the recursion need not end.**  A square wall of one solid and a wall of the other solid
that covers the middle half of it, from the bottom to the top and seen from the other side: the polygons are found to
cross, slicing is refused since a single corner is kept, and the same two polygons are tried again, for ever
(`RecursionError`). -/
theorem C81_endless : ∃ P Q : Poly, polygonNew square none none = .ok P ∧ polygonNew strip none none = .ok Q ∧
    P.vn = some ⟨0, 0, 1⟩ ∧ Q.vn = some ⟨0, 0, -1⟩ ∧
    ∀ (rnd : Nat → Str) (fuel : Nat) (n m w u : Str), stitchSolids rnd fuel [⟨w, [(n, P)]⟩] [⟨u, [(m, Q)]⟩] = none := by
  obtain ⟨P, hP, hp, hv, ht⟩ := square_polygon
  obtain ⟨Q, hQ, hq, hw⟩ := strip_polygon
  refine ⟨P, Q, hP, hQ, hv, hw, fun rnd fuel n m w u => ?_⟩
  have hx := strip_crosses hP hp hv ht hQ hq hw
  have k1 : containsPolygon P Q = .ok false :=
    contains_boundary hP (q := ⟨1, 0, 0⟩) (by rw [hq]; simp [strip]) (by
      rw [hp]
      exact ⟨(⟨0, 0, 0⟩, ⟨4, 0, 0⟩), by rw [square_edges]; simp, 1 / 4, by norm_num, by norm_num, by ext <;> norm_num⟩)
  have out : Polygon.isPointInside ⟨0, 0, 0⟩ Q.pts Q.tri ≠ .ok true :=
    left_outside hQ hw (e := 0) (by rw [hq]; simp [strip, Vec3.dot]) (by rw [hq]; exact strip_spans)
      (by rw [hq]; exact strip_norm) (by rw [hq]; simp [strip])
  have k2 : ∀ m, containsPolygon Q P m = .ok false := fun m => contains_outside m hQ (by rw [hp]; simp [square]) out
  have k3 : containsPolygon P Q (-10 ^ 6) = .ok true := contains_all hP (by rw [hp, ht, hq]; exact strip_inside)
  refine C81_stuck (p1 := (n, P)) (p2 := (m, Q)) ?_ (fun r => ?_) fuel
  · have : canBeSliced P Q = .ok true := by simp [canBeSliced, hx, k1, k2 _]
    simp [nextAdjacentPolygons, wallsAndPolygons, firstSliceable, this]
  · have hc : containments P Q = .ok (false, false, true, false) := by simp only [containments, k1, k2, k3]
    have hs : sliceOnce [⟨w, [(n, P)]⟩] (n, P) Q.pts r = ([⟨w, [(n, P)]⟩], .ok ()) := by
      simp only [sliceOnce, sliceOneAndReplace, hq, strip_refused hp ht]
    simp [sliceBothAndReplace, hc, hs]

end B3d.Solids
