import Verif.Props.StitchCases

/-!
# C81: a run of the stitching

A square wall and a wall of another solid which covers three quarters of it, seen from the other side.
-/

namespace B3d.Solids

open Spec Polygon Slice Points Triangles

/-- The part of the square right of `x = 1`, seen from below. -/
noncomputable def most : List (Vec3 ℝ) := [⟨1, 0, 0⟩, ⟨1, 4, 0⟩, ⟨4, 4, 0⟩, ⟨4, 0, 0⟩]

theorem most_edges : cycEdges most = [(⟨1, 0, 0⟩, ⟨1, 4, 0⟩), (⟨1, 4, 0⟩, ⟨4, 4, 0⟩), (⟨4, 4, 0⟩, ⟨4, 0, 0⟩),
    (⟨4, 0, 0⟩, ⟨1, 0, 0⟩)] := rfl

theorem most_polygon : ∃ Q, polygonNew most none none = .ok Q ∧ Q.pts = most ∧ Q.vn = some ⟨0, 0, -1⟩ := by
  obtain ⟨Q, h1, h2, h3, -⟩ := down_polygon (a := ⟨1, 0, 0⟩) (b := ⟨1, 4, 0⟩) (c := ⟨4, 4, 0⟩) (d := ⟨4, 0, 0⟩)
    (x1 := 0) (y1 := 4) (x2 := 3) (y2 := 0) (p := 4) (q := 3) rfl (by ext <;> norm_num) (by ext <;> norm_num)
    (by ext <;> norm_num) (by norm_num) (by norm_num) (by norm_num) (by norm_num) (by norm_num) (by norm_num)
    (by norm_num) (by norm_num) (notEqual_y (by norm_num) (by norm_num)) (notEqual_x (by norm_num) (by norm_num))
    (notEqual_x (by norm_num) (by norm_num))
  exact ⟨Q, h1, h2, h3⟩

theorem square_vertex {p : Vec3 ℝ} (h : p ∈ square) : Polygon.isPointInside p square squareTri = .ok true := by
  obtain ⟨P, hP, hp, hv, ht⟩ := square_polygon
  rw [← hp] at h
  have := C71_accepts_partial hP hv (e := 0) (by rw [hp]; exact square_flat) (.inr h)
  rwa [hp, ht] at this

theorem most_inside : ∀ q ∈ most, Polygon.isPointInside q square squareTri = .ok true := by
  intro q hq
  simp only [most, List.mem_cons, List.not_mem_nil, or_false] at hq
  rcases hq with rfl | rfl | rfl | rfl
  · exact square_first (.inl ⟨1 / 4, by norm_num, by norm_num, by norm_num, rfl⟩)
  · exact square_second (t := 1 / 4) (by norm_num) (by norm_num) (by norm_num) rfl
  · exact square_vertex (by simp [square])
  · exact square_vertex (by simp [square])

theorem square_corner1 : locatePoint ⟨4, 0, 0⟩ square squareTri (cycEdges square) = .ok (.vertex, 1) := by
  have e1 : pointsEqual (⟨4, 0, 0⟩ : Vec3 ℝ) ⟨0, 0, 0⟩ = false := notEqual_x (by norm_num) (by norm_num)
  unfold locatePoint
  rw [square_vertex (by simp [square])]
  simp [square, List.findIdx?_cons, e1, pointsEqual_refl]

theorem square_corner2 : locatePoint ⟨4, 4, 0⟩ square squareTri (cycEdges square) = .ok (.vertex, 2) := by
  have e1 : pointsEqual (⟨4, 4, 0⟩ : Vec3 ℝ) ⟨0, 0, 0⟩ = false := notEqual_x (by norm_num) (by norm_num)
  have e2 : pointsEqual (⟨4, 4, 0⟩ : Vec3 ℝ) ⟨4, 0, 0⟩ = false := notEqual_y (by norm_num) (by norm_num)
  unfold locatePoint
  rw [square_vertex (by simp [square])]
  simp [square, List.findIdx?_cons, e1, e2, pointsEqual_refl]

/-- The ends of the line between the parts are kept. -/
theorem most_kept : removeRedundantPoints most square squareTri = .ok [⟨1, 0, 0⟩, ⟨1, 4, 0⟩] := by
  have hl : locatePoints most square squareTri (cycEdges square) =
      .ok [(⟨1, 0, 0⟩, .edge, 0), (⟨1, 4, 0⟩, .edge, 2), (⟨4, 4, 0⟩, .vertex, 2), (⟨4, 0, 0⟩, .vertex, 1)] := by
    simp [locatePoints, locateAll, most, square_bottom (le_refl (1 : ℝ)) (by norm_num),
      square_top (le_refl (1 : ℝ)) (by norm_num), square_corner1, square_corner2]
  simp only [removeRedundantPoints, square_polygonEdges, hl]
  simp [rollAndKeep, keepPoints, keepLoop, keepPoint, nextLoc, count]

theorem most_intersections : addIntersectionPoints square most = .ok (square, most) := by
  have he : polygonEdges 0 most = .ok (cycEdges most) := polygonEdges_eq 0 _ (by simp [most])
  have n0 : ∀ x y : ℝ, |x| ≤ 100 → |y| ≤ 100 → Vec3.norm (⟨x, y, 0⟩ : Vec3 ℝ) ≤ 150 := fun x y => norm150
  have b1 : lineSegmentIntersection ⟨0, 0, 0⟩ ⟨4, 0, 0⟩ ⟨1, 0, 0⟩ ⟨1, 4, 0⟩ = some (⟨1, 0, 0⟩ : Vec3 ℝ) :=
    intersection_xy (t := 1 / 4) (s := 0) (by norm_num) (by norm_num) (by norm_num) (by norm_num) (by norm_num)
      (by norm_num) (by norm_num) (by norm_num)
  have b3 : lineSegmentIntersection ⟨0, 0, 0⟩ ⟨4, 0, 0⟩ ⟨4, 4, 0⟩ ⟨4, 0, 0⟩ = some (⟨4, 0, 0⟩ : Vec3 ℝ) :=
    intersection_xy (t := 1) (s := 1) (by norm_num) (by norm_num) (by norm_num) (by norm_num) (by norm_num)
      (by norm_num) (by norm_num) (by norm_num)
  have t1 : lineSegmentIntersection ⟨4, 4, 0⟩ ⟨0, 4, 0⟩ ⟨1, 0, 0⟩ ⟨1, 4, 0⟩ = some (⟨1, 4, 0⟩ : Vec3 ℝ) :=
    intersection_xy (t := 3 / 4) (s := 1) (by norm_num) (by norm_num) (by norm_num) (by norm_num) (by norm_num)
      (by norm_num) (by norm_num) (by norm_num)
  have t3 : lineSegmentIntersection ⟨4, 4, 0⟩ ⟨0, 4, 0⟩ ⟨4, 4, 0⟩ ⟨4, 0, 0⟩ = some (⟨4, 4, 0⟩ : Vec3 ℝ) :=
    intersection_xy (t := 0) (s := 0) (by norm_num) (by norm_num) (by norm_num) (by norm_num) (by norm_num)
      (by norm_num) (by norm_num) (by norm_num)
  have r2 : lineSegmentIntersection ⟨4, 0, 0⟩ ⟨4, 4, 0⟩ ⟨1, 4, 0⟩ ⟨4, 4, 0⟩ = some (⟨4, 4, 0⟩ : Vec3 ℝ) :=
    intersection_yx (t := 1) (s := 1) (by norm_num) (by norm_num) (by norm_num) (by norm_num) (by norm_num)
      (by norm_num) (by norm_num) (by norm_num)
  have r4 : lineSegmentIntersection ⟨4, 0, 0⟩ ⟨4, 4, 0⟩ ⟨4, 0, 0⟩ ⟨1, 0, 0⟩ = some (⟨4, 0, 0⟩ : Vec3 ℝ) :=
    intersection_yx (t := 0) (s := 0) (by norm_num) (by norm_num) (by norm_num) (by norm_num) (by norm_num)
      (by norm_num) (by norm_num) (by norm_num)
  have b2 : lineSegmentIntersection (⟨0, 0, 0⟩ : Vec3 ℝ) ⟨4, 0, 0⟩ ⟨1, 4, 0⟩ ⟨4, 4, 0⟩ = none :=
    intersection_xx (k := 3 / 4) (by norm_num) rfl rfl
  have b4 : lineSegmentIntersection (⟨0, 0, 0⟩ : Vec3 ℝ) ⟨4, 0, 0⟩ ⟨4, 0, 0⟩ ⟨1, 0, 0⟩ = none :=
    intersection_xx (k := -3 / 4) (by norm_num) rfl rfl
  have t2 : lineSegmentIntersection (⟨4, 4, 0⟩ : Vec3 ℝ) ⟨0, 4, 0⟩ ⟨1, 4, 0⟩ ⟨4, 4, 0⟩ = none :=
    intersection_xx (k := -3 / 4) (by norm_num) rfl rfl
  have t4 : lineSegmentIntersection (⟨4, 4, 0⟩ : Vec3 ℝ) ⟨0, 4, 0⟩ ⟨4, 0, 0⟩ ⟨1, 0, 0⟩ = none :=
    intersection_xx (k := 3 / 4) (by norm_num) rfl rfl
  have r1 : lineSegmentIntersection (⟨4, 0, 0⟩ : Vec3 ℝ) ⟨4, 4, 0⟩ ⟨1, 0, 0⟩ ⟨1, 4, 0⟩ = none :=
    intersection_yy (k := 1) (by norm_num) rfl rfl
  have r3 : lineSegmentIntersection (⟨4, 0, 0⟩ : Vec3 ℝ) ⟨4, 4, 0⟩ ⟨4, 4, 0⟩ ⟨4, 0, 0⟩ = none :=
    intersection_yy (k := -1) (by norm_num) rfl rfl
  have l : ∀ e ∈ cycEdges most, lineSegmentIntersection (⟨0, 4, 0⟩ : Vec3 ℝ) ⟨0, 0, 0⟩ e.1 e.2 = none := by
    intro e he
    rw [most_edges] at he
    simp only [List.mem_cons, List.not_mem_nil, or_false] at he
    rcases he with rfl | rfl | rfl | rfl <;>
    exact far_none (n0 _ _ (by norm_num) (by norm_num)) (n0 _ _ (by norm_num) (by norm_num))
      (n0 _ _ (by norm_num) (by norm_num)) (n0 _ _ (by norm_num) (by norm_num))
      (far_left 0 (by norm_num) (by norm_num) (by norm_num) (by norm_num))
  have hi : intersections (cycEdges square) (cycEdges most) = [] := by
    simp only [most_edges, List.forall_mem_cons, List.not_mem_nil, false_imp_iff, implies_true, and_true] at l
    obtain ⟨l1, l2, l3, l4⟩ := l
    simp [intersections, square_edges, most_edges, b1, b2, b3, b4, t1, t2, t3, t4, r1, r2, r3, r4, l1, l2, l3, l4,
      pointsEqual_refl]
  simp only [addIntersectionPoints, square_polygonEdges, he, hi]
  rw [square_edges, most_edges]
  simp [square, most]

theorem most_norm : ∀ p ∈ most, Vec3.norm p ≤ 150 := by
  intro p hp
  simp only [most, List.mem_cons, List.not_mem_nil, or_false] at hp
  rcases hp with rfl | rfl | rfl | rfl <;> exact norm150 (by norm_num) (by norm_num)

theorem most_spans : SpansPlane most := by
  refine ⟨⟨0, _, _, _, rfl, rfl, rfl, ?_⟩, 0, _, _, _, rfl, rfl, rfl, ?_, ?_, ?_⟩
  · refine lt_of_lt_of_le ?_ (Vec3.abs_z_le _)
    norm_num
  · refine le_trans ?_ (Vec3.abs_y_le _)
    norm_num
  · refine le_trans ?_ (Vec3.abs_x_le _)
    norm_num
  · norm_num [Vec3.dot, Vec3.normSq]

theorem most_crosses {P Q : Poly} (hP : polygonNew square none none = .ok P) (hp : P.pts = square)
    (hv : P.vn = some ⟨0, 0, 1⟩) (ht : P.tri = squareTri) (hQ : polygonNew most none none = .ok Q)
    (hq : Q.pts = most) (hw : Q.vn = some ⟨0, 0, -1⟩) : arePolygonsCrossing P.pts P.tri Q.pts Q.tri = .ok true := by
  have s1 : (⟨4, 0, 0⟩ : Vec3 ℝ) - ⟨0, 0, 0⟩ = ⟨4, 0, 0⟩ := by ext <;> simp
  have s2 : (⟨1, 4, 0⟩ : Vec3 ℝ) - ⟨1, 0, 0⟩ = ⟨0, 4, 0⟩ := by ext <;> norm_num
  refine C76_complete_partial hP hQ hv hw (e := 0) (f := 0) (n := ⟨0, 0, 1⟩) (g := 0) (by rw [hp]; exact square_flat)
    (by rw [hq]; simp [most, Vec3.dot]) ?_ ?_ (e1 := (⟨0, 0, 0⟩, ⟨4, 0, 0⟩)) (e2 := (⟨1, 0, 0⟩, ⟨1, 4, 0⟩)) ?_ ?_ ?_
    ?_ ?_ ?_ (x := ⟨1, 0, 0⟩) ?_ ?_ ⟨4, by norm_num, .inr ?_⟩
  · intro e
    have := congrArg Vec3.z e
    simp at this
  · rw [hp, hq]
    simp [square, most, Vec3.dot]
  · rw [hp, square_edges]; simp
  · rw [hq, most_edges]; simp
  · refine noShared_of ?_ ?_ ?_ ?_ ?_ ?_ ?_ ?_ <;> norm_num
  · simp only [s1]; exact notShort_x (by norm_num)
  · simp only [s2]; exact notShort_y (by norm_num)
  · simp only [s1, s2]; exact notParallel_xy (by norm_num)
  · exact ⟨1 / 4, by norm_num, by norm_num, by simp only [s1]; ext <;> norm_num⟩
  · exact ⟨0, by norm_num, by norm_num, by simp only [s2]; ext <;> norm_num⟩
  · have := rect_deep (x := 1) (y := 16 / 9) (box_of 0 4 0 4 (by norm_num)) (by norm_num) (by norm_num) (by norm_num)
      (by norm_num) (by norm_num) (by norm_num) (by norm_num) hp ht
    convert this using 1
    simp only [s2]
    ext <;> norm_num

/-- The two parts do not cross the other wall. -/
theorem parts_done {pts1 pts2 : List (Vec3 ℝ)} {vn1 vn2 : Option (Vec3 ℝ)} {P1 P2 Q : Poly}
    (h1 : polygonNew pts1 none vn1 = .ok P1) (h2 : polygonNew pts2 none vn2 = .ok P2)
    (hQ : polygonNew most none none = .ok Q) (hq : Q.pts = most)
    (hp1 : P1.pts = [⟨4, 0, 0⟩, ⟨4, 4, 0⟩, ⟨1, 4, 0⟩, ⟨1, 0, 0⟩])
    (hp2 : P2.pts = [⟨1, 0, 0⟩, ⟨1, 4, 0⟩, ⟨0, 4, 0⟩, ⟨0, 0, 0⟩]) : ∀ P ∈ [P1, P2],
    arePolygonsCrossing P.pts P.tri Q.pts Q.tri = .ok false ∧ containsPolygon P Q = .ok false ∧
      containsPolygon Q P = .ok false := by
  have e1 : cycEdges P1.pts = [(⟨4, 0, 0⟩, ⟨4, 4, 0⟩), (⟨4, 4, 0⟩, ⟨1, 4, 0⟩), (⟨1, 4, 0⟩, ⟨1, 0, 0⟩),
    (⟨1, 0, 0⟩, ⟨4, 0, 0⟩)] := by rw [hp1]; rfl
  have e2 : cycEdges P2.pts = [(⟨1, 0, 0⟩, ⟨1, 4, 0⟩), (⟨1, 4, 0⟩, ⟨0, 4, 0⟩), (⟨0, 4, 0⟩, ⟨0, 0, 0⟩),
    (⟨0, 0, 0⟩, ⟨1, 0, 0⟩)] := by rw [hp2]; rfl
  have eQ := most_edges
  rw [← hq] at eQ
  have oQ : OnOutline Q.pts ⟨1, 0, 0⟩ := ⟨(⟨1, 0, 0⟩, ⟨1, 4, 0⟩), by rw [eQ]; simp, 0, le_refl _, by norm_num, by simp⟩
  have n1 : ∀ p ∈ P1.pts, Vec3.norm p ≤ 150 := by
    rw [hp1]
    intro p hp
    simp only [List.mem_cons, List.not_mem_nil, or_false] at hp
    rcases hp with rfl | rfl | rfl | rfl <;> exact norm150 (by norm_num) (by norm_num)
  have n2 : ∀ p ∈ P2.pts, Vec3.norm p ≤ 150 := by
    rw [hp2]
    intro p hp
    simp only [List.mem_cons, List.not_mem_nil, or_false] at hp
    rcases hp with rfl | rfl | rfl | rfl <;> exact norm150 (by norm_num) (by norm_num)
  have nQ : ∀ p ∈ Q.pts, Vec3.norm p ≤ 150 := by rw [hq]; exact most_norm
  intro P hP
  simp only [List.mem_cons, List.not_mem_nil, or_false] at hP
  rcases hP with rfl | rfl
  · refine ⟨not_crossing h1 hQ n1 nQ ?_, contains_boundary h1 (q := ⟨1, 0, 0⟩) (by rw [hq]; simp [most])
      ⟨(⟨1, 0, 0⟩, ⟨4, 0, 0⟩), by rw [e1]; simp, 0, le_refl _, by norm_num, by simp⟩,
      contains_boundary hQ (q := ⟨1, 0, 0⟩) (by rw [hp1]; simp) oQ⟩
    rw [e1, eQ]
    intro e he e' he'
    simp only [List.mem_cons, List.not_mem_nil, or_false] at he he'
    rcases he with rfl | rfl | rfl | rfl <;> rcases he' with rfl | rfl | rfl | rfl <;>
    first
    | (left; simp; done)
    | (refine .inr (far_left 1 ?_ ?_ ?_ ?_) <;> norm_num; done)
    | (refine .inr (far_right 1 ?_ ?_ ?_ ?_) <;> norm_num; done)
    | (refine .inr (far_up 0 ?_ ?_ ?_ ?_) <;> norm_num; done)
    | (refine .inr (far_down 0 ?_ ?_ ?_ ?_) <;> norm_num)
  · refine ⟨not_crossing h2 hQ n2 nQ ?_, contains_boundary h2 (q := ⟨1, 0, 0⟩) (by rw [hq]; simp [most])
      ⟨(⟨1, 0, 0⟩, ⟨1, 4, 0⟩), by rw [e2]; simp, 0, le_refl _, by norm_num, by simp⟩,
      contains_boundary hQ (q := ⟨1, 0, 0⟩) (by rw [hp2]; simp) oQ⟩
    rw [e2, eQ]
    intro e he e' he'
    simp only [List.mem_cons, List.not_mem_nil, or_false] at he he'
    rcases he with rfl | rfl | rfl | rfl <;> rcases he' with rfl | rfl | rfl | rfl <;>
    first
    | (left; simp; done)
    | (refine .inr (far_left 0 ?_ ?_ ?_ ?_) <;> norm_num; done)
    | (refine .inr (far_left 1 ?_ ?_ ?_ ?_) <;> norm_num; done)
    | (refine .inr (far_up 0 ?_ ?_ ?_ ?_) <;> norm_num; done)
    | (refine .inr (far_down 0 ?_ ?_ ?_ ?_) <;> norm_num)

/-- The first round: the walls are found, and slicing the square makes two good parts of it. -/
theorem most_round : ∃ P Q P1 P2 : Poly, polygonNew square none none = .ok P ∧ polygonNew most none none = .ok Q ∧
    P.vn = some ⟨0, 0, 1⟩ ∧ P.pts = square ∧ Q.pts = most ∧
    P.area = some 16 ∧ P1.area = some 12 ∧ P2.area = some 4 ∧ P1.pts = Q.pts.reverse ∧
    canBeSliced P Q = .ok true ∧ containments P Q = .ok (false, false, true, false) ∧
    (∀ n r, sliceOne (n, P) most r = .ok (some ((mainName n, P1), (supName n, P2)))) ∧
    (∀ n r : Str, slicePolygon P most none (some (mainName n)) none (some (supName n)) r r =
      .ok ((mainName n, P1), (supName n, P2))) ∧
    (∀ n, (Cut.mk (n, P) most (mainName n, P1) (supName n, P2)).Good) ∧
    ∀ R ∈ [P1, P2], arePolygonsCrossing R.pts R.tri Q.pts Q.tri = .ok false ∧ containsPolygon R Q = .ok false ∧
      containsPolygon Q R = .ok false := by
  obtain ⟨P, P1, P2, hP, hv, ⟨pts1, pts2, h1, h2, h3⟩, -, hg, hp, ht, a, a1, a2, hp1, hp2⟩ := across_polygons
  obtain ⟨Q, hQ, hq, hw⟩ := most_polygon
  have hx := most_crosses hP hp hv ht hQ hq hw
  have k1 : containsPolygon P Q = .ok false :=
    contains_boundary hP (q := ⟨1, 0, 0⟩) (by rw [hq]; simp [most]) (by
      rw [hp]
      exact ⟨(⟨0, 0, 0⟩, ⟨4, 0, 0⟩), by rw [square_edges]; simp, 1 / 4, by norm_num, by norm_num, by ext <;> norm_num⟩)
  have out : Polygon.isPointInside ⟨0, 0, 0⟩ Q.pts Q.tri ≠ .ok true :=
    left_outside hQ hw (e := 0) (by rw [hq]; simp [most, Vec3.dot]) (by rw [hq]; exact most_spans)
      (by rw [hq]; exact most_norm) (by rw [hq]; simp [most])
  have k2 : ∀ m, containsPolygon Q P m = .ok false := fun m => contains_outside m hQ (by rw [hp]; simp [square]) out
  have k3 : containsPolygon P Q (-10 ^ 6) = .ok true := contains_all hP (by rw [hp, ht, hq]; exact most_inside)
  have hc : arePointsCoplanar (P.pts ++ most) = true := by
    have := coplanar_z [(0, 0), (4, 0), (4, 4), (0, 4), (1, 0), (1, 4), (4, 4), (4, 0)]
    rw [hp]
    simpa [square, most] using this
  have e1 : P1.vn = some ⟨0, 0, 1⟩ := by
    obtain ⟨w, hw, e, -⟩ := C70_orientation h2
    rw [hw, e _ hv]
  have e2 : P2.vn = some ⟨0, 0, 1⟩ := by
    obtain ⟨w, hw, e, -⟩ := C70_orientation h3
    rw [hw, e _ hv]
  have i1 : addIntersectionPoints P.pts most = .ok (square, most) := by rw [hp, most_intersections]
  have i2 : removeRedundantPoints most P.pts P.tri = .ok [⟨1, 0, 0⟩, ⟨1, 4, 0⟩] := by rw [hp, ht, most_kept]
  have i3 : removeOutsidePoints P most = .ok most := by
    have := most_inside
    simp only [most, List.forall_mem_cons, List.not_mem_nil, false_imp_iff, implies_true, and_true] at this
    obtain ⟨h1, h2, h3, h4⟩ := this
    simp [most, removeOutsidePoints, hp, ht, h1, h2, h3, h4]
  have i4 : ∀ n r : Str, slicePolygon P most none (some (mainName n)) none (some (supName n)) r r =
      .ok ((mainName n, P1), (supName n, P2)) := by
    intro n r
    have hm : makePolygons P.vn pts1 pts2 none (some (mainName n)) none (some (supName n)) r r =
        .ok ((mainName n, P1), (supName n, P2)) := by
      simp [makePolygons, h2, h3, nameParts, chooseNames]
    simp only [slicePolygon, hc, i1, i2, h1, hm]
    rw [hv, checkNormal_ok e1]
    simp only
    rw [checkNormal_ok e2]
    simp
  have i5 : ¬ most.length < 2 := by simp [most]
  have hone : ∀ n r, sliceOne (n, P) most r = .ok (some ((mainName n, P1), (supName n, P2))) := by
    intro n r
    simp only [sliceOne, i1, i3, if_neg i5, i4]
    rw [orientLike_same hv e1]
    simp only
    rw [orientLike_same hv e2]
  refine ⟨P, Q, P1, P2, hP, hQ, hv, hp, hq, a, a1, a2, by rw [hp1, hq]; rfl, by simp [canBeSliced, hx, k1, k2 _],
    by simp only [containments, k1, k2, k3], hone, i4, fun n => ⟨?_, ?_, ?_⟩, parts_done h2 h3 hQ hq hp1 hp2⟩
  · intro o s1 s2 g1 g2
    simp only [i1, Except.ok.injEq, Prod.mk.injEq] at g1
    obtain ⟨-, rfl⟩ := g1
    simp only [i2, Except.ok.injEq] at g2
    subst g2
    exact hg
  · intro b b1 b2 hb hb1 hb2
    simp only [a, a1, a2, Option.some.injEq] at hb hb1 hb2
    subst hb hb1 hb2
    norm_num
  · intro v hv'
    simp only [hv, Option.some.injEq] at hv'
    subst hv'
    refine ⟨0, ?_⟩
    simp [hp, hp1, hp2, square, Vec3.dot]

/-- **C81, a run.**  A square wall and a wall of another solid which covers three quarters of it: the square is sliced
into the part which the other wall covers and the rest, and the second round finds nothing to do.  The theorems above
apply: the names are apart, the cut is good. -/
theorem C81_run : ∃ P Q P1 P2 : Poly, polygonNew square none none = .ok P ∧ polygonNew most none none = .ok Q ∧
    P.area = some 16 ∧ P1.area = some 12 ∧ P2.area = some 4 ∧ P1.pts = Q.pts.reverse ∧
    ∀ (rnd : Nat → Str) (fuel : Nat) (n m w u : Str),
      stitchSolids rnd (fuel + 2) [⟨w, [(n, P)]⟩] [⟨u, [(m, Q)]⟩] =
        some (([⟨w, [(n ++ "-main".toList, P1), (n ++ "-sup".toList, P2)]⟩], [⟨u, [(m, Q)]⟩]), .ok ()) ∧
      Sound [⟨w, [(n, P)]⟩] ∧ Sound [⟨u, [(m, Q)]⟩] ∧
      CutInto [⟨w, [(n, P)]⟩] [⟨(n, P), most, (n ++ "-main".toList, P1), (n ++ "-sup".toList, P2)⟩]
        [⟨w, [(n ++ "-main".toList, P1), (n ++ "-sup".toList, P2)]⟩] ∧
      (Cut.mk (n, P) most (n ++ "-main".toList, P1) (n ++ "-sup".toList, P2)).Good ∧
      ∀ R ∈ facesOf [⟨w, [(n, P)]⟩], FromFlat R := by
  obtain ⟨P, Q, P1, P2, hP, hQ, hv, hp, hq, a, a1, a2, hrev, hcan, hcon, hone, i4, hgood, hdone⟩ := most_round
  refine ⟨P, Q, P1, P2, hP, hQ, a, a1, a2, hrev, fun rnd fuel n m w u =>
    ⟨?_, ⟨?_, by simp [polyNames, NamesApart]⟩, ⟨?_, by simp [polyNames, NamesApart]⟩, ?_, hgood n, ?_⟩⟩
  · have hnext : nextAdjacentPolygons [⟨w, [(n, P)]⟩] [⟨u, [(m, Q)]⟩] = .ok (some ((n, P), (m, Q))) := by
      simp [nextAdjacentPolygons, wallsAndPolygons, firstSliceable, hcan]
    have hs : ∀ r, sliceOnce [⟨w, [(n, P)]⟩] (n, P) Q.pts r =
        ([⟨w, [(mainName n, P1), (supName n, P2)]⟩], .ok ()) := by
      intro r
      simp [sliceOnce, sliceOneAndReplace, hq, hone, replacePolygon, wallsAndPolygons, replaceLoop, wallReplace,
        addPolysTo, mainName, supName]
    rw [stitchSolids, hnext]
    simp only [sliceBothAndReplace, hcon, hs]
    refine C81_nothing ?_
    intro R hR R' hR'
    simp only [facesOf, List.flatMap_cons, List.flatMap_nil, List.append_nil, List.map_cons, List.map_nil,
      List.mem_cons, List.not_mem_nil, or_false] at hR hR'
    subst hR'
    exact hdone R (by simpa using hR)
  · intro R hR
    simp only [facesOf, List.flatMap_cons, List.flatMap_nil, List.append_nil, List.map_cons, List.map_nil,
      List.mem_cons, List.not_mem_nil, or_false] at hR
    subst hR
    exact ⟨_, _, hP⟩
  · intro R hR
    simp only [facesOf, List.flatMap_cons, List.flatMap_nil, List.append_nil, List.map_cons, List.map_nil,
      List.mem_cons, List.not_mem_nil, or_false] at hR
    subst hR
    exact ⟨_, _, hQ⟩
  · exact .cut ⟨[], i4 n []⟩ ⟨[], w, [], [], [], rfl, rfl⟩ (.done _)
  · intro R hR
    simp only [facesOf, List.flatMap_cons, List.flatMap_nil, List.append_nil, List.map_cons, List.map_nil,
      List.mem_cons, List.not_mem_nil, or_false] at hR
    subst hR
    refine ⟨_, _, _, hP, hv, ?_⟩
    simp [square, Vec3.dot]

/-- **C81 is false as stated: a polygon can be lost.**  If the wall already has a polygon with the name of the first
part, the polygon is removed, adding its parts fails, and stitching stops with `GeometryError`. -/
theorem C81_name_taken : ∃ P Q : Poly, polygonNew square none none = .ok P ∧ polygonNew most none none = .ok Q ∧
    ∀ (R : Poly) (rnd : Nat → Str) (fuel : Nat) (n m w u : Str),
      stitchSolids rnd (fuel + 1) [⟨w, [(n, P), (n ++ "-main".toList, R)]⟩] [⟨u, [(m, Q)]⟩] =
        some (([⟨w, [(n ++ "-main".toList, R)]⟩], [⟨u, [(m, Q)]⟩]), .error .geometryError) := by
  obtain ⟨P, Q, P1, P2, hP, hQ, hv, hp, hq, a, a1, a2, hrev, hcan, hcon, hone, i4, hgood, hdone⟩ := most_round
  refine ⟨P, Q, hP, hQ, fun R rnd fuel n m w u => ?_⟩
  have hnext : nextAdjacentPolygons [⟨w, [(n, P), (n ++ "-main".toList, R)]⟩] [⟨u, [(m, Q)]⟩] =
      .ok (some ((n, P), (m, Q))) := by
    simp [nextAdjacentPolygons, wallsAndPolygons, firstSliceable, hcan]
  have hs : ∀ r, sliceOnce [⟨w, [(n, P), (n ++ "-main".toList, R)]⟩] (n, P) Q.pts r =
      ([⟨w, [(n ++ "-main".toList, R)]⟩], .error .geometryError) := by
    intro r
    simp [sliceOnce, sliceOneAndReplace, hq, hone, replacePolygon, wallsAndPolygons, replaceLoop, wallReplace,
      addPolysTo, mainName, supName]
  rw [stitchSolids, hnext]
  simp only [sliceBothAndReplace, hcon, Bool.or_false, Bool.false_eq_true, if_false, if_true, hs]

/-- **C81 is false as stated: another polygon of the same name is replaced, too.**  Two walls of the solid have polygons
of the same name, which the constructors allow.  Slicing the one puts its parts also in place of the other one, which
disappears from the solid whatever it is. -/
theorem C81_same_name : ∃ P Q P1 P2 : Poly, polygonNew square none none = .ok P ∧ polygonNew most none none = .ok Q ∧
    ∀ (R : Poly) (rnd : Nat → Str) (fuel : Nat) (n m w w' u : Str),
      stitchSolids rnd (fuel + 2) [⟨w, [(n, P)]⟩, ⟨w', [(n, R)]⟩] [⟨u, [(m, Q)]⟩] =
        some (([⟨w, [(n ++ "-main".toList, P1), (n ++ "-sup".toList, P2)]⟩,
          ⟨w', [(n ++ "-main".toList, P1), (n ++ "-sup".toList, P2)]⟩], [⟨u, [(m, Q)]⟩]), .ok ()) := by
  obtain ⟨P, Q, P1, P2, hP, hQ, hv, hp, hq, a, a1, a2, hrev, hcan, hcon, hone, i4, hgood, hdone⟩ := most_round
  refine ⟨P, Q, P1, P2, hP, hQ, fun R rnd fuel n m w w' u => ?_⟩
  have hnext : nextAdjacentPolygons [⟨w, [(n, P)]⟩, ⟨w', [(n, R)]⟩] [⟨u, [(m, Q)]⟩] =
      .ok (some ((n, P), (m, Q))) := by
    simp [nextAdjacentPolygons, wallsAndPolygons, firstSliceable, hcan]
  have hs : ∀ r, sliceOnce [⟨w, [(n, P)]⟩, ⟨w', [(n, R)]⟩] (n, P) Q.pts r =
      ([⟨w, [(mainName n, P1), (supName n, P2)]⟩, ⟨w', [(mainName n, P1), (supName n, P2)]⟩], .ok ()) := by
    intro r
    simp [sliceOnce, sliceOneAndReplace, hq, hone, replacePolygon, wallsAndPolygons, replaceLoop, wallReplace,
      addPolysTo, mainName, supName]
  rw [stitchSolids, hnext]
  simp only [sliceBothAndReplace, hcon, hs]
  refine C81_nothing ?_
  intro S hS S' hS'
  simp only [facesOf, List.flatMap_cons, List.flatMap_nil, List.append_nil, List.map_cons, List.map_nil,
    List.mem_cons, List.not_mem_nil, or_false, List.cons_append, List.nil_append] at hS hS'
  subst hS'
  refine hdone S ?_
  rcases hS with rfl | rfl | rfl | rfl <;> simp

end B3d.Solids
