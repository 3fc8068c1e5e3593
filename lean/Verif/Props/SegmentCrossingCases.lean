import Verif.Props.SegmentCrossing

/-!
# C78: concrete cases

A square which meets the hypotheses of the theorems on C78, and a polygon for which the answer is wrong.
-/

namespace B3d.Polygon

open Spec Points Triangles
open Bboxes (InBox cubeEdges cubePolygons)

theorem rect_cornerNormal {x0 x1 y0 y1 : ℝ} (g : GoodBox x0 x1 y0 y1) : CornerNormal (rectPts x0 x1 y0 y1) ⟨0, 0, 1⟩ := by
  have h : 1 ≤ (x1 - x0) * (y1 - y0) := by nlinarith [g.wx, g.wy]
  have e : Vec3.cross ((⟨x0, y0, 0⟩ : Vec3 ℝ) - ⟨x0, y1, 0⟩) (⟨x1, y0, 0⟩ - ⟨x0, y1, 0⟩) = ⟨0, 0, (x1 - x0) * (y1 - y0)⟩ := by
    ext <;> simp; ring
  have en : Vec3.norm (⟨0, 0, (x1 - x0) * (y1 - y0)⟩ : Vec3 ℝ) = (x1 - x0) * (y1 - y0) := by
    rw [norm_z, abs_of_pos (by linarith)]
  refine ⟨by rw [norm_z, abs_one], ⟨x0, y1, 0⟩, ⟨x0, y0, 0⟩, ⟨x1, y0, 0⟩, rfl, rfl, rfl, ?_, ?_⟩
  · rw [e, en]
    norm_num
    linarith
  · rw [e, en]
    ext <;> simp

/-- A vertical segment through the square at `(x, y)`. -/
theorem square_crossed {P : Poly} (h : polygonNew (rectPts 0 4 0 4) none none = .ok P) {x y : ℝ}
    (hx : 1 / 2 ≤ x) (hy : 1 / 2 ≤ y) (hxy : x + y ≤ 7 / 2) :
    ClearlyIn P.pts P.tri ⟨x, y, 0⟩ := by
  have g : GoodBox 0 4 0 4 := box_of _ _ _ _ (by norm_num)
  obtain ⟨P', h', hp, hv, ht⟩ := rect_polygon g
  rw [h, Except.ok.injEq] at h'
  subst h'
  obtain ⟨⟨t, htt, a, b, c, ha, hb, hc, hw⟩, -⟩ := rect_deep (x := x) (y := y) g (by norm_num) (by norm_num) (by linarith)
    (by linarith) (by linarith) (by linarith) (by nlinarith) hp ht
  exact ⟨t, htt, a, b, c, ha, hb, hc, hw.elim .inl fun h => .inr (.inl h)⟩

/-- A vertical segment through the square meets the hypotheses of `C78_sound_partial` and `C78_complete_partial`. -/
example : ∃ P : Poly, polygonNew (rectPts 0 4 0 4) none none = .ok P ∧ P.vn = some ⟨0, 0, 1⟩ ∧
    (∀ p ∈ P.pts, Vec3.dot ⟨0, 0, 1⟩ p = 0) ∧ CornerNormal P.pts ⟨0, 0, 1⟩ ∧ (∀ p ∈ P.pts, Vec3.norm p ≤ 150) ∧
    (1 / 10 ^ 10 : ℝ) ≤ |Vec3.dot ((⟨1, 1, 2⟩ : Vec3 ℝ) - ⟨1, 1, -1⟩) ⟨0, 0, 1⟩| ∧
    OnSegment ⟨1, 1, -1⟩ ⟨1, 1, 2⟩ (⟨1, 1, 0⟩ : Vec3 ℝ) ∧ ClearlyIn P.pts P.tri ⟨1, 1, 0⟩ ∧
    isSegmentCrossingPolygon ⟨1, 1, -1⟩ ⟨1, 1, 2⟩ P.pts P.tri = .ok true := by
  have g : GoodBox 0 4 0 4 := box_of _ _ _ _ (by norm_num)
  obtain ⟨P, h, hp, hv, ht⟩ := rect_polygon g
  have h1 : (1 / 10 ^ 10 : ℝ) ≤ |Vec3.dot ((⟨1, 1, 2⟩ : Vec3 ℝ) - ⟨1, 1, -1⟩) ⟨0, 0, 1⟩| := by norm_num [Vec3.dot]
  have h2 : OnSegment ⟨1, 1, -1⟩ ⟨1, 1, 2⟩ (⟨1, 1, 0⟩ : Vec3 ℝ) :=
    ⟨1 / 3, by norm_num, by norm_num, by ext <;> norm_num⟩
  have h3 := square_crossed h (x := 1) (y := 1) (by norm_num) (by norm_num) (by norm_num)
  have hpl : ∀ p ∈ P.pts, Vec3.dot ⟨0, 0, 1⟩ p = 0 := by rw [hp]; exact rect_plane
  have hw : CornerNormal P.pts ⟨0, 0, 1⟩ := by rw [hp]; exact rect_cornerNormal g
  exact ⟨P, h, hv, hpl, hw, by rw [hp]; exact rect_norm g, h1, h2, h3,
    C78_complete_partial h hv hpl hw (by positivity) h1 h2 h3⟩

/-- A segment beside the square is not reported (`C78_misses`), nor is one in its plane which divides it in two
(`C78_in_plane`). -/
example : ∃ P : Poly, polygonNew (rectPts 0 4 0 4) none none = .ok P ∧
    isSegmentCrossingPolygon ⟨5, 1, -1⟩ ⟨5, 1, 2⟩ P.pts P.tri = .ok false ∧
    isSegmentCrossingPolygon ⟨1, -1, 0⟩ ⟨1, 5, 0⟩ P.pts P.tri = .ok false ∧
    OnSegment ⟨1, -1, 0⟩ ⟨1, 5, 0⟩ (⟨1, 2, 0⟩ : Vec3 ℝ) ∧ Region P.pts P.tri ⟨1, 2, 0⟩ := by
  have g : GoodBox 0 4 0 4 := box_of _ _ _ _ (by norm_num)
  obtain ⟨P, h, hp, hv, ht⟩ := rect_polygon g
  have hpl : ∀ p ∈ P.pts, Vec3.dot ⟨0, 0, 1⟩ p = 0 := by rw [hp]; exact rect_plane
  have hw : CornerNormal P.pts ⟨0, 0, 1⟩ := by rw [hp]; exact rect_cornerNormal g
  refine ⟨P, h, C78_misses h hv hpl hw (M := 150) (by rw [hp]; exact rect_norm g) (by positivity) ?_,
    C78_in_plane h hv hpl hw (by positivity) (by simp [Vec3.dot]) (by simp [Vec3.dot]),
    ⟨1 / 2, by norm_num, by norm_num, by ext <;> norm_num⟩, by rw [hp, ht, rect_region g]; norm_num⟩
  rintro x ⟨t, -, -, rfl⟩ ⟨y, hy, hd⟩
  rw [hp, ht, rect_region g] at hy
  have := (Vec3.abs_x_le _).trans hd
  simp only [Vec3.sub_x, Vec3.add_x, Vec3.smul_x, sub_self, mul_zero, add_zero] at this
  have := (le_abs_self _).trans this
  norm_num at this
  linarith [hy.2.1]

/-- The square and a box through it meet the hypotheses of `C78_cube_sound_partial` and `C78_cube_complete_partial`; no
corner of the square is in the box. -/
example : ∃ P : Poly, polygonNew (rectPts 0 4 0 4) none none = .ok P ∧ BoxSides ⟨1, 1, -1⟩ ⟨3 / 2, 3 / 2, 1⟩ ∧
    Region P.pts P.tri ⟨1, 1, 0⟩ ∧ InBox ⟨1, 1, -1⟩ ⟨3 / 2, 3 / 2, 1⟩ (⟨1, 1, 0⟩ : Vec3 ℝ) ∧
    (∀ p ∈ P.pts, ¬ InBox ⟨1, 1, -1⟩ ⟨3 / 2, 3 / 2, 1⟩ p) ∧
    isPolygonCrossingCube P.pts P.tri ⟨1, 1, -1⟩ ⟨3 / 2, 3 / 2, 1⟩ = .ok true := by
  have g : GoodBox 0 4 0 4 := box_of _ _ _ _ (by norm_num)
  obtain ⟨P, h, hp, hv, ht⟩ := rect_polygon g
  have hpl : ∀ p ∈ P.pts, Vec3.dot ⟨0, 0, 1⟩ p = 0 := by rw [hp]; exact rect_plane
  have hw : CornerNormal P.pts ⟨0, 0, 1⟩ := by rw [hp]; exact rect_cornerNormal g
  have hs : BoxSides ⟨1, 1, -1⟩ ⟨3 / 2, 3 / 2, 1⟩ := by norm_num [BoxSides]
  have hr : Region P.pts P.tri ⟨1, 1, 0⟩ := by rw [hp, ht, rect_region g]; norm_num
  have hb : InBox ⟨1, 1, -1⟩ ⟨3 / 2, 3 / 2, 1⟩ (⟨1, 1, 0⟩ : Vec3 ℝ) := by norm_num [InBox]
  refine ⟨P, h, hs, hr, hb, ?_, C78_cube_complete_partial h hv hpl hw hs (by norm_num) ?_ ?_ hr hb⟩
  · intro p hpm hin
    rw [hp] at hpm
    simp only [rectPts, List.mem_cons, List.not_mem_nil, or_false] at hpm
    rcases hpm with rfl | rfl | rfl | rfl <;> norm_num [InBox] at hin
  · rw [hp, ht]
    intro t htt
    simp only [List.mem_cons, List.not_mem_nil, or_false] at htt
    have no : ∀ ed ∈ [((⟨0, 4, 0⟩ : Vec3 ℝ), (⟨0, 0, 0⟩ : Vec3 ℝ)), (⟨0, 0, 0⟩, ⟨4, 0, 0⟩), (⟨4, 0, 0⟩, ⟨0, 4, 0⟩),
        (⟨0, 4, 0⟩, ⟨4, 0, 0⟩), (⟨4, 0, 0⟩, ⟨4, 4, 0⟩), (⟨4, 4, 0⟩, ⟨0, 4, 0⟩)], ∀ y : Vec3 ℝ, OnSegment ed.1 ed.2 y →
        ¬ InBox ⟨1, 1, -1⟩ ⟨3 / 2, 3 / 2, 1⟩ y := by
      rintro ed he y ⟨s, s0, s1, rfl⟩ ⟨⟨i1, i2⟩, ⟨i3, i4⟩, -⟩
      simp only [List.mem_cons, List.not_mem_nil, or_false] at he
      rcases he with rfl | rfl | rfl | rfl | rfl | rfl <;>
        simp only [Vec3.add_x, Vec3.add_y, Vec3.smul_x, Vec3.smul_y, Vec3.sub_x, Vec3.sub_y] at i1 i2 i3 i4 <;> linarith
    rcases htt with rfl | rfl
    · refine ⟨_, _, _, rfl, rfl, rfl, fun ed he face hface y hy hyf => ?_⟩
      refine absurd ((face_facts hs hface).2.2.2.1 y hyf) (no ed ?_ y hy)
      simp only [List.mem_cons, List.not_mem_nil, or_false] at he ⊢
      rcases he with he | he | he <;> simp [he]
    · refine ⟨_, _, _, rfl, rfl, rfl, fun ed he face hface y hy hyf => ?_⟩
      refine absurd ((face_facts hs hface).2.2.2.1 y hyf) (no ed ?_ y hy)
      simp only [List.mem_cons, List.not_mem_nil, or_false] at he ⊢
      rcases he with he | he | he <;> simp [he]
  · have key : ∀ v : Vec3 ℝ, InBox ⟨1, 1, -1⟩ ⟨3 / 2, 3 / 2, 1⟩ v → v.z = 0 → ClearlyIn P.pts P.tri v := by
      rintro ⟨x, y, z⟩ ⟨⟨i1, i2⟩, ⟨i3, i4⟩, -⟩ hz
      simp only at i1 i2 i3 i4 hz
      subst hz
      exact square_crossed h (by linarith) (by linarith) (by linarith)
    intro ed he y hy hyr
    have hin := cubeEdge_inBox (lo := ⟨1, 1, -1⟩) (hi := ⟨3 / 2, 3 / 2, 1⟩) (by norm_num) (by norm_num) (by norm_num)
      ⟨ed, he, hy⟩
    rw [hp, ht, rect_region g] at hyr
    have hz := hyr.2.2.2.2
    refine ⟨key y hin hz, ?_⟩
    obtain ⟨s, s0, s1, rfl⟩ := hy
    simp only [cubeEdges, List.mem_cons, List.not_mem_nil, or_false] at he
    rcases he with rfl | rfl | rfl | rfl | rfl | rfl | rfl | rfl | rfl | rfl | rfl | rfl <;> norm_num at hz <;>
      norm_num [Vec3.dot]

/-- **C78 is false for polygons whose first corner is straight**: the normal is then not computed from it, and no segment
is reported.  The polygon is the triangle from `(0, 0)` and `(4, 0)` to `(2, 4)` with one more corner in the middle of
the first side; the segment goes through its inside. -/
theorem C78_straight_corner : ∃ P : Poly,
    polygonNew [⟨2, 0, 0⟩, ⟨4, 0, 0⟩, ⟨2, 4, 0⟩, ⟨0, 0, 0⟩] none (some ⟨0, 0, 1⟩) = .ok P ∧
    P.vn = some ⟨0, 0, 1⟩ ∧ OnSegment ⟨3 / 2, 1, -1⟩ ⟨3 / 2, 1, 1⟩ (⟨3 / 2, 1, 0⟩ : Vec3 ℝ) ∧
    ClearlyIn P.pts P.tri ⟨3 / 2, 1, 0⟩ ∧
    isSegmentCrossingPolygon ⟨3 / 2, 1, -1⟩ ⟨3 / 2, 1, 1⟩ P.pts P.tri = .ok false := by
  have hc : arePointsCoplanar ([⟨2, 0, 0⟩, ⟨4, 0, 0⟩, ⟨2, 4, 0⟩, ⟨0, 0, 0⟩] : List (Vec3 ℝ)) = true := by
    have := coplanar_z [(2, 0), (4, 0), (2, 4), (0, 0)]
    simpa using this
  have c0 : isCornerConvex ⟨0, 0, 1⟩ ⟨0, 0, 0⟩ ⟨2, 0, 0⟩ ⟨4, 0, 0⟩ = .ok false := by
    unfold isCornerConvex
    have e : Vec3.cross ((⟨2, 0, 0⟩ : Vec3 ℝ) - ⟨0, 0, 0⟩) (⟨4, 0, 0⟩ - ⟨2, 0, 0⟩) = 0 := by ext <;> simp
    have en : Vec3.norm (0 : Vec3 ℝ) = 0 := Vec3.norm_eq_zero.2 rfl
    rw [norm_z]
    simp [e, en, GEOM_ATOL_pos]
  have c1 : isCornerConvex ⟨0, 0, 1⟩ ⟨2, 0, 0⟩ ⟨4, 0, 0⟩ ⟨2, 4, 0⟩ = .ok true :=
    isCornerConvex_z (.inl rfl) (by norm_num)
  have c2 : isCornerConvex ⟨0, 0, 1⟩ ⟨2, 0, 0⟩ ⟨2, 4, 0⟩ ⟨0, 0, 0⟩ = .ok true :=
    isCornerConvex_z (.inl rfl) (by norm_num)
  have c3 : Triangles.isPointInside ⟨0, 0, 0⟩ ⟨2, 0, 0⟩ ⟨4, 0, 0⟩ ⟨2, 4, 0⟩ = .ok false :=
    isPointInside_far (m := 2) Vec3.x (.inl rfl) (.inl (by norm_num))
  have ht : triangulate 10 [(⟨2, 0, 0⟩ : Vec3 ℝ), ⟨4, 0, 0⟩, ⟨2, 4, 0⟩, ⟨0, 0, 0⟩] ⟨0, 0, 1⟩ =
      some (.ok ([⟨2, 0, 0⟩, ⟨4, 0, 0⟩, ⟨2, 4, 0⟩, ⟨0, 0, 0⟩], [(0, 1, 2), (0, 2, 3)])) := by
    simp [triangulate, triangulateTries, unit_z (.inl rfl), run, step, initState, List.range, List.range.loop, c0, c1, c2,
      c3, anyPointInside]
  obtain ⟨P, h, hp, hv, htri⟩ := polygonNew_intro hc (by simp) (vn := some ⟨0, 0, 1⟩) rfl ht
  refine ⟨P, h, hv, ⟨1 / 2, by norm_num, by norm_num, by ext <;> norm_num⟩, ?_, ?_⟩
  · rw [hp, htri]
    refine ⟨(0, 2, 3), by simp, _, _, _, rfl, rfl, rfl, .inl ?_⟩
    exact wellInside_z (r := 1 / 2) (s := 1 / 4) (t := 1 / 4) (by norm_num) (by norm_num) (by norm_num) (by norm_num)
      (by norm_num) (by norm_num) (by norm_num) (by norm_num) (by norm_num) (by norm_num) (by norm_num) (by norm_num)
      (by norm_num) (by norm_num) (by norm_num)
  · rw [hp]
    have e : Vec3.cross ((⟨2, 0, 0⟩ : Vec3 ℝ) - ⟨0, 0, 0⟩) (⟨4, 0, 0⟩ - ⟨0, 0, 0⟩) = 0 := by ext <;> simp
    have en : Vec3.norm (0 : Vec3 ℝ) = 0 := Vec3.norm_eq_zero.2 rfl
    have hn : normal ⟨0, 0, 0⟩ ⟨2, 0, 0⟩ (⟨4, 0, 0⟩ : Vec3 ℝ) = none := by
      unfold normal
      simp [e, en, isClose, NP_ATOL]
    have hpc : planeCoefficients [(⟨2, 0, 0⟩ : Vec3 ℝ), ⟨4, 0, 0⟩, ⟨2, 4, 0⟩, ⟨0, 0, 0⟩] = .ok none := by
      simp [planeCoefficients, hn]
    unfold isSegmentCrossingPolygon
    rw [hpc]

end B3d.Polygon
