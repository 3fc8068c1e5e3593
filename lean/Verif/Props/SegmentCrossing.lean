import Verif.Proofs.BoxFaces
import Verif.Props.TouchingCases

/-!
# C78: segments that cross a polygon, polygons that meet a box

`is_line_segment_crossing_polygon` and `is_polygon_crossing_cube`.  The full property: the first is `True` exactly if the
segment has a point in common with the polygon, the second exactly if the polygon has a point in common with the box
(enlarged by `eps` for the corners of the polygon).

* an answer is always given (`C78_total`, `C78_cube_total`);
* `True` means that there is a common point up to the tolerance (`C78_sound_partial`, `C78_cube_sound_partial`);
* `True` if there is a common point, unless the segment is parallel to the plane or the point is too close to an edge
  of a triangle (`C78_complete_partial`, `C78_cube_complete_partial`).

The property is false for a segment in the plane of the polygon (`C78_in_plane`), and for polygons whose first corner is
straight (`C78_straight_corner`).
-/

namespace B3d.Polygon

open Spec Points Triangles
open Bboxes (InBox cubeEdges cubePolygons)

/-- `x` is in a triangle of the polygon: well inside, on an edge well away from the others, or a corner. -/
def ClearlyIn (pts : List (Vec3 ℝ)) (tri : List Tri) (x : Vec3 ℝ) : Prop :=
  ∃ t ∈ tri, TriangleWith pts t fun a b c =>
    WellInside a b c x ∨ (WellOnEdge a b c x ∨ WellOnEdge b c a x ∨ WellOnEdge c a b x) ∨ (x = a ∨ x = b ∨ x = c)

theorem clearlyIn_accepted {pts : List (Vec3 ℝ)} {tri : List Tri} {n x : Vec3 ℝ} {e : ℝ} (hst : Sturdy pts tri)
    (hf : Flat pts tri n e) (h : ClearlyIn pts tri x) :
    Polygon.isPointInside x pts tri = .ok true ∧ Vec3.dot n x = e := by
  obtain ⟨t, ht, a, b, c, ha, hb, hc, hw⟩ := h
  have hin : InTriangle a b c x ∧ Triangles.isPointInside x a b c = .ok true := by
    rcases hw with hw | hw | hw
    · exact ⟨hw.1, isPointInside_complete hw⟩
    · exact isPointInside_edge hw
    · refine ⟨?_, isPointInside_corner hw⟩
      rcases hw with rfl | rfl | rfl
      · exact ⟨1, 0, 0, zero_le_one, le_refl _, le_refl _, by ring, by simp⟩
      · exact ⟨0, 1, 0, le_refl _, zero_le_one, le_refl _, by ring, by simp⟩
      · exact ⟨0, 0, 1, le_refl _, le_refl _, zero_le_one, by ring, by simp⟩
  exact ⟨isPointInside_of_triangle hst hf GEOM_ATOL_pos ht ⟨a, b, c, ha, hb, hc, hin⟩,
    inTriangle_plane (hf.plane a (List.mem_of_getElem? ha)) (hf.plane b (List.mem_of_getElem? hb))
      (hf.plane c (List.mem_of_getElem? hc)) hin.1⟩

/-! ### Segments -/

theorem segment_total {pts : List (Vec3 ℝ)} {tri : List Tri} {pl : Option (ℝ × ℝ × ℝ × ℝ)} (hst : Sturdy pts tri)
    (hp : planeCoefficients pts = .ok pl) (p q : Vec3 ℝ) (eps : ℝ) :
    ∃ r, isSegmentCrossingPolygon p q pts tri eps = .ok r := by
  unfold isSegmentCrossingPolygon
  rw [hp]
  cases pl with
  | none => exact ⟨false, rfl⟩
  | some c =>
    obtain ⟨a, b, c, d⟩ := c
    simp only
    split_ifs with h1 h2
    · exact ⟨false, rfl⟩
    · exact ⟨false, rfl⟩
    · exact (isPointInside_iff true GEOM_ATOL hst).imp fun r hr => hr.1

/-- **C78, no errors.**  For a polygon from the constructor the test of a segment does not raise. -/
theorem C78_total {pts : List (Vec3 ℝ)} {vn : Option (Vec3 ℝ)} {P : Poly} (h : polygonNew pts none vn = .ok P)
    (p q : Vec3 ℝ) (eps : ℝ) : ∃ r, isSegmentCrossingPolygon p q P.pts P.tri eps = .ok r := by
  obtain ⟨l, hl⟩ : ∃ pl, planeCoefficients P.pts = .ok pl := by
    unfold polygonNew at h
    split_ifs at h with h1 h2
    split at h
    · cases h
    split at h
    · cases h
    split at h
    · cases h
    split at h
    · cases h
    rename_i hpc
    cases h
    exact ⟨_, hpc⟩
  exact segment_total (polygonNew_sturdy h) hl p q eps

/-- **C78, soundness.**  If the segment is reported to cross the polygon, it has a point within the tolerance from the
polygon, exactly in its plane. -/
theorem C78_sound_partial {pts : List (Vec3 ℝ)} {vn : Option (Vec3 ℝ)} {P : Poly} {v w : Vec3 ℝ} {e M eps : ℝ}
    (h : polygonNew pts none vn = .ok P) (hv : P.vn = some v) (hpl : ∀ p ∈ P.pts, Vec3.dot v p = e)
    (hw : CornerNormal P.pts w) (hM : ∀ p ∈ P.pts, Vec3.norm p ≤ M) (heps : 0 < eps) {p q : Vec3 ℝ}
    (ht : isSegmentCrossingPolygon p q P.pts P.tri eps = .ok true) :
    ∃ x, OnSegment p q x ∧ Vec3.dot v x = e ∧ Near (Region P.pts P.tri) x (1 / 10 ^ 4 * M + 1 / 10 ^ 7) := by
  have hst := polygonNew_sturdy h
  have hf := polygonNew_flat h hv hpl
  obtain ⟨r, hr, hir⟩ := segmentCrossing_iff hst hf.ne hf.plane hw heps p q
  rw [ht, Except.ok.injEq] at hr
  obtain ⟨-, x, hx, hxp, hin⟩ := hir.1 hr.symm
  exact ⟨x, hx, hxp, near_of_inside hst hf hM hxp hin⟩

/-- **C78, completeness.**  A segment which has a point in common with the polygon is reported, unless it is parallel to
the plane of the polygon or the point is too close to an edge of a triangle without being on it. -/
theorem C78_complete_partial {pts : List (Vec3 ℝ)} {vn : Option (Vec3 ℝ)} {P : Poly} {v w : Vec3 ℝ} {e eps : ℝ}
    (h : polygonNew pts none vn = .ok P) (hv : P.vn = some v) (hpl : ∀ p ∈ P.pts, Vec3.dot v p = e)
    (hw : CornerNormal P.pts w) (heps : 0 < eps) {p q x : Vec3 ℝ} (hpar : eps ≤ |Vec3.dot (q - p) w|)
    (hx : OnSegment p q x) (hin : ClearlyIn P.pts P.tri x) :
    isSegmentCrossingPolygon p q P.pts P.tri eps = .ok true := by
  have hst := polygonNew_sturdy h
  have hf := polygonNew_flat h hv hpl
  obtain ⟨r, hr, hir⟩ := segmentCrossing_iff hst hf.ne hf.plane hw heps p q
  obtain ⟨h1, h2⟩ := clearlyIn_accepted hst hf hin
  rw [hr, Except.ok.injEq, hir]
  exact ⟨hpar, x, hx, h2, h1⟩

/-- **C78, no false alarm.**  A segment whose points are all further from the polygon than the tolerance is not
reported. -/
theorem C78_misses {pts : List (Vec3 ℝ)} {vn : Option (Vec3 ℝ)} {P : Poly} {v w : Vec3 ℝ} {e M eps : ℝ}
    (h : polygonNew pts none vn = .ok P) (hv : P.vn = some v) (hpl : ∀ p ∈ P.pts, Vec3.dot v p = e)
    (hw : CornerNormal P.pts w) (hM : ∀ p ∈ P.pts, Vec3.norm p ≤ M) (heps : 0 < eps) {p q : Vec3 ℝ}
    (hfar : ∀ x, OnSegment p q x → ¬ Near (Region P.pts P.tri) x (1 / 10 ^ 4 * M + 1 / 10 ^ 7)) :
    isSegmentCrossingPolygon p q P.pts P.tri eps = .ok false := by
  obtain ⟨r, hr⟩ := C78_total h p q eps
  cases r with
  | false => exact hr
  | true =>
    obtain ⟨x, hx, -, hn⟩ := C78_sound_partial h hv hpl hw hM heps hr
    exact absurd hn (hfar x hx)

/-- **C78 is false for segments in the plane of the polygon**: they are not reported, wherever they are. -/
theorem C78_in_plane {pts : List (Vec3 ℝ)} {vn : Option (Vec3 ℝ)} {P : Poly} {v w : Vec3 ℝ} {e eps : ℝ}
    (h : polygonNew pts none vn = .ok P) (hv : P.vn = some v) (hpl : ∀ p ∈ P.pts, Vec3.dot v p = e)
    (hw : CornerNormal P.pts w) (heps : 0 < eps) {p q : Vec3 ℝ} (hp : Vec3.dot v p = e) (hq : Vec3.dot v q = e) :
    isSegmentCrossingPolygon p q P.pts P.tri eps = .ok false := by
  have hst := polygonNew_sturdy h
  have hf := polygonNew_flat h hv hpl
  obtain ⟨r, hr, hir⟩ := segmentCrossing_iff hst hf.ne hf.plane hw heps p q
  cases r with
  | false => exact hr
  | true =>
    obtain ⟨h1, -⟩ := hir.1 rfl
    obtain ⟨k, hk, rfl⟩ := cornerNormal_plane hw hf.ne hf.plane
    rw [Vec3.dot_smul_left] at hp hq
    have h2 : Vec3.dot (q - p) w = 0 := by
      rw [Vec3.dot_comm, Vec3.dot_sub_right, mul_left_cancel₀ hk (hq.trans hp.symm), sub_self]
    rw [h2, abs_zero] at h1
    exact absurd h1 (not_le.2 heps)

/-! ### Boxes -/

theorem vertexInCube_iff {lo hi : Vec3 ℝ} {eps : ℝ} : ∀ pts : List (Vec3 ℝ), vertexInCube lo hi eps pts = true ↔
    ∃ p ∈ pts, InBox ⟨lo.x - eps, lo.y - eps, lo.z - eps⟩ ⟨hi.x + eps, hi.y + eps, hi.z + eps⟩ p
  | [] => by simp [vertexInCube]
  | p :: rest => by
    unfold vertexInCube
    split_ifs with h
    · simp only [true_iff]
      exact ⟨p, List.mem_cons_self, ⟨h.1, h.2.1⟩, ⟨h.2.2.1, h.2.2.2.1⟩, h.2.2.2.2⟩
    · rw [vertexInCube_iff rest]
      constructor
      · rintro ⟨q, hq, hb⟩
        exact ⟨q, List.mem_cons_of_mem _ hq, hb⟩
      · rintro ⟨q, hq, hb⟩
        rcases List.mem_cons.1 hq with rfl | hq
        · exact absurd ⟨hb.1.1, hb.1.2, hb.2.1.1, hb.2.1.2, hb.2.2⟩ h
        · exact ⟨q, hq, hb⟩

/-- What `is_polygon_crossing_cube` computes. -/
theorem cubeCrossing_iff {pts : List (Vec3 ℝ)} {tri : List Tri} {lo hi : Vec3 ℝ} (hst : Sturdy pts tri)
    (hseg : ∀ p q, ∃ r, isSegmentCrossingPolygon p q pts tri = .ok r) (hs : BoxSides lo hi) (eps : ℝ) :
    ∃ r, isPolygonCrossingCube pts tri lo hi eps = .ok r ∧ (r = true ↔
      (∃ p ∈ pts, InBox ⟨lo.x - eps, lo.y - eps, lo.z - eps⟩ ⟨hi.x + eps, hi.y + eps, hi.z + eps⟩ p) ∨
      (∃ t ∈ tri, TriangleWith pts t fun a b c => ∃ ed ∈ [(a, b), (b, c), (c, a)], ∃ face ∈ cubePolygons lo hi,
        isSegmentCrossingPolygon ed.1 ed.2 face faceTri = .ok true) ∨
      ∃ ed ∈ cubeEdges lo hi, isSegmentCrossingPolygon ed.1 ed.2 pts tri = .ok true) := by
  unfold isPolygonCrossingCube
  by_cases hv : vertexInCube lo hi eps pts = true
  · rw [if_pos hv]
    exact ⟨true, rfl, by simp only [true_iff]; exact .inl ((vertexInCube_iff pts).1 hv)⟩
  rw [if_neg hv]
  have hfaces : ∀ (p q : Vec3 ℝ) (face : List (Vec3 ℝ)), face ∈ cubePolygons lo hi →
      ∃ r, isSegmentCrossingPolygon p q face faceTri = .ok r := by
    intro p q face hface
    obtain ⟨h1, -, ⟨w, hw⟩, -⟩ := face_facts hs hface
    obtain ⟨o, -, hpc⟩ := planeCoefficients_eq hw
    exact segment_total h1 hpc p q _
  have hin : ∀ ed : Vec3 ℝ × Vec3 ℝ, ∃ r, anyOk (fun face => isSegmentCrossingPolygon ed.1 ed.2 face
      [(0, 1, 2), (0, 2, 3)]) (cubePolygons lo hi) = .ok r ∧ (r = true ↔ ∃ face ∈ cubePolygons lo hi,
        isSegmentCrossingPolygon ed.1 ed.2 face faceTri = .ok true) :=
    fun ed => anyOk_iff _ fun face hface => hfaces _ _ face hface
  obtain ⟨r1, hr1, hir1⟩ := anyOk_iff (f := fun t =>
        match triangleEdges pts t with
        | .error e => .error e
        | .ok edges => anyOk (fun ed => anyOk (fun face =>
            isSegmentCrossingPolygon ed.1 ed.2 face [(0, 1, 2), (0, 2, 3)]) (cubePolygons lo hi)) edges) tri (by
      intro t ht
      obtain ⟨a, b, c, ha, hb, hc, -⟩ := hst.2 t ht
      simp only [triangleEdges, ha, hb, hc]
      exact (anyOk_iff _ fun ed _ => (hin ed).imp fun r hr => hr.1).imp fun r hr => hr.1)
  obtain ⟨r2, hr2, hir2⟩ := anyOk_iff (f := fun ed : Vec3 ℝ × Vec3 ℝ => isSegmentCrossingPolygon ed.1 ed.2 pts tri)
    (cubeEdges lo hi) fun ed _ => hseg _ _
  have key : r1 = true ↔ ∃ t ∈ tri, TriangleWith pts t fun a b c => ∃ ed ∈ [(a, b), (b, c), (c, a)],
      ∃ face ∈ cubePolygons lo hi, isSegmentCrossingPolygon ed.1 ed.2 face faceTri = .ok true := by
    rw [hir1]
    constructor
    · rintro ⟨t, ht, h⟩
      obtain ⟨a, b, c, ha, hb, hc, -⟩ := hst.2 t ht
      simp only [triangleEdges, ha, hb, hc] at h
      refine ⟨t, ht, a, b, c, ha, hb, hc, ?_⟩
      obtain ⟨r, hr, hir⟩ := anyOk_iff (f := fun ed : Vec3 ℝ × Vec3 ℝ => anyOk (fun face =>
        isSegmentCrossingPolygon ed.1 ed.2 face [(0, 1, 2), (0, 2, 3)]) (cubePolygons lo hi))
        [(a, b), (b, c), (c, a)] fun ed _ => (hin ed).imp fun r hr => hr.1
      rw [h, Except.ok.injEq] at hr
      obtain ⟨ed, he, h'⟩ := hir.1 hr.symm
      refine ⟨ed, he, ?_⟩
      obtain ⟨r, hr, hir⟩ := hin ed
      rw [h', Except.ok.injEq] at hr
      exact hir.1 hr.symm
    · rintro ⟨t, ht, a, b, c, ha, hb, hc, ed, he, h⟩
      refine ⟨t, ht, ?_⟩
      simp only [triangleEdges, ha, hb, hc]
      obtain ⟨r, hr, hir⟩ := anyOk_iff (f := fun ed : Vec3 ℝ × Vec3 ℝ => anyOk (fun face =>
        isSegmentCrossingPolygon ed.1 ed.2 face [(0, 1, 2), (0, 2, 3)]) (cubePolygons lo hi))
        [(a, b), (b, c), (c, a)] fun ed _ => (hin ed).imp fun r hr => hr.1
      rw [hr, Except.ok.injEq, hir]
      refine ⟨ed, he, ?_⟩
      obtain ⟨r, hr, hir⟩ := hin ed
      rw [hr, Except.ok.injEq, hir]
      exact h
  have hnv : ¬ ∃ p ∈ pts, InBox ⟨lo.x - eps, lo.y - eps, lo.z - eps⟩ ⟨hi.x + eps, hi.y + eps, hi.z + eps⟩ p :=
    fun h => hv ((vertexInCube_iff pts).2 h)
  erw [hr1]
  cases r1 with
  | true => exact ⟨true, rfl, by simp only [true_iff]; exact .inr (.inl (key.1 rfl))⟩
  | false =>
    refine ⟨r2, hr2, ?_⟩
    rw [hir2]
    constructor
    · exact fun h => .inr (.inr h)
    · rintro (h | h | h)
      · exact absurd h hnv
      · exact absurd (key.2 h) (by simp)
      · exact h

/-- **C78, no errors (boxes).** -/
theorem C78_cube_total {pts : List (Vec3 ℝ)} {vn : Option (Vec3 ℝ)} {P : Poly} (h : polygonNew pts none vn = .ok P)
    {lo hi : Vec3 ℝ} (hs : BoxSides lo hi) (eps : ℝ) : ∃ r, isPolygonCrossingCube P.pts P.tri lo hi eps = .ok r :=
  (cubeCrossing_iff (polygonNew_sturdy h) (fun p q => C78_total h p q _) hs eps).imp fun _ hr => hr.1

theorem inBox_enlarged {lo hi p : Vec3 ℝ} {eps : ℝ} (h0 : 0 ≤ eps) (hx : lo.x ≤ hi.x) (hy : lo.y ≤ hi.y)
    (hz : lo.z ≤ hi.z)
    (h : InBox ⟨lo.x - eps, lo.y - eps, lo.z - eps⟩ ⟨hi.x + eps, hi.y + eps, hi.z + eps⟩ p) :
    ∃ y, InBox lo hi y ∧ Vec3.norm (p - y) ≤ 2 * eps := by
  have key : ∀ a b t : ℝ, a ≤ b → a - eps ≤ t → t ≤ b + eps → ∃ s, a ≤ s ∧ s ≤ b ∧ (t - s) ^ 2 ≤ eps ^ 2 := by
    intro a b t hab h1 h2
    rcases le_total t a with h | h
    · exact ⟨a, le_refl _, hab, by nlinarith⟩
    · rcases le_total t b with h' | h'
      · exact ⟨t, h, h', by rw [sub_self]; nlinarith⟩
      · exact ⟨b, hab, le_refl _, by nlinarith⟩
  obtain ⟨⟨a1, a2⟩, ⟨a3, a4⟩, a5, a6⟩ := h
  obtain ⟨x, x1, x2, x3⟩ := key _ _ _ hx a1 a2
  obtain ⟨y, y1, y2, y3⟩ := key _ _ _ hy a3 a4
  obtain ⟨z, z1, z2, z3⟩ := key _ _ _ hz a5 a6
  refine ⟨⟨x, y, z⟩, ⟨⟨x1, x2⟩, ⟨y1, y2⟩, z1, z2⟩, Vec3.norm_le_of_sq (by linarith) ?_⟩
  simp only [Vec3.normSq, Vec3.dot, Vec3.sub_x, Vec3.sub_y, Vec3.sub_z]
  nlinarith

/-- **C78, soundness (boxes).**  If a polygon is reported to meet a box, a point of the polygon is within the tolerance
from a point of the box. -/
theorem C78_cube_sound_partial {pts : List (Vec3 ℝ)} {vn : Option (Vec3 ℝ)} {P : Poly} {v w : Vec3 ℝ} {e M eps : ℝ}
    (h : polygonNew pts none vn = .ok P) (hv : P.vn = some v) (hpl : ∀ p ∈ P.pts, Vec3.dot v p = e)
    (hw : CornerNormal P.pts w) (hM : ∀ p ∈ P.pts, Vec3.norm p ≤ M) {lo hi : Vec3 ℝ} (hs : BoxSides lo hi)
    (hM' : ∀ p, InBox lo hi p → Vec3.norm p ≤ M) (heps : 0 ≤ eps)
    (ht : isPolygonCrossingCube P.pts P.tri lo hi eps = .ok true) :
    ∃ x, InBox lo hi x ∧ Near (Region P.pts P.tri) x (2 * eps + (1 / 10 ^ 4 * M + 1 / 10 ^ 7)) := by
  have hst := polygonNew_sturdy h
  obtain ⟨sx, sy, sz⟩ := hs
  have lx : lo.x ≤ hi.x := by linarith
  have ly : lo.y ≤ hi.y := by linarith
  have lz : lo.z ≤ hi.z := by linarith
  have hM0 : 0 ≤ M := (Vec3.norm_nonneg _).trans (hM' lo ⟨⟨le_refl _, lx⟩, ⟨le_refl _, ly⟩, le_refl _, lz⟩)
  have hs : BoxSides lo hi := ⟨sx, sy, sz⟩
  obtain ⟨r, hr, hir⟩ := cubeCrossing_iff hst (fun p q => C78_total h p q _) hs eps
  rw [ht, Except.ok.injEq] at hr
  rcases hir.1 hr.symm with ⟨p, hp, hb⟩ | ⟨t, ht, a, b, c, ha, hb, hc, ed, he, face, hface, hcr⟩ | ⟨ed, he, hcr⟩
  · obtain ⟨y, hy, hd⟩ := inBox_enlarged heps lx ly lz hb
    obtain ⟨t, ht, a, b, c, ha, hb, hc, hpc⟩ := polygonNew_vertex h hp
    refine ⟨y, hy, p, ⟨t, ht, a, b, c, ha, hb, hc, ?_⟩, ?_⟩
    · rcases hpc with rfl | rfl | rfl
      · exact ⟨1, 0, 0, zero_le_one, le_refl _, le_refl _, by ring, by simp⟩
      · exact ⟨0, 1, 0, le_refl _, zero_le_one, le_refl _, by ring, by simp⟩
      · exact ⟨0, 0, 1, le_refl _, le_refl _, zero_le_one, by ring, by simp⟩
    · rw [Vec3.norm_sub_comm]
      have : 0 ≤ 1 / 10 ^ 4 * M + 1 / 10 ^ 7 := by positivity
      linarith
  · obtain ⟨f1, ⟨n, e', f2⟩, ⟨w', f3⟩, f4, f5⟩ := face_facts hs hface
    obtain ⟨r, hr, hir⟩ := segmentCrossing_iff f1 f2.ne f2.plane f3 (eps := 1 / 10 ^ 10) (by positivity) ed.1 ed.2
    rw [hcr, Except.ok.injEq] at hr
    obtain ⟨-, x, hx, hxp, hin⟩ := hir.1 hr.symm
    obtain ⟨y, hy, hd⟩ := near_of_inside f1 f2 (fun p hp => hM' p (f5 p hp)) hxp hin
    refine ⟨y, f4 y hy, x, ⟨t, ht, a, b, c, ha, hb, hc, ?_⟩, ?_⟩
    · simp only [List.mem_cons, List.not_mem_nil, or_false] at he
      obtain ⟨s, s0, s1, rfl⟩ := hx
      have s1' : 0 ≤ 1 - s := by linarith
      rcases he with rfl | rfl | rfl
      · exact ⟨1 - s, s, 0, s1', s0, le_refl _, by ring, by rw [sub_smul, one_smul, smul_sub, zero_smul]; abel⟩
      · exact ⟨0, 1 - s, s, le_refl _, s1', s0, by ring, by rw [sub_smul, one_smul, smul_sub, zero_smul]; abel⟩
      · exact ⟨s, 0, 1 - s, s0, le_refl _, s1', by ring, by rw [sub_smul, one_smul, smul_sub, zero_smul]; abel⟩
    · rw [Vec3.norm_sub_comm]
      linarith
  · obtain ⟨x, hx, -, y, hy, hd⟩ := C78_sound_partial h hv hpl hw hM (by positivity) hcr
    exact ⟨x, cubeEdge_inBox lx ly lz ⟨ed, he, hx⟩, y, hy, by linarith⟩

/-- **C78, completeness (boxes).**  A polygon which has a point in common with a box is reported, if the points where
its triangles' edges meet the faces of the box, and where the edges of the box meet the polygon, are not too close to
(other) edges and the edges are not parallel to the faces and the polygon they meet. -/
theorem C78_cube_complete_partial {pts : List (Vec3 ℝ)} {vn : Option (Vec3 ℝ)} {P : Poly} {v w : Vec3 ℝ} {e eps : ℝ}
    (h : polygonNew pts none vn = .ok P) (hv : P.vn = some v) (hpl : ∀ p ∈ P.pts, Vec3.dot v p = e)
    (hw : CornerNormal P.pts w) {lo hi : Vec3 ℝ} (hs : BoxSides lo hi) (heps : 0 ≤ eps)
    (hgood : ∀ t ∈ P.tri, TriangleWith P.pts t fun a b c => ∀ ed ∈ [(a, b), (b, c), (c, a)],
      ∀ face ∈ cubePolygons lo hi, ∀ y, OnSegment ed.1 ed.2 y → Region face faceTri y → ClearlyIn face faceTri y ∧
        ∀ w', CornerNormal face w' → 1 / 10 ^ 10 ≤ |Vec3.dot (ed.2 - ed.1) w'|)
    (hgood' : ∀ ed ∈ cubeEdges lo hi, ∀ y, OnSegment ed.1 ed.2 y → Region P.pts P.tri y → ClearlyIn P.pts P.tri y ∧
        1 / 10 ^ 10 ≤ |Vec3.dot (ed.2 - ed.1) w|)
    {x : Vec3 ℝ} (hx : Region P.pts P.tri x) (hxb : InBox lo hi x) :
    isPolygonCrossingCube P.pts P.tri lo hi eps = .ok true := by
  have hst := polygonNew_sturdy h
  have hf := polygonNew_flat h hv hpl
  obtain ⟨sx, sy, sz⟩ := hs
  have hs : BoxSides lo hi := ⟨sx, sy, sz⟩
  obtain ⟨r, hr, hir⟩ := cubeCrossing_iff hst (fun p q => C78_total h p q _) hs eps
  rw [hr, Except.ok.injEq, hir]
  obtain ⟨t, ht, a, b, c, ha, hb, hc, hin⟩ := hx
  have ma := List.mem_of_getElem? ha
  have mb := List.mem_of_getElem? hb
  have mc := List.mem_of_getElem? hc
  have hA := (triangleWith_eq ha hb hc).1 (hf.pos t ht)
  have hg := (triangleWith_eq ha hb hc).1 (hgood t ht)
  have wide : ∀ {p : Vec3 ℝ}, InBox lo hi p →
      InBox ⟨lo.x - eps, lo.y - eps, lo.z - eps⟩ ⟨hi.x + eps, hi.y + eps, hi.z + eps⟩ p := by
    rintro p ⟨⟨a1, a2⟩, ⟨a3, a4⟩, a5, a6⟩
    exact ⟨⟨by linarith, by linarith⟩, ⟨by linarith, by linarith⟩, by linarith, by linarith⟩
  rcases triangle_meets_box (by linarith) (by linarith) (by linarith) hf.ne (hf.plane a ma) (hf.plane b mb)
    (hf.plane c mc) hA hin hxb with (hp | hp | hp) | ⟨y, hy, hseg⟩ | ⟨ed, he, y, hy, hyt⟩
  · exact .inl ⟨a, ma, wide hp⟩
  · exact .inl ⟨b, mb, wide hp⟩
  · exact .inl ⟨c, mc, wide hp⟩
  · right; left
    refine ⟨t, ht, a, b, c, ha, hb, hc, ?_⟩
    obtain ⟨ed, he, hed⟩ : ∃ ed ∈ [(a, b), (b, c), (c, a)], OnSegment ed.1 ed.2 y := by
      rcases hseg with h | h | h
      · exact ⟨(a, b), by simp, h⟩
      · exact ⟨(b, c), by simp, h⟩
      · exact ⟨(c, a), by simp, h⟩
    obtain ⟨face, hface, hyf⟩ := surface_face hs hy
    refine ⟨ed, he, face, hface, ?_⟩
    obtain ⟨g1, g2⟩ := hg ed he face hface y hed hyf
    obtain ⟨f1, ⟨n, e', f2⟩, ⟨w', f3⟩, -⟩ := face_facts hs hface
    obtain ⟨r, hr, hir⟩ := segmentCrossing_iff f1 f2.ne f2.plane f3 (eps := 1 / 10 ^ 10) (by positivity) ed.1 ed.2
    obtain ⟨k1, k2⟩ := clearlyIn_accepted f1 f2 g1
    rw [hr, Except.ok.injEq, hir]
    exact ⟨g2 w' f3, y, hed, k2, k1⟩
  · right; right
    obtain ⟨g1, g2⟩ := hgood' ed he y hy ⟨t, ht, a, b, c, ha, hb, hc, hyt⟩
    exact ⟨ed, he, C78_complete_partial h hv hpl hw (by positivity) g2 hy g1⟩

end B3d.Polygon
