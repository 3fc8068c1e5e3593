import Verif.Spec.Tolerance
import Verif.Model.Crossing
import Verif.Model.Stitch
import Verif.Model.Intersect
import Verif.Model.Slice
import Verif.Model.Rotation
import Verif.Props.Bboxes
import Verif.Props.Triangles

/-! # C102: how far apart numbers may be and still count as equal -/

namespace B3d.Tolerance

open Spec Points Polygon Triangles

section field
variable {K : Type} [Field K] [LinearOrder K]

theorem allClose_iff (p q : Vec3 K) (r a : K) : allClose p q r a ↔ WithinPt a r p q := Iff.rfl

/-- **C102, points.**  Two points count as equal exactly if each coordinate of the first differs from that of the second by at
most `1e-13` plus `1e-5` times the size of the latter; with another absolute tolerance, that one replaces `1e-13`. -/
theorem C102_points (p q : Vec3 K) :
    (pointsEqual p q = true ↔ WithinPt (1 / 10 ^ 13) (1 / 10 ^ 5) p q) ∧
    ∀ a : K, pointsEqual p q a = true ↔ WithinPt a (1 / 10 ^ 5) p q := by
  constructor
  · simp only [pointsEqual, decide_eq_true_eq]; exact Iff.rfl
  · intro a; simp only [pointsEqual, decide_eq_true_eq]; exact Iff.rfl

/-- **C102, arrays of points.**  A point is found in an array exactly if it counts as equal to one of its points, with these
tolerances relative to the point of the array. -/
theorem C102_in_array (p : Vec3 K) (l : List (Vec3 K)) :
    isPointInArray p l = true ↔ ∃ q ∈ l, WithinPt (1 / 10 ^ 13) (1 / 10 ^ 5) p q := by
  simp only [isPointInArray, List.any_eq_true, (C102_points p _).1]

/-- **C102, segments.**  A point is on a segment exactly if it counts as equal to one of the ends, or it is nearly in line with
them (each coordinate of the cross product is at most `1e-13`) and not more than `1e-13` past either end, measured by the scalar
product with the segment. -/
theorem C102_segment [IsStrictOrderedRing K] (p a b : Vec3 K) :
    isPointOnSegment p a b = true ↔
      WithinPt (1 / 10 ^ 13) (1 / 10 ^ 5) p a ∨ WithinPt (1 / 10 ^ 13) (1 / 10 ^ 5) p b ∨
      |(Vec3.cross (p - a) (b - a)).x| ≤ 1 / 10 ^ 13 ∧ |(Vec3.cross (p - a) (b - a)).y| ≤ 1 / 10 ^ 13 ∧
        |(Vec3.cross (p - a) (b - a)).z| ≤ 1 / 10 ^ 13 ∧
        -(1 / 10 ^ 13) ≤ Vec3.dot (p - a) (b - a) ∧
        Vec3.dot (p - a) (b - a) ≤ Vec3.dot (b - a) (b - a) + 1 / 10 ^ 13 := by
  have hz : allClose (Vec3.cross (p - a) (b - a)) 0 NP_RTOL GEOM_ATOL ↔
      |(Vec3.cross (p - a) (b - a)).x| ≤ 1 / 10 ^ 13 ∧ |(Vec3.cross (p - a) (b - a)).y| ≤ 1 / 10 ^ 13 ∧
        |(Vec3.cross (p - a) (b - a)).z| ≤ 1 / 10 ^ 13 := by
    simp only [allClose, isClose, Vec3.zero_x, Vec3.zero_y, Vec3.zero_z, sub_zero, abs_zero, mul_zero, add_zero,
      show (GEOM_ATOL : K) = 1 / 10 ^ 13 from rfl]
  have h1 : allClose p a NP_RTOL GEOM_ATOL ↔ WithinPt (1 / 10 ^ 13) (1 / 10 ^ 5) p a := Iff.rfl
  have h2 : allClose p b NP_RTOL GEOM_ATOL ↔ WithinPt (1 / 10 ^ 13) (1 / 10 ^ 5) p b := Iff.rfl
  have h3 : (GEOM_ATOL : K) = 1 / 10 ^ 13 := rfl
  unfold isPointOnSegment
  rw [← h1, ← h2]
  constructor
  · intro h
    split at h
    · rename_i c; exact c.elim .inl fun c => .inr (.inl c)
    · split at h
      · cases h
      · rename_i c2
        rw [not_not] at c2
        simp only [h3] at h
        split at h
        · cases h
        · rename_i c3
          rw [not_or, not_lt, gt_iff_lt, not_lt] at c3
          obtain ⟨x, y, z⟩ := hz.1 c2
          exact .inr (.inr ⟨x, y, z, c3.1, c3.2⟩)
  · intro h
    by_cases c1 : allClose p a NP_RTOL GEOM_ATOL ∨ allClose p b NP_RTOL GEOM_ATOL
    · rw [if_pos c1]
    · rw [if_neg c1]
      rcases h with h | h | ⟨x, y, z, u, w⟩
      · exact absurd (.inl h) c1
      · exact absurd (.inr h) c1
      · rw [if_neg (not_not.2 (hz.2 ⟨x, y, z⟩))]
        simp only [h3]
        rw [if_neg]
        rw [not_or, not_lt, gt_iff_lt, not_lt]
        exact ⟨u, w⟩

/-- **C102, facing polygons.**  Two polygons do not face each other unless each coordinate of the normal of the first differs
from that of the opposite of the second by at most `1e-8` plus `1e-6` of its size, and the areas differ by at most `1e-8` plus
`1e-5` of the second.  If both hold, only the bounding boxes and the matching of the points decide. -/
theorem C102_facing [IsStrictOrderedRing K] (pts1 pts2 : List (Vec3 K)) (v w : Vec3 K) (h1 : pts1 ≠ []) (h2 : pts2 ≠ []) :
    ∃ lo hi lo' hi', Bboxes.boundingBox pts1 = .ok (lo, hi) ∧ Bboxes.boundingBox pts2 = .ok (lo', hi') ∧
      (arePolygonsFacing pts1 v pts2 w = .ok true ↔
        WithinPt (1 / 10 ^ 8) (1 / 10 ^ 6) v (-w) ∧
        Within (1 / 10 ^ 8) (1 / 10 ^ 5) (polygonArea pts1 v) (polygonArea pts2 w) ∧
        Bboxes.areBboxesOverlapping (lo, hi) (lo', hi') = true ∧
        matchLoop (fun a b => pointsEqual a b) pts2.zipIdx pts1 [] 0 = pts1.length) ∧
      (arePolygonsFacing pts1 v pts2 w ≠ .ok true → arePolygonsFacing pts1 v pts2 w = .ok false) := by
  obtain ⟨lo, hi, hb, -⟩ := Bboxes.C25_bounding_box_tight pts1 h1
  obtain ⟨lo', hi', hb', -⟩ := Bboxes.C25_bounding_box_tight pts2 h2
  refine ⟨lo, hi, lo', hi', hb, hb', ?_, ?_⟩
  · have e1 : allClose v (-w) GEOM_RTOL NP_ATOL ↔ WithinPt (1 / 10 ^ 8) (1 / 10 ^ 6) v (-w) := Iff.rfl
    have e2 : isClose (polygonArea pts1 v) (polygonArea pts2 w) NP_RTOL NP_ATOL ↔
      Within (1 / 10 ^ 8) (1 / 10 ^ 5) (polygonArea pts1 v) (polygonArea pts2 w) := Iff.rfl
    simp only [arePolygonsFacing, hb, hb', neg_one_smul, e1, e2]
    split_ifs with c1 c2 c3 c4 <;> simp_all
  · simp only [arePolygonsFacing, hb, hb']
    split_ifs <;> simp

end field

/-- **C102, normals.**  Three points have no normal exactly if the cross product of their differences is at most `1e-8` long. -/
theorem C102_normal (a b c : Vec3 ℝ) :
    (normal a b c = none ↔ Vec3.norm (Vec3.cross (b - a) (c - a)) ≤ 1 / 10 ^ 8) ∧
    ∀ v, normal a b c = some v → Vec3.norm (Vec3.cross (b - a) (c - a)) • v = Vec3.cross (b - a) (c - a) := by
  have e : isClose (Vec3.norm (Vec3.cross (b - a) (c - a))) 0 NP_RTOL NP_ATOL ↔
      Vec3.norm (Vec3.cross (b - a) (c - a)) ≤ 1 / 10 ^ 8 := by
    simp only [isClose, sub_zero, abs_zero, mul_zero, add_zero, abs_of_nonneg (Vec3.norm_nonneg _),
      show (NP_ATOL : ℝ) = 1 / 10 ^ 8 from rfl]
  constructor
  · rw [← e]
    simp only [normal]
    by_cases h : isClose (Vec3.norm (Vec3.cross (b - a) (c - a))) 0 NP_RTOL NP_ATOL
    · rw [if_pos h]; exact ⟨fun _ => h, fun _ => rfl⟩
    · rw [if_neg h]; exact ⟨fun h' => (nomatch h'), fun h' => absurd h' h⟩
  · intro v
    simp only [normal, e]
    split_ifs with h
    · exact fun h => nomatch h
    · intro hv
      rw [Option.some.injEq] at hv
      have : Vec3.norm (Vec3.cross (b - a) (c - a)) ≠ 0 := by
        rw [not_le] at h; exact (lt_trans (by positivity) h).ne'
      rw [← hv, smul_smul, mul_one_div_cancel this, one_smul]

/-- **C102, corners.**  The corner `a b c` of an outline with the normal `v` is reported as convex exactly if the cross product of
its edges is at least `1e-13` long and, scaled to length 1, differs from `v` by at most `1e-8` plus `1e-6` of its size in each
coordinate.  A normal whose length differs from 1 by `1e-13` or more is refused. -/
theorem C102_corner (v a b c : Vec3 ℝ) :
    (isCornerConvex v a b c = .error .assertionError ↔ 1 / 10 ^ 13 ≤ |Vec3.norm v - 1|) ∧
    (isCornerConvex v a b c = .ok true ↔
      |Vec3.norm v - 1| < 1 / 10 ^ 13 ∧ 1 / 10 ^ 13 ≤ Vec3.norm (Vec3.cross (b - a) (c - b)) ∧
      WithinPt (1 / 10 ^ 8) (1 / 10 ^ 6)
        ((1 / Vec3.norm (Vec3.cross (b - a) (c - b))) • Vec3.cross (b - a) (c - b)) v) ∧
    (isCornerConvex v a b c = .error .assertionError ∨ ∃ r, isCornerConvex v a b c = .ok r) := by
  have e : ∀ u, allClose u v GEOM_RTOL NP_ATOL ↔ WithinPt (1 / 10 ^ 8) (1 / 10 ^ 6) u v := fun _ => Iff.rfl
  have g : (GEOM_ATOL : ℝ) = 1 / 10 ^ 13 := rfl
  simp only [isCornerConvex, e, g]
  by_cases c1 : |Vec3.norm v - 1| < 1 / 10 ^ 13
  · rw [if_neg (not_not.2 c1)]
    by_cases c2 : Vec3.norm (Vec3.cross (b - a) (c - b)) < 1 / 10 ^ 13
    · rw [if_pos c2]
      refine ⟨?_, ?_, .inr ⟨_, rfl⟩⟩
      · simp only [reduceCtorEq, false_iff]; exact not_le.2 c1
      · simp only [Except.ok.injEq, Bool.false_eq_true, false_iff]; exact fun h => absurd h.2.1 (not_le.2 c2)
    · rw [if_neg c2]
      refine ⟨?_, ?_, .inr ⟨_, rfl⟩⟩
      · simp only [reduceCtorEq, false_iff]; exact not_le.2 c1
      · rw [Except.ok.injEq, decide_eq_true_eq]
        exact ⟨fun h => ⟨c1, not_lt.1 c2, h⟩, fun h => h.2.2⟩
  · rw [if_pos c1]
    refine ⟨⟨fun _ => not_lt.1 c1, fun _ => rfl⟩, ?_, .inl rfl⟩
    simp only [reduceCtorEq, false_iff]
    exact fun h => c1 h.1

/-- **C102, sides of a line.**  The test whether `p` is on the same side of the line through `a` and `b` as `r`: it is refused if
the cross product for `r` is shorter than `1e-13`, and otherwise positive exactly if the one for `p` is at least `1e-13` long and
the two, scaled to length 1, agree up to `1e-13` plus `1e-5` of the second in each coordinate. -/
theorem C102_same_side (a b p r : Vec3 ℝ) :
    let f (q : Vec3 ℝ) := Vec3.cross (b - a) (q - a)
    (Vec3.norm (f r) < 1 / 10 ^ 13 → isPointOnSameSide a b p r = .error .geometryError) ∧
    (1 / 10 ^ 13 ≤ Vec3.norm (f r) → ∃ x, isPointOnSameSide a b p r = .ok x ∧
      (x = true ↔ 1 / 10 ^ 13 ≤ Vec3.norm (f p) ∧
        WithinPt (1 / 10 ^ 13) (1 / 10 ^ 5) ((1 / Vec3.norm (f p)) • f p) ((1 / Vec3.norm (f r)) • f r))) := by
  intro f
  have e : ∀ u w, allClose u w NP_RTOL (1 / 10 ^ 13) ↔ WithinPt (1 / 10 ^ 13 : ℝ) (1 / 10 ^ 5) u w := fun _ _ => Iff.rfl
  simp only [isPointOnSameSide, show (GEOM_ATOL : ℝ) = 1 / 10 ^ 13 from rfl, e]
  constructor
  · intro h; rw [if_pos h]
  · intro h
    rw [if_neg (not_lt.2 h)]
    by_cases c : Vec3.norm (f p) < 1 / 10 ^ 13
    · rw [if_pos c]
      exact ⟨false, rfl, fun h => (nomatch h), fun h => absurd h.1 (not_le.2 c)⟩
    · rw [if_neg c]
      refine ⟨_, rfl, ?_⟩
      rw [decide_eq_true_eq]
      exact ⟨fun h => ⟨not_lt.1 c, h⟩, fun h => h.2⟩

/-- **C102, crossing lines.**  Two lines have a common point only if neither direction is within `1e-8` of zero in all
coordinates, the directions scaled to length 1 are neither equal nor opposite up to `1e-8` plus `1e-5`, and the nearest points
found on the two lines agree up to `1e-8` plus `1e-5`; the result is then the point on the first line. -/
theorem C102_lines (p d q e : Vec3 ℝ) (x : Vec3 ℝ) :
    lineIntersection p d q e = some x ↔
      ¬ WithinPt (1 / 10 ^ 8) (1 / 10 ^ 5) d 0 ∧ ¬ WithinPt (1 / 10 ^ 8) (1 / 10 ^ 5) e 0 ∧
      ¬ WithinPt (1 / 10 ^ 8) (1 / 10 ^ 5) ((1 / Vec3.norm d) • d) ((1 / Vec3.norm e) • e) ∧
      ¬ WithinPt (1 / 10 ^ 8) (1 / 10 ^ 5) ((1 / Vec3.norm d) • d) (-((1 / Vec3.norm e) • e)) ∧
      WithinPt (1 / 10 ^ 8) (1 / 10 ^ 5) (p + (lstsq d e (q - p)).1 • d) (q + (lstsq d e (q - p)).2 • e) ∧
      x = p + (lstsq d e (q - p)).1 • d := by
  have h : ∀ u w, allClose u w NP_RTOL NP_ATOL ↔ WithinPt (1 / 10 ^ 8 : ℝ) (1 / 10 ^ 5) u w := fun _ _ => Iff.rfl
  have hu : ∀ u : Vec3 ℝ, (1 / Vec3.norm u) • u = Points.unit u := fun _ => rfl
  simp only [← h, hu]
  simp only [lineIntersection]
  rw [← neg_one_smul ℝ (Points.unit e)]
  by_cases c1 : allClose d 0 NP_RTOL NP_ATOL ∨ allClose e 0 NP_RTOL NP_ATOL
  · rw [if_pos c1]
    exact ⟨fun h => (nomatch h), fun h => (c1.elim h.1 h.2.1).elim⟩
  rw [if_neg c1]
  rw [not_or] at c1
  by_cases c2 : allClose (Points.unit d) (Points.unit e) NP_RTOL NP_ATOL
  · rw [if_pos c2]
    exact ⟨fun h => (nomatch h), fun h => absurd c2 h.2.2.1⟩
  rw [if_neg c2]
  by_cases c3 : allClose (Points.unit d) ((-1 : ℝ) • Points.unit e) NP_RTOL NP_ATOL
  · rw [if_pos c3]
    exact ⟨fun h => (nomatch h), fun h => absurd c3 h.2.2.2.1⟩
  rw [if_neg c3]
  by_cases c4 : allClose (p + (lstsq d e (q - p)).1 • d) (q + (lstsq d e (q - p)).2 • e) NP_RTOL NP_ATOL
  · rw [if_pos c4, Option.some.injEq]
    exact ⟨fun h => ⟨c1.1, c1.2, c2, c3, c4, h.symm⟩, fun h => h.2.2.2.2.2.symm⟩
  · rw [if_neg c4]
    exact ⟨fun h => (nomatch h), fun h => absurd h.2.2.2.2.1 c4⟩

theorem locateEdge_le {p : Vec3 ℝ} {edges : List (Vec3 ℝ × Vec3 ℝ)} {i j : Nat}
    (h : Slice.locateEdge p i edges = .ok (.edge, j)) : i ≤ j := by
  induction edges generalizing i with
  | nil => simp [Slice.locateEdge] at h
  | cons e es ih =>
    obtain ⟨a, b⟩ := e
    simp only [Slice.locateEdge] at h
    split at h
    · cases h
    · split at h
      · simp only [Except.ok.injEq, Prod.mk.injEq, true_and] at h
        exact h.le
      · exact (Nat.le_succ i).trans (ih h)

/-- **C102, points on an edge of a polygon that is sliced.**  A slicing point is located on the first edge at a distance of at
most `1e-8`. -/
theorem C102_edge (p : Vec3 ℝ) (i : Nat) (edges : List (Vec3 ℝ × Vec3 ℝ)) (dist : Vec3 ℝ × Vec3 ℝ → ℝ)
    (hd : ∀ e ∈ edges, distancePointToEdge p e.1 e.2 = .ok (dist e)) :
    (∀ k, Slice.locateEdge p i edges = .ok (.edge, i + k) ↔
      ∃ e, edges[k]? = some e ∧ dist e ≤ 1 / 10 ^ 8 ∧ ∀ j < k, ∀ e', edges[j]? = some e' → 1 / 10 ^ 8 < dist e') ∧
    (Slice.locateEdge p i edges = .ok (.interior, 0) ↔ ∀ e ∈ edges, 1 / 10 ^ 8 < dist e) := by
  have hnn : ∀ e ∈ edges, 0 ≤ dist e := by
    intro e he
    have := hd e he
    simp only [distancePointToEdge] at this
    split_ifs at this
    all_goals
      rw [Except.ok.injEq] at this
      rw [← this]
      exact Vec3.norm_nonneg _
  have hc : ∀ e ∈ edges, (isClose (dist e) 0 NP_RTOL NP_ATOL ↔ dist e ≤ 1 / 10 ^ 8) := by
    intro e he
    simp only [isClose, sub_zero, abs_zero, mul_zero, add_zero, abs_of_nonneg (hnn e he),
      show (NP_ATOL : ℝ) = 1 / 10 ^ 8 from rfl]
  clear hnn
  induction edges generalizing i with
  | nil => simp [Slice.locateEdge]
  | cons e es ih =>
    obtain ⟨a, b⟩ := e
    have h1 := hd (a, b) List.mem_cons_self
    have h2 := hc (a, b) List.mem_cons_self
    obtain ⟨ih1, ih2⟩ := ih (i + 1) (fun e he => hd e (List.mem_cons_of_mem _ he)) (fun e he => hc e (List.mem_cons_of_mem _ he))
    simp only at h1
    simp only [Slice.locateEdge, h1]
    by_cases c : dist (a, b) ≤ 1 / 10 ^ 8
    · rw [if_pos (h2.2 c)]
      constructor
      · intro k
        constructor
        · intro h
          simp only [Except.ok.injEq, Prod.mk.injEq, true_and] at h
          obtain rfl : k = 0 := by omega
          exact ⟨(a, b), rfl, c, fun j hj => absurd hj (Nat.not_lt_zero _)⟩
        · rintro ⟨e, -, -, h⟩
          cases k with
          | zero => rfl
          | succ k => exact absurd c (not_le.2 (h 0 (Nat.succ_pos _) _ rfl))
      · constructor
        · intro h; simp at h
        · intro h; exact absurd c (not_le.2 (h _ List.mem_cons_self))
    · rw [if_neg (fun h => c (h2.1 h))]
      constructor
      · intro k
        cases k with
        | zero =>
          constructor
          · intro h
            have := locateEdge_le h
            omega
          · rintro ⟨e, h, h', -⟩
            rw [List.getElem?_cons_zero, Option.some.injEq] at h
            subst h
            exact absurd h' c
        | succ k =>
          have := ih1 k
          rw [show i + 1 + k = i + (k + 1) by omega] at this
          rw [this]
          constructor
          · rintro ⟨e, h, h', h''⟩
            refine ⟨e, h, h', fun j hj e' he' => ?_⟩
            cases j with
            | zero =>
              rw [List.getElem?_cons_zero, Option.some.injEq] at he'
              subst he'
              exact not_le.1 c
            | succ j => exact h'' j (by omega) e' he'
          · rintro ⟨e, h, h', h''⟩
            exact ⟨e, h, h', fun j hj e' he' => h'' (j + 1) (by omega) e' he'⟩
      · rw [ih2]
        simp only [List.forall_mem_cons, not_le.1 c, true_and]

/-- **C102, equal polygons.**  Two polygons with the same number of vertices are equal exactly if the vertices at the same
positions agree up to `1e-8` plus `1e-5`; otherwise the comparison fails. -/
theorem C102_polygons (P Q : Poly) :
    (P.pts.length ≠ Q.pts.length → polygonEq P Q = .error .valueError) ∧
    (P.pts.length = Q.pts.length → ∃ r, polygonEq P Q = .ok r ∧
      (r = true ↔ ∀ (i : Nat) (p q : Vec3 ℝ), P.pts[i]? = some p → Q.pts[i]? = some q →
        WithinPt (1 / 10 ^ 8) (1 / 10 ^ 5) p q)) := by
  unfold polygonEq
  refine ⟨fun h => by rw [if_neg h], fun h => ?_⟩
  rw [if_pos h]
  refine ⟨_, rfl, ?_⟩
  simp only [List.all_eq_true, decide_eq_true_eq]
  constructor
  · intro hh i p q hp hq
    exact hh (p, q) (List.mem_of_getElem? (by rw [List.getElem?_zip_eq_some]; exact ⟨hp, hq⟩))
  · rintro hh ⟨p, q⟩ he
    obtain ⟨i, hi⟩ := List.getElem?_of_mem he
    rw [List.getElem?_zip_eq_some] at hi
    exact hh i p q hi.1 hi.2

/-- **C102, rotations.**  A rotation is refused exactly if the length of the axis differs from 1 by more than `1e-8 + 1e-5`.
Points are not rotated at all if the axis is shorter than `1e-13` or the angle smaller than `1e-13`. -/
theorem C102_rotation (pts : List (Vec3 ℝ)) (u : Vec3 ℝ) (phi : ℝ) :
    (Rotation.rotationMatrix u phi = .error .assertionError ↔ 1 / 10 ^ 8 + 1 / 10 ^ 5 < |Vec3.norm u - 1|) ∧
    (Vec3.norm u < 1 / 10 ^ 13 ∨ |phi| < 1 / 10 ^ 13 →
      ∃ R, Rotation.rotatePointsAroundVector pts u phi = .ok (pts, R)) ∧
    (1 / 10 ^ 13 ≤ |phi| → 1 / 10 ^ 13 ≤ Vec3.norm u → 1 / 10 ^ 8 + 1 / 10 ^ 5 < |Vec3.norm u - 1| →
      Rotation.rotatePointsAroundVector pts u phi = .error .assertionError) := by
  have e : isClose (Vec3.norm u) 1 NP_RTOL NP_ATOL ↔ |Vec3.norm u - 1| ≤ 1 / 10 ^ 8 + 1 / 10 ^ 5 := by
    simp only [isClose, abs_one, mul_one, show (NP_ATOL : ℝ) = 1 / 10 ^ 8 from rfl, show (NP_RTOL : ℝ) = 1 / 10 ^ 5 from rfl]
  have hr : Rotation.rotationMatrix u phi = .error .assertionError ↔ 1 / 10 ^ 8 + 1 / 10 ^ 5 < |Vec3.norm u - 1| := by
    unfold Rotation.rotationMatrix
    by_cases h : isClose (Vec3.norm u) 1 NP_RTOL NP_ATOL
    · rw [if_pos h]
      exact ⟨fun h' => (nomatch h'), fun h' => absurd (e.1 h) (not_le.2 h')⟩
    · rw [if_neg h]
      exact ⟨fun _ => not_le.1 fun h' => h (e.2 h'), fun _ => rfl⟩
  refine ⟨hr, fun h => ⟨Rotation.Mat3.ones, ?_⟩, fun h1 h2 h3 => ?_⟩
  · rw [Rotation.rotatePointsAroundVector, if_pos (show Vec3.norm u < GEOM_ATOL ∨ |phi| < GEOM_ATOL from h)]
  · rw [Rotation.rotatePointsAroundVector, if_neg, hr.2 h3]
    rintro (h | h)
    · exact absurd h2 (not_le.2 h)
    · exact absurd h1 (not_le.2 h)

/-- **C102, floor plans.**  A floor plan is not rotated exactly if the angle is at most `1e-8`, and not moved exactly if no
coordinate of the translation exceeds `1e-8`. -/
theorem C102_plan (pts ceiling : List (Vec3 ℝ)) (phi : ℝ) (t : Vec3 ℝ) :
    (|phi| ≤ 1 / 10 ^ 8 → Solids.planRotate pts phi = .ok pts) ∧
    (1 / 10 ^ 8 < |phi| → Solids.planRotate pts phi = (Rotation.rotatePointsAroundVector pts ⟨0, 0, 1⟩ phi).map Prod.fst) ∧
    (|t.x| ≤ 1 / 10 ^ 8 ∧ |t.y| ≤ 1 / 10 ^ 8 ∧ |t.z| ≤ 1 / 10 ^ 8 → Solids.planTranslate pts ceiling t = (pts, ceiling, 0)) ∧
    (¬ (|t.x| ≤ 1 / 10 ^ 8 ∧ |t.y| ≤ 1 / 10 ^ 8 ∧ |t.z| ≤ 1 / 10 ^ 8) →
      Solids.planTranslate pts ceiling t = (pts.map (· + t), ceiling.map (· + t), t.z)) := by
  have e : isClose phi 0 NP_RTOL NP_ATOL ↔ |phi| ≤ 1 / 10 ^ 8 := by
    simp only [isClose, sub_zero, abs_zero, mul_zero, add_zero, show (NP_ATOL : ℝ) = 1 / 10 ^ 8 from rfl]
  have e' : allClose t ⟨0, 0, 0⟩ NP_RTOL NP_ATOL ↔ |t.x| ≤ 1 / 10 ^ 8 ∧ |t.y| ≤ 1 / 10 ^ 8 ∧ |t.z| ≤ 1 / 10 ^ 8 := by
    simp only [allClose, isClose, sub_zero, abs_zero, mul_zero, add_zero, show (NP_ATOL : ℝ) = 1 / 10 ^ 8 from rfl]
  refine ⟨fun h => ?_, fun h => ?_, fun h => ?_, fun h => ?_⟩
  · rw [Solids.planRotate, if_neg (not_not.2 (e.2 h))]
  · rw [Solids.planRotate, if_pos fun h' => absurd (e.1 h') (not_le.2 h)]
    cases Rotation.rotatePointsAroundVector pts ⟨0, 0, 1⟩ phi <;> rfl
  · rw [Solids.planTranslate, if_neg (not_not.2 (e'.2 h))]
  · rw [Solids.planTranslate, if_pos fun h' => h (e'.1 h')]

/-- **C102, points in a plane.**  Four or more points, not all in line, whose first three consecutive points with a normal have
the normal `v`: they count as coplanar exactly if each is less than `1e-13` away, across `v`, from the first. -/
theorem C102_plane {pts : List (Vec3 ℝ)} {p0 v : Vec3 ℝ} (hn : 4 ≤ pts.length) (h0 : pts[0]? = some p0)
    (hc : arePointsCollinear pts = .ok false) (hv : firstNormal pts = some v) :
    arePointsCoplanar pts = true ↔ ∀ p ∈ pts, |Vec3.dot v p - Vec3.dot v p0| < 1 / 10 ^ 13 := by
  match pts, hn with
  | a :: l, hn =>
    rw [List.getElem?_cons_zero, Option.some.injEq] at h0
    subst h0
    rw [List.length_cons] at hn
    simp only [arePointsCoplanar, hc, hv]
    rw [if_neg (by omega)]
    simp only [List.all_eq_true, decide_eq_true_eq, show (GEOM_ATOL : ℝ) = 1 / 10 ^ 13 from rfl]
    refine forall₂_congr fun p _ => ?_
    rw [neg_one_mul, neg_add_eq_sub]

/-! ### At the boundaries -/

/-- Points that differ by exactly the tolerance count as equal; the tolerance is that of the second point. -/
example : pointsEqual (⟨1 + 1 / 10 ^ 13 + 1 / 10 ^ 5, 0, 0⟩ : Vec3 ℚ) ⟨1, 0, 0⟩ = true ∧
    pointsEqual (⟨1 + 2 / 10 ^ 13 + 1 / 10 ^ 5, 0, 0⟩ : Vec3 ℚ) ⟨1, 0, 0⟩ = false ∧
    pointsEqual (⟨0, 1 / 10 ^ 13, 0⟩ : Vec3 ℚ) ⟨0, 0, 0⟩ = true ∧
    pointsEqual (⟨0, 2 / 10 ^ 13, 0⟩ : Vec3 ℚ) ⟨0, 0, 0⟩ = false ∧
    isPointInArray (⟨3, 4, 5⟩ : Vec3 ℚ) [⟨0, 0, 0⟩, ⟨3, 4, 5⟩] = true := by decide +kernel

/-- A point at the very end of the tolerance of a segment. -/
example : isPointOnSegment (⟨3, 0, 0⟩ : Vec3 ℚ) ⟨1, 0, 0⟩ ⟨4, 0, 0⟩ = true ∧
    isPointOnSegment (⟨3, 1, 0⟩ : Vec3 ℚ) ⟨1, 0, 0⟩ ⟨4, 0, 0⟩ = false ∧
    isPointOnSegment (⟨5, 0, 0⟩ : Vec3 ℚ) ⟨1, 0, 0⟩ ⟨4, 0, 0⟩ = false := by decide +kernel

/-- Four points that meet the hypotheses of `C102_plane`. -/
example : arePointsCollinear [⟨0, 0, 0⟩, ⟨1, 0, 0⟩, ⟨0, 1, 0⟩, ⟨0, 0, 1⟩] = .ok false ∧
    firstNormal [⟨0, 0, 0⟩, ⟨1, 0, 0⟩, ⟨0, 1, 0⟩, ⟨0, 0, 1⟩] = some ⟨0, 0, 1⟩ := by
  constructor
  · norm_num [arePointsCollinear, unitFrom, collinearLoop, Vec3.norm, Vec3.normSq, Vec3.dot, EPSILON, allClose, isClose, NP_RTOL, GEOM_ATOL]
  · norm_num [firstNormal, normal, Vec3.cross, Vec3.norm, Vec3.normSq, Vec3.dot, isClose, NP_ATOL]

/-- A point in the middle of the second of two edges meets the hypothesis of `C102_edge`. -/
example : ∀ e ∈ [((⟨0, 1, 0⟩ : Vec3 ℝ), (⟨4, 1, 0⟩ : Vec3 ℝ)), (⟨0, 0, 0⟩, ⟨4, 0, 0⟩)],
    distancePointToEdge ⟨2, 0, 0⟩ e.1 e.2 = .ok ((fun e : Vec3 ℝ × Vec3 ℝ => e.1.y) e) := by
  intro e he
  simp only [List.mem_cons, List.not_mem_nil, or_false] at he
  rcases he with rfl | rfl <;>
    norm_num [distancePointToEdge, Vec3.norm, Vec3.normSq, Vec3.dot]

/-- Two triangles on top of each other, seen from both sides. -/
example : (let t : List (Vec3 ℚ) := [⟨0, 0, 0⟩, ⟨2, 0, 0⟩, ⟨0, 2, 0⟩]
    arePolygonsFacing t ⟨0, 0, 1⟩ t ⟨0, 0, -1⟩ = .ok true ∧
    arePolygonsFacing t ⟨0, 1 / 10 ^ 8, 1⟩ t ⟨0, 0, -1⟩ = .ok true ∧
    arePolygonsFacing t ⟨0, 2 / 10 ^ 8, 1⟩ t ⟨0, 0, -1⟩ = .ok false) := by decide +kernel

end B3d.Tolerance
