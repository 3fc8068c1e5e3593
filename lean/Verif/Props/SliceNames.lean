import Verif.Model.Slice

/-!
# C42: the names of the parts of a sliced polygon

`slice_polygon` can be given a point and a name for each part.  `inside P p` is `P.is_point_inside(p)`; the
polygons of the parts are made by `Polygon` from their points and the normal of the sliced polygon.
-/

namespace B3d.Slice

variable {N α π : Type} [DecidableEq N]

/-- **C42.**  The two parts are returned in the order of their names: the first one has the first name, the second
one the second; they are the two polygons, each once. -/
theorem C42_order {inside : π → α → Except PyErr Bool} {P1 P2 : π} {pt1 pt2 : Option α} {name1 name2 : N}
    {r : (N × π) × (N × π)} (h : nameParts inside P1 P2 pt1 pt2 name1 name2 = .ok r) :
    r.1.1 = name1 ∧ r.2.1 = name2 ∧ ((r.1.2 = P1 ∧ r.2.2 = P2) ∨ (r.1.2 = P2 ∧ r.2.2 = P1)) := by
  unfold nameParts at h
  split at h
  · cases h
  split at h
  · next hc => cases h; exact ⟨hc.1, hc.2, .inl ⟨rfl, rfl⟩⟩
  split at h
  · next hc => cases h; exact ⟨hc.2, hc.1, .inr ⟨rfl, rfl⟩⟩
  · cases h

/-- **C42.**  With different names, the part with a name contains the point given for the name. -/
theorem C42_contains {inside : π → α → Except PyErr Bool} {P1 P2 : π} {pt1 pt2 : Option α} {name1 name2 : N}
    (hne : name1 ≠ name2) {r : (N × π) × (N × π)}
    (h : nameParts inside P1 P2 pt1 pt2 name1 name2 = .ok r) :
    (∀ p, pt1 = some p → inside r.1.2 p = .ok true) ∧ (∀ p, pt2 = some p → inside r.2.2 p = .ok true) := by
  unfold nameParts at h
  split at h
  · cases h
  rename_i n1 n2 hc
  unfold chooseNames at hc
  have hne' := hne.symm
  match pt1, pt2 with
  | some a, some b =>
    simp only at hc
    split at hc
    · cases hc
    rename_i m1 h1
    split at hc
    · cases hc
    rename_i m2 h2
    cases hc
    have key : ∀ (P : π) (m : N), (match inside P a with
        | .error e => .error e
        | .ok true => .ok name1
        | .ok false =>
          match inside P b with
          | .error e => .error e
          | .ok true => .ok name2
          | .ok false => .error .geometryError : Except PyErr N) = .ok m →
        (m = name1 ∧ inside P a = .ok true) ∨ (m = name2 ∧ inside P b = .ok true) := by
      intro P m hm
      split at hm
      · cases hm
      · cases hm; exact .inl ⟨rfl, by assumption⟩
      · split at hm
        · cases hm
        · cases hm; exact .inr ⟨rfl, by assumption⟩
        · cases hm
    have k1 := key P1 n1 h1
    have k2 := key P2 n2 h2
    rcases k1 with ⟨rfl, i1⟩ | ⟨rfl, i1⟩ <;> rcases k2 with ⟨rfl, i2⟩ | ⟨rfl, i2⟩ <;>
      simp [hne, hne'] at h <;> subst h <;> simp [i1, i2]
  | some a, none =>
    simp only at hc
    split at hc
    · cases hc
    · cases hc
      simp only [and_self, if_true, Except.ok.injEq] at h
      subst h
      simpa
    · split at hc
      · cases hc
      · cases hc
        simp only [hne, hne', if_false, and_self, if_true, Except.ok.injEq] at h
        subst h
        simpa
      · cases hc
  | none, some b =>
    simp only at hc
    split at hc
    · cases hc
    · cases hc
      simp only [hne, hne', if_false, and_self, if_true, Except.ok.injEq] at h
      subst h
      simpa
    · split at hc
      · cases hc
      · cases hc
        simp only [and_self, if_true, Except.ok.injEq] at h
        subst h
        simpa
      · cases hc
  | none, none => simp

/-- **C42.**  If a point is given for a name and neither part contains it, then an error is raised: a point given
alone, or two points none of which is in one of the parts. -/
theorem C42_outside {inside : π → α → Except PyErr Bool} {P1 P2 : π} {name1 name2 : N} {a b : α} :
    (inside P1 a = .ok false → inside P2 a = .ok false →
      nameParts inside P1 P2 (some a) none name1 name2 = .error .geometryError ∧
      nameParts inside P1 P2 none (some a) name1 name2 = .error .geometryError) ∧
    (inside P1 a = .ok false → inside P1 b = .ok false →
      nameParts inside P1 P2 (some a) (some b) name1 name2 = .error .geometryError) ∧
    (∀ r1 r2 : Bool, inside P1 a = .ok r1 → inside P1 b = .ok r2 → inside P2 a = .ok false →
      inside P2 b = .ok false →
      nameParts inside P1 P2 (some a) (some b) name1 name2 = .error .geometryError) := by
  refine ⟨fun h1 h2 => ?_, fun h1 h2 => ?_, fun r1 r2 h1 h2 h3 h4 => ?_⟩
  · simp [nameParts, chooseNames, h1, h2]
  · simp [nameParts, chooseNames, h1, h2]
  · cases r1 <;> cases r2 <;> simp [nameParts, chooseNames, h1, h2, h3, h4]

/-- **C42.**  Whenever the points tell the parts apart, the naming succeeds: the first point is in exactly one part,
and the second in the other one. -/
theorem C42_named {inside : π → α → Except PyErr Bool} {P1 P2 : π} {name1 name2 : N} {a b : α} (r : Bool)
    (h1 : inside P1 a = .ok r) (h2 : inside P2 a = .ok (!r)) (h3 : inside P1 b = .ok (!r))
    (h4 : inside P2 b = .ok r) (hne : name1 ≠ name2) :
    let first := if r then P1 else P2
    let second := if r then P2 else P1
    nameParts inside P1 P2 (some a) (some b) name1 name2 = .ok ((name1, first), (name2, second)) ∧
    nameParts inside P1 P2 (some a) none name1 name2 = .ok ((name1, first), (name2, second)) ∧
    nameParts inside P1 P2 none (some b) name1 name2 = .ok ((name1, first), (name2, second)) := by
  have hne' := hne.symm
  cases r <;> simp [nameParts, chooseNames, h1, h2, h3, h4, hne, hne']

/-- **C42.**  Without points, the names are given in the order in which the parts were found. -/
theorem C42_no_points {inside : π → α → Except PyErr Bool} {P1 P2 : π} {name1 name2 : N} :
    nameParts inside P1 P2 none none name1 name2 = .ok ((name1, P1), (name2, P2)) := by
  simp [nameParts, chooseNames]

/-- **C42, the surprising cases.**  A first point on the line between the parts (contained in both) makes the naming
fail with a RuntimeError if the second point is given too, and if it is given alone, the part found first gets the
name.  With equal names the point is not respected. -/
theorem C42_ambiguous {inside : π → α → Except PyErr Bool} {P1 P2 : π} {name1 name2 : N} {a b : α} :
    (name1 ≠ name2 → inside P1 a = .ok true → inside P2 a = .ok true →
      nameParts inside P1 P2 (some a) (some b) name1 name2 = .error .runtimeError ∧
      nameParts inside P1 P2 (some a) none name1 name2 = .ok ((name1, P1), (name2, P2))) ∧
    (inside P1 a = .ok false → inside P2 a = .ok true →
      nameParts inside P1 P2 (some a) none name1 name1 = .ok ((name1, P1), (name1, P2))) := by
  refine ⟨fun hne h1 h2 => ?_, fun h1 h2 => ?_⟩
  · have hne' := hne.symm
    simp [nameParts, chooseNames, h1, h2, hne]
  · simp [nameParts, chooseNames, h1, h2]

/-- Two "polygons" which are ranges of numbers: the points 1 and 7 tell them apart, the point 5 is in both, the point
20 in none. -/
example :
    let inside : Nat × Nat → Nat → Except PyErr Bool := fun P p => .ok (decide (P.1 ≤ p ∧ p ≤ P.2))
    nameParts inside (5, 9) (0, 5) (some 1) (some 7) "a" "b" = .ok (("a", (0, 5)), ("b", (5, 9))) ∧
    nameParts inside (5, 9) (0, 5) (some 5) (some 7) "a" "b" = .error .runtimeError ∧
    nameParts inside (5, 9) (0, 5) (some 20) none "a" "b" = .error .geometryError := by
  decide +kernel

open Polygon in
/-- **C42** for the function itself: the polygons which are returned are made from the two lists of points, with the
normal of the sliced polygon, and the one with the name contains the point given for the name. -/
theorem C42_make_polygons {vn : Option (Vec3 ℝ)} {pts1 pts2 : List (Vec3 ℝ)} {pt1 pt2 : Option (Vec3 ℝ)}
    {name1 name2 : Option N} {rand1 rand2 : N} {r : (N × Poly) × (N × Poly)}
    (h : makePolygons vn pts1 pts2 pt1 name1 pt2 name2 rand1 rand2 = .ok r) :
    r.1.1 = name1.getD rand1 ∧ r.2.1 = name2.getD rand2 ∧
    ((polygonNew pts1 none vn = .ok r.1.2 ∧ polygonNew pts2 none vn = .ok r.2.2) ∨
      (polygonNew pts2 none vn = .ok r.1.2 ∧ polygonNew pts1 none vn = .ok r.2.2)) ∧
    (name1.getD rand1 ≠ name2.getD rand2 →
      (∀ p, pt1 = some p → isPointInside p r.1.2.pts r.1.2.tri = .ok true) ∧
      ∀ p, pt2 = some p → isPointInside p r.2.2.pts r.2.2.tri = .ok true) := by
  unfold makePolygons at h
  split at h
  · cases h
  rename_i P1 h1
  split at h
  · cases h
  rename_i P2 h2
  obtain ⟨ha, hb, hc⟩ := C42_order h
  refine ⟨ha, hb, ?_, fun hne => C42_contains hne h⟩
  rcases hc with ⟨e1, e2⟩ | ⟨e1, e2⟩
  · exact .inl ⟨by rw [e1, h1], by rw [e2, h2]⟩
  · exact .inr ⟨by rw [e1, h2], by rw [e2, h1]⟩

end B3d.Slice
