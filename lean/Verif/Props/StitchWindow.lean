import Verif.Props.Intersect
import Verif.Props.PointInPolygonCases
import Verif.Props.Stitch

/-!
# C81: a polygon inside another one

One polygon of the pair is inside the other: the large one is opened along a line over two corners of the small one,
and the part it leaves is cut along the small one.
-/

namespace B3d.Solids

open Polygon Slice Spec Points

/-- The polygon is cut along `line`, the first part along `small`.  The outcome is an error of the first cut, an
`AssertionError` if the first cut does nothing, or the outcome of the second cut. -/
def OpenedAndCut (S : SolidG) (p : Str × Poly) (line small : List (Vec3 ℝ)) (rnd : Str) (S' : SolidG)
    (r : Except PyErr Unit) : Prop :=
  (∃ e, sliceOneAndReplace S p line rnd = (S', .error e) ∧ r = .error e) ∨
  (sliceOneAndReplace S p line rnd = (S', .ok none) ∧ r = .error .assertionError) ∨
  ∃ S0 main, sliceOneAndReplace S p line rnd = (S0, .ok (some main)) ∧
    ((∃ e, sliceOneAndReplace S0 main small rnd = (S', .error e) ∧ r = .error e) ∨
      ∃ o, sliceOneAndReplace S0 main small rnd = (S', .ok o) ∧ r = .ok ())

theorem sliceTwice_opened (S : SolidG) (p : Str × Poly) (line small : List (Vec3 ℝ)) (rnd : Str) :
    OpenedAndCut S p line small rnd (sliceTwice S p line small rnd).1 (sliceTwice S p line small rnd).2 := by
  unfold sliceTwice OpenedAndCut
  rcases h : sliceOneAndReplace S p line rnd with ⟨S0, e | - | main⟩
  · exact .inl ⟨e, rfl, rfl⟩
  · exact .inr (.inl ⟨rfl, rfl⟩)
  · refine .inr (.inr ⟨S0, main, rfl, ?_⟩)
    simp only []
    rcases h' : sliceOneAndReplace S0 main small rnd with ⟨S1, e | o⟩
    · exact .inl ⟨e, rfl, rfl⟩
    · exact .inr ⟨o, rfl, rfl⟩

/-- The two pairs of corners, the first of `pts0` and the second of `pts1`: two different corners on either side, chosen
one after the other as the closest ones that see each other past the edges of both polygons. -/
def ClosestPairs (pts0 pts1 : List (Vec3 ℝ)) (a a' b b' : Vec3 ℝ) : Prop :=
  ∃ (i j k l : Nat) (e0 e1 : List (Vec3 ℝ × Vec3 ℝ)), pts0[i]? = some a ∧ pts1[j]? = some a' ∧ pts0[k]? = some b ∧
    pts1[l]? = some b' ∧ i ≠ k ∧ j ≠ l ∧ polygonEdges 0 pts0 = .ok e0 ∧ polygonEdges 0 pts1 = .ok e1 ∧
    GreedyChoice (fun p q => Vec3.norm (q - p)) (fun p q => decide (arePointsVisible p q [e0, e1] ≠ 0)) true pts0 pts1
      [(i, j), (k, l)]

theorem findClosePairs_two {pts0 pts1 : List (Vec3 ℝ)} {r : List (Vec3 ℝ × Vec3 ℝ)}
    (h : findClosePairs pts0 pts1 2 true = .ok r) : ∃ a a' b b', r = [(a, a'), (b, b')] ∧
      ClosestPairs pts0 pts1 a a' b b' := by
  obtain ⟨e0, e1, h0, h1, hc⟩ := C39_instance h
  obtain ⟨idx, hl, hr, hpts, hn1, hn2, hg, -⟩ := C39_pairs hc
  obtain ⟨⟨i, j⟩, ⟨k, l⟩, rfl⟩ : ∃ x y, idx = [x, y] := List.length_eq_two.1 hl
  obtain ⟨x, y, rfl⟩ := List.length_eq_two.1 hr
  obtain ⟨a, a', ha, ha', e⟩ := hpts 0 i j rfl
  obtain ⟨b, b', hb, hb', e'⟩ := hpts 1 k l rfl
  simp only [List.getElem?_cons_zero, List.getElem?_cons_succ, Option.some.injEq] at e e'
  subst e e'
  refine ⟨a, a', b, b', rfl, i, j, k, l, e0, e1, ha, ha', hb, hb', ?_, ?_, h0, h1, hg⟩
  · simpa using hn1
  · simpa using hn2

/-- **C81, a polygon inside another one.**  The solid of the small polygon stays as it is.  The large polygon is cut along
a line made of the two closest pairs of corners that see each other, and the first part is then cut along the small
polygon.  If the large polygon is that of the second solid, the line comes from a corner of the large polygon, passes over
two corners of the small one and ends at another corner of the large one.  If it is that of the first solid, the line
has the same four points, but it begins and ends at the corners of the small polygon.  If there are not two such
pairs, an exception is raised and nothing is changed. -/
theorem C81_window {S1 S2 S1' S2' : SolidG} {p1 p2 : Str × Poly} {rnd : Str} {r : Except PyErr Unit} {c d e f : Bool}
    (h1 : containsPolygon p1.2 p2.2 = .ok c) (h2 : containsPolygon p2.2 p1.2 = .ok d)
    (h3 : containsPolygon p1.2 p2.2 (-10 ^ 6) = .ok e) (h4 : containsPolygon p2.2 p1.2 (-10 ^ 6) = .ok f)
    (hs : sliceBothAndReplace S1 p1 S2 p2 rnd = ((S1', S2'), r)) :
    (c = true → S2' = S2 ∧ ((∃ a a' b b', ClosestPairs p1.2.pts p2.2.pts a a' b b' ∧
        OpenedAndCut S1 p1 [a', a, b, b'] p2.2.pts rnd S1' r) ∨
      (S1' = S1 ∧ ∃ err, findClosePairs p1.2.pts p2.2.pts 2 true = .error err ∧ r = .error err))) ∧
    (c = false → d = true → S1' = S1 ∧ ((∃ a a' b b', ClosestPairs p1.2.pts p2.2.pts a a' b b' ∧
        OpenedAndCut S2 p2 [a', a, b, b'] p1.2.pts rnd S2' r) ∨
      (S2' = S2 ∧ ∃ err, findClosePairs p1.2.pts p2.2.pts 2 true = .error err ∧ r = .error err))) := by
  have hc : containments p1.2 p2.2 = .ok (c, d, e, f) := by
    simp only [containments, h1, h2, h3, h4]
  unfold sliceBothAndReplace at hs
  rw [hc] at hs
  simp only [] at hs
  constructor
  · rintro rfl
    simp only [Bool.true_or, if_true] at hs
    rcases hp : findClosePairs p1.2.pts p2.2.pts 2 true with err | pairs
    · rw [hp] at hs
      simp only [Prod.mk.injEq] at hs
      obtain ⟨⟨rfl, rfl⟩, rfl⟩ := hs
      exact ⟨rfl, .inr ⟨rfl, err, rfl, rfl⟩⟩
    · obtain ⟨a, a', b, b', rfl, hcl⟩ := findClosePairs_two hp
      rw [hp] at hs
      simp only [getSupCut, List.flatMap_cons, List.flatMap_nil, List.cons_append, List.nil_append, Prod.mk.injEq] at hs
      obtain ⟨⟨rfl, rfl⟩, rfl⟩ := hs
      exact ⟨rfl, .inl ⟨a, a', b, b', hcl, sliceTwice_opened _ _ _ _ _⟩⟩
  · rintro rfl rfl
    simp only [Bool.false_or, if_true, Bool.false_eq_true, if_false] at hs
    rcases hp : findClosePairs p1.2.pts p2.2.pts 2 true with err | pairs
    · rw [hp] at hs
      simp only [Prod.mk.injEq] at hs
      obtain ⟨⟨rfl, rfl⟩, rfl⟩ := hs
      exact ⟨rfl, .inr ⟨rfl, err, rfl, rfl⟩⟩
    · obtain ⟨a, a', b, b', rfl, hcl⟩ := findClosePairs_two hp
      rw [hp] at hs
      simp only [getSupCut, List.flatMap_cons, List.flatMap_nil, List.cons_append, List.nil_append, Prod.mk.injEq] at hs
      obtain ⟨⟨rfl, rfl⟩, rfl⟩ := hs
      exact ⟨rfl, .inl ⟨a, a', b, b', hcl, sliceTwice_opened _ _ _ _ _⟩⟩

/-- The hypotheses are met by all polygons made by the constructor, and there are such polygons one of which contains
the other; the solids are arbitrary. -/
example : ∃ P Q : Poly, containsPolygon P Q = .ok true ∧ ∃ d e f, containsPolygon Q P = .ok d ∧
    containsPolygon P Q (-10 ^ 6) = .ok e ∧ containsPolygon Q P (-10 ^ 6) = .ok f := by
  obtain ⟨P, Q, pts, hP, hQ, h, -⟩ := C71_contains_nonconvex
  obtain ⟨d, hd, -⟩ := C71_contains_partial hQ P GEOM_ATOL
  obtain ⟨e, he, -⟩ := C71_contains_partial hP Q (-10 ^ 6)
  obtain ⟨f, hf, -⟩ := C71_contains_partial hQ P (-10 ^ 6)
  exact ⟨P, Q, h, d, e, f, hd, he, hf⟩

end B3d.Solids
