import Verif.Model.Crossing
import Verif.Props.PointInPolygon
import Verif.Props.Intersect
import Verif.Proofs.Distance

/-!
# Lemmas on crossing polygons
-/

namespace B3d.Polygon

open Spec Points Triangles

theorem anyOk_iff {α : Type} {f : α → Except PyErr Bool} : ∀ xs : List α, (∀ x ∈ xs, ∃ b, f x = .ok b) →
    ∃ r, anyOk f xs = .ok r ∧ (r = true ↔ ∃ x ∈ xs, f x = .ok true)
  | [], _ => ⟨false, rfl, by simp⟩
  | x :: xs, h => by
    obtain ⟨r, hr, hir⟩ := anyOk_iff xs fun y hy => h y (List.mem_cons_of_mem _ hy)
    obtain ⟨b, hb⟩ := h x List.mem_cons_self
    unfold anyOk
    rw [hb]
    cases b with
    | true => exact ⟨true, rfl, by simp [hb]⟩
    | false => exact ⟨r, hr, by rw [hir]; simp [hb]⟩

theorem mem_linspace01 {n : Nat} {x : ℝ} : x ∈ linspace01 n ↔ ∃ k : Nat, k ≤ n ∧ x = (k : ℝ) / (n : ℝ) := by
  simp [linspace01, eq_comm]

theorem linspace01_range {n : Nat} {x : ℝ} (h : x ∈ linspace01 n) : 0 ≤ x ∧ x ≤ 1 := by
  obtain ⟨k, hk, rfl⟩ := mem_linspace01.1 h
  refine ⟨by positivity, ?_⟩
  exact div_le_one_of_le₀ (by exact_mod_cast hk) (by positivity)

theorem newPointBetween_on (a b : Vec3 ℝ) (x : ℝ) : newPointBetween a b x = a + x • (b - a) := by
  rw [newPointBetween]
  ext <;> simp <;> ring

/-- The two edges have no end in common, as the code compares points. -/
def NoSharedEnd (e1 e2 : Vec3 ℝ × Vec3 ℝ) : Prop :=
  pointsEqual e1.1 e2.1 = false ∧ pointsEqual e1.1 e2.2 = false ∧ pointsEqual e1.2 e2.2 = false ∧
    pointsEqual e1.2 e2.1 = false

/-- One of the ten points of the edges is found inside the other polygon. -/
def SampleInside (pts1 : List (Vec3 ℝ)) (tri1 : List Tri) (pts2 : List (Vec3 ℝ)) (tri2 : List Tri)
    (e1 e2 : Vec3 ℝ × Vec3 ℝ) : Prop :=
  ∃ k : Nat, k ≤ 9 ∧
    (Polygon.isPointInside (e1.1 + ((k : ℝ) / 9) • (e1.2 - e1.1)) pts2 tri2 false = .ok true ∨
      Polygon.isPointInside (e2.1 + ((k : ℝ) / 9) • (e2.2 - e2.1)) pts1 tri1 false = .ok true)

theorem sampleCrossing_iff {pts1 pts2 : List (Vec3 ℝ)} {tri1 tri2 : List Tri} (h1 : Sturdy pts1 tri1)
    (h2 : Sturdy pts2 tri2) (e1 e2 : Vec3 ℝ × Vec3 ℝ) (x : ℝ) :
    ∃ r, sampleCrossing pts1 tri1 pts2 tri2 e1 e2 x = .ok r ∧
      (r = true ↔ Polygon.isPointInside (e1.1 + x • (e1.2 - e1.1)) pts2 tri2 false = .ok true ∨
        Polygon.isPointInside (e2.1 + x • (e2.2 - e2.1)) pts1 tri1 false = .ok true) := by
  obtain ⟨r, hr, -⟩ := isPointInside_iff (x := e1.1 + x • (e1.2 - e1.1)) false GEOM_ATOL h2
  obtain ⟨r', hr', -⟩ := isPointInside_iff (x := e2.1 + x • (e2.2 - e2.1)) false GEOM_ATOL h1
  unfold sampleCrossing
  rw [newPointBetween_on, newPointBetween_on, hr, hr']
  cases r with
  | true => exact ⟨true, rfl, by simp⟩
  | false => exact ⟨r', rfl, by simp⟩

theorem samples_iff {pts1 pts2 : List (Vec3 ℝ)} {tri1 tri2 : List Tri} (h1 : Sturdy pts1 tri1)
    (h2 : Sturdy pts2 tri2) (e1 e2 : Vec3 ℝ × Vec3 ℝ) :
    ∃ r, anyOk (sampleCrossing pts1 tri1 pts2 tri2 e1 e2) (linspace01 9) = .ok r ∧
      (r = true ↔ SampleInside pts1 tri1 pts2 tri2 e1 e2) := by
  obtain ⟨r, hr, hir⟩ := anyOk_iff (f := sampleCrossing pts1 tri1 pts2 tri2 e1 e2) (linspace01 9) fun x _ => by
    obtain ⟨b, hb, -⟩ := sampleCrossing_iff h1 h2 e1 e2 x
    exact ⟨b, hb⟩
  refine ⟨r, hr, ?_⟩
  rw [hir, SampleInside]
  constructor
  · rintro ⟨x, hx, hs⟩
    obtain ⟨k, hk, rfl⟩ := mem_linspace01.1 hx
    obtain ⟨b, hb, hib⟩ := sampleCrossing_iff h1 h2 e1 e2 ((k : ℝ) / ((9 : ℕ) : ℝ))
    rw [hs, Except.ok.injEq] at hb
    exact ⟨k, hk, by simpa using hib.1 hb.symm⟩
  · rintro ⟨k, hk, hs⟩
    obtain ⟨b, hb, hib⟩ := sampleCrossing_iff h1 h2 e1 e2 ((k : ℝ) / ((9 : ℕ) : ℝ))
    exact ⟨_, mem_linspace01.2 ⟨k, hk, rfl⟩, by rw [hb, hib.2 (by simpa using hs)]⟩

/-- Further than `1e-8` from every point of the edge. -/
def OffEdge (p : Vec3 ℝ) (e : Vec3 ℝ × Vec3 ℝ) : Prop := ∀ y, OnSegment e.1 e.2 y → NP_ATOL < Vec3.norm (p - y)

theorem distance_close {p : Vec3 ℝ} {e : Vec3 ℝ × Vec3 ℝ} (h : e.1 ≠ e.2) :
    ∃ d, distancePointToEdge p e.1 e.2 = .ok d ∧ (¬ isClose d 0 NP_RTOL NP_ATOL ↔ OffEdge p e) := by
  obtain ⟨d, hd, ⟨t, h0, h1, hdt⟩, hmin⟩ := (C27_distance_point_to_edge p e.1 e.2).1 h
  have hsw : ∀ y : Vec3 ℝ, Vec3.norm (p - y) = Vec3.norm (y - p) := fun y => by
    rw [← Vec3.norm_neg]; simp
  refine ⟨d, hd, ?_⟩
  have hd0 : 0 ≤ d := by rw [hdt]; exact Vec3.norm_nonneg _
  rw [isClose, sub_zero, abs_zero, mul_zero, add_zero, abs_of_nonneg hd0, not_le]
  constructor
  · rintro h y ⟨t', h0', h1', rfl⟩
    rw [hsw]
    exact lt_of_lt_of_le h (hmin t' h0' h1')
  · intro h
    have := h _ ⟨t, h0, h1, rfl⟩
    rwa [hsw, ← hdt] at this

theorem pairCrossing_iff {pts1 pts2 : List (Vec3 ℝ)} {tri1 tri2 : List Tri} (h1 : Sturdy pts1 tri1)
    (h2 : Sturdy pts2 tri2) {e1 e2 : Vec3 ℝ × Vec3 ℝ} (hne1 : e1.1 ≠ e1.2) (hne2 : e2.1 ≠ e2.2) :
    ∃ r, pairCrossing pts1 tri1 pts2 tri2 e1 e2 = .ok r ∧
      (r = true ↔ NoSharedEnd e1 e2 ∧ ∃ p, lineSegmentIntersection e1.1 e1.2 e2.1 e2.2 = some p ∧
        ((OffEdge p e1 ∧ OffEdge p e2) ∨ SampleInside pts1 tri1 pts2 tri2 e1 e2 ∧ ¬ (OffEdge p e1 ∧ OffEdge p e2))) := by
  obtain ⟨rs, hrs, hirs⟩ := samples_iff h1 h2 e1 e2
  unfold pairCrossing
  by_cases hsh : (pointsEqual e1.1 e2.1 || pointsEqual e1.1 e2.2 || pointsEqual e1.2 e2.2 || pointsEqual e1.2 e2.1) = true
  · rw [if_pos hsh]
    refine ⟨false, rfl, ?_⟩
    simp only [Bool.false_eq_true, false_iff]
    rintro ⟨⟨a, b, c, d⟩, -⟩
    rw [a, b, c, d] at hsh
    exact absurd hsh (by decide)
  · rw [if_neg hsh]
    have hns : NoSharedEnd e1 e2 := by
      simp only [Bool.or_eq_true, not_or, Bool.not_eq_true] at hsh
      exact ⟨hsh.1.1.1, hsh.1.1.2, hsh.1.2, hsh.2⟩
    cases hp : lineSegmentIntersection e1.1 e1.2 e2.1 e2.2 with
    | none => exact ⟨false, rfl, by simp⟩
    | some p =>
      obtain ⟨d1, hd1, hi1⟩ := distance_close (p := p) hne1
      obtain ⟨d2, hd2, hi2⟩ := distance_close (p := p) hne2
      simp only [hd1, hd2, hrs]
      by_cases c1 : isClose d1 0 NP_RTOL NP_ATOL
      · rw [if_pos c1]
        refine ⟨rs, rfl, ?_⟩
        have : ¬ OffEdge p e1 := fun h => (hi1.2 h) c1
        simp [hirs, hns, this]
      · rw [if_neg c1]
        by_cases c2 : isClose d2 0 NP_RTOL NP_ATOL
        · rw [if_pos c2]
          refine ⟨rs, rfl, ?_⟩
          have : ¬ OffEdge p e2 := fun h => (hi2.2 h) c2
          simp [hirs, hns, this]
        · rw [if_neg c2]
          exact ⟨true, rfl, by simp [hns, hi1.1 c1, hi2.1 c2]⟩

/-- What `are_polygons_crossing` computes, for polygons whose triangles are not degenerate. -/
theorem crossing_iff {pts1 pts2 : List (Vec3 ℝ)} {tri1 tri2 : List Tri} (h1 : Sturdy pts1 tri1)
    (h2 : Sturdy pts2 tri2) (hne1 : ∀ e ∈ cycEdges pts1, e.1 ≠ e.2) (hne2 : ∀ e ∈ cycEdges pts2, e.1 ≠ e.2) :
    ∃ r b1 b2, arePolygonsCrossing pts1 tri1 pts2 tri2 = .ok r ∧ Bboxes.boundingBox pts1 = .ok b1 ∧
      Bboxes.boundingBox pts2 = .ok b2 ∧
      (r = true ↔ Bboxes.areBboxesOverlapping b1 b2 = true ∧ arePointsCoplanar (pts1 ++ pts2) = true ∧
        ∃ e1 ∈ cycEdges pts1, ∃ e2 ∈ cycEdges pts2, NoSharedEnd e1 e2 ∧
          ∃ p, lineSegmentIntersection e1.1 e1.2 e2.1 e2.2 = some p ∧
          ((OffEdge p e1 ∧ OffEdge p e2) ∨ SampleInside pts1 tri1 pts2 tri2 e1 e2)) := by
  obtain ⟨b1, b2, hb1, hb2, -⟩ := Bboxes.C26_overlap_iff_common_point pts1 pts2 h1.1 h2.1
  have hin : ∀ e1 ∈ cycEdges pts1, ∃ b, anyOk (fun e2 => pairCrossing pts1 tri1 pts2 tri2 e1 e2) (cycEdges pts2) = .ok b ∧
      (b = true ↔ ∃ e2 ∈ cycEdges pts2, pairCrossing pts1 tri1 pts2 tri2 e1 e2 = .ok true) := by
    intro e1 he1
    refine anyOk_iff _ fun e2 he2 => ?_
    obtain ⟨r, hr, -⟩ := pairCrossing_iff h1 h2 (hne1 _ he1) (hne2 _ he2)
    exact ⟨r, hr⟩
  obtain ⟨r, hr, hir⟩ := anyOk_iff (f := fun e1 => anyOk (fun e2 => pairCrossing pts1 tri1 pts2 tri2 e1 e2)
    (cycEdges pts2)) (cycEdges pts1) fun e1 he1 => by
      obtain ⟨b, hb, -⟩ := hin e1 he1
      exact ⟨b, hb⟩
  unfold arePolygonsCrossing
  rw [hb1, hb2, polygonEdges_eq 0 pts1 h1.1, polygonEdges_eq 0 pts2 h2.1]
  simp only
  by_cases ho : Bboxes.areBboxesOverlapping b1 b2 = false
  · rw [if_pos ho]
    exact ⟨false, b1, b2, rfl, rfl, rfl, by simp [ho]⟩
  · rw [if_neg ho]
    by_cases hc : arePointsCoplanar (pts1 ++ pts2) = false
    · rw [if_pos hc]
      exact ⟨false, b1, b2, rfl, rfl, rfl, by simp [hc]⟩
    · rw [if_neg hc]
      refine ⟨r, b1, b2, hr, rfl, rfl, ?_⟩
      rw [hir]
      rw [Bool.not_eq_false] at ho hc
      simp only [ho, hc, true_and]
      constructor
      · rintro ⟨e1, he1, h⟩
        obtain ⟨b, hb, hib⟩ := hin e1 he1
        rw [h, Except.ok.injEq] at hb
        obtain ⟨e2, he2, h3⟩ := hib.1 hb.symm
        obtain ⟨r, hr, hir⟩ := pairCrossing_iff h1 h2 (hne1 _ he1) (hne2 _ he2)
        rw [h3, Except.ok.injEq] at hr
        obtain ⟨h4, p, hp, h5⟩ := hir.1 hr.symm
        exact ⟨e1, he1, e2, he2, h4, p, hp, h5.imp_right And.left⟩
      · rintro ⟨e1, he1, e2, he2, h4, p, hp, h5⟩
        refine ⟨e1, he1, ?_⟩
        obtain ⟨b, hb, hib⟩ := hin e1 he1
        obtain ⟨r, hr, hir⟩ := pairCrossing_iff h1 h2 (hne1 _ he1) (hne2 _ he2)
        show anyOk _ _ = _
        rw [hb, hib.2 ⟨e2, he2, ?_⟩]
        rw [hr, hir.2 ⟨h4, p, hp, ?_⟩]
        by_cases h6 : OffEdge p e1 ∧ OffEdge p e2
        · exact .inl h6
        · exact .inr ⟨h5.resolve_left h6, h6⟩

end B3d.Polygon
