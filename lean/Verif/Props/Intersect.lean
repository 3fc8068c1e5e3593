import Verif.Proofs.Intersect
import Mathlib.Tactic.NormNum

/-! # Intersections, visibility and closest pairs: C37, C39, C40 -/

namespace B3d.Points

/-! ### C37: intersections

The full property: a returned point lies on both segments; the common point of two segments which are not
parallel is returned; parallel lines give no point.  The code works with tolerances, so

* a returned point lies on the line of the first segment, and *near* both segments (`C37_sound_partial`);
* the common point is returned unless a segment is shorter than about 1e-8 or the directions differ by
  less than about 1e-5 (`C37_complete_partial`). -/

/-- Near the segment from `a` to `b`: equal (as the code compares points) to an end, or at a distance of at
most `2 * GEOM_ATOL / length` from a point of the segment. -/
def NearSegment (p a b : Vec3 ℝ) : Prop :=
  pointsEqual p a = true ∨ pointsEqual p b = true ∨
    ∃ t : ℝ, 0 ≤ t ∧ t ≤ 1 ∧
      Vec3.normSq (p - (a + t • (b - a))) * Vec3.normSq (b - a) ≤ 4 * GEOM_ATOL ^ 2

/-- The code takes the segment for a point. -/
def TooShort (d : Vec3 ℝ) : Prop := allClose d 0 NP_RTOL NP_ATOL

/-- The code takes the directions for parallel: unit vectors agree up to 1e-5, or are opposite. -/
def NearlyParallel (d1 d2 : Vec3 ℝ) : Prop :=
  allClose (unit d1) (unit d2) NP_RTOL NP_ATOL ∨ allClose (unit d1) ((-1 : ℝ) • unit d2) NP_RTOL NP_ATOL

theorem nearSegment_of {p a b : Vec3 ℝ} (hab : b - a ≠ 0) (h : isPointOnSegment p a b = true) :
    NearSegment p a b := by
  by_cases h1 : pointsEqual p a = true
  · exact Or.inl h1
  by_cases h2 : pointsEqual p b = true
  · exact Or.inr (Or.inl h2)
  refine Or.inr (Or.inr ?_)
  exact C38_point_on_segment_sound_partial p a b GEOM_ATOL (fun e => hab (by rw [e, sub_self])) h
    (by simpa using h1) (by simpa using h2)

/-- **C37 (soundness).**  A returned point lies on the line of the first segment, is close to a point of the
line of the second one, and near both segments; the segments are not parallel. -/
theorem C37_sound_partial {pa1 pb1 pa2 pb2 p : Vec3 ℝ}
    (h : lineSegmentIntersection pa1 pb1 pa2 pb2 = some p) :
    (∃ t : ℝ, p = pa1 + t • (pb1 - pa1)) ∧
    (∃ s : ℝ, allClose p (pa2 + s • (pb2 - pa2)) NP_RTOL NP_ATOL) ∧
    NearSegment p pa1 pb1 ∧ NearSegment p pa2 pb2 ∧
    Vec3.cross (pb1 - pa1) (pb2 - pa2) ≠ 0 := by
  simp only [lineSegmentIntersection] at h
  cases hl : lineIntersection pa1 (pb1 - pa1) pa2 (pb2 - pa2) with
  | none => rw [hl] at h; cases h
  | some c =>
    rw [hl] at h
    simp only at h
    split at h
    · rename_i hon
      rw [Option.some.injEq] at h
      subst h
      rw [Bool.and_eq_true] at hon
      simp only [lineIntersection] at hl
      split at hl
      · cases hl
      rename_i h1
      split at hl
      · cases hl
      rename_i h2
      split at hl
      · cases hl
      rename_i h3
      split at hl
      · rename_i h4
        rw [Option.some.injEq] at hl
        rw [not_or] at h1
        refine ⟨⟨_, hl.symm⟩, ⟨_, hl ▸ h4⟩, ?_, ?_, cross_ne h1.1 h1.2 h2 h3⟩
        · exact nearSegment_of (not_zero_of_not_close h1.1) hon.1
        · exact nearSegment_of (not_zero_of_not_close h1.2) hon.2
      · cases hl
    · cases h

/-- **C37 (lines).**  The common point of two lines, neither too short a direction nor nearly parallel, is
what `line_intersection` returns. -/
theorem C37_lines {p1 d1 p2 d2 : Vec3 ℝ} (t s : ℝ) (h1 : ¬ TooShort d1) (h2 : ¬ TooShort d2)
    (hp : ¬ NearlyParallel d1 d2) (hc : p1 + t • d1 = p2 + s • d2) :
    lineIntersection p1 d1 p2 d2 = some (p1 + t • d1) := by
  unfold TooShort at h1 h2
  unfold NearlyParallel at hp
  rw [not_or] at hp
  have hb : p2 - p1 = t • d1 - s • d2 := by
    have : p2 = p1 + t • d1 - s • d2 := by rw [hc]; abel
    rw [this]; abel
  simp only [lineIntersection]
  rw [if_neg (not_or.2 ⟨h1, h2⟩), if_neg hp.1, if_neg hp.2, hb, lstsq_exact (cross_ne h1 h2 hp.1 hp.2),
    ← hc, if_pos (allClose_self NP_RTOL_nonneg NP_ATOL_nonneg)]

/-- **C37 (completeness).**  The common point of two segments is returned, unless one is too short or they
are nearly parallel. -/
theorem C37_complete_partial {pa1 pb1 pa2 pb2 : Vec3 ℝ} {t s : ℝ} (h1 : ¬ TooShort (pb1 - pa1))
    (h2 : ¬ TooShort (pb2 - pa2)) (hp : ¬ NearlyParallel (pb1 - pa1) (pb2 - pa2))
    (ht : 0 ≤ t ∧ t ≤ 1) (hs : 0 ≤ s ∧ s ≤ 1)
    (hc : pa1 + t • (pb1 - pa1) = pa2 + s • (pb2 - pa2)) :
    lineSegmentIntersection pa1 pb1 pa2 pb2 = some (pa1 + t • (pb1 - pa1)) := by
  simp only [lineSegmentIntersection]
  rw [C37_lines t s h1 h2 hp hc]
  simp only
  have e1 := C38_point_on_segment_complete pa1 pb1 t GEOM_ATOL ht.1 ht.2 GEOM_ATOL_pos.le
  have e2 := C38_point_on_segment_complete pa2 pb2 s GEOM_ATOL hs.1 hs.2 GEOM_ATOL_pos.le
  rw [← hc] at e2
  rw [e1, e2]
  rfl

/-- **C37 (parallel).**  Parallel lines give no point, even if they coincide; so do lines with a direction
equal to zero. -/
theorem C37_parallel (p1 d p2 : Vec3 ℝ) (c : ℝ) :
    lineIntersection p1 d p2 (c • d) = none ∧ lineIntersection p1 (c • d) p2 d = none := by
  have hz : ∀ {a : Vec3 ℝ}, a = 0 → allClose a 0 NP_RTOL NP_ATOL := by
    rintro a rfl
    exact allClose_self NP_RTOL_nonneg NP_ATOL_nonneg
  by_cases hc : c = 0
  · subst hc
    constructor <;> simp only [lineIntersection] <;> rw [if_pos]
    · exact Or.inr (hz (by simp))
    · exact Or.inl (hz (by simp))
  by_cases hd : d = 0
  · subst hd
    constructor <;> simp only [lineIntersection] <;> rw [if_pos]
    · exact Or.inl (hz rfl)
    · exact Or.inr (hz rfl)
  rcases unit_smul hc hd with e | e
  · constructor <;> simp only [lineIntersection] <;> split <;> try rfl
    all_goals rw [if_pos (by rw [e]; exact allClose_self NP_RTOL_nonneg NP_ATOL_nonneg)]
  · have e2 : (-1 : ℝ) • (-1 : ℝ) • unit d = unit d := by rw [smul_smul]; norm_num
    constructor <;> simp only [lineIntersection] <;> split <;> try rfl
    all_goals split <;> try rfl
    · rw [if_pos (by rw [e, e2]; exact allClose_self NP_RTOL_nonneg NP_ATOL_nonneg)]
    · rw [if_pos (by rw [e]; exact allClose_self NP_RTOL_nonneg NP_ATOL_nonneg)]

theorem unit_x (a : ℝ) (ha : 0 < a) : unit (⟨a, 0, 0⟩ : Vec3 ℝ) = ⟨1, 0, 0⟩ := by
  have : Vec3.norm (⟨a, 0, 0⟩ : Vec3 ℝ) = a := by
    unfold Vec3.norm
    have : Vec3.normSq (⟨a, 0, 0⟩ : Vec3 ℝ) = a ^ 2 := by simp [Vec3.normSq, Vec3.dot]; ring
    rw [this, Real.sqrt_sq ha.le]
  unfold unit
  rw [this]
  ext <;> simp [ha.ne']

theorem unit_y (a : ℝ) (ha : 0 < a) : unit (⟨0, a, 0⟩ : Vec3 ℝ) = ⟨0, 1, 0⟩ := by
  have : Vec3.norm (⟨0, a, 0⟩ : Vec3 ℝ) = a := by
    unfold Vec3.norm
    have : Vec3.normSq (⟨0, a, 0⟩ : Vec3 ℝ) = a ^ 2 := by simp [Vec3.normSq, Vec3.dot]; ring
    rw [this, Real.sqrt_sq ha.le]
  unfold unit
  rw [this]
  ext <;> simp [ha.ne']

/-- The segments from (0, 1) to (2, 1) and from (1, 0) to (1, 2) cross at (1, 1). -/
theorem cross_example : lineSegmentIntersection (⟨0, 1, 0⟩ : Vec3 ℝ) ⟨2, 1, 0⟩ ⟨1, 0, 0⟩ ⟨1, 2, 0⟩ =
    some ⟨1, 1, 0⟩ := by
  have e1 : (⟨2, 1, 0⟩ : Vec3 ℝ) - ⟨0, 1, 0⟩ = ⟨2, 0, 0⟩ := by ext <;> simp
  have e2 : (⟨1, 2, 0⟩ : Vec3 ℝ) - ⟨1, 0, 0⟩ = ⟨0, 2, 0⟩ := by ext <;> simp
  have := C37_complete_partial (pa1 := ⟨0, 1, 0⟩) (pb1 := ⟨2, 1, 0⟩) (pa2 := ⟨1, 0, 0⟩) (pb2 := ⟨1, 2, 0⟩)
    (t := 1/2) (s := 1/2) ?_ ?_ ?_ (by norm_num) (by norm_num) ?_
  · rw [this]
    congr 1
    rw [e1]
    ext <;> simp
  · rw [e1]; simp [TooShort, allClose, isClose, NP_RTOL, NP_ATOL]; norm_num
  · rw [e2]; simp [TooShort, allClose, isClose, NP_RTOL, NP_ATOL]; norm_num
  · rw [e1, e2]
    simp only [NearlyParallel]
    rw [unit_x 2 (by norm_num), unit_y 2 (by norm_num)]
    simp [allClose, isClose, NP_RTOL, NP_ATOL]; norm_num
  · rw [e1, e2]; ext <;> simp

/-! ### C40: visibility

The full property asks for "1 iff no blocking polygon crosses the segment".  In the code an edge with an end
at one of the two points never blocks, nor does a parallel edge, and crossings are found up to tolerances. -/

/-- An edge with an end at one of the points (as the code compares points). -/
def Touches (p q : Vec3 ℝ) (e : Vec3 ℝ × Vec3 ℝ) : Prop :=
  pointsEqual e.1 p = true ∨ pointsEqual e.1 q = true ∨ pointsEqual e.2 p = true ∨ pointsEqual e.2 q = true

/-- **C40 (matrix).**  For coplanar points the matrix is symmetric, has ones on the diagonal, and any other
entry is 0 or 1; it is 0 exactly if an edge which does not touch the two points meets the segment between
them (from the point with the smaller number to the other), as `line_segment_intersection` finds it.  Other
points raise `AssertionError`. -/
theorem C40_matrix (pts : List (Vec3 ℝ)) (edges : List (List (Vec3 ℝ × Vec3 ℝ))) :
    (arePointsCoplanar pts = false → visibilityMatrix pts edges = .error .assertionError) ∧
    (arePointsCoplanar pts = true → ∃ m, visibilityMatrix pts edges = .ok m ∧
      ∀ i j p q, pts[i]? = some p → pts[j]? = some q →
        m i j = m j i ∧ m i i = 1 ∧ (m i j = 0 ∨ m i j = 1) ∧
        (i < j → (m i j = 0 ↔ ∃ bed ∈ edges, ∃ e ∈ bed, ¬ Touches p q e ∧
          ∃ x, lineSegmentIntersection p q e.1 e.2 = some x))) := by
  refine ⟨fun h => by simp [visibilityMatrix, h], fun h => ⟨_, by simp [visibilityMatrix, h]; rfl, ?_⟩⟩
  intro i j p q hi hj
  have hi' := (List.getElem?_eq_some_iff.1 hi).1
  have hj' := (List.getElem?_eq_some_iff.1 hj).1
  refine ⟨?_, ?_, ?_, ?_⟩
  · rw [matrix_get _ _ _ _ hi' hj', matrix_get _ _ _ _ hj' hi', min_comm, max_comm]
    by_cases hij : i = j
    · rw [if_pos hij, if_pos hij.symm]
    · rw [if_neg hij, if_neg (Ne.symm hij)]
  · rw [matrix_get _ _ _ _ hi' hi', if_pos rfl]
  · rw [matrix_get _ _ _ _ hi' hj']
    split
    · exact Or.inr rfl
    · rcases arePointsVisible_spec (pts.getD (min i j) 0) (pts.getD (max i j) 0) edges with ⟨h1, _⟩ | ⟨h1, _⟩
      · right; simpa using h1
      · left; simpa using h1
  · intro hij
    rw [matrix_get _ _ _ _ hi' hj', if_neg hij.ne, min_eq_left hij.le, max_eq_right hij.le]
    have ep : pts[i]?.getD 0 = p := by rw [hi]; rfl
    have eq : pts[j]?.getD 0 = q := by rw [hj]; rfl
    rw [ep, eq]
    rcases arePointsVisible_spec p q edges with ⟨h1, h2⟩ | ⟨h1, bed, hb, h2⟩
    · rw [h1]
      constructor
      · intro h; cases h
      · rintro ⟨bed, hb, e, he, ht, x, hx⟩
        rcases (blockedBy_false_iff p q bed).1 (h2 bed hb) e he with h3 | h3
        · exact absurd h3 ht
        · rw [hx] at h3; cases h3
    · rw [h1]
      refine ⟨fun _ => ?_, fun _ => rfl⟩
      have h3 : ¬ blockedBy p q bed = false := by rw [h2]; simp
      rw [blockedBy_false_iff] at h3
      push Not at h3
      obtain ⟨e, he, ht, hx⟩ := h3
      refine ⟨bed, hb, e, he, ?_, Option.ne_none_iff_exists'.1 hx⟩
      unfold Touches
      tauto

/-- **C40 (geometry).**  `are_points_visible` is 0 or 1.  A crossing edge blocks: if an edge which does not
touch the points has a common point with the segment between them, and neither is too short and they are not
nearly parallel, the points are not visible.  Only edges in the way block: if the points are not visible,
there are an edge not touching them and a point near both the edge and the segment. -/
theorem C40_geometry_partial (p q : Vec3 ℝ) (edges : List (List (Vec3 ℝ × Vec3 ℝ))) :
    (arePointsVisible p q edges = 0 ∨ arePointsVisible p q edges = 1) ∧
    (∀ bed ∈ edges, ∀ e ∈ bed, ¬ Touches p q e → ¬ TooShort (q - p) → ¬ TooShort (e.2 - e.1) →
      ¬ NearlyParallel (q - p) (e.2 - e.1) →
      ∀ t s : ℝ, 0 ≤ t → t ≤ 1 → 0 ≤ s → s ≤ 1 → p + t • (q - p) = e.1 + s • (e.2 - e.1) →
        arePointsVisible p q edges = 0) ∧
    (arePointsVisible p q edges = 0 → ∃ bed ∈ edges, ∃ e ∈ bed, ¬ Touches p q e ∧
      ∃ x, NearSegment x p q ∧ NearSegment x e.1 e.2) := by
  refine ⟨?_, ?_, ?_⟩
  · rcases arePointsVisible_spec p q edges with ⟨h1, _⟩ | ⟨h1, _⟩
    · exact Or.inr h1
    · exact Or.inl h1
  · intro bed hb e he ht h1 h2 h3 t s ht0 ht1 hs0 hs1 hc
    rcases arePointsVisible_spec p q edges with ⟨_, hv⟩ | ⟨hv, _⟩
    · exfalso
      rcases (blockedBy_false_iff p q bed).1 (hv bed hb) e he with h4 | h4
      · exact ht h4
      · rw [C37_complete_partial h1 h2 h3 ⟨ht0, ht1⟩ ⟨hs0, hs1⟩ hc] at h4
        cases h4
    · exact hv
  · intro h
    rcases arePointsVisible_spec p q edges with ⟨hv, _⟩ | ⟨_, bed, hb, hv⟩
    · rw [hv] at h; cases h
    · have h3 : ¬ blockedBy p q bed = false := by rw [hv]; simp
      rw [blockedBy_false_iff] at h3
      push Not at h3
      obtain ⟨e, he, ht, hx⟩ := h3
      obtain ⟨x, hx⟩ := Option.ne_none_iff_exists'.1 hx
      obtain ⟨_, _, h4, h5, _⟩ := C37_sound_partial hx
      refine ⟨bed, hb, e, he, ?_, x, h4, h5⟩
      unfold Touches
      tauto

-- A wall between two points.
example : arePointsVisible (⟨0, 1, 0⟩ : Vec3 ℝ) ⟨2, 1, 0⟩ [[(⟨1, 0, 0⟩, ⟨1, 2, 0⟩)]] = 0 := by
  have h : (pointsEqual (⟨1, 0, 0⟩ : Vec3 ℝ) ⟨0, 1, 0⟩ || pointsEqual (⟨1, 0, 0⟩ : Vec3 ℝ) ⟨2, 1, 0⟩ ||
      pointsEqual (⟨1, 2, 0⟩ : Vec3 ℝ) ⟨0, 1, 0⟩ || pointsEqual (⟨1, 2, 0⟩ : Vec3 ℝ) ⟨2, 1, 0⟩) = false := by
    simp [pointsEqual, allClose, isClose, NP_RTOL, GEOM_ATOL]; norm_num
  simp only [arePointsVisible, blockedBy, cross_example, h]
  rfl

/-! ### C39: closest pairs -/

section pairs

variable {P K : Type} [LinearOrder K]

/-- The pair with numbers `i`, `j` may be used: both points are there, and they are visible if only visible
pairs are asked for. -/
def Usable (vis : P → P → Bool) (visOnly : Bool) (pts0 pts1 : List P) (i j : Nat) (a b : P) : Prop :=
  pts0[i]? = some a ∧ pts1[j]? = some b ∧ (visOnly = true → vis a b = true)

/-- The numbers of the chosen pairs: each is usable, uses no number of an earlier pair, and has the smallest
distance among the usable pairs which use no number of an earlier one. -/
def GreedyChoice (dist : P → P → K) (vis : P → P → Bool) (visOnly : Bool) (pts0 pts1 : List P)
    (idx : List (Nat × Nat)) : Prop :=
  ∀ k i j, idx[k]? = some (i, j) →
    i ∉ (idx.take k).map Prod.fst ∧ j ∉ (idx.take k).map Prod.snd ∧
    ∃ a b, Usable vis visOnly pts0 pts1 i j a b ∧
      ∀ i' j' a' b', Usable vis visOnly pts0 pts1 i' j' a' b' →
        i' ∉ (idx.take k).map Prod.fst → j' ∉ (idx.take k).map Prod.snd → dist a b ≤ dist a' b'

theorem greedy_choice (dist : P → P → K) (vis : P → P → Bool) (visOnly : Bool) (pts0 pts1 : List P) :
    GreedyChoice dist vis visOnly pts0 pts1
      (greedyLoop [] [] (sortPairs (candidatePairs dist vis visOnly pts0 pts1))) ∧
    ∀ i j a b, Usable vis visOnly pts0 pts1 i j a b →
      i ∈ (greedyLoop [] [] (sortPairs (candidatePairs dist vis visOnly pts0 pts1))).map Prod.fst ∨
      j ∈ (greedyLoop [] [] (sortPairs (candidatePairs dist vis visOnly pts0 pts1))).map Prod.snd := by
  obtain ⟨h1, h2⟩ := greedyLoop_spec _ (sortPairs_sorted (candidatePairs dist vis visOnly pts0 pts1)) [] []
  refine ⟨?_, ?_⟩
  · intro k i j hk
    obtain ⟨_, _, h3, h4, d, h5, h6⟩ := h1 k i j hk
    rw [sortPairs_mem, candidatePairs_mem] at h5
    obtain ⟨a, b, ha, hb, hv, rfl⟩ := h5
    refine ⟨h3, h4, a, b, ⟨ha, hb, hv⟩, ?_⟩
    rintro i' j' a' b' ⟨ha', hb', hv'⟩ hi hj
    refine h6 _ i' j' ?_ (by simp) (by simp) hi hj
    rw [sortPairs_mem, candidatePairs_mem]
    exact ⟨a', b', ha', hb', hv', rfl⟩
  · rintro i j a b ⟨ha, hb, hv⟩
    have := h2 (dist a b) i j (by
      rw [sortPairs_mem, candidatePairs_mem]
      exact ⟨a, b, ha, hb, hv, rfl⟩)
    simpa using this

theorem greedyChoice_take {dist : P → P → K} {vis : P → P → Bool} {visOnly : Bool} {pts0 pts1 : List P}
    {idx : List (Nat × Nat)} (h : GreedyChoice dist vis visOnly pts0 pts1 idx) (n : Nat) :
    GreedyChoice dist vis visOnly pts0 pts1 (idx.take n) := by
  intro k i j hk
  rw [List.getElem?_take] at hk
  split at hk
  · rename_i hkn
    rw [List.take_take, min_eq_left hkn.le]
    exact h k i j hk
  · cases hk

/-- **C39.**  If `n` pairs are returned, they are the points of `n` pairs of numbers chosen greedily; no
number is used twice on either side, and the distances do not decrease. -/
theorem C39_pairs {dist : P → P → K} {vis : P → P → Bool} {visOnly : Bool} {pts0 pts1 : List P} {n : Nat}
    {r : List (P × P)} (h : closePairs dist vis visOnly pts0 pts1 n = .ok r) :
    ∃ idx : List (Nat × Nat), idx.length = n ∧ r.length = n ∧
      (∀ k i j : Nat, idx[k]? = some (i, j) → ∃ a b, pts0[i]? = some a ∧ pts1[j]? = some b ∧ r[k]? = some (a, b)) ∧
      (idx.map Prod.fst).Nodup ∧ (idx.map Prod.snd).Nodup ∧
      GreedyChoice dist vis visOnly pts0 pts1 idx ∧
      ∀ (k l : Nat) (x y : P × P), k < l → r[k]? = some x → r[l]? = some y → dist x.1 x.2 ≤ dist y.1 y.2 := by
  simp only [closePairs] at h
  split at h
  · cases h
  rename_i hlen
  rw [Except.ok.injEq] at h
  obtain ⟨hg, _⟩ := greedy_choice dist vis visOnly pts0 pts1
  obtain ⟨ix, hix⟩ : ∃ ix, ix = (greedyLoop [] [] (sortPairs (candidatePairs dist vis visOnly pts0 pts1))).take n :=
    ⟨_, rfl⟩
  have hgt := greedyChoice_take hg n
  rw [← hix] at hgt h
  have hl : ix.length = n := by rw [hix, List.length_take]; omega
  -- reading the points
  have hread : ∀ l : List (Nat × Nat), (∀ p ∈ l, ∃ a b, pts0[p.1]? = some a ∧ pts1[p.2]? = some b) →
      (l.filterMap fun ij => (pts0[ij.1]?).bind fun a => (pts1[ij.2]?).map fun b => (a, b)).length = l.length ∧
      ∀ k i j : Nat, l[k]? = some (i, j) → ∃ a b, pts0[i]? = some a ∧ pts1[j]? = some b ∧
        (l.filterMap fun ij => (pts0[ij.1]?).bind fun a => (pts1[ij.2]?).map fun b => (a, b))[k]? =
          some (a, b) := by
    intro l
    clear h hgt hix hl hg hlen
    induction l with
    | nil => intro _; simp
    | cons p l ih =>
      intro hl
      obtain ⟨a, b, ha, hb⟩ := hl p List.mem_cons_self
      obtain ⟨ih1, ih2⟩ := ih fun q hq => hl q (List.mem_cons_of_mem _ hq)
      have e : (p :: l).filterMap (fun ij => (pts0[ij.1]?).bind fun a => (pts1[ij.2]?).map fun b => (a, b)) =
          (a, b) :: l.filterMap (fun ij => (pts0[ij.1]?).bind fun a => (pts1[ij.2]?).map fun b => (a, b)) := by
        rw [List.filterMap_cons]
        simp only [ha, hb, Option.bind_some, Option.map_some]
      rw [e]
      refine ⟨by simp [ih1], ?_⟩
      intro k i j hk
      cases k with
      | zero =>
        simp only [List.getElem?_cons_zero, Option.some.injEq] at hk
        subst hk
        exact ⟨a, b, ha, hb, rfl⟩
      | succ k =>
        rw [List.getElem?_cons_succ] at hk ⊢
        exact ih2 k i j hk
  have hall : ∀ p ∈ ix, ∃ a b, pts0[p.1]? = some a ∧ pts1[p.2]? = some b := by
    intro p hp
    obtain ⟨k, hk, rfl⟩ := List.mem_iff_getElem.1 hp
    obtain ⟨_, _, a, b, hu, _⟩ := hgt k ix[k].1 ix[k].2 (List.getElem?_eq_getElem hk)
    exact ⟨a, b, hu.1, hu.2.1⟩
  obtain ⟨hr1, hr2⟩ := hread ix hall
  rw [h] at hr1 hr2
  refine ⟨ix, hl, by omega, hr2, ?_, ?_, hgt, ?_⟩
  · exact nodup_of_fresh _ _ fun k a hk => (hgt k a.1 a.2 hk).1
  · exact nodup_of_fresh _ _ fun k a hk => (hgt k a.1 a.2 hk).2.1
  · intro k l x y hkl hx hy
    have hll : l < ix.length := by rw [← hr1]; exact (List.getElem?_eq_some_iff.1 hy).1
    have hk : ix[k]? = some (ix[k].1, ix[k].2) := List.getElem?_eq_getElem (by omega)
    have hl' : ix[l]? = some (ix[l].1, ix[l].2) := List.getElem?_eq_getElem hll
    obtain ⟨_, _, a, b, hu, hmin⟩ := hgt k _ _ hk
    obtain ⟨hn1, hn2, a', b', hu', _⟩ := hgt l _ _ hl'
    obtain ⟨a1, b1, e1, e2, e3⟩ := hr2 k _ _ hk
    obtain ⟨a2, b2, e4, e5, e6⟩ := hr2 l _ _ hl'
    rw [hu.1, Option.some.injEq] at e1
    rw [hu.2.1, Option.some.injEq] at e2
    rw [hu'.1, Option.some.injEq] at e4
    rw [hu'.2.1, Option.some.injEq] at e5
    subst e1 e2 e4 e5
    rw [hx, Option.some.injEq] at e3
    rw [hy, Option.some.injEq] at e6
    subst e3 e6
    have hsub : ∀ z, z ∈ ix.take k → z ∈ ix.take l := by
      intro z hz
      have : ix.take k = (ix.take l).take k := by rw [List.take_take, min_eq_left hkl.le]
      rw [this] at hz
      exact List.mem_of_mem_take hz
    refine hmin _ _ _ _ hu' ?_ ?_
    · intro hm
      obtain ⟨z, hz, he⟩ := List.mem_map.1 hm
      exact hn1 (List.mem_map.2 ⟨z, hsub z hz, he⟩)
    · intro hm
      obtain ⟨z, hz, he⟩ := List.mem_map.1 hm
      exact hn2 (List.mem_map.2 ⟨z, hsub z hz, he⟩)

/-- **C39 (errors).**  The only error is `ValueError`; it is raised if the greedy choice ends, with fewer
than `n` pairs, because every usable pair has a number already used. -/
theorem C39_error {dist : P → P → K} {vis : P → P → Bool} {visOnly : Bool} {pts0 pts1 : List P} {n : Nat}
    {e : PyErr} (h : closePairs dist vis visOnly pts0 pts1 n = .error e) :
    e = .valueError ∧ ∃ idx : List (Nat × Nat), idx.length < n ∧
      GreedyChoice dist vis visOnly pts0 pts1 idx ∧
      ∀ i j a b, Usable vis visOnly pts0 pts1 i j a b → i ∈ idx.map Prod.fst ∨ j ∈ idx.map Prod.snd := by
  simp only [closePairs] at h
  split at h
  · rename_i hlen
    rw [Except.error.injEq] at h
    obtain ⟨hg, hm⟩ := greedy_choice dist vis visOnly pts0 pts1
    exact ⟨h.symm, _, hlen, hg, hm⟩
  · cases h

/-- **C39 (how many pairs there are).**  If visibility does not matter, the call succeeds exactly for `n` up
to the number of points in the smaller set. -/
theorem C39_enough (dist : P → P → K) (vis : P → P → Bool) (pts0 pts1 : List P) (n : Nat) :
    (∃ r, closePairs dist vis false pts0 pts1 n = .ok r) ↔ n ≤ min pts0.length pts1.length := by
  obtain ⟨hg, hm⟩ := greedy_choice dist vis false pts0 pts1
  obtain ⟨ix, hix⟩ : ∃ ix, ix = greedyLoop [] [] (sortPairs (candidatePairs dist vis false pts0 pts1)) := ⟨_, rfl⟩
  rw [← hix] at hg hm
  have hlen : ix.length = min pts0.length pts1.length := by
    apply le_antisymm
    · apply le_min
      · rw [← List.length_map (f := Prod.fst)]
        apply length_le_of_lt
        · exact nodup_of_fresh _ _ fun k a hk => (hg k a.1 a.2 hk).1
        · intro i hi
          obtain ⟨p, hp, rfl⟩ := List.mem_map.1 hi
          obtain ⟨k, hk, rfl⟩ := List.mem_iff_getElem.1 hp
          obtain ⟨_, _, a, b, hu, _⟩ := hg k ix[k].1 ix[k].2 (List.getElem?_eq_getElem hk)
          exact (List.getElem?_eq_some_iff.1 hu.1).1
      · rw [← List.length_map (f := Prod.snd)]
        apply length_le_of_lt
        · exact nodup_of_fresh _ _ fun k a hk => (hg k a.1 a.2 hk).2.1
        · intro i hi
          obtain ⟨p, hp, rfl⟩ := List.mem_map.1 hi
          obtain ⟨k, hk, rfl⟩ := List.mem_iff_getElem.1 hp
          obtain ⟨_, _, a, b, hu, _⟩ := hg k ix[k].1 ix[k].2 (List.getElem?_eq_getElem hk)
          exact (List.getElem?_eq_some_iff.1 hu.2.1).1
    · by_contra hc
      push Not at hc
      have h0 : (ix.map Prod.fst).length < pts0.length := by rw [List.length_map]; omega
      have h1 : (ix.map Prod.snd).length < pts1.length := by rw [List.length_map]; omega
      obtain ⟨i, hi, hi'⟩ := exists_fresh h0
      obtain ⟨j, hj, hj'⟩ := exists_fresh h1
      rcases hm i j pts0[i] pts1[j] ⟨List.getElem?_eq_getElem hi, List.getElem?_eq_getElem hj, by simp⟩ with h | h
      · exact hi' h
      · exact hj' h
  simp only [closePairs, ← hix]
  rw [← hlen]
  by_cases h : ix.length < n
  · rw [if_pos h]
    constructor
    · rintro ⟨r, hr⟩; cases hr
    · intro hn; omega
  · rw [if_neg h]
    exact ⟨fun _ => by omega, fun _ => ⟨_, rfl⟩⟩

/-- `find_close_pairs` is the instance with the Euclidean distance and the visibility between points. -/
theorem C39_instance {pts0 pts1 : List (Vec3 ℝ)} {n : Nat} {visOnly : Bool} {r : List (Vec3 ℝ × Vec3 ℝ)}
    (h : findClosePairs pts0 pts1 n visOnly = .ok r) :
    ∃ e0 e1, Polygon.polygonEdges 0 pts0 = .ok e0 ∧ Polygon.polygonEdges 0 pts1 = .ok e1 ∧
      closePairs (fun p0 p1 => Vec3.norm (p1 - p0))
        (fun p0 p1 => decide (arePointsVisible p0 p1 [e0, e1] ≠ 0)) visOnly pts0 pts1 n = .ok r := by
  simp only [findClosePairs] at h
  split at h
  · rename_i h0 h1
    exact ⟨_, _, h0, h1, h⟩
  · cases h
  · cases h

-- Three points against three on a line (the distance is that of the numbers), two pairs; ties are broken by
-- the position in the lists.
example : closePairs (fun a b : ℚ => |a - b|) (fun _ _ => true) true [0, 5, 9] [6, 4, 0] 3 =
    .ok [(0, 0), (5, 6), (9, 4)] := by decide +kernel
-- Only one of the pairs is visible.
example : closePairs (fun a b : ℚ => |a - b|) (fun a b => decide (a = 0 ∧ b = 6)) true [0, 5] [6, 0] 2 =
    .error .valueError := by decide +kernel

end pairs

end B3d.Points
