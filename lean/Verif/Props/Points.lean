import Verif.Model.Points
import Verif.Proofs.Tactics

/-!
# C27 (distance to an edge), C35 (point equality), C36 (collinear, coplanar), C38 (point on a
segment), C65 (points between two points)
-/

set_option linter.unusedSectionVars false

namespace B3d.Points

/-- C27: for a non-degenerate edge the result is the minimum of the Euclidean distance over all
points `pt1 + t (pt2 - pt1)`, `0 ≤ t ≤ 1`, of the closed segment: it is attained and it is a lower
bound.  For a degenerate edge the function raises. -/
theorem C27_distance_point_to_edge (ptest pt1 pt2 : Vec3 ℝ) :
    (pt1 ≠ pt2 → ∃ d, distancePointToEdge ptest pt1 pt2 = .ok d ∧
      (∃ t : ℝ, 0 ≤ t ∧ t ≤ 1 ∧ d = Vec3.norm ((pt1 + t • (pt2 - pt1)) - ptest)) ∧
      (∀ t : ℝ, 0 ≤ t → t ≤ 1 → d ≤ Vec3.norm ((pt1 + t • (pt2 - pt1)) - ptest))) ∧
    (pt1 = pt2 → distancePointToEdge ptest pt1 pt2 = .error .zeroDivisionError) := by
  constructor
  · intro hne
    have hv : pt2 - pt1 ≠ 0 := sub_ne_zero.2 (Ne.symm hne)
    have hpos : 0 < Vec3.normSq (pt2 - pt1) := Vec3.normSq_pos hv
    set v := pt2 - pt1 with hvdef
    have hdd : Vec3.dot v v = Vec3.normSq v := rfl
    have hquad : ∀ t : ℝ, Vec3.normSq ((pt1 + t • v) - ptest) =
        Vec3.normSq (pt1 - ptest) - 2 * t * Vec3.dot (ptest - pt1) v + t ^ 2 * Vec3.normSq v := by
      intro t
      simp only [Vec3.normSq, Vec3.dot, Vec3.sub_x, Vec3.sub_y, Vec3.sub_z, Vec3.add_x, Vec3.add_y,
        Vec3.add_z, Vec3.smul_x, Vec3.smul_y, Vec3.smul_z]
      ring
    set s := Vec3.dot (ptest - pt1) v / Vec3.dot v v with hs
    have hsv : Vec3.dot (ptest - pt1) v = s * Vec3.normSq v := by
      rw [hs, hdd, div_mul_cancel₀ _ hpos.ne']
    have hle : ∀ t u : ℝ, (u - s) ^ 2 ≤ (t - s) ^ 2 →
        Vec3.norm ((pt1 + u • v) - ptest) ≤ Vec3.norm ((pt1 + t • v) - ptest) := by
      intro t u h
      apply Vec3.norm_le_norm
      rw [hquad, hquad, hsv]
      nlinarith
    have h0 : pt1 - ptest = (pt1 + (0 : ℝ) • v) - ptest := by simp
    have h1 : pt2 - ptest = (pt1 + (1 : ℝ) • v) - ptest := by simp [hvdef]
    unfold distancePointToEdge
    simp only [← hvdef, hdd, if_neg hpos.ne']
    rw [← hdd, ← hs]
    by_cases c0 : s < 0
    · refine ⟨_, by rw [if_pos c0], ⟨0, le_refl _, zero_le_one, by rw [h0]⟩, ?_⟩
      intro t ht ht1
      rw [h0]; apply hle; nlinarith
    · rw [if_neg c0]
      by_cases c1 : s > 1
      · refine ⟨_, by rw [if_pos c1], ⟨1, zero_le_one, le_refl _, by rw [h1]⟩, ?_⟩
        intro t ht ht1
        rw [h1]; apply hle; nlinarith
      · refine ⟨_, by rw [if_neg c1], ⟨s, not_lt.1 c0, not_lt.1 c1, rfl⟩, ?_⟩
        intro t ht ht1
        apply hle; nlinarith [sq_nonneg (t - s)]
  · rintro rfl
    unfold distancePointToEdge
    simp

/-- A concrete non-degenerate edge. -/
example : ((⟨0, 0, 0⟩ : Vec3 ℝ)) ≠ ⟨1, 0, 0⟩ := by
  intro h; simp [Vec3.ext_iff] at h

section
variable {K : Type} [Field K] [LinearOrder K] [IsStrictOrderedRing K]

theorem isClose_self {a rtol atol : K} (hr : 0 ≤ rtol) (ha : 0 ≤ atol) :
    isClose a a rtol atol := by
  unfold isClose
  rw [sub_self, abs_zero]
  have := mul_nonneg hr (abs_nonneg a)
  linarith

theorem allClose_self {a : Vec3 K} {rtol atol : K} (hr : 0 ≤ rtol) (ha : 0 ≤ atol) :
    allClose a a rtol atol :=
  ⟨isClose_self hr ha, isClose_self hr ha, isClose_self hr ha⟩

theorem NP_RTOL_nonneg : (0 : K) ≤ NP_RTOL := by unfold NP_RTOL; positivity
theorem GEOM_ATOL_pos : (0 : K) < GEOM_ATOL := by unfold GEOM_ATOL; positivity

/-- C35, what holds of `points_equal`: it is reflexive for every tolerance; points that agree
within the absolute tolerance in each coordinate are equal in both argument orders; equal points
differ in each coordinate by at most `atol` plus `1e-5` of the larger coordinate, so equality of
`p, q` implies equality of `q, p` for the absolute tolerance enlarged to `2 atol + 1e-5 |p - q|`
(here: by `1e-5` times the coordinate difference bound).  Missing from the full property: symmetry
and translation invariance, refuted below. -/
theorem C35_points_equal_partial (p q : Vec3 K) (atol : K) (ha : 0 ≤ atol) :
    pointsEqual p p atol = true ∧
    (|p.x - q.x| ≤ atol ∧ |p.y - q.y| ≤ atol ∧ |p.z - q.z| ≤ atol →
      pointsEqual p q atol = true ∧ pointsEqual q p atol = true) ∧
    (pointsEqual p q atol = true →
      ∀ e : K, (|p.x - q.x| ≤ e ∧ |p.y - q.y| ≤ e ∧ |p.z - q.z| ≤ e) →
        pointsEqual q p (atol + NP_RTOL * e) = true) := by
  have hr : (0 : K) ≤ NP_RTOL := NP_RTOL_nonneg
  refine ⟨?_, ?_, ?_⟩
  · simp only [pointsEqual, decide_eq_true_eq]
    exact allClose_self NP_RTOL_nonneg ha
  · rintro ⟨h1, h2, h3⟩
    have aux : ∀ a b : K, |a - b| ≤ atol → isClose a b NP_RTOL atol := by
      intro a b h
      unfold isClose
      have := mul_nonneg hr (abs_nonneg b)
      linarith
    simp only [pointsEqual, decide_eq_true_eq]
    refine ⟨⟨aux _ _ h1, aux _ _ h2, aux _ _ h3⟩, ⟨aux _ _ ?_, aux _ _ ?_, aux _ _ ?_⟩⟩ <;>
      rw [abs_sub_comm] <;> assumption
  · intro h e ⟨h1, h2, h3⟩
    simp only [pointsEqual, decide_eq_true_eq] at h ⊢
    have aux : ∀ a b : K, isClose a b NP_RTOL atol → |a - b| ≤ e →
        isClose b a NP_RTOL (atol + NP_RTOL * e) := by
      intro a b h he
      unfold isClose at h ⊢
      rw [abs_sub_comm]
      have h4 : |b| ≤ |a| + e := by
        have := abs_sub_abs_le_abs_sub b a
        rw [abs_sub_comm] at this
        linarith
      have := mul_le_mul_of_nonneg_left h4 hr
      linarith
    exact ⟨aux _ _ h.1 h1, aux _ _ h.2.1 h2, aux _ _ h.2.2 h3⟩

end

/-- C35, counterexample to symmetry: with the default tolerance there are points with
`points_equal(p, q)` but not `points_equal(q, p)`. -/
theorem C35_points_equal_not_symmetric :
    ∃ p q : Vec3 ℚ, pointsEqual p q = true ∧ pointsEqual q p = false :=
  ⟨⟨1, 0, 0⟩, ⟨1 + 1 / 10 ^ 5 + 1 / 10 ^ 11, 0, 0⟩, by decide +kernel⟩

/-- C35, counterexample to translation invariance: two points one centimetre apart are "equal"
two kilometres away from the origin and different at the origin. -/
theorem C35_points_equal_not_translation_invariant :
    ∃ p q t : Vec3 ℚ, pointsEqual p q = false ∧ pointsEqual (p + t) (q + t) = true :=
  ⟨⟨0, 0, 0⟩, ⟨1 / 100, 0, 0⟩, ⟨2000, 0, 0⟩, by decide +kernel⟩

/-- C35, counterexample to transitivity. -/
theorem C35_points_equal_not_transitive :
    ∃ p q r : Vec3 ℚ, pointsEqual p q = true ∧ pointsEqual q r = true ∧ pointsEqual p r = false :=
  ⟨⟨1000, 0, 0⟩, ⟨1000 + 9 / 1000, 0, 0⟩, ⟨1000 + 18 / 1000, 0, 0⟩, by decide +kernel⟩

/-! ## C36 -/

private theorem unitFrom_line (p0 d : Vec3 ℝ) (s : ℝ) (hs : EPSILON < Vec3.norm (s • d)) :
    unitFrom p0 (p0 + s • d) = (1 / Vec3.norm d) • d ∨
    unitFrom p0 (p0 + s • d) = (-1 : ℝ) • ((1 / Vec3.norm d) • d) := by
  have heps : (0 : ℝ) < EPSILON := by unfold EPSILON; positivity
  have e : p0 + s • d - p0 = s • d := by abel
  unfold unitFrom
  simp only [e]
  rw [if_pos hs]
  rw [Vec3.norm_smul] at hs ⊢
  have hpos : 0 < |s| * Vec3.norm d := heps.trans hs
  have hs0 : s ≠ 0 := by rintro rfl; simp at hpos
  have hd0 : Vec3.norm d ≠ 0 := by intro h; rw [h] at hpos; simp at hpos
  rcases lt_or_gt_of_ne hs0 with h | h
  · right
    rw [abs_of_neg h, smul_smul, smul_smul]
    congr 1
    field_simp
  · left
    rw [abs_of_pos h, smul_smul]
    congr 1
    field_simp

private theorem collinearLoop_of_pm (u : Vec3 ℝ) (atol : ℝ) (ha : 0 ≤ atol) :
    ∀ l : List (Vec3 ℝ), (∀ v ∈ l, v = u ∨ v = (-1 : ℝ) • u) → collinearLoop atol l = true := by
  intro l
  induction l with
  | nil => intro _; rfl
  | cons a l ih =>
    intro h
    cases l with
    | nil => rfl
    | cons b l =>
      have hne : (-1 : ℝ) • (-1 : ℝ) • u = u := by rw [smul_smul]; simp
      rw [collinearLoop, if_pos]
      · exact ih fun v hv => h v (List.mem_cons_of_mem _ hv)
      · rcases h a (by simp) with ha' | ha' <;> rcases h b (by simp) with hb' | hb' <;>
          rw [ha', hb']
        · exact Or.inl (allClose_self NP_RTOL_nonneg ha)
        · exact Or.inr (allClose_self NP_RTOL_nonneg ha)
        · right; rw [hne]; exact allClose_self NP_RTOL_nonneg ha
        · exact Or.inl (allClose_self NP_RTOL_nonneg ha)

/-- C36, collinearity, completeness part: at least three points on one line, none of them closer
than `EPSILON` to the first one, are recognised as collinear in whatever order they come. -/
theorem C36_collinear_complete_partial (p0 d : Vec3 ℝ) (ss : List ℝ) (atol : ℝ)
    (hlen : 2 ≤ ss.length) (hatol : 0 ≤ atol) (hs : ∀ s ∈ ss, EPSILON < Vec3.norm (s • d)) :
    arePointsCollinear (p0 :: ss.map fun s => p0 + s • d) atol = .ok true := by
  match ss, hlen with
  | s1 :: s2 :: t, _ =>
    simp only [List.map_cons, arePointsCollinear]
    congr 1
    apply collinearLoop_of_pm ((1 / Vec3.norm d) • d) atol hatol
    intro v hv
    simp only [List.mem_cons, List.mem_map] at hv
    rcases hv with rfl | rfl | ⟨x, ⟨s, hsm, rfl⟩, rfl⟩
    · exact unitFrom_line p0 d s1 (hs s1 (by simp))
    · exact unitFrom_line p0 d s2 (hs s2 (by simp))
    · exact unitFrom_line p0 d s (hs s (by simp [hsm]))

/-- C36, counterexample: three points on one line, the first one repeated, are not recognised as
collinear. -/
theorem C36_collinear_fails_on_repeated_point :
    ∃ p q : Vec3 ℝ, arePointsCollinear [p, p, q] = .ok false := by
  refine ⟨⟨0, 0, 0⟩, ⟨1, 0, 0⟩, ?_⟩
  have h1 : unitFrom (⟨0, 0, 0⟩ : Vec3 ℝ) ⟨0, 0, 0⟩ = 0 := by
    unfold unitFrom
    simp only [sub_self]
    split
    · simp
    · rfl
  have h2 : unitFrom (⟨0, 0, 0⟩ : Vec3 ℝ) ⟨1, 0, 0⟩ = ⟨1, 0, 0⟩ := by
    have e : (⟨1, 0, 0⟩ : Vec3 ℝ) - ⟨0, 0, 0⟩ = ⟨1, 0, 0⟩ := by ext <;> simp
    have hn : Vec3.norm (⟨1, 0, 0⟩ : Vec3 ℝ) = 1 := by
      unfold Vec3.norm; norm_num [Vec3.normSq, Vec3.dot]
    unfold unitFrom
    simp only [e, hn]
    rw [if_pos (by norm_num [EPSILON])]
    ext <;> simp
  simp only [arePointsCollinear, List.map_cons, List.map_nil, h1, h2]
  congr 1
  rw [collinearLoop, if_neg]
  norm_num [allClose, isClose, GEOM_ATOL, NP_RTOL]

theorem firstNormal_mem : ∀ (l : List (Vec3 ℝ)) (vn : Vec3 ℝ), firstNormal l = some vn →
    ∃ a ∈ l, ∃ b ∈ l, ∃ c ∈ l, Polygon.normal a b c = some vn := by
  intro l
  induction l with
  | nil => intro vn h; simp [firstNormal] at h
  | cons a l ih =>
    intro vn h
    match l, h, ih with
    | [], h, _ => simp [firstNormal] at h
    | [b], h, _ => simp [firstNormal] at h
    | b :: c :: t, h, ih =>
      rw [firstNormal] at h
      split at h
      · next v hv =>
        cases h
        exact ⟨a, by simp, b, by simp, c, by simp, hv⟩
      · obtain ⟨a', ha, b', hb, c', hc, hn⟩ := ih vn h
        exact ⟨a', List.mem_cons_of_mem _ ha, b', List.mem_cons_of_mem _ hb, c',
          List.mem_cons_of_mem _ hc, hn⟩

/-- The normal, if it exists, is a unit vector orthogonal to everything in the plane of the three
points. -/
theorem normal_spec {a b c vn : Vec3 ℝ} (h : Polygon.normal a b c = some vn) :
    Vec3.normSq vn = 1 ∧ vn = (1 / Vec3.norm (Vec3.cross (b - a) (c - a))) •
      Vec3.cross (b - a) (c - a) ∧ Vec3.cross (b - a) (c - a) ≠ 0 := by
  unfold Polygon.normal at h
  simp only [] at h
  split at h
  · cases h
  · next hcl =>
    injection h with h
    have hlen : Vec3.norm (Vec3.cross (b - a) (c - a)) ≠ 0 := by
      intro h0
      apply hcl
      rw [h0]
      simp [isClose, NP_ATOL]
    refine ⟨?_, h.symm, fun h0 => hlen (Vec3.norm_eq_zero.2 h0)⟩
    rw [← h, Vec3.normSq, Vec3.dot_smul_left, Vec3.dot_smul_right]
    have : Vec3.dot (Vec3.cross (b - a) (c - a)) (Vec3.cross (b - a) (c - a)) =
      Vec3.norm (Vec3.cross (b - a) (c - a)) ^ 2 := (Vec3.norm_sq _).symm
    rw [this]
    field_simp

/-- C36, coplanarity, completeness: every point set that lies in some plane is accepted, in any
order, with any repetitions, for every positive tolerance. -/
theorem C36_coplanar_complete (pts : List (Vec3 ℝ)) (m : Vec3 ℝ) (e atol : ℝ) (hm : m ≠ 0)
    (hatol : 0 < atol) (hpl : ∀ p ∈ pts, Vec3.dot m p = e) :
    arePointsCoplanar pts atol = true := by
  unfold arePointsCoplanar
  match pts, hpl with
  | [], _ => rfl
  | p0 :: rest, hpl =>
    simp only []
    split
    · rfl
    · split
      · rfl
      · split
        · rfl
        · next vn hvn =>
          obtain ⟨a, ha, b, hb, c, hc, hn⟩ := firstNormal_mem _ _ hvn
          obtain ⟨-, hv, -⟩ := normal_spec hn
          rw [List.all_eq_true]
          intro p hp
          have hz : Vec3.dot vn (p - p0) = 0 := by
            rw [hv, Vec3.dot_smul_left, Vec3.dot_cross_of_orth hm, mul_zero]
            · rw [Vec3.dot_sub_right, hpl b hb, hpl a ha, sub_self]
            · rw [Vec3.dot_sub_right, hpl c hc, hpl a ha, sub_self]
            · rw [Vec3.dot_sub_right, hpl p hp, hpl p0 (by simp), sub_self]
          rw [Vec3.dot_sub_right] at hz
          have : -1 * Vec3.dot vn p0 + Vec3.dot vn p = 0 := by linarith
          rw [decide_eq_true_eq, this, abs_zero]
          exact hatol

/-- C36, coplanarity, soundness part: if at least four points are accepted, are not already
accepted as collinear, and some three consecutive points span a plane, then all points are closer
than the tolerance to one plane through the first point. -/
theorem C36_coplanar_sound_partial (p0 : Vec3 ℝ) (rest : List (Vec3 ℝ)) (atol : ℝ)
    (hlen : 3 ≤ rest.length) (hcol : arePointsCollinear (p0 :: rest) atol ≠ .ok true)
    (hn : firstNormal (p0 :: rest) ≠ none)
    (h : arePointsCoplanar (p0 :: rest) atol = true) :
    ∃ vn : Vec3 ℝ, Vec3.normSq vn = 1 ∧
      ∀ p ∈ p0 :: rest, |Vec3.dot vn (p - p0)| < atol := by
  unfold arePointsCoplanar at h
  simp only [] at h
  rw [if_neg (by omega)] at h
  split at h
  · next hf => exact absurd hf hn
  · next vn hvn =>
      obtain ⟨a, -, b, -, c, -, hnn⟩ := firstNormal_mem _ _ hvn
      refine ⟨vn, (normal_spec hnn).1, ?_⟩
      intro p hp
      rw [List.all_eq_true] at h
      have := h p hp
      rw [decide_eq_true_eq] at this
      rw [Vec3.dot_sub_right]
      have e : -1 * Vec3.dot vn p0 + Vec3.dot vn p = Vec3.dot vn p - Vec3.dot vn p0 := by ring
      rwa [e] at this

private theorem normal_of_cross_zero {a b c : Vec3 ℝ} (h : Vec3.cross (b - a) (c - a) = 0) :
    Polygon.normal a b c = none := by
  unfold Polygon.normal
  simp only [h]
  have : Vec3.norm (0 : Vec3 ℝ) = 0 := Vec3.norm_eq_zero.2 rfl
  rw [this, if_pos]
  simp [isClose, NP_ATOL]

/-- C36, counterexample to soundness: four points that do not lie in any plane are accepted as
coplanar when each of them is listed twice. -/
theorem C36_coplanar_accepts_noncoplanar :
    ∃ pts : List (Vec3 ℝ), arePointsCoplanar pts = true ∧
      ¬ ∃ (m : Vec3 ℝ) (e : ℝ), m ≠ 0 ∧ ∀ p ∈ pts, Vec3.dot m p = e := by
  refine ⟨[⟨0, 0, 0⟩, ⟨0, 0, 0⟩, ⟨1, 0, 0⟩, ⟨1, 0, 0⟩, ⟨0, 1, 0⟩, ⟨0, 1, 0⟩, ⟨0, 0, 1⟩, ⟨0, 0, 1⟩],
    ?_, ?_⟩
  · have h1 : ∀ a b : Vec3 ℝ, Polygon.normal a a b = none := fun a b =>
      normal_of_cross_zero (by simp)
    have h2 : ∀ a b : Vec3 ℝ, Polygon.normal a b b = none := fun a b =>
      normal_of_cross_zero (by simp)
    unfold arePointsCoplanar
    simp only [firstNormal, h1, h2]
    split
    · rfl
    · split <;> rfl
  · rintro ⟨m, e, hm, h⟩
    have a := h ⟨0, 0, 0⟩ (by simp)
    have b := h ⟨1, 0, 0⟩ (by simp)
    have c := h ⟨0, 1, 0⟩ (by simp)
    have d := h ⟨0, 0, 1⟩ (by simp)
    simp only [Vec3.dot] at a b c d
    apply hm
    ext
    · simp only [Vec3.zero_x]; linarith
    · simp only [Vec3.zero_y]; linarith
    · simp only [Vec3.zero_z]; linarith

/-- Five points of a line and a planar L-shape meet the hypotheses of the positive theorems. -/
example : (∀ s ∈ [1, -2, 3 / 2], EPSILON < Vec3.norm ((s : ℝ) • (⟨1, 0, 0⟩ : Vec3 ℝ))) ∧
    ∀ p ∈ ([⟨0, 0, 5⟩, ⟨2, 0, 5⟩, ⟨2, 1, 5⟩, ⟨1, 1, 5⟩, ⟨1, 2, 5⟩, ⟨0, 2, 5⟩] : List (Vec3 ℝ)),
      Vec3.dot ⟨0, 0, 1⟩ p = 5 := by
  have hn : Vec3.norm (⟨1, 0, 0⟩ : Vec3 ℝ) = 1 := by
    unfold Vec3.norm; norm_num [Vec3.normSq, Vec3.dot]
  constructor
  · intro s hs
    rw [Vec3.norm_smul, hn]
    simp only [List.mem_cons, List.not_mem_nil, or_false] at hs
    rcases hs with rfl | rfl | rfl <;> norm_num [EPSILON, abs_of_pos, abs_of_neg]
  · intro p hp
    simp only [List.mem_cons, List.not_mem_nil, or_false] at hp
    rcases hp with rfl | rfl | rfl | rfl | rfl | rfl <;> norm_num [Vec3.dot]

/-- The four corners of a square meet the hypotheses of `C36_coplanar_sound_partial`. -/
example : let l : List (Vec3 ℝ) := [⟨1, 0, 0⟩, ⟨0, 1, 0⟩, ⟨1, 1, 0⟩]
    arePointsCollinear (⟨0, 0, 0⟩ :: l) ≠ .ok true ∧ firstNormal (⟨0, 0, 0⟩ :: l) ≠ none ∧
    arePointsCoplanar (⟨0, 0, 0⟩ :: l) = true := by
  have hn1 : Vec3.norm (⟨1, 0, 0⟩ : Vec3 ℝ) = 1 := by
    unfold Vec3.norm; norm_num [Vec3.normSq, Vec3.dot]
  have hn2 : Vec3.norm (⟨0, 1, 0⟩ : Vec3 ℝ) = 1 := by
    unfold Vec3.norm; norm_num [Vec3.normSq, Vec3.dot]
  have hn3 : Vec3.norm (⟨0, 0, 1⟩ : Vec3 ℝ) = 1 := by
    unfold Vec3.norm; norm_num [Vec3.normSq, Vec3.dot]
  have e1 : unitFrom (⟨0, 0, 0⟩ : Vec3 ℝ) ⟨1, 0, 0⟩ = ⟨1, 0, 0⟩ := by
    have e : (⟨1, 0, 0⟩ : Vec3 ℝ) - ⟨0, 0, 0⟩ = ⟨1, 0, 0⟩ := by ext <;> simp
    unfold unitFrom
    simp only [e, hn1]
    rw [if_pos (by norm_num [EPSILON])]
    ext <;> simp
  have e2 : unitFrom (⟨0, 0, 0⟩ : Vec3 ℝ) ⟨0, 1, 0⟩ = ⟨0, 1, 0⟩ := by
    have e : (⟨0, 1, 0⟩ : Vec3 ℝ) - ⟨0, 0, 0⟩ = ⟨0, 1, 0⟩ := by ext <;> simp
    unfold unitFrom
    simp only [e, hn2]
    rw [if_pos (by norm_num [EPSILON])]
    ext <;> simp
  refine ⟨?_, ?_, ?_⟩
  · simp only [arePointsCollinear, List.map_cons, e1, e2]
    rw [collinearLoop, if_neg (by norm_num [allClose, isClose, GEOM_ATOL, NP_RTOL])]
    intro h; cases h
  · have e : Vec3.cross ((⟨1, 0, 0⟩ : Vec3 ℝ) - ⟨0, 0, 0⟩) (⟨0, 1, 0⟩ - ⟨0, 0, 0⟩) = ⟨0, 0, 1⟩ := by
      ext <;> simp
    rw [firstNormal]
    unfold Polygon.normal
    simp only [e, hn3]
    rw [if_neg (by norm_num [isClose, NP_ATOL])]
    exact Option.some_ne_none _
  · apply C36_coplanar_complete _ ⟨0, 0, 1⟩ 0 _ (by simp [Vec3.ext_iff]) GEOM_ATOL_pos
    intro p hp
    simp only [List.mem_cons, List.not_mem_nil, or_false] at hp
    rcases hp with rfl | rfl | rfl | rfl <;> norm_num [Vec3.dot]

/-! ## C38 -/

section
variable {K : Type} [Field K] [LinearOrder K] [IsStrictOrderedRing K]

/-- C38, completeness: every point of the closed segment is recognised, for every non-negative
tolerance. -/
theorem C38_point_on_segment_complete (pt1 pt2 : Vec3 K) (t atol : K) (h0 : 0 ≤ t) (h1 : t ≤ 1)
    (ha : 0 ≤ atol) :
    isPointOnSegment (pt1 + t • (pt2 - pt1)) pt1 pt2 atol = true := by
  unfold isPointOnSegment
  split
  · rfl
  · have e : pt1 + t • (pt2 - pt1) - pt1 = t • (pt2 - pt1) := by abel
    simp only [e]
    have hc : Vec3.cross (t • (pt2 - pt1)) (pt2 - pt1) = 0 := by
      rw [Vec3.cross_smul_left, Vec3.cross_self, smul_zero]
    rw [hc]
    rw [if_neg (not_not.2 (allClose_self NP_RTOL_nonneg ha))]
    rw [if_neg]
    rw [Vec3.dot_smul_left]
    have hp : 0 ≤ Vec3.dot (pt2 - pt1) (pt2 - pt1) := Vec3.normSq_nonneg _
    push Not
    constructor <;> nlinarith

/-- C38, soundness part: for a non-degenerate segment of length `L`, an accepted point which is not
accepted as one of the end points lies within `2 atol / L` of a point of the segment (written
without square roots).  Missing from the full property: degenerate segments, see below. -/
theorem C38_point_on_segment_sound_partial (ptest pt1 pt2 : Vec3 K) (atol : K)
    (hne : pt1 ≠ pt2) (h : isPointOnSegment ptest pt1 pt2 atol = true)
    (he1 : pointsEqual ptest pt1 atol = false) (he2 : pointsEqual ptest pt2 atol = false) :
    ∃ t : K, 0 ≤ t ∧ t ≤ 1 ∧
      Vec3.normSq (ptest - (pt1 + t • (pt2 - pt1))) * Vec3.normSq (pt2 - pt1) ≤ 4 * atol ^ 2 := by
  simp only [pointsEqual, decide_eq_false_iff_not] at he1 he2
  unfold isPointOnSegment at h
  rw [if_neg (by tauto)] at h
  split at h
  · cases h
  next hcr =>
  simp only [] at h
  split at h
  · cases h
  next hb =>
  rw [not_not] at hcr
  push Not at hb
  obtain ⟨hb1, hb2⟩ := hb
  have hv : pt2 - pt1 ≠ 0 := sub_ne_zero.2 (Ne.symm hne)
  have hL : 0 < Vec3.normSq (pt2 - pt1) := Vec3.normSq_pos hv
  set v := pt2 - pt1 with hvd
  set w := ptest - pt1 with hwd
  have hdd : Vec3.dot v v = Vec3.normSq v := rfl
  rw [hdd] at hb2
  -- bounds on the cross product
  have hc2 : Vec3.normSq (Vec3.cross w v) ≤ 3 * atol ^ 2 := by
    obtain ⟨c1, c2, c3⟩ := hcr
    have aux : ∀ a : K, isClose a 0 NP_RTOL atol → a * a ≤ atol ^ 2 := by
      intro a h
      unfold isClose at h
      simp only [sub_zero, abs_zero, mul_zero, add_zero] at h
      have := mul_le_mul h h (abs_nonneg a) ((abs_nonneg a).trans h)
      rw [abs_mul_abs_self] at this
      rw [sq]; exact this
    have := aux _ c1
    have := aux _ c2
    have := aux _ c3
    rw [Vec3.normSq_def]
    linarith
  -- Lagrange's identity
  have hlag : Vec3.normSq (Vec3.cross w v) = Vec3.normSq w * Vec3.normSq v - Vec3.dot w v ^ 2 := by
    simp only [Vec3.normSq, Vec3.dot, Vec3.cross_x, Vec3.cross_y, Vec3.cross_z]; ring
  have hexp : ∀ t : K, Vec3.normSq (ptest - (pt1 + t • v)) =
      Vec3.normSq w - 2 * t * Vec3.dot w v + t ^ 2 * Vec3.normSq v := by
    intro t
    rw [hwd]
    simp only [Vec3.normSq, Vec3.dot, Vec3.sub_x, Vec3.sub_y, Vec3.sub_z, Vec3.add_x, Vec3.add_y,
      Vec3.add_z, Vec3.smul_x, Vec3.smul_y, Vec3.smul_z]
    ring
  -- distance to the point with parameter `t`, times the squared length
  have hdist : ∀ t : K, Vec3.normSq (ptest - (pt1 + t • v)) * Vec3.normSq v =
      Vec3.normSq (Vec3.cross w v) + (Vec3.dot w v - t * Vec3.normSq v) ^ 2 := by
    intro t; rw [hexp, hlag]; ring
  rcases lt_or_ge (Vec3.dot w v) 0 with hneg | hpos
  · refine ⟨0, le_refl _, zero_le_one, ?_⟩
    rw [hdist]; nlinarith
  · rcases lt_or_ge (Vec3.normSq v) (Vec3.dot w v) with hgt | hle
    · refine ⟨1, zero_le_one, le_refl _, ?_⟩
      rw [hdist]; nlinarith
    · refine ⟨Vec3.dot w v / Vec3.normSq v, div_nonneg hpos hL.le, (div_le_one hL).2 hle, ?_⟩
      rw [hdist, div_mul_cancel₀ _ hL.ne', sub_self]
      nlinarith [sq_nonneg atol]

end

/-- C38, counterexample: for a degenerate segment every point is accepted, however far away. -/
theorem C38_degenerate_segment_accepts_everything {K : Type} [Field K] [LinearOrder K]
    [IsStrictOrderedRing K] (ptest pt : Vec3 K) (atol : K) (ha : 0 ≤ atol) :
    isPointOnSegment ptest pt pt atol = true := by
  unfold isPointOnSegment
  split
  · rfl
  · simp only [sub_self, Vec3.cross_zero_right, Vec3.dot_zero_right]
    rw [if_neg (not_not.2 (allClose_self NP_RTOL_nonneg ha)), if_neg]
    push Not
    constructor <;> linarith

/-- Hypotheses of the soundness theorem are satisfiable: the midpoint of a unit segment. -/
example : isPointOnSegment (⟨1 / 2, 0, 0⟩ : Vec3 ℚ) ⟨0, 0, 0⟩ ⟨1, 0, 0⟩ = true ∧
    pointsEqual (⟨1 / 2, 0, 0⟩ : Vec3 ℚ) ⟨0, 0, 0⟩ = false ∧
    pointsEqual (⟨1 / 2, 0, 0⟩ : Vec3 ℚ) ⟨1, 0, 0⟩ = false ∧
    isPointOnSegment (⟨1 / 2, 1 / 10 ^ 6, 0⟩ : Vec3 ℚ) ⟨0, 0, 0⟩ ⟨1, 0, 0⟩ = false ∧
    isPointOnSegment (⟨3 / 2, 0, 0⟩ : Vec3 ℚ) ⟨0, 0, 0⟩ ⟨1, 0, 0⟩ = false := by
  decide +kernel

/-! ## C65 -/

section
variable {K : Type} [Field K] [LinearOrder K] [IsStrictOrderedRing K]

/-- C65: `new_point_between_2_points` gives the end points for 0 and 1 and the point at the given
fraction of the edge in between. -/
theorem C65_new_point_between (p q : Vec3 K) (r : K) :
    newPointBetween p q 0 = p ∧ newPointBetween p q 1 = q ∧
    newPointBetween p q r - p = r • (q - p) := by
  refine ⟨?_, ?_, ?_⟩ <;> unfold newPointBetween <;> ext <;> simp <;> ring

/-- C65: `many_new_points_between_2_points` returns `num + 2` points that start at `p`, end at `q`,
and whose consecutive differences are all equal to `(q - p) / (num + 1)`. -/
theorem C65_many_new_points (p q : Vec3 K) (num : Nat) :
    (manyNewPointsBetween p q num).length = num + 2 ∧
    (manyNewPointsBetween p q num)[0]? = some p ∧
    (manyNewPointsBetween p q num)[num + 1]? = some q ∧
    ∀ i a b, (manyNewPointsBetween p q num)[i]? = some a →
      (manyNewPointsBetween p q num)[i + 1]? = some b →
      b - a = (1 / ((num : K) + 1)) • (q - p) := by
  have hn : ((num : K) + 1) ≠ 0 := by positivity
  have key : ∀ i, i < num + 2 → (manyNewPointsBetween p q num)[i]? =
      some (p + ((i : K) / ((num : K) + 1)) • (q - p)) := by
    intro i hi
    simp only [manyNewPointsBetween, List.getElem?_map, List.getElem?_range hi, Option.map_some]
    congr 1
    split
    · next h =>
      subst h
      have : ((num + 1 : ℕ) : K) / ((num : K) + 1) = 1 := by
        push_cast; exact div_self hn
      rw [this, one_smul]; abel
    · split
      · next h => subst h; simp
      · ext <;> simp <;> ring
  refine ⟨by simp [manyNewPointsBetween], ?_, ?_, ?_⟩
  · rw [key 0 (by omega)]; simp
  · rw [key (num + 1) (by omega)]
    have : ((num + 1 : ℕ) : K) / ((num : K) + 1) = 1 := by
      push_cast; exact div_self hn
    rw [this, one_smul]; congr 1; abel
  · intro i a b ha hb
    have hi : i + 1 < num + 2 := by
      have := (List.getElem?_eq_some_iff.1 hb).1
      simpa [manyNewPointsBetween] using this
    rw [key i (by omega)] at ha
    rw [key (i + 1) hi] at hb
    cases ha; cases hb
    ext <;> simp <;> field_simp <;> ring

end

example : manyNewPointsBetween (⟨0, 0, 0⟩ : Vec3 ℚ) ⟨1, 0, 0⟩ 3 =
    [⟨0, 0, 0⟩, ⟨1 / 4, 0, 0⟩, ⟨1 / 2, 0, 0⟩, ⟨3 / 4, 0, 0⟩, ⟨1, 0, 0⟩] := by decide +kernel

end B3d.Points
