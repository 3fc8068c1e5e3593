import Verif.Model.PointKey
import Verif.Proofs.Tactics

/-! # C86: points as dictionary keys -/

namespace B3d.PointKey

theorem rint_close (y : ℝ) : |(rint y : ℝ) - y| ≤ 1 / 2 := by
  have h1 := Int.floor_le y
  have h2 := Int.lt_floor_add_one y
  unfold rint
  rw [abs_le]
  split
  · constructor <;> linarith
  · split
    · push_cast; constructor <;> linarith
    · split
      · constructor <;> linarith
      · push_cast; constructor <;> linarith

theorem rint_int (n : ℤ) : rint n = n := by
  unfold rint
  rw [Int.floor_intCast, if_pos (by norm_num)]

theorem rint_half (n : ℤ) : rint (n + 1 / 2) = if n % 2 = 0 then n else n + 1 := by
  have : Int.floor ((n : ℝ) + 1 / 2) = n := by
    rw [Int.floor_eq_iff]; constructor <;> linarith
  unfold rint
  rw [this, if_neg (by norm_num), if_neg (by norm_num)]

theorem rint_near {y : ℝ} {n : ℤ} (h : |y - n| < 1 / 2) : rint y = n := by
  have h1 := rint_close y
  have h2 : |(rint y : ℝ) - n| < 1 := by
    calc |(rint y : ℝ) - n| = |((rint y : ℝ) - y) + (y - n)| := by congr 1; ring
      _ ≤ |(rint y : ℝ) - y| + |y - n| := abs_add_le _ _
      _ < 1 := by linarith
  have h3 : |rint y - n| < 1 := by exact_mod_cast h2
  have := Int.abs_lt_one_iff.1 h3
  omega

theorem roundTo_close (d : Nat) (x : ℝ) : |roundTo d x - x| ≤ 1 / 2 / 10 ^ d := by
  have hp : (0 : ℝ) < 10 ^ d := by positivity
  have h := rint_close (x * 10 ^ d)
  have e : roundTo d x - x = ((rint (x * 10 ^ d) : ℝ) - x * 10 ^ d) / 10 ^ d := by
    unfold roundTo; field_simp
  rw [e, abs_div, abs_of_pos hp]
  exact div_le_div_of_nonneg_right h hp.le

/-- **C86 (partial).**  The coordinates of the tuple are multiples of `10⁻ᵈ` nearest to those of the point (at most half
of it away, ties to the even multiple); points with the same tuple are at most `10⁻ᵈ` apart in each coordinate; points
with the same tuple have the same hash; and rounding twice is rounding once.

Missing: that `points_equal` and the tuples agree, see `C86_equal_points` and `C86_unequal_points`. -/
theorem C86_key_partial (d : Nat) (p q : Vec3 ℝ) :
    (|(pointToTuple p d).1 - p.x| ≤ 1 / 2 / 10 ^ d ∧ |(pointToTuple p d).2.1 - p.y| ≤ 1 / 2 / 10 ^ d ∧
      |(pointToTuple p d).2.2 - p.z| ≤ 1 / 2 / 10 ^ d) ∧
    (∃ i j k : ℤ, pointToTuple p d = ((i : ℝ) / 10 ^ d, (j : ℝ) / 10 ^ d, (k : ℝ) / 10 ^ d)) ∧
    (pointToTuple p d = pointToTuple q d →
      |p.x - q.x| ≤ 1 / 10 ^ d ∧ |p.y - q.y| ≤ 1 / 10 ^ d ∧ |p.z - q.z| ≤ 1 / 10 ^ d) ∧
    (pointToTuple p d = pointToTuple q d → ∀ hash, pointToHash hash p d = pointToHash hash q d) ∧
    pointToTuple ⟨(pointToTuple p d).1, (pointToTuple p d).2.1, (pointToTuple p d).2.2⟩ d = pointToTuple p d := by
  have hp : (0 : ℝ) < 10 ^ d := by positivity
  have close : ∀ x y : ℝ, roundTo d x = roundTo d y → |x - y| ≤ 1 / 10 ^ d := by
    intro x y h
    have hx := abs_le.1 (roundTo_close d x)
    have hy := abs_le.1 (roundTo_close d y)
    have e : (1 : ℝ) / 10 ^ d = 1 / 2 / 10 ^ d + 1 / 2 / 10 ^ d := by ring
    rw [abs_le, e]
    rw [h] at hx
    constructor <;> linarith
  refine ⟨⟨roundTo_close d _, roundTo_close d _, roundTo_close d _⟩, ⟨_, _, _, rfl⟩, ?_, ?_, ?_⟩
  · intro h
    simp only [pointToTuple, Prod.mk.injEq] at h
    exact ⟨close _ _ h.1, close _ _ h.2.1, close _ _ h.2.2⟩
  · intro h hash
    rw [pointToHash, h, pointToHash]
  · have twice : ∀ x : ℝ, roundTo d (roundTo d x) = roundTo d x := by
      intro x
      have : roundTo d x * 10 ^ d = ((rint (x * 10 ^ d) : ℤ) : ℝ) := by unfold roundTo; field_simp
      rw [roundTo, this, rint_int, roundTo]
    simp only [pointToTuple, twice]

/-- **C86, ties.**  Half-way between two multiples the even one is taken. -/
theorem C86_ties (d : Nat) (n : ℤ) :
    roundTo d (((n : ℝ) + 1 / 2) / 10 ^ d) = (if n % 2 = 0 then (n : ℝ) else n + 1) / 10 ^ d := by
  have hp : (0 : ℝ) < 10 ^ d := by positivity
  unfold roundTo
  rw [div_mul_cancel₀ _ hp.ne', rint_half]
  split <;> push_cast <;> rfl

/-- **C86 is false: equal points with different keys.**  The relative tolerance of `points_equal` makes points equal
which differ by `10⁻⁶`; their tuples differ. -/
theorem C86_equal_points : Points.pointsEqual (⟨1, 0, 0⟩ : Vec3 ℝ) ⟨1 + 1 / 10 ^ 6, 0, 0⟩ = true ∧
    pointToTuple ⟨1, 0, 0⟩ ≠ pointToTuple ⟨1 + 1 / 10 ^ 6, 0, 0⟩ := by
  constructor
  · norm_num [Points.pointsEqual, allClose, isClose, NP_RTOL, GEOM_ATOL, abs_of_pos, abs_of_neg]
  · intro h
    have h := congrArg Prod.fst h
    simp only [pointToTuple, roundTo] at h
    rw [show (1 : ℝ) * 10 ^ 8 = ((10 ^ 8 : ℤ) : ℝ) by norm_num,
      show (1 + 1 / 10 ^ 6 : ℝ) * 10 ^ 8 = ((10 ^ 8 + 100 : ℤ) : ℝ) by norm_num, rint_int, rint_int] at h
    norm_num at h

/-- **C86 is false: different points with the same key.**  Near the origin points which `points_equal` tells apart have
the same tuple and the same hash. -/
theorem C86_unequal_points : Points.pointsEqual (⟨1 / 10 ^ 9, 0, 0⟩ : Vec3 ℝ) ⟨3 / 10 ^ 9, 0, 0⟩ = false ∧
    pointToTuple ⟨1 / 10 ^ 9, 0, 0⟩ = pointToTuple ⟨3 / 10 ^ 9, 0, 0⟩ := by
  constructor
  · norm_num [Points.pointsEqual, allClose, isClose, NP_RTOL, GEOM_ATOL, abs_of_pos, abs_of_neg]
  · have h1 : rint (1 / 10 ^ 9 * 10 ^ 8) = 0 := rint_near (by norm_num [abs_of_pos])
    have h2 : rint (3 / 10 ^ 9 * 10 ^ 8) = 0 := rint_near (by norm_num [abs_of_pos])
    simp only [pointToTuple, roundTo, h1, h2]

/-- Non-vacuity of the implications in `C86_key_partial`: two different points with the same tuple. -/
example : pointToTuple ⟨12 / 100, 5, 0⟩ 1 = pointToTuple ⟨14 / 100, 5, 0⟩ 1 := by
  have h1 : rint (12 / 100 * 10 ^ 1) = 1 := rint_near (by norm_num [abs_of_pos])
  have h2 : rint (14 / 100 * 10 ^ 1) = 1 := rint_near (by norm_num [abs_of_pos])
  simp only [pointToTuple, roundTo, h1, h2]

end B3d.PointKey
