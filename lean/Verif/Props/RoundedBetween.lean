import Verif.Proofs.RoundedBetween
import Verif.Proofs.RoundedNanArea

/-!
# Property C134: points between two points with rounding errors

C65 and C38 once more, with rounded arithmetic: where the points made by `many_new_points_between_2_points` are, and whether
`is_point_on_segment` says that they are on the segment.
-/

namespace B3d.Rounded

variable {A : Arith}

/-- **C134, positions.**  With rounded arithmetic `many_new_points_between_2_points` returns `num + 2` points, the first one is `p`
and the last one `q`, exactly, and point number `i` is in every coordinate at most 6e-15 times the greatest coordinate from the
point that divides the segment in the ratio `i : num + 1 - i`. -/
theorem C134_positions (p q : Vec3 ℝ) (num : Nat) {M : ℝ} (hp : |p.x| ≤ M ∧ |p.y| ≤ M ∧ |p.z| ≤ M)
    (hq : |q.x| ≤ M ∧ |q.y| ≤ M ∧ |q.z| ≤ M) :
    (manyNewPointsBetween A p q num).length = num + 2 ∧ (manyNewPointsBetween A p q num)[0]? = some p ∧
      (manyNewPointsBetween A p q num)[num + 1]? = some q ∧
      ∀ (i : ℕ) (r : Vec3 ℝ), (manyNewPointsBetween A p q num)[i]? = some r →
        |r.x - (p.x + i / (num + 1) * (q.x - p.x))| ≤ 6 / 10 ^ 15 * M ∧
        |r.y - (p.y + i / (num + 1) * (q.y - p.y))| ≤ 6 / 10 ^ 15 * M ∧
        |r.z - (p.z + i / (num + 1) * (q.z - p.z))| ≤ 6 / 10 ^ 15 * M := by
  have hM : 0 ≤ 6 / 10 ^ 15 * M := by have := (abs_nonneg _).trans hp.1; positivity
  have hn : (0 : ℝ) < num + 1 := by positivity
  refine ⟨by simp [manyNewPointsBetween], by simp [manyNewPointsBetween], by simp [manyNewPointsBetween], fun i r hr => ?_⟩
  simp only [manyNewPointsBetween, List.getElem?_map, Option.map_eq_some_iff] at hr
  obtain ⟨j, hj, rfl⟩ := hr
  obtain ⟨hi, rfl⟩ := List.getElem?_eq_some_iff.1 hj
  simp only [List.length_range, List.getElem_range] at hi ⊢
  split
  · next h =>
    have e : (i : ℝ) / (num + 1) = 1 := by rw [h]; push_cast; exact div_self hn.ne'
    rw [e]
    refine ⟨?_, ?_, ?_⟩ <;> rw [one_mul, add_sub_cancel, sub_self, abs_zero] <;> exact hM
  split
  · next h =>
    have e : (i : ℝ) / (num + 1) = 0 := by rw [h]; simp
    rw [e]
    refine ⟨?_, ?_, ?_⟩ <;> rw [zero_mul, add_zero, sub_self, abs_zero] <;> exact hM
  · have ht0 : (0 : ℝ) ≤ i / (num + 1) := by positivity
    have ht1 : (i : ℝ) / (num + 1) ≤ 1 := by
      rw [div_le_one hn]
      have : i ≤ num + 1 := by omega
      exact_mod_cast this
    have ha := A.div_err i ((num + 1 : ℕ) : ℝ) (by push_cast; exact hn.ne')
    have e : ((num + 1 : ℕ) : ℝ) = num + 1 := by push_cast; rfl
    rw [e, abs_of_nonneg ht0] at ha
    unfold newPointBetween
    rw [e]
    exact ⟨between_err hp.1 hq.1 ht0 ht1 ha, between_err hp.2.1 hq.2.1 ht0 ht1 ha, between_err hp.2.2 hq.2.2 ht0 ht1 ha⟩

open Classical in
/-- **C134 (partial), on the segment.**  With rounded arithmetic, if the coordinates of the two points are at most `M` and their
differences at most `L` metres, with `M L + 2 L² ≤ 4`: `is_point_on_segment` says of every point made by
`many_new_points_between_2_points` that it is on the segment.  Missing: long segments, where it is false (`C134_off_segment`). -/
theorem C134_on_segment_partial (p q : Vec3 ℝ) (num : Nat) {M L : ℝ} (hp : |p.x| ≤ M ∧ |p.y| ≤ M ∧ |p.z| ≤ M)
    (hq : |q.x| ≤ M ∧ |q.y| ≤ M ∧ |q.z| ≤ M) (hd : |q.x - p.x| ≤ L ∧ |q.y - p.y| ≤ L ∧ |q.z - p.z| ≤ L)
    (hML : M * L + 2 * L ^ 2 ≤ 4) : ∀ r ∈ manyNewPointsBetween A p q num, isPointOnSegment A r p q = true := by
  intro r hr
  obtain ⟨i, hi⟩ := List.mem_iff_getElem?.1 hr
  have hM : 0 ≤ M := (abs_nonneg _).trans hp.1
  have hL : 0 ≤ L := (abs_nonneg _).trans hd.1
  have hn : (0 : ℝ) < num + 1 := by positivity
  obtain ⟨hlen, -, -, hpos⟩ := C134_positions (A := A) p q num hp hq
  have hi' : i < num + 2 := by rw [← hlen]; exact (List.getElem?_eq_some_iff.1 hi).1
  have ht0 : (0 : ℝ) ≤ i / (num + 1) := by positivity
  have ht1 : (i : ℝ) / (num + 1) ≤ 1 := by
    rw [div_le_one hn]
    have : i ≤ num + 1 := by omega
    exact_mod_cast this
  have hpos := hpos i r hi
  generalize (i : ℝ) / (num + 1) = t at *
  -- the difference vectors
  have key : ∀ x y z : ℝ, |y - x| ≤ L → |z - (x + t * (y - x))| ≤ 6 / 10 ^ 15 * M →
      |A.sub z x - t * (y - x)| ≤ 61 / 10 ^ 16 * M + 1 / 10 ^ 15 * L := by
    intro x y z h1 h2
    have h3 := A.sub_err z x
    generalize A.sub z x = w at h3 ⊢
    have h4 : |t * (y - x)| ≤ L := by
      rw [abs_mul, abs_of_nonneg ht0]
      exact (mul_le_of_le_one_left (abs_nonneg _) ht1).trans h1
    have h5 : |z - x| ≤ L + 6 / 10 ^ 15 * M := by
      have e : z - x = t * (y - x) + (z - (x + t * (y - x))) := by ring
      rw [e]
      exact (abs_add_le _ _).trans (add_le_add h4 h2)
    have e : w - t * (y - x) = (w - (z - x)) + (z - (x + t * (y - x))) := by ring
    rw [e]
    refine (abs_add_le _ _).trans ?_
    linarith
  have f := And.intro (key p.x q.x r.x hd.1 hpos.1) (And.intro (key p.y q.y r.y hd.2.1 hpos.2.1) (key p.z q.z r.z hd.2.2 hpos.2.2))
  have g : ∀ x y : ℝ, |y - x| ≤ L → |A.sub y x - (y - x)| ≤ 1 / 10 ^ 15 * L := fun x y h =>
    (A.sub_err y x).trans (mul_le_mul_of_nonneg_left h (by norm_num))
  have g' := And.intro (g p.x q.x hd.1) (And.intro (g p.y q.y hd.2.1) (g p.z q.z hd.2.2))
  have hE : 0 ≤ 61 / 10 ^ 16 * M + 1 / 10 ^ 15 * L := by positivity
  have hML0 : 0 ≤ M * L := mul_nonneg hM hL
  have hL2 : 0 ≤ L ^ 2 := by positivity
  have hEL : (61 / 10 ^ 16 * M + 1 / 10 ^ 15 * L) * L = 61 / 10 ^ 16 * (M * L) + 1 / 10 ^ 15 * L ^ 2 := by ring
  have c1 := component_err (A := A) ht0 ht1 hE hd.2.1 hd.2.2 f.2.1 g'.2.2 f.2.2 g'.2.1
  have c2 := component_err (A := A) ht0 ht1 hE hd.2.2 hd.1 f.2.2 g'.1 f.1 g'.2.2
  have c3 := component_err (A := A) ht0 ht1 hE hd.1 hd.2.1 f.1 g'.2.1 f.2.1 g'.1
  have d1 := dot_err' (A := A) (a := subv A r p) (b := subv A q p) (v := q - p) ht0 ht1 hE hd f g'
  have d2 := dot_err' (A := A) (a := subv A q p) (b := subv A q p) (v := q - p) (t := 1) (E := 1 / 10 ^ 15 * L) zero_le_one le_rfl
    (by positivity) hd (by rw [one_mul, one_mul, one_mul]; exact g') g'
  rw [hEL] at c1 c2 c3 d1
  have hS : 0 ≤ Vec3.dot (q - p) (q - p) := Vec3.normSq_nonneg _
  have hS' : Vec3.dot (q - p) (q - p) ≤ 3 * L ^ 2 := by
    have sq : ∀ x : ℝ, |x| ≤ L → x * x ≤ L ^ 2 := fun x h => by rw [← pow_two, ← sq_abs]; exact pow_le_pow_left₀ (abs_nonneg _) h 2
    have := sq _ hd.1
    have := sq _ hd.2.1
    have := sq _ hd.2.2
    simp only [Vec3.dot, Vec3.sub_x, Vec3.sub_y, Vec3.sub_z]
    linarith
  have htS : t * Vec3.dot (q - p) (q - p) ≤ Vec3.dot (q - p) (q - p) := mul_le_of_le_one_left hS ht1
  have htS0 : 0 ≤ t * Vec3.dot (q - p) (q - p) := mul_nonneg ht0 hS
  rw [one_mul] at d2
  have hlit := A.lit_err GEOM_ATOL
  obtain ⟨l1, l2⟩ := abs_le.1 hlit
  have hadd := A.add_err (A.dot (subv A q p) (subv A q p)) (A.lit GEOM_ATOL)
  have hG : (GEOM_ATOL : ℝ) = 1 / 10 ^ 13 := by norm_num [GEOM_ATOL]
  unfold isPointOnSegment
  split
  · rfl
  rw [if_neg]
  · simp only []
    rw [if_neg]
    rw [hG, abs_of_pos (by norm_num)] at l1 l2
    rw [hG] at hadd ⊢
    generalize A.lit (1 / 10 ^ 13) = l at *
    generalize A.dot (subv A r p) (subv A q p) = D at *
    generalize A.dot (subv A q p) (subv A q p) = S' at *
    generalize Vec3.dot (q - p) (q - p) = S at *
    generalize A.add S' l = T at *
    generalize t * S = tS at *
    obtain ⟨d1a, d1b⟩ := abs_le.1 d1
    have hLL : 1 / 10 ^ 15 * L * L = 1 / 10 ^ 15 * L ^ 2 := by ring
    rw [hLL] at d2
    obtain ⟨d2a, d2b⟩ := abs_le.1 d2
    have hsum : |S' + l| ≤ 4 * L ^ 2 + 2 / 10 ^ 13 := by
      refine abs_le.2 ⟨?_, ?_⟩ <;> linarith
    obtain ⟨t1, t2⟩ := abs_le.1 hadd
    generalize L ^ 2 = Y at *
    generalize M * L = X at *
    push Not
    constructor
    · linarith
    · linarith
  · rw [not_not]
    refine ⟨isClose_of A (by norm_num [NP_RTOL]) (by norm_num [GEOM_ATOL]) ?_, isClose_of A (by norm_num [NP_RTOL])
      (by norm_num [GEOM_ATOL]) ?_, isClose_of A (by norm_num [NP_RTOL]) (by norm_num [GEOM_ATOL]) ?_⟩
    · change |A.sub (A.mul (A.sub r.y p.y) (A.sub q.z p.z)) (A.mul (A.sub r.z p.z) (A.sub q.y p.y)) - 0| ≤ _ * (_ + _ * |(0 : ℝ)|)
      rw [hG, sub_zero, abs_zero, mul_zero, add_zero]
      linarith
    · change |A.sub (A.mul (A.sub r.z p.z) (A.sub q.x p.x)) (A.mul (A.sub r.x p.x) (A.sub q.z p.z)) - 0| ≤ _ * (_ + _ * |(0 : ℝ)|)
      rw [hG, sub_zero, abs_zero, mul_zero, add_zero]
      linarith
    · change |A.sub (A.mul (A.sub r.x p.x) (A.sub q.y p.y)) (A.mul (A.sub r.y p.y) (A.sub q.x p.x)) - 0| ≤ _ * (_ + _ * |(0 : ℝ)|)
      rw [hG, sub_zero, abs_zero, mul_zero, add_zero]
      linarith

/-! ### A long segment -/

theorem b30 : fl 30 = 30 := by dyadic (-48) 8444249301319680
theorem b28 : fl 28 = 28 := by dyadic (-48) 7881299347898368
theorem b20 : fl 20 = 20 := by dyadic (-48) 5629499534213120
theorem b560 : fl 560 = 560 := by dyadic (-43) 4925812092436480
theorem bthirds : fl (2 / 3) = 6004799503160661 / 2 ^ 53 := by dyadic (-53) 6004799503160661
theorem bx : fl (30 * (6004799503160661 / 2 ^ 53)) = 20 := by dyadic (-48) 5629499534213120
theorem by' : fl (28 * (6004799503160661 / 2 ^ 53)) = 5254199565265578 / 2 ^ 48 := by dyadic (-48) 5254199565265578
theorem bgap : fl (5254199565265578 / 2 ^ 48) = 5254199565265578 / 2 ^ 48 := by dyadic (-48) 5254199565265578
theorem bprod : fl (5254199565265578 / 2 ^ 48 * 30) = 4925812092436479 / 2 ^ 43 := by dyadic (-43) 4925812092436479
theorem bdiff : fl (560 - 4925812092436479 / 2 ^ 43) = 1 / 2 ^ 43 := by dyadic (-95) 4503599627370496

/-- The third of the four points. -/
theorem third_point : (manyNewPointsBetween binary ⟨0, 0, 0⟩ ⟨30, 28, 0⟩ 2)[2]? = some ⟨20, 5254199565265578 / 2 ^ 48, 0⟩ := by
  have e : newPointBetween binary ⟨0, 0, 0⟩ ⟨30, 28, 0⟩ (fl (2 / 3)) = ⟨20, 5254199565265578 / 2 ^ 48, 0⟩ := by
    change (⟨fl (fl (0 * _) + fl (30 * fl (2 / 3))), fl (fl (0 * _) + fl (28 * fl (2 / 3))), fl (fl (0 * _) + fl (0 * fl (2 / 3)))⟩ :
      Vec3 ℝ) = _
    rw [bthirds, bx, by']
    simp only [zero_mul, fl_zero, zero_add, b20, bgap]
  rw [← e]
  simp only [manyNewPointsBetween, List.getElem?_map, List.getElem?_range (show 2 < 2 + 2 by norm_num), Option.map_some]
  norm_num
  rfl

open Classical in
/-- **C134, beside the segment.**  With 64-bit numbers: of the two points that `many_new_points_between_2_points` makes between
(0, 0, 0) and (30, 28, 0), `is_point_on_segment` says that the second one is not on the segment. -/
theorem C134_off_segment : ∃ r, (manyNewPointsBetween binary ⟨0, 0, 0⟩ ⟨30, 28, 0⟩ 2)[2]? = some r ∧
    isPointOnSegment binary r ⟨0, 0, 0⟩ ⟨30, 28, 0⟩ = false := by
  refine ⟨_, third_point, ?_⟩
  have n1 : pointsEqual binary ⟨20, 5254199565265578 / 2 ^ 48, 0⟩ ⟨0, 0, 0⟩ = false := by
    refine decide_eq_false ?_
    rintro ⟨hc, -, -⟩
    have := le_of_isClose binary (by norm_num [NP_RTOL]) (by norm_num [GEOM_ATOL]) hc
    norm_num [NP_RTOL, GEOM_ATOL] at this
  have n2 : pointsEqual binary ⟨20, 5254199565265578 / 2 ^ 48, 0⟩ ⟨30, 28, 0⟩ = false := by
    refine decide_eq_false ?_
    rintro ⟨hc, -, -⟩
    have := le_of_isClose binary (by norm_num [NP_RTOL]) (by norm_num [GEOM_ATOL]) hc
    norm_num [NP_RTOL, GEOM_ATOL, abs_of_neg] at this
  unfold isPointOnSegment
  rw [n1, n2, if_neg (by simp), if_pos]
  rintro ⟨-, -, hc⟩
  have e : (cross binary (subv binary ⟨20, 5254199565265578 / 2 ^ 48, 0⟩ ⟨0, 0, 0⟩) (subv binary ⟨30, 28, 0⟩ ⟨0, 0, 0⟩)).z =
      1 / 2 ^ 43 := by
    change fl (fl (fl (20 - 0) * fl (28 - 0)) - fl (fl (5254199565265578 / 2 ^ 48 - 0) * fl (30 - 0))) = _
    rw [sub_zero, sub_zero, sub_zero, sub_zero, b20, b28, bgap, b30, bprod, show (20 * 28 : ℝ) = 560 by norm_num, b560, bdiff]
  rw [e] at hc
  have := le_of_isClose binary (by norm_num [NP_RTOL]) (by norm_num [GEOM_ATOL]) hc
  have hz : (0 : Vec3 ℝ).z = 0 := rfl
  rw [hz, sub_zero, abs_zero, mul_zero, add_zero] at this
  norm_num [GEOM_ATOL] at this

/-! ### The hypotheses can be met -/

/-- Nine points on a slanted segment of about a metre. -/
example : ∀ r ∈ manyNewPointsBetween binary ⟨1 / 10, 2 / 10, 3 / 10⟩ ⟨1, 7 / 10, 1 / 10⟩ 9,
    isPointOnSegment binary r ⟨1 / 10, 2 / 10, 3 / 10⟩ ⟨1, 7 / 10, 1 / 10⟩ = true :=
  C134_on_segment_partial _ _ 9 (M := 1) (L := 1) (by norm_num [abs_le]) (by norm_num [abs_le]) (by norm_num [abs_le]) (by norm_num)

/-- The positions on the long segment are right to 2e-13 m. -/
example : ∃ r, (manyNewPointsBetween binary ⟨0, 0, 0⟩ ⟨30, 28, 0⟩ 2)[2]? = some r ∧ |r.y - 56 / 3| ≤ 2 / 10 ^ 13 := by
  obtain ⟨-, -, -, h⟩ := C134_positions (A := binary) ⟨0, 0, 0⟩ ⟨30, 28, 0⟩ 2 (M := 30) (by norm_num) (by norm_num [abs_le])
  refine ⟨_, third_point, ?_⟩
  have := (h 2 _ third_point).2.1
  norm_num at this ⊢

end B3d.Rounded
