import Verif.Proofs.Rounded
import Mathlib.Data.Int.Log

/-!
# An arithmetic with 53 binary digits

Rounding to the nearest number with 53 binary digits, ties away from zero, without limits on the exponent.  It shows that
the conditions of `Arith` can be met by an arithmetic that really rounds.
-/

namespace B3d.Rounded

/-- The exponent of the last digit of a positive number. -/
noncomputable def lastExp (x : ℝ) : ℤ := Int.log 2 x - 52

/-- Rounding of a positive number. -/
noncomputable def flp (x : ℝ) : ℝ := (⌊x / 2 ^ lastExp x + 1 / 2⌋ : ℤ) * 2 ^ lastExp x

open Classical in
/-- Rounding to 53 binary digits. -/
noncomputable def fl (x : ℝ) : ℝ := if 0 < x then flp x else if x < 0 then -flp (-x) else 0

theorem two_pow_pos (e : ℤ) : (0 : ℝ) < 2 ^ e := by positivity

theorem scale_bounds {x : ℝ} (hx : 0 < x) : 2 ^ 52 ≤ x / 2 ^ lastExp x ∧ x / 2 ^ lastExp x < 2 ^ 53 := by
  have h1 := Int.zpow_log_le_self (b := 2) one_lt_two hx
  have h2 := Int.lt_zpow_succ_log_self (b := 2) one_lt_two x
  rw [le_div_iff₀ (two_pow_pos _), div_lt_iff₀ (two_pow_pos _)]
  have e1 : (2 : ℝ) ^ 52 * 2 ^ lastExp x = 2 ^ Int.log 2 x := by
    rw [← zpow_natCast (2 : ℝ) 52, ← zpow_add₀ two_ne_zero]; congr 1; unfold lastExp; push_cast; ring
  have e2 : (2 : ℝ) ^ 53 * 2 ^ lastExp x = 2 ^ (Int.log 2 x + 1) := by
    rw [← zpow_natCast (2 : ℝ) 53, ← zpow_add₀ two_ne_zero]; congr 1; unfold lastExp; push_cast; ring
  rw [e1, e2]
  exact ⟨by exact_mod_cast h1, by exact_mod_cast h2⟩

theorem lastExp_eq {x : ℝ} {e : ℤ} (h1 : 2 ^ 52 * 2 ^ e ≤ x) (h2 : x < 2 ^ 53 * 2 ^ e) : lastExp x = e := by
  have hx : 0 < x := lt_of_lt_of_le (by positivity) h1
  have e1 : (2 : ℝ) ^ 52 * 2 ^ e = 2 ^ (e + 52) := by
    rw [← zpow_natCast (2 : ℝ) 52, ← zpow_add₀ two_ne_zero]; congr 1; push_cast; ring
  have e2 : (2 : ℝ) ^ 53 * 2 ^ e = 2 ^ (e + 53) := by
    rw [← zpow_natCast (2 : ℝ) 53, ← zpow_add₀ two_ne_zero]; congr 1; push_cast; ring
  rw [e1] at h1
  rw [e2] at h2
  have a := (Int.zpow_le_iff_le_log (b := 2) one_lt_two hx (x := e + 52)).1 (by exact_mod_cast h1)
  have b := (Int.lt_zpow_iff_log_lt (b := 2) one_lt_two hx (x := e + 53)).1 (by exact_mod_cast h2)
  unfold lastExp
  omega

/-- The value of a rounding. -/
theorem flp_eq {x : ℝ} {e k : ℤ} (h1 : 2 ^ 52 * 2 ^ e ≤ x) (h2 : x < 2 ^ 53 * 2 ^ e) (h3 : (k - 1 / 2) * 2 ^ e ≤ x)
    (h4 : x < (k + 1 / 2) * 2 ^ e) : flp x = k * 2 ^ e := by
  unfold flp
  rw [lastExp_eq h1 h2]
  congr 2
  rw [Int.floor_eq_iff]
  rw [← le_div_iff₀ (two_pow_pos e)] at h3
  rw [← div_lt_iff₀ (two_pow_pos e)] at h4
  constructor <;> linarith

theorem flp_bounds {x : ℝ} (hx : 0 < x) : ∃ k : ℤ, 2 ^ 52 ≤ k ∧ k ≤ 2 ^ 53 ∧ flp x = k * 2 ^ lastExp x ∧
    |flp x - x| ≤ 2 ^ lastExp x / 2 := by
  obtain ⟨h1, h2⟩ := scale_bounds hx
  have hp := two_pow_pos (lastExp x)
  refine ⟨⌊x / 2 ^ lastExp x + 1 / 2⌋, ?_, ?_, rfl, ?_⟩
  · rw [Int.le_floor]; push_cast; linarith
  · have : (⌊x / 2 ^ lastExp x + 1 / 2⌋ : ℝ) < 2 ^ 53 + 1 := lt_of_le_of_lt (Int.floor_le _) (by linarith)
    have : ⌊x / 2 ^ lastExp x + 1 / 2⌋ < 2 ^ 53 + 1 := by exact_mod_cast this
    omega
  · have f1 := Int.floor_le (x / 2 ^ lastExp x + 1 / 2)
    have f2 := Int.lt_floor_add_one (x / 2 ^ lastExp x + 1 / 2)
    have e : flp x - x = ((⌊x / 2 ^ lastExp x + 1 / 2⌋ : ℝ) - x / 2 ^ lastExp x) * 2 ^ lastExp x := by
      unfold flp; field_simp
    rw [e, abs_mul, abs_of_pos hp]
    have : |(⌊x / 2 ^ lastExp x + 1 / 2⌋ : ℝ) - x / 2 ^ lastExp x| ≤ 1 / 2 := by
      rw [abs_le]; constructor <;> linarith
    calc _ ≤ 1 / 2 * 2 ^ lastExp x := mul_le_mul_of_nonneg_right this hp.le
      _ = _ := by ring

theorem flp_int {k e : ℤ} (h1 : 2 ^ 52 ≤ k) (h2 : k ≤ 2 ^ 53) : flp (k * 2 ^ e) = k * 2 ^ e := by
  have hp := two_pow_pos e
  rcases Int.lt_or_eq_of_le h2 with h | h
  · have h1' : (2 : ℝ) ^ 52 ≤ k := by exact_mod_cast h1
    have h2' : (k : ℝ) < 2 ^ 53 := by exact_mod_cast h
    exact flp_eq (mul_le_mul_of_nonneg_right h1' hp.le) (mul_lt_mul_of_pos_right h2' hp) (by nlinarith) (by nlinarith)
  · have e1 : (k : ℝ) * 2 ^ e = ((2 ^ 52 : ℤ) : ℝ) * 2 ^ (e + 1) := by
      rw [h, zpow_add_one₀ two_ne_zero]; push_cast; ring
    rw [e1]
    have hq := two_pow_pos (e + 1)
    refine flp_eq ?_ ?_ ?_ ?_
    · norm_num
    · push_cast; nlinarith
    · push_cast; nlinarith
    · push_cast; nlinarith

theorem flp_pos {x : ℝ} (hx : 0 < x) : 0 < flp x := by
  obtain ⟨k, h1, -, h3, -⟩ := flp_bounds hx
  rw [h3]
  have : (0 : ℝ) < k := by
    have : 0 < k := lt_of_lt_of_le (by norm_num) h1
    exact_mod_cast this
  have := two_pow_pos (lastExp x)
  positivity

theorem flp_flp {x : ℝ} (hx : 0 < x) : flp (flp x) = flp x := by
  obtain ⟨k, h1, h2, h3, -⟩ := flp_bounds hx
  rw [h3, flp_int h1 h2]

theorem flp_mono {x y : ℝ} (hx : 0 < x) (hxy : x ≤ y) : flp x ≤ flp y := by
  have hy := lt_of_lt_of_le hx hxy
  have he : lastExp x ≤ lastExp y := by
    have := Int.log_mono_right (b := 2) hx hxy
    unfold lastExp; omega
  rcases he.lt_or_eq with h | h
  · obtain ⟨k, -, k2, k3, -⟩ := flp_bounds hx
    obtain ⟨j, j1, -, j3, -⟩ := flp_bounds hy
    rw [k3, j3]
    have k2' : (k : ℝ) ≤ 2 ^ 53 := by exact_mod_cast k2
    have j1' : (2 : ℝ) ^ 52 ≤ j := by exact_mod_cast j1
    have hz : (2 : ℝ) ^ (lastExp x + 1) ≤ 2 ^ lastExp y := zpow_le_zpow_right₀ one_le_two h
    have px := two_pow_pos (lastExp x)
    have py := two_pow_pos (lastExp y)
    calc (k : ℝ) * 2 ^ lastExp x ≤ 2 ^ 53 * 2 ^ lastExp x := mul_le_mul_of_nonneg_right k2' px.le
      _ = 2 ^ 52 * 2 ^ (lastExp x + 1) := by rw [zpow_add_one₀ two_ne_zero]; ring
      _ ≤ 2 ^ 52 * 2 ^ lastExp y := by gcongr
      _ ≤ j * 2 ^ lastExp y := mul_le_mul_of_nonneg_right j1' py.le
  · unfold flp
    rw [← h]
    have px := two_pow_pos (lastExp x)
    gcongr

theorem fl_zero : fl 0 = 0 := by unfold fl; simp

theorem fl_neg (x : ℝ) : fl (-x) = -fl x := by
  unfold fl
  rcases lt_trichotomy x 0 with h | h | h
  · rw [if_pos (by linarith), if_neg (by linarith), if_pos h, neg_neg]
  · subst h; simp
  · rw [if_neg (by linarith), if_pos (by linarith), if_pos h, neg_neg]

theorem fl_of_pos {x : ℝ} (h : 0 < x) : fl x = flp x := if_pos h

theorem fl_fl (x : ℝ) : fl (fl x) = fl x := by
  rcases lt_trichotomy x 0 with h | h | h
  · have e : fl x = -flp (-x) := by rw [← neg_neg (fl x), ← fl_neg, fl_of_pos (by linarith)]
    have hp : 0 < flp (-x) := flp_pos (by linarith)
    rw [e, fl_neg, fl_of_pos hp, flp_flp (by linarith)]
  · subst h; rw [fl_zero, fl_zero]
  · rw [fl_of_pos h, fl_of_pos (flp_pos h), flp_flp h]

theorem fl_mono {x y : ℝ} (h : x ≤ y) : fl x ≤ fl y := by
  rcases lt_trichotomy x 0 with hx | hx | hx
  · have e : fl x = -flp (-x) := by rw [← neg_neg (fl x), ← fl_neg, fl_of_pos (by linarith)]
    have px : 0 < flp (-x) := flp_pos (by linarith)
    rcases lt_trichotomy y 0 with hy | hy | hy
    · have e2 : fl y = -flp (-y) := by rw [← neg_neg (fl y), ← fl_neg, fl_of_pos (by linarith)]
      rw [e, e2, neg_le_neg_iff]
      exact flp_mono (by linarith) (by linarith)
    · subst hy; rw [fl_zero, e]; linarith
    · rw [e, fl_of_pos hy]; linarith [flp_pos hy]
  · subst hx
    rcases h.lt_or_eq with hy | hy
    · rw [fl_zero, fl_of_pos hy]; exact (flp_pos hy).le
    · rw [hy]
  · rw [fl_of_pos hx, fl_of_pos (lt_of_lt_of_le hx h)]
    exact flp_mono hx h

theorem fl_err (x : ℝ) : |fl x - x| ≤ 1 / 2 ^ 53 * |x| := by
  have key : ∀ y : ℝ, 0 < y → |flp y - y| ≤ 1 / 2 ^ 53 * y := by
    intro y hy
    obtain ⟨k, -, -, -, h⟩ := flp_bounds hy
    have h1 := (scale_bounds hy).1
    rw [le_div_iff₀ (two_pow_pos _)] at h1
    refine h.trans ?_
    norm_num at *
    linarith
  rcases lt_trichotomy x 0 with h | h | h
  · have e : fl x = -flp (-x) := by rw [← neg_neg (fl x), ← fl_neg, fl_of_pos (by linarith)]
    have := key (-x) (by linarith)
    rw [e, abs_of_neg h, show -flp (-x) - x = -(flp (-x) - -x) by ring, abs_neg]
    exact this
  · subst h; simp [fl_zero]
  · rw [fl_of_pos h, abs_of_pos h]; exact key x h

theorem fl_rel (x : ℝ) : Rel (1 / 2 ^ 53) (fl x) x := rel_of_err (by positivity) (fl_err x)

theorem fl_err' (x : ℝ) : |fl x - x| ≤ 1 / 10 ^ 15 * |x| :=
  (fl_err x).trans (mul_le_mul_of_nonneg_right (by norm_num) (abs_nonneg x))

/-- Rounding to the nearest whole number, ties away from zero. -/
noncomputable def rint (x : ℝ) : ℝ := if 0 ≤ x then (⌊x + 1 / 2⌋ : ℤ) else -(⌊-x + 1 / 2⌋ : ℤ)

theorem rint_err (x : ℝ) : |rint x - x| ≤ 1 / 2 := by
  unfold rint
  split
  · have f1 := Int.floor_le (x + 1 / 2)
    have f2 := Int.lt_floor_add_one (x + 1 / 2)
    rw [abs_le]; constructor <;> linarith
  · have f1 := Int.floor_le (-x + 1 / 2)
    have f2 := Int.lt_floor_add_one (-x + 1 / 2)
    rw [abs_le]; constructor <;> linarith

theorem rint_abs (x : ℝ) : |rint x| ≤ 2 * |x| := by
  have key : ∀ y : ℝ, 0 ≤ y → |((⌊y + 1 / 2⌋ : ℤ) : ℝ)| ≤ 2 * y := by
    intro y hy
    have f1 := Int.floor_le (y + 1 / 2)
    by_cases h : y < 1 / 2
    · have : ⌊y + 1 / 2⌋ = 0 := by rw [Int.floor_eq_iff]; push_cast; constructor <;> linarith
      rw [this]; simpa using hy
    · push Not at h
      have h0 : (0 : ℝ) ≤ (⌊y + 1 / 2⌋ : ℤ) := by
        have : 0 ≤ ⌊y + 1 / 2⌋ := Int.floor_nonneg.2 (by linarith)
        exact_mod_cast this
      rw [abs_of_nonneg h0]; linarith
  unfold rint
  split
  · rename_i h
    rw [abs_of_nonneg h]; exact key x h
  · rename_i h
    push Not at h
    rw [abs_neg, abs_of_neg h]; exact key (-x) (by linarith)

theorem rint_mono {x y : ℝ} (h : x ≤ y) : rint x ≤ rint y := by
  unfold rint
  by_cases hx : 0 ≤ x
  · rw [if_pos hx, if_pos (le_trans hx h)]
    have := Int.floor_le_floor (show x + 1 / 2 ≤ y + 1 / 2 by linarith)
    exact_mod_cast this
  · push Not at hx
    rw [if_neg (not_le.2 hx)]
    have h1 : (0 : ℝ) ≤ (⌊-x + 1 / 2⌋ : ℤ) := by
      have : 0 ≤ ⌊-x + 1 / 2⌋ := Int.floor_nonneg.2 (by linarith)
      exact_mod_cast this
    by_cases hy : 0 ≤ y
    · rw [if_pos hy]
      have h2 : (0 : ℝ) ≤ (⌊y + 1 / 2⌋ : ℤ) := by
        have : 0 ≤ ⌊y + 1 / 2⌋ := Int.floor_nonneg.2 (by linarith)
        exact_mod_cast this
      linarith
    · rw [if_neg hy]
      have : (⌊-y + 1 / 2⌋ : ℤ) ≤ ⌊-x + 1 / 2⌋ := Int.floor_le_floor (show -y + 1 / 2 ≤ -x + 1 / 2 by linarith)
      have : ((⌊-y + 1 / 2⌋ : ℤ) : ℝ) ≤ (⌊-x + 1 / 2⌋ : ℤ) := by exact_mod_cast this
      linarith

/-- `np.round(x, 8)`: multiply, round to a whole number, divide. -/
noncomputable def bround8 (x : ℝ) : ℝ := fl (rint (fl (x * 10 ^ 8)) / 10 ^ 8)

/-- Length: squares added from the left, then the root. -/
noncomputable def bnorm (v : Vec3 ℝ) : ℝ := fl (Real.sqrt (fl (fl (fl (v.x * v.x) + fl (v.y * v.y)) + fl (v.z * v.z))))

/-- Scalar product: products added from the left. -/
noncomputable def bdot (v w : Vec3 ℝ) : ℝ := fl (fl (fl (v.x * w.x) + fl (v.y * w.y)) + fl (v.z * w.z))

theorem bround8_err (x : ℝ) : |bround8 x - x| ≤ 1 / (2 * 10 ^ 8) + 4 / 10 ^ 15 * |x| := by
  have h1 := fl_err' (x * 10 ^ 8)
  have h2 := rint_err (fl (x * 10 ^ 8))
  have h3 := fl_err (rint (fl (x * 10 ^ 8)) / 10 ^ 8)
  unfold bround8
  set a := fl (x * 10 ^ 8)
  set b := rint a
  have e : |x * 10 ^ 8| = |x| * 10 ^ 8 := by rw [abs_mul, abs_of_pos (by norm_num : (0 : ℝ) < 10 ^ 8)]
  rw [e] at h1
  have h4 : |b / 10 ^ 8 - x| ≤ 1 / (2 * 10 ^ 8) + 1 / 10 ^ 15 * |x| := by
    have : b / 10 ^ 8 - x = ((b - a) + (a - x * 10 ^ 8)) / 10 ^ 8 := by field_simp; ring
    rw [this, abs_div, abs_of_pos (by norm_num : (0 : ℝ) < 10 ^ 8), div_le_iff₀ (by norm_num)]
    have := abs_add_le (b - a) (a - x * 10 ^ 8)
    norm_num at *
    linarith
  have h5 : |b / 10 ^ 8| ≤ 2 * (1 + 1 / 10 ^ 15) * |x| := by
    have h6 := rint_abs a
    have h7 := abs_add_le (a - x * 10 ^ 8) (x * 10 ^ 8)
    rw [sub_add_cancel, e] at h7
    rw [abs_div, abs_of_pos (by norm_num : (0 : ℝ) < 10 ^ 8), div_le_iff₀ (by norm_num)]
    have : |b| ≤ 2 * |a| := h6
    norm_num at h1 h7 ⊢
    linarith
  have h8 := abs_add_le (fl (b / 10 ^ 8) - b / 10 ^ 8) (b / 10 ^ 8 - x)
  rw [sub_add_sub_cancel] at h8
  have h9 : 1 / 2 ^ 53 * |b / 10 ^ 8| ≤ 1 / 2 ^ 53 * (2 * (1 + 1 / 10 ^ 15) * |x|) :=
    mul_le_mul_of_nonneg_left h5 (by positivity)
  have h0 := abs_nonneg x
  have : (1 / 2 ^ 53 * (2 * (1 + 1 / 10 ^ 15) * |x|) : ℝ) ≤ 3 / 10 ^ 15 * |x| := by
    rw [← mul_assoc]
    exact mul_le_mul_of_nonneg_right (by norm_num) h0
  have e4 : (4 / 10 ^ 15 * |x| : ℝ) = 3 / 10 ^ 15 * |x| + 1 / 10 ^ 15 * |x| := by ring
  rw [e4]
  linarith

theorem bround8_mono {x y : ℝ} (h : x ≤ y) : bround8 x ≤ bround8 y := by
  unfold bround8
  apply fl_mono
  have : rint (fl (x * 10 ^ 8)) ≤ rint (fl (y * 10 ^ 8)) := rint_mono (fl_mono (by linarith))
  gcongr

theorem abs_fl_add_le {u : ℝ} (x : ℝ) (hu : u = 1 / 2 ^ 53) : |fl x| ≤ (1 + u) * |x| := by
  have := abs_add_le (fl x - x) x
  rw [sub_add_cancel] at this
  have := fl_err x
  subst hu
  linarith

/-- A sum of three rounded terms. -/
theorem sum3_err (a b c : ℝ) : |fl (fl (fl a + fl b) + fl c) - (a + b + c)| ≤ 4 / 2 ^ 53 * (|a| + |b| + |c|) := by
  have ha := fl_err a
  have hb := fl_err b
  have hc := fl_err c
  have ha' := abs_fl_add_le a rfl
  have hb' := abs_fl_add_le b rfl
  have hc' := abs_fl_add_le c rfl
  have hs := fl_err (fl a + fl b)
  have hs' := abs_fl_add_le (fl a + fl b) rfl
  have ht := fl_err (fl (fl a + fl b) + fl c)
  have t1 := abs_add_le (fl a) (fl b)
  have t2 := abs_add_le (fl (fl a + fl b)) (fl c)
  have n1 := abs_nonneg a
  have n2 := abs_nonneg b
  have n3 := abs_nonneg c
  have e : fl (fl (fl a + fl b) + fl c) - (a + b + c) = (fl (fl (fl a + fl b) + fl c) - (fl (fl a + fl b) + fl c)) +
      ((fl (fl a + fl b) - (fl a + fl b)) + ((fl a - a) + ((fl b - b) + (fl c - c)))) := by ring
  rw [e]
  refine (abs_add_le _ _).trans ?_
  have u1 := abs_add_le (fl (fl a + fl b) - (fl a + fl b)) ((fl a - a) + ((fl b - b) + (fl c - c)))
  have u2 := abs_add_le (fl a - a) ((fl b - b) + (fl c - c))
  have u3 := abs_add_le (fl b - b) (fl c - c)
  norm_num at ha hb hc ha' hb' hc' hs hs' ht ⊢
  linarith

theorem bdot_err (v w : Vec3 ℝ) : |bdot v w - Vec3.dot v w| ≤ 4 / 10 ^ 15 * (|v.x * w.x| + |v.y * w.y| + |v.z * w.z|) := by
  have h := sum3_err (v.x * w.x) (v.y * w.y) (v.z * w.z)
  unfold bdot
  rw [show Vec3.dot v w = v.x * w.x + v.y * w.y + v.z * w.z from rfl]
  exact h.trans (mul_le_mul_of_nonneg_right (by norm_num) (by positivity))

theorem bnorm_err (v : Vec3 ℝ) : |bnorm v - Vec3.norm v| ≤ 8 / 10 ^ 15 * Vec3.norm v := by
  have h := sum3_err (v.x * v.x) (v.y * v.y) (v.z * v.z)
  have q0 : Vec3.norm v = Real.sqrt (v.x * v.x + v.y * v.y + v.z * v.z) := rfl
  have hn : 0 ≤ v.x * v.x + v.y * v.y + v.z * v.z := by nlinarith [mul_self_nonneg v.x, mul_self_nonneg v.y, mul_self_nonneg v.z]
  unfold bnorm
  rw [q0]
  rw [abs_of_nonneg (mul_self_nonneg v.x), abs_of_nonneg (mul_self_nonneg v.y), abs_of_nonneg (mul_self_nonneg v.z)] at h
  set s := v.x * v.x + v.y * v.y + v.z * v.z
  set t := fl (fl (fl (v.x * v.x) + fl (v.y * v.y)) + fl (v.z * v.z))
  have h1 := abs_le.1 h
  have ht : 0 ≤ t := by norm_num at *; nlinarith
  have hs : |Real.sqrt t - Real.sqrt s| ≤ 4 / 2 ^ 53 * Real.sqrt s := by
    have e : (Real.sqrt t - Real.sqrt s) * (Real.sqrt t + Real.sqrt s) = t - s := by
      have := Real.mul_self_sqrt ht
      have := Real.mul_self_sqrt hn
      nlinarith
    rcases hn.eq_or_lt with h0 | h0
    · have : t = 0 := by rw [← h0] at h1; norm_num at h1; linarith
      rw [this, ← h0]; simp
    · have p := Real.sqrt_pos.2 h0
      have q := Real.sqrt_nonneg t
      have : |Real.sqrt t - Real.sqrt s| * (Real.sqrt t + Real.sqrt s) ≤ 4 / 2 ^ 53 * s := by
        have h2 := abs_mul (Real.sqrt t - Real.sqrt s) (Real.sqrt t + Real.sqrt s)
        rw [e, abs_of_pos (show 0 < Real.sqrt t + Real.sqrt s by linarith)] at h2
        rw [← h2]
        exact h
      have e2 : 4 / 2 ^ 53 * s = 4 / 2 ^ 53 * Real.sqrt s * Real.sqrt s := by rw [mul_assoc, Real.mul_self_sqrt hn]
      rw [e2] at this
      refine le_of_mul_le_mul_right (le_trans ?_ this) p
      exact mul_le_mul_of_nonneg_left (by linarith) (abs_nonneg _)
  have hf := fl_err (Real.sqrt t)
  rw [abs_of_nonneg (Real.sqrt_nonneg t)] at hf
  have h2 := abs_le.1 hs
  have h3 := abs_add_le (fl (Real.sqrt t) - Real.sqrt t) (Real.sqrt t - Real.sqrt s)
  rw [sub_add_sub_cancel] at h3
  have p := Real.sqrt_nonneg s
  norm_num at *
  linarith

/-- The arithmetic with 53 binary digits. -/
noncomputable def binary : Arith where
  add x y := fl (x + y)
  sub x y := fl (x - y)
  mul x y := fl (x * y)
  div x y := fl (x / y)
  norm := bnorm
  dot := bdot
  lit := fl
  round8 := bround8
  add_err x y := fl_err' _
  sub_err x y := fl_err' _
  mul_err x y := fl_err' _
  div_err x y _ := fl_err' _
  norm_err := bnorm_err
  dot_err := bdot_err
  lit_err := fl_err'
  round8_err := bround8_err
  round8_mono _ _ := bround8_mono
  add_grow x y h := by
    have : fl (bround8 x) = bround8 x := fl_fl _
    conv_lhs => rw [← this]
    exact fl_mono (by linarith)
  sub_shrink x y h := by
    have : fl (bround8 x) = bround8 x := fl_fl _
    conv_rhs => rw [← this]
    exact fl_mono (by linarith)
  sub_swap x y := by rw [← fl_neg, neg_sub]
  mul_neg x y := by rw [← fl_neg, mul_neg]
  mul_comm x y := by rw [mul_comm]
  dot_x a w := by simp [bdot, fl_zero, fl_fl]
  dot_y a w := by simp [bdot, fl_zero, fl_fl]
  dot_z a w := by simp [bdot, fl_zero, fl_fl]

end B3d.Rounded
