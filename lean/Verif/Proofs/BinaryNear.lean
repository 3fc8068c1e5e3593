import Verif.Proofs.Binary

/-!
# Numbers near a number with 53 digits

A number near a number with 53 binary digits is rounded to it.
-/

namespace B3d.Rounded

/-- The digits of a number with 53 of them. -/
theorem digits {y : ℝ} (hy : 0 < y) (h : fl y = y) : ∃ k e : ℤ, 2 ^ 52 ≤ k ∧ k < 2 ^ 53 ∧ y = k * 2 ^ e := by
  rw [fl_of_pos hy] at h
  obtain ⟨k, h1, -, h3, -⟩ := flp_bounds hy
  have hp := two_pow_pos (lastExp y)
  have h4 := (scale_bounds hy).2
  rw [div_lt_iff₀ hp] at h4
  refine ⟨k, lastExp y, h1, ?_, by rw [← h3, h]⟩
  have : (k : ℝ) * 2 ^ lastExp y < 2 ^ 53 * 2 ^ lastExp y := by rw [← h3, h]; exact h4
  have := lt_of_mul_lt_mul_right this hp.le
  exact_mod_cast this

theorem fl_near_pos {x y : ℝ} (hy : 0 < y) (h : fl y = y) (hxy : |x - y| ≤ y / 2 ^ 55) : fl x = y := by
  obtain ⟨k, e, k1, k2, rfl⟩ := digits hy h
  have hp := two_pow_pos e
  have k1' : (2 : ℝ) ^ 52 ≤ k := by exact_mod_cast k1
  have k2' : (k : ℝ) ≤ 2 ^ 53 - 1 := by
    have : k ≤ 2 ^ 53 - 1 := by omega
    exact_mod_cast this
  have hs : (k : ℝ) * 2 ^ e / 2 ^ 55 ≤ 2 ^ e / 4 := by
    rw [div_le_iff₀ (by positivity)]
    have := mul_le_mul_of_nonneg_right k2' hp.le
    norm_num at this ⊢
    linarith
  have h' := abs_le.1 (hxy.trans hs)
  have k3 := mul_le_mul_of_nonneg_right k2' hp.le
  have k4 := mul_le_mul_of_nonneg_right k1' hp.le
  have hx : 0 < x := by
    norm_num at k4 h' ⊢
    linarith [h'.1]
  rw [fl_of_pos hx]
  rcases lt_or_ge x (2 ^ 52 * 2 ^ e) with hlt | hge
  · -- just below a power of two
    have hk : k = 2 ^ 52 := by
      by_contra hne
      have : 2 ^ 52 + 1 ≤ k := by omega
      have : (2 ^ 52 + 1 : ℝ) ≤ k := by exact_mod_cast this
      have := mul_le_mul_of_nonneg_right this hp.le
      norm_num at this hlt h'
      linarith [h'.1]
    have e2 : (2 : ℝ) ^ e = 2 * 2 ^ (e - 1) := by rw [zpow_sub_one₀ two_ne_zero]; ring
    have hq := two_pow_pos (e - 1)
    have hkr : (k : ℝ) = 2 ^ 52 := by rw [hk]; norm_num
    have hxy' := (abs_le.1 hxy).1
    rw [hkr, e2] at hxy'
    rw [e2] at hlt
    rw [flp_eq (e := e - 1) (k := 2 ^ 53) (by norm_num at hxy' ⊢; linarith) (by norm_num at hlt ⊢; linarith)
      (by norm_num at hxy' ⊢; linarith) (by norm_num at hlt ⊢; linarith), hkr, e2]
    norm_num
    ring
  · exact flp_eq hge (by norm_num at k3 h' ⊢; linarith [h'.2]) (by linarith [h'.1]) (by linarith [h'.2])

/-- **Rounding goes to the nearest number.** -/
theorem fl_near {x y : ℝ} (hy : y ≠ 0) (h : fl y = y) (hxy : |x - y| ≤ |y| / 2 ^ 55) : fl x = y := by
  rcases lt_or_gt_of_ne hy with hn | hpos
  · have h1 : fl (-y) = -y := by rw [fl_neg, h]
    have h2 := fl_near_pos (x := -x) (neg_pos.2 hn) h1 (by
      rw [abs_of_neg hn] at hxy
      rw [← abs_neg]
      convert hxy using 2
      ring)
    rw [fl_neg] at h2
    linarith
  · exact fl_near_pos hpos h (by rwa [abs_of_pos hpos] at hxy)

theorem fl_one : fl 1 = 1 := by
  rw [fl_of_pos one_pos]
  have := flp_int (k := 2 ^ 52) (e := -52) le_rfl (by norm_num)
  have e : (((2 : ℤ) ^ 52 : ℤ) : ℝ) * 2 ^ (-52 : ℤ) = 1 := by norm_num
  rwa [e] at this

/-- The root of the rounded square of a number with 53 digits is rounded to the number. -/
theorem fl_root_sq {c : ℝ} (hc : fl c = c) : fl (Real.sqrt (fl (c * c))) = |c| := by
  wlog hpos : 0 < c generalizing c
  · rcases eq_or_lt_of_le (not_lt.1 hpos) with h0 | hn
    · rw [h0]; simp [fl_zero]
    · have := this (c := -c) (by rw [fl_neg, hc]) (neg_pos.2 hn)
      rwa [neg_mul_neg, abs_neg] at this
  rw [abs_of_pos hpos]
  obtain ⟨k, e, k1, k2, rfl⟩ := digits hpos hc
  have hp := two_pow_pos e
  set c : ℝ := k * 2 ^ e
  have err := fl_err (c * c)
  have hcc : 0 < c * c := mul_pos hpos hpos
  rw [abs_of_pos hcc] at err
  have err' := abs_le.1 err
  have k2' : (k : ℝ) ≤ 2 ^ 53 - 1 := by
    have : k ≤ 2 ^ 53 - 1 := by omega
    exact_mod_cast this
  by_cases hk : k = 2 ^ 52
  · have ec : c * c = ((2 ^ 52 : ℤ) : ℝ) * 2 ^ (2 * e + 52) := by
      change (k : ℝ) * 2 ^ e * (k * 2 ^ e) = _
      rw [hk, zpow_add₀ two_ne_zero, two_mul, zpow_add₀ two_ne_zero]
      norm_num
      ring
    have : fl (c * c) = c * c := by
      rw [fl_of_pos hcc, ec]
      exact flp_int le_rfl (by norm_num)
    rw [this, Real.sqrt_mul_self hpos.le, hc]
  · have k1' : (2 : ℝ) ^ 52 + 1 ≤ k := by
      have : 2 ^ 52 + 1 ≤ k := by omega
      exact_mod_cast this
    have hk0 : (0 : ℝ) < k := by linarith [show (0 : ℝ) < 2 ^ 52 by norm_num]
    have up : Real.sqrt (fl (c * c)) < (k + 1 / 2) * 2 ^ e := by
      rw [Real.sqrt_lt' (by positivity)]
      have e1 : ((k + 1 / 2 : ℝ) * 2 ^ e) ^ 2 = c * c + (k + 1 / 4) * (2 ^ e * 2 ^ e) := by
        change _ = (k : ℝ) * 2 ^ e * (k * 2 ^ e) + _
        ring
      have e2 : c * c = k * k * (2 ^ e * 2 ^ e) := by change (k : ℝ) * 2 ^ e * (k * 2 ^ e) = _; ring
      have h3 : 1 / 2 ^ 53 * (k * k : ℝ) < k + 1 / 4 := by
        have := mul_le_mul_of_nonneg_right k2' hk0.le
        norm_num at this ⊢
        linarith
      have h4 := mul_lt_mul_of_pos_right h3 (mul_pos hp hp)
      rw [e1]
      rw [e2] at err' ⊢
      linarith [err'.2]
    have lo : (k - 1 / 2) * 2 ^ e ≤ Real.sqrt (fl (c * c)) := by
      refine Real.le_sqrt_of_sq_le ?_
      have e1 : ((k - 1 / 2 : ℝ) * 2 ^ e) ^ 2 = c * c - (k - 1 / 4) * (2 ^ e * 2 ^ e) := by
        change _ = (k : ℝ) * 2 ^ e * (k * 2 ^ e) - _
        ring
      have e2 : c * c = k * k * (2 ^ e * 2 ^ e) := by change (k : ℝ) * 2 ^ e * (k * 2 ^ e) = _; ring
      have h3 : 1 / 2 ^ 53 * (k * k : ℝ) ≤ k - 1 / 4 := by
        have := mul_le_mul_of_nonneg_right k2' hk0.le
        norm_num at this k1' ⊢
        linarith
      have h4 := mul_le_mul_of_nonneg_right h3 (mul_pos hp hp).le
      rw [e1]
      rw [e2] at err' ⊢
      linarith [err'.1]
    have hs : 0 < Real.sqrt (fl (c * c)) := lt_of_lt_of_le (mul_pos (by linarith) hp) lo
    rw [fl_of_pos hs]
    have a1 := mul_le_mul_of_nonneg_right k1' hp.le
    have a2 := mul_le_mul_of_nonneg_right k2' hp.le
    exact flp_eq (by norm_num at a1 lo ⊢; linarith) (by norm_num at a2 up ⊢; linarith) lo up

end B3d.Rounded
