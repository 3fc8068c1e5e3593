import Verif.Model.Vec3
import Verif.Proofs.Tactics

/-! # Euclidean length -/

namespace B3d.Vec3

theorem norm_le_of_sq {a : Vec3 ℝ} {r : ℝ} (hr : 0 ≤ r) (h : normSq a ≤ r ^ 2) : norm a ≤ r := by
  unfold norm
  rw [← Real.sqrt_sq hr]
  exact Real.sqrt_le_sqrt h

theorem le_norm_of_sq {a : Vec3 ℝ} {r : ℝ} (h : r ^ 2 ≤ normSq a) : r ≤ norm a := Real.le_sqrt_of_sq_le h

theorem normSq_cross (a b : Vec3 ℝ) : normSq (cross a b) + dot a b ^ 2 = normSq a * normSq b := by
  simp only [normSq, dot, cross_x, cross_y, cross_z]; ring

theorem norm_cross_le (a b : Vec3 ℝ) : norm (cross a b) ≤ norm a * norm b := by
  apply norm_le_of_sq (mul_nonneg (norm_nonneg _) (norm_nonneg _))
  rw [mul_pow, norm_sq, norm_sq, ← normSq_cross a b]
  nlinarith [sq_nonneg (dot a b)]

theorem abs_dot_le (a b : Vec3 ℝ) : |dot a b| ≤ norm a * norm b := by
  apply abs_le_of_sq_le_sq _ (mul_nonneg (norm_nonneg _) (norm_nonneg _))
  rw [mul_pow, norm_sq, norm_sq, ← normSq_cross a b]
  nlinarith [normSq_nonneg (cross a b)]

theorem norm_add_le (a b : Vec3 ℝ) : norm (a + b) ≤ norm a + norm b := by
  apply norm_le_of_sq (add_nonneg (norm_nonneg _) (norm_nonneg _))
  have e : normSq (a + b) = normSq a + normSq b + 2 * dot a b := by
    simp only [normSq, dot, add_x, add_y, add_z]; ring
  have := (abs_le.1 (abs_dot_le a b)).2
  rw [e, ← norm_sq, ← norm_sq]
  nlinarith

theorem norm_sub_le (a b : Vec3 ℝ) : norm (a - b) ≤ norm a + norm b := by
  rw [sub_eq_add_neg, ← norm_neg b]
  exact norm_add_le _ _

theorem norm_sub_le_sub (a b c : Vec3 ℝ) : norm (a - c) ≤ norm (a - b) + norm (b - c) := by
  have e : a - c = (a - b) + (b - c) := by abel
  rw [e]
  exact norm_add_le _ _

theorem abs_x_le (a : Vec3 ℝ) : |a.x| ≤ norm a := by
  apply abs_le_of_sq_le_sq _ (norm_nonneg _)
  rw [norm_sq, normSq_def]
  nlinarith [mul_self_nonneg a.y, mul_self_nonneg a.z]

theorem abs_y_le (a : Vec3 ℝ) : |a.y| ≤ norm a := by
  apply abs_le_of_sq_le_sq _ (norm_nonneg _)
  rw [norm_sq, normSq_def]
  nlinarith [mul_self_nonneg a.x, mul_self_nonneg a.z]

theorem abs_z_le (a : Vec3 ℝ) : |a.z| ≤ norm a := by
  apply abs_le_of_sq_le_sq _ (norm_nonneg _)
  rw [norm_sq, normSq_def]
  nlinarith [mul_self_nonneg a.x, mul_self_nonneg a.y]

/-- A vector whose coordinates are at most `r` is not longer than `2 r`. -/
theorem norm_le_two {a : Vec3 ℝ} {r : ℝ} (hx : |a.x| ≤ r) (hy : |a.y| ≤ r) (hz : |a.z| ≤ r) :
    norm a ≤ 2 * r := by
  have hr : 0 ≤ r := (abs_nonneg _).trans hx
  apply norm_le_of_sq (by linarith)
  rw [normSq_def]
  have h1 := mul_le_mul hx hx (abs_nonneg _) hr
  have h2 := mul_le_mul hy hy (abs_nonneg _) hr
  have h3 := mul_le_mul hz hz (abs_nonneg _) hr
  rw [abs_mul_abs_self] at h1 h2 h3
  nlinarith

/-- Coordinates bounded by those of another vector. -/
theorem norm_le_of_coords {a b : Vec3 ℝ} (hx : |a.x| ≤ |b.x|) (hy : |a.y| ≤ |b.y|) (hz : |a.z| ≤ |b.z|) :
    norm a ≤ norm b := by
  apply norm_le_norm
  rw [normSq_def, normSq_def]
  have h1 := mul_le_mul hx hx (abs_nonneg _) (abs_nonneg _)
  have h2 := mul_le_mul hy hy (abs_nonneg _) (abs_nonneg _)
  have h3 := mul_le_mul hz hz (abs_nonneg _) (abs_nonneg _)
  rw [abs_mul_abs_self, abs_mul_abs_self] at h1 h2 h3
  linarith

/-- Coordinates within `e + k |b i|`: the length is at most `2 e + k |b|`. -/
theorem norm_le_of_close {a b : Vec3 ℝ} {e k : ℝ} (he : 0 ≤ e) (hk : 0 ≤ k) (hx : |a.x| ≤ e + k * |b.x|)
    (hy : |a.y| ≤ e + k * |b.y|) (hz : |a.z| ≤ e + k * |b.z|) : norm a ≤ 2 * e + k * norm b := by
  have h1 : norm a ≤ norm (⟨e, e, e⟩ + k • ⟨|b.x|, |b.y|, |b.z|⟩ : Vec3 ℝ) := by
    apply norm_le_of_coords <;> simp only [add_x, add_y, add_z, smul_x, smul_y, smul_z]
    · exact hx.trans (le_abs_self _)
    · exact hy.trans (le_abs_self _)
    · exact hz.trans (le_abs_self _)
  refine h1.trans ((norm_add_le _ _).trans (add_le_add ?_ ?_))
  · apply norm_le_two <;> simp [abs_of_nonneg he]
  · rw [norm_smul, abs_of_nonneg hk]
    apply mul_le_mul_of_nonneg_left _ hk
    apply norm_le_of_coords <;> simp

theorem norm_unit {a : Vec3 ℝ} (h : 0 < norm a) : norm ((1 / norm a) • a) = 1 := by
  rw [norm_smul, abs_of_pos (by positivity)]
  field_simp

/-- A unit vector has a coordinate of at least one half. -/
theorem exists_half {a : Vec3 ℝ} (h : norm a = 1) : 1 / 2 ≤ |a.x| ∨ 1 / 2 ≤ |a.y| ∨ 1 / 2 ≤ |a.z| := by
  by_contra hc
  push Not at hc
  obtain ⟨hx, hy, hz⟩ := hc
  have hs := norm_sq a
  rw [h, normSq_def] at hs
  have h1 := mul_self_lt_mul_self (abs_nonneg _) hx
  have h2 := mul_self_lt_mul_self (abs_nonneg _) hy
  have h3 := mul_self_lt_mul_self (abs_nonneg _) hz
  rw [abs_mul_abs_self] at h1 h2 h3
  norm_num at h1 h2 h3 hs
  linarith

end B3d.Vec3
