import Verif.Model.RoundedBetween
import Verif.Proofs.Rounded

/-! # Proofs about points between two points in rounded arithmetic -/

namespace B3d.Rounded

variable {A : Arith}

theorem mul_abs_le {a b X Y : ℝ} (ha : |a| ≤ X) (hb : |b| ≤ Y) : |a * b| ≤ X * Y := by
  rw [abs_mul]
  exact mul_le_mul ha hb (abs_nonneg _) ((abs_nonneg _).trans ha)

/-- One coordinate of a point between two points. -/
theorem between_err {x y t a M : ℝ} (hx : |x| ≤ M) (hy : |y| ≤ M) (ht0 : 0 ≤ t) (ht1 : t ≤ 1) (ha : |a - t| ≤ 1 / 10 ^ 15 * t) :
    |A.add (A.mul x (A.sub 1 a)) (A.mul y a) - (x + t * (y - x))| ≤ 6 / 10 ^ 15 * M := by
  have hM : 0 ≤ M := (abs_nonneg x).trans hx
  have ha1 : |a - t| ≤ 1 / 10 ^ 15 := ha.trans (by linarith)
  obtain ⟨a1, a2⟩ := abs_le.1 ha1
  have hb := A.sub_err 1 a
  generalize A.sub 1 a = b at hb ⊢
  have h1a : |1 - a| ≤ 1 + 1 / 10 ^ 15 := abs_le.2 ⟨by norm_num at a1 a2 ⊢; linarith, by norm_num at a1 a2 ⊢; linarith⟩
  have hb' : |b - (1 - a)| ≤ 11 / 10 ^ 16 := hb.trans (by norm_num at h1a ⊢; linarith)
  obtain ⟨b1, b2⟩ := abs_le.1 hb'
  have hbt : |b - (1 - t)| ≤ 21 / 10 ^ 16 := abs_le.2 ⟨by norm_num at *; linarith, by norm_num at *; linarith⟩
  have hbb : |b| ≤ 1 - t + 21 / 10 ^ 16 := by
    have e : b = (1 - t) + (b - (1 - t)) := by ring
    rw [e]
    refine (abs_add_le _ _).trans ?_
    rw [abs_of_nonneg (by linarith : 0 ≤ 1 - t)]
    linarith
  have haa : |a| ≤ t + 1 / 10 ^ 15 := by
    have e : a = t + (a - t) := by ring
    rw [e]
    refine (abs_add_le _ _).trans ?_
    rw [abs_of_nonneg ht0]
    linarith
  have c1 := mul_abs_le hx hbt
  have c2 := mul_abs_le hx hbb
  have c3 := mul_abs_le hy ha1
  have c4 := mul_abs_le hy haa
  have hc := A.mul_err x b
  have hd := A.mul_err y a
  have he := A.add_err (A.mul x b) (A.mul y a)
  generalize A.mul x b = c at hc he ⊢
  generalize A.mul y a = d at hd he ⊢
  generalize A.add c d = e at he ⊢
  have k1 : |c + d - (x + t * (y - x))| ≤ 42 / 10 ^ 16 * M := by
    have e1 : c + d - (x + t * (y - x)) = (c - x * b) + x * (b - (1 - t)) + (d - y * a) + y * (a - t) := by ring
    rw [e1]
    refine (abs_add_le _ _).trans ?_
    have s1 := abs_add_le (c - x * b + x * (b - (1 - t))) (d - y * a)
    have s2 := abs_add_le (c - x * b) (x * (b - (1 - t)))
    have m1 := mul_le_mul_of_nonneg_left c2 (by norm_num : (0 : ℝ) ≤ 1 / 10 ^ 15)
    have m2 := mul_le_mul_of_nonneg_left c4 (by norm_num : (0 : ℝ) ≤ 1 / 10 ^ 15)
    nlinarith
  have k2 : |x + t * (y - x)| ≤ M := by
    have e1 : x + t * (y - x) = (1 - t) * x + t * y := by ring
    rw [e1]
    refine (abs_add_le _ _).trans ?_
    rw [abs_mul, abs_mul, abs_of_nonneg ht0, abs_of_nonneg (by linarith : 0 ≤ 1 - t)]
    have m1 := mul_le_mul_of_nonneg_left hx (by linarith : 0 ≤ 1 - t)
    have m2 := mul_le_mul_of_nonneg_left hy ht0
    linarith
  have k3 : |c + d| ≤ 2 * M := by
    have e1 : c + d = (x + t * (y - x)) + (c + d - (x + t * (y - x))) := by ring
    rw [e1]
    refine (abs_add_le _ _).trans ?_
    norm_num at k1 ⊢
    linarith
  have k4 : |c + d| ≤ (1 + 42 / 10 ^ 16) * M := by
    have e1 : c + d = (x + t * (y - x)) + (c + d - (x + t * (y - x))) := by ring
    rw [e1]
    refine (abs_add_le _ _).trans ?_
    linarith
  have e2 : e - (x + t * (y - x)) = (e - (c + d)) + (c + d - (x + t * (y - x))) := by ring
  rw [e2]
  refine (abs_add_le _ _).trans ?_
  have m1 := mul_le_mul_of_nonneg_left k4 (by norm_num : (0 : ℝ) ≤ 1 / 10 ^ 15)
  norm_num at he m1 k1 ⊢
  linarith

/-- A product of coordinates of two vectors that are nearly parallel. -/
theorem parallel_err {a b t v w L E : ℝ} (ht0 : 0 ≤ t) (ht1 : t ≤ 1) (hv : |v| ≤ L) (hw : |w| ≤ L) (ha : |a - t * v| ≤ E)
    (hb : |b - w| ≤ 1 / 10 ^ 15 * L) : |a * b - t * (v * w)| ≤ 1 / 10 ^ 15 * L ^ 2 + (1 + 1 / 10 ^ 15) * (E * L) := by
  have hL : 0 ≤ L := (abs_nonneg v).trans hv
  have e : a * b - t * (v * w) = (a - t * v) * w + (a - t * v) * (b - w) + t * (v * (b - w)) := by ring
  rw [e]
  have c1 := mul_abs_le ha hw
  have c2 := mul_abs_le ha hb
  have c3 := mul_abs_le hv hb
  have c4 : |t * (v * (b - w))| ≤ |v * (b - w)| := by
    rw [abs_mul, abs_of_nonneg ht0]
    exact mul_le_of_le_one_left (abs_nonneg _) ht1
  refine (abs_add_le _ _).trans ?_
  have s1 := abs_add_le ((a - t * v) * w) ((a - t * v) * (b - w))
  have s2 : E * (1 / 10 ^ 15 * L) = 1 / 10 ^ 15 * (E * L) := by ring
  have s3 : L * (1 / 10 ^ 15 * L) = 1 / 10 ^ 15 * L ^ 2 := by ring
  linarith

theorem parallel_le {a b t v w L Q : ℝ} (ht0 : 0 ≤ t) (ht1 : t ≤ 1) (hv : |v| ≤ L) (hw : |w| ≤ L)
    (h : |a * b - t * (v * w)| ≤ Q) : |a * b| ≤ L ^ 2 + Q := by
  have e : a * b = t * (v * w) + (a * b - t * (v * w)) := by ring
  rw [e]
  refine (abs_add_le _ _).trans ?_
  have c1 := mul_abs_le hv hw
  have c4 : |t * (v * w)| ≤ |v * w| := by
    rw [abs_mul, abs_of_nonneg ht0]
    exact mul_le_of_le_one_left (abs_nonneg _) ht1
  rw [← pow_two] at c1
  linarith

/-- A component of the cross product of two vectors that are nearly parallel. -/
theorem component_err {a b c d t v w L E : ℝ} (ht0 : 0 ≤ t) (ht1 : t ≤ 1) (hE : 0 ≤ E) (hv : |v| ≤ L) (hw : |w| ≤ L)
    (ha : |a - t * v| ≤ E) (hb : |b - w| ≤ 1 / 10 ^ 15 * L) (hc : |c - t * w| ≤ E) (hd : |d - v| ≤ 1 / 10 ^ 15 * L) :
    |A.sub (A.mul a b) (A.mul c d)| ≤ 41 / 10 ^ 16 * L ^ 2 + 21 / 10 * (E * L) := by
  have hL : 0 ≤ L := (abs_nonneg v).trans hv
  have p1 := parallel_err ht0 ht1 hv hw ha hb
  have p2 := parallel_err ht0 ht1 hw hv hc hd
  have q1 := parallel_le ht0 ht1 hv hw p1
  have q2 := parallel_le ht0 ht1 hw hv p2
  have m1 := A.mul_err a b
  have m2 := A.mul_err c d
  have m3 := A.sub_err (A.mul a b) (A.mul c d)
  generalize A.mul a b = x at m1 m3 ⊢
  generalize A.mul c d = y at m2 m3 ⊢
  generalize A.sub x y = z at m3 ⊢
  have hEL : 0 ≤ E * L := mul_nonneg hE hL
  have hL2 : 0 ≤ L ^ 2 := by positivity
  generalize E * L = X at *
  generalize L ^ 2 = Y at *
  have r1 : |x - y| ≤ 405 / 10 ^ 17 * Y + 205 / 100 * X := by
    have e : x - y = (x - a * b) + (a * b - t * (v * w)) - ((y - c * d) + (c * d - t * (w * v))) := by ring
    rw [e]
    refine (abs_sub _ _).trans ?_
    have s1 := abs_add_le (x - a * b) (a * b - t * (v * w))
    have s2 := abs_add_le (y - c * d) (c * d - t * (w * v))
    linarith
  have e : z = (z - (x - y)) + (x - y) := by ring
  rw [e]
  refine (abs_add_le _ _).trans ?_
  linarith

/-- The dot product of two vectors that are nearly parallel. -/
theorem dot_err' {a b v : Vec3 ℝ} {t L E : ℝ} (ht0 : 0 ≤ t) (ht1 : t ≤ 1) (hE : 0 ≤ E)
    (hv : |v.x| ≤ L ∧ |v.y| ≤ L ∧ |v.z| ≤ L) (ha : |a.x - t * v.x| ≤ E ∧ |a.y - t * v.y| ≤ E ∧ |a.z - t * v.z| ≤ E)
    (hb : |b.x - v.x| ≤ 1 / 10 ^ 15 * L ∧ |b.y - v.y| ≤ 1 / 10 ^ 15 * L ∧ |b.z - v.z| ≤ 1 / 10 ^ 15 * L) :
    |A.dot a b - t * Vec3.dot v v| ≤ 151 / 10 ^ 16 * L ^ 2 + 301 / 100 * (E * L) := by
  have hL : 0 ≤ L := (abs_nonneg _).trans hv.1
  have p1 := parallel_err ht0 ht1 hv.1 hv.1 ha.1 hb.1
  have p2 := parallel_err ht0 ht1 hv.2.1 hv.2.1 ha.2.1 hb.2.1
  have p3 := parallel_err ht0 ht1 hv.2.2 hv.2.2 ha.2.2 hb.2.2
  have q1 := parallel_le ht0 ht1 hv.1 hv.1 p1
  have q2 := parallel_le ht0 ht1 hv.2.1 hv.2.1 p2
  have q3 := parallel_le ht0 ht1 hv.2.2 hv.2.2 p3
  have m := A.dot_err a b
  generalize A.dot a b = z at m ⊢
  have e : z - t * Vec3.dot v v = (z - Vec3.dot a b) + ((a.x * b.x - t * (v.x * v.x)) + (a.y * b.y - t * (v.y * v.y)) +
      (a.z * b.z - t * (v.z * v.z))) := by simp only [Vec3.dot]; ring
  rw [e]
  refine (abs_add_le _ _).trans ?_
  have s1 := abs_add_le ((a.x * b.x - t * (v.x * v.x)) + (a.y * b.y - t * (v.y * v.y))) (a.z * b.z - t * (v.z * v.z))
  have s2 := abs_add_le (a.x * b.x - t * (v.x * v.x)) (a.y * b.y - t * (v.y * v.y))
  have hEL : 0 ≤ E * L := mul_nonneg hE hL
  have hL2 : 0 ≤ L ^ 2 := by positivity
  generalize E * L = X at *
  generalize L ^ 2 = Y at *
  linarith

end B3d.Rounded
