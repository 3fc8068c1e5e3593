import Verif.Model.RoundedRotation
import Verif.Proofs.RoundedBetween
import Mathlib.Analysis.SpecialFunctions.Trigonometric.Bounds

/-! # Proofs about rotation in rounded arithmetic -/

namespace B3d.RotationRounded

open Rounded Rotation

variable {A : Arith} {S : Sine}

theorem abs_le_of_near {a b e X : ℝ} (h : |a - b| ≤ e) (hb : |b| ≤ X) : |a| ≤ X + e := by
  have : a = b + (a - b) := by ring
  rw [this]
  exact (abs_add_le _ _).trans (add_le_add hb h)

/-- The errors of a product of two numbers with errors. -/
theorem near_mul {a a' b b' e f X Y : ℝ} (ha : |a' - a| ≤ e) (hb : |b' - b| ≤ f) (hX : |a| ≤ X) (hY : |b| ≤ Y) :
    |a' * b' - a * b| ≤ e * Y + X * f + e * f := by
  have E : a' * b' - a * b = (a' - a) * b + a * (b' - b) + (a' - a) * (b' - b) := by ring
  rw [E]
  have h1 := mul_abs_le ha hY
  have h2 := mul_abs_le hX hb
  have h3 := mul_abs_le ha hb
  refine (abs_add_le _ _).trans ?_
  have := abs_add_le ((a' - a) * b) (a * (b' - b))
  linarith

/-- The factor `2 sin²(φ / 2)`. -/
theorem factor_err {phi : ℝ} (hphi : |phi| ≤ 10) :
    |A.mul 2 (A.mul (S.sin (A.div phi 2)) (S.sin (A.div phi 2))) - 2 * Real.sin (phi / 2) ^ 2| ≤ 29 / 10 ^ 15 := by
  have h1 := A.div_err phi 2 two_ne_zero
  have h2 := S.err (A.div phi 2)
  have h3 := Real.abs_sin_sub_sin_le (A.div phi 2) (phi / 2)
  have h4 : |phi / 2| ≤ 5 := by rw [abs_div, abs_of_pos (two_pos : (0 : ℝ) < 2)]; linarith
  have h5 : |S.sin (A.div phi 2) - Real.sin (phi / 2)| ≤ 6 / 10 ^ 15 := by
    have e : S.sin (A.div phi 2) - Real.sin (phi / 2) =
      (S.sin (A.div phi 2) - Real.sin (A.div phi 2)) + (Real.sin (A.div phi 2) - Real.sin (phi / 2)) := by ring
    rw [e]
    refine (abs_add_le _ _).trans ?_
    linarith
  generalize S.sin (A.div phi 2) = h at h5 ⊢
  have h6 := Real.abs_sin_le_one (phi / 2)
  generalize Real.sin (phi / 2) = g at h5 h6 ⊢
  have h7 := near_mul h5 h5 h6 h6
  have h8 : |g * g| ≤ 1 := by simpa using mul_abs_le h6 h6
  have h9 := abs_le_of_near h7 h8
  have m1 := A.mul_err h h
  generalize A.mul h h = x at m1 ⊢
  have x1 : |x - g * g| ≤ 131 / 10 ^ 16 := by
    have e : x - g * g = (x - h * h) + (h * h - g * g) := by ring
    rw [e]
    refine (abs_add_le _ _).trans ?_
    linarith
  have x2 := abs_le_of_near x1 h8
  have m2 := A.mul_err 2 x
  have x3 : |2 * x| ≤ 21 / 10 := by rw [abs_mul, abs_two]; linarith
  have e : A.mul 2 x - 2 * g ^ 2 = (A.mul 2 x - 2 * x) + 2 * (x - g * g) := by ring
  rw [e]
  refine (abs_add_le _ _).trans ?_
  rw [abs_mul 2 (x - g * g), abs_two]
  linarith

/-- An entry of the matrix. -/
theorem entry_err {e s s' k k' w v v' : ℝ} (he : |e| ≤ 1) (hs : |s' - s| ≤ 1 / 10 ^ 15) (hs1 : |s| ≤ 1) (hk : |k' - k| ≤ 29 / 10 ^ 15)
    (hk2 : |k| ≤ 2) (hw : |w| ≤ 1001 / 1000) (hv : |v' - v| ≤ 13 / 10 ^ 15) (hv1 : |v| ≤ 301 / 100) :
    |A.add (A.add e (A.mul s' w)) (A.mul k' v') - (e + s * w + k * v)| ≤ 135 / 10 ^ 15 ∧ |e + s * w + k * v| ≤ 81 / 10 := by
  have a1 := near_mul hs (by rw [sub_self, abs_zero] : |w - w| ≤ 0) hs1 hw
  have a2 := mul_abs_le hs1 hw
  have a3 := abs_le_of_near a1 a2
  have a4 := A.mul_err s' w
  generalize A.mul s' w = x at a4 ⊢
  have x1 : |x - s * w| ≤ 21 / 10 ^ 16 := by
    have E : x - s * w = (x - s' * w) + (s' * w - s * w) := by ring
    rw [E]
    refine (abs_add_le _ _).trans ?_
    linarith
  have b1 := A.add_err e x
  have b2 : |e + s * w| ≤ 2001 / 1000 := (abs_add_le _ _).trans (by linarith)
  have b3 : |(e + x) - (e + s * w)| ≤ 21 / 10 ^ 16 := by rw [add_sub_add_left_eq_sub]; exact x1
  have b4 := abs_le_of_near b3 b2
  generalize A.add e x = y at b1 ⊢
  have y1 : |y - (e + s * w)| ≤ 42 / 10 ^ 16 := by
    have E : y - (e + s * w) = (y - (e + x)) + ((e + x) - (e + s * w)) := by ring
    rw [E]
    refine (abs_add_le _ _).trans ?_
    linarith
  have c1 := near_mul hk hv hk2 hv1
  have c2 := mul_abs_le hk2 hv1
  have c3 := abs_le_of_near c1 c2
  have c4 := A.mul_err k' v'
  generalize A.mul k' v' = z at c4 ⊢
  have z1 : |z - k * v| ≤ 120 / 10 ^ 15 := by
    have E : z - k * v = (z - k' * v') + (k' * v' - k * v) := by ring
    rw [E]
    refine (abs_add_le _ _).trans ?_
    linarith
  have d1 := A.add_err y z
  have d2 : |e + s * w + k * v| ≤ 81 / 10 := (abs_add_le _ _).trans (by linarith)
  have d3 : |(y + z) - (e + s * w + k * v)| ≤ 1242 / 10 ^ 16 := by
    have E : (y + z) - (e + s * w + k * v) = (y - (e + s * w)) + (z - k * v) := by ring
    rw [E]
    refine (abs_add_le _ _).trans ?_
    linarith
  have d4 := abs_le_of_near d3 d2
  refine ⟨?_, d2⟩
  have E : A.add y z - (e + s * w + k * v) = (A.add y z - (y + z)) + ((y + z) - (e + s * w + k * v)) := by ring
  rw [E]
  refine (abs_add_le _ _).trans ?_
  linarith

/-- Coordinates are at most `X`. -/
def UpTo (X : ℝ) (v : Vec3 ℝ) : Prop := |v.x| ≤ X ∧ |v.y| ≤ X ∧ |v.z| ≤ X

/-- An entry of the squared matrix. -/
theorem square_err {a b : Vec3 ℝ} (ha : UpTo (1001 / 1000) a) (hb : UpTo (1001 / 1000) b) :
    |A.dot a b - Vec3.dot a b| ≤ 13 / 10 ^ 15 ∧ |Vec3.dot a b| ≤ 301 / 100 := by
  have h := A.dot_err a b
  have h1 := mul_abs_le ha.1 hb.1
  have h2 := mul_abs_le ha.2.1 hb.2.1
  have h3 := mul_abs_le ha.2.2 hb.2.2
  refine ⟨by linarith, ?_⟩
  unfold Vec3.dot
  refine (abs_add_le _ _).trans ?_
  have := abs_add_le (a.x * b.x) (a.y * b.y)
  linarith

/-- A coordinate of a turned point. -/
theorem coordinate_err {p r r' : Vec3 ℝ} {M : ℝ} (hp : UpTo M p) (hr : UpTo (81 / 10) r) (h : UpTo (135 / 10 ^ 15) (r' - r)) :
    |A.dot p r' - Vec3.dot r p| ≤ 6 / 10 ^ 13 * M := by
  have hM : 0 ≤ M := (abs_nonneg _).trans hp.1
  have h0 := A.dot_err p r'
  have hx := mul_abs_le hp.1 h.1
  have hy := mul_abs_le hp.2.1 h.2.1
  have hz := mul_abs_le hp.2.2 h.2.2
  have kx := mul_abs_le hp.1 (abs_le_of_near (by simpa using h.1) hr.1 : |r'.x| ≤ _)
  have ky := mul_abs_le hp.2.1 (abs_le_of_near (by simpa using h.2.1) hr.2.1 : |r'.y| ≤ _)
  have kz := mul_abs_le hp.2.2 (abs_le_of_near (by simpa using h.2.2) hr.2.2 : |r'.z| ≤ _)
  have E : A.dot p r' - Vec3.dot r p = (A.dot p r' - Vec3.dot p r') + (p.x * (r' - r).x + p.y * (r' - r).y + p.z * (r' - r).z) := by
    simp only [Vec3.dot, Vec3.sub_x, Vec3.sub_y, Vec3.sub_z]; ring
  rw [E]
  refine (abs_add_le _ _).trans ?_
  have s1 := abs_add_le (p.x * (r' - r).x + p.y * (r' - r).y) (p.z * (r' - r).z)
  have s2 := abs_add_le (p.x * (r' - r).x) (p.y * (r' - r).y)
  linarith

end B3d.RotationRounded
