import Mathlib.Algebra.Module.Defs
import Mathlib.Algebra.Order.Field.Basic
import Mathlib.Algebra.Order.BigOperators.Group.List
import Mathlib.Analysis.Real.Sqrt
import Mathlib.Tactic.Ring
import Mathlib.Tactic.Linarith
import Mathlib.Tactic.LinearCombination

/-!
# Points and vectors

`building3d/geom/types.py` L14-21: points and vectors are NumPy arrays of shape `(3,)` of
`float64`.  The model uses exact coordinates in a field `K`; rounding, NaN and infinities are not
modelled here.
-/

namespace B3d

/-- A point or vector with three coordinates (`PointType`, `VectorType`,
`building3d/geom/types.py` L11-12; `new_point`, `building3d/geom/points/__init__.py` L13-15;
`new_vector`, `building3d/geom/vectors.py` L9-12). -/
@[ext]
structure Vec3 (K : Type) where
  x : K
  y : K
  z : K
  deriving DecidableEq, Repr

namespace Vec3

section ring
variable {K : Type} [CommRing K]

/-- NumPy `+` on arrays of shape `(3,)`. -/
instance : Add (Vec3 K) := ⟨fun a b => ⟨a.x + b.x, a.y + b.y, a.z + b.z⟩⟩
/-- NumPy `-` on arrays of shape `(3,)`. -/
instance : Sub (Vec3 K) := ⟨fun a b => ⟨a.x - b.x, a.y - b.y, a.z - b.z⟩⟩
/-- NumPy unary `-`. -/
instance : Neg (Vec3 K) := ⟨fun a => ⟨-a.x, -a.y, -a.z⟩⟩
/-- `np.zeros(3)`. -/
instance : Zero (Vec3 K) := ⟨⟨0, 0, 0⟩⟩
/-- Scalar times array. -/
instance : SMul K (Vec3 K) := ⟨fun c a => ⟨c * a.x, c * a.y, c * a.z⟩⟩

@[simp] theorem add_x (a b : Vec3 K) : (a + b).x = a.x + b.x := rfl
@[simp] theorem add_y (a b : Vec3 K) : (a + b).y = a.y + b.y := rfl
@[simp] theorem add_z (a b : Vec3 K) : (a + b).z = a.z + b.z := rfl
@[simp] theorem sub_x (a b : Vec3 K) : (a - b).x = a.x - b.x := rfl
@[simp] theorem sub_y (a b : Vec3 K) : (a - b).y = a.y - b.y := rfl
@[simp] theorem sub_z (a b : Vec3 K) : (a - b).z = a.z - b.z := rfl
@[simp] theorem neg_x (a : Vec3 K) : (-a).x = -a.x := rfl
@[simp] theorem neg_y (a : Vec3 K) : (-a).y = -a.y := rfl
@[simp] theorem neg_z (a : Vec3 K) : (-a).z = -a.z := rfl
@[simp] theorem zero_x : (0 : Vec3 K).x = 0 := rfl
@[simp] theorem zero_y : (0 : Vec3 K).y = 0 := rfl
@[simp] theorem zero_z : (0 : Vec3 K).z = 0 := rfl
@[simp] theorem smul_x (c : K) (a : Vec3 K) : (c • a).x = c * a.x := rfl
@[simp] theorem smul_y (c : K) (a : Vec3 K) : (c • a).y = c * a.y := rfl
@[simp] theorem smul_z (c : K) (a : Vec3 K) : (c • a).z = c * a.z := rfl

instance : AddCommGroup (Vec3 K) where
  add_assoc a b c := by ext <;> simp <;> ring
  zero_add a := by ext <;> simp
  add_zero a := by ext <;> simp
  nsmul := nsmulRec
  zsmul := zsmulRec
  neg_add_cancel a := by ext <;> simp
  add_comm a b := by ext <;> simp <;> ring
  sub_eq_add_neg a b := by ext <;> simp <;> ring

instance : Module K (Vec3 K) where
  one_smul a := by ext <;> simp
  mul_smul a b c := by ext <;> simp <;> ring
  smul_zero a := by ext <;> simp
  smul_add a b c := by ext <;> simp <;> ring
  add_smul a b c := by ext <;> simp <;> ring
  zero_smul a := by ext <;> simp

/-- `np.dot` of two arrays of shape `(3,)`. -/
def dot (a b : Vec3 K) : K := a.x * b.x + a.y * b.y + a.z * b.z

/-- `np.cross` of two arrays of shape `(3,)`. -/
def cross (a b : Vec3 K) : Vec3 K :=
  ⟨a.y * b.z - a.z * b.y, a.z * b.x - a.x * b.z, a.x * b.y - a.y * b.x⟩

@[simp] theorem cross_x (a b : Vec3 K) : (cross a b).x = a.y * b.z - a.z * b.y := rfl
@[simp] theorem cross_y (a b : Vec3 K) : (cross a b).y = a.z * b.x - a.x * b.z := rfl
@[simp] theorem cross_z (a b : Vec3 K) : (cross a b).z = a.x * b.y - a.y * b.x := rfl

/-- Squared Euclidean length. -/
def normSq (a : Vec3 K) : K := dot a a

theorem dot_comm (a b : Vec3 K) : dot a b = dot b a := by simp only [dot]; ring
theorem dot_add_left (a b c : Vec3 K) : dot (a + b) c = dot a c + dot b c := by
  simp only [dot, add_x, add_y, add_z]; ring
theorem dot_add_right (a b c : Vec3 K) : dot a (b + c) = dot a b + dot a c := by
  simp only [dot, add_x, add_y, add_z]; ring
theorem dot_sub_left (a b c : Vec3 K) : dot (a - b) c = dot a c - dot b c := by
  simp only [dot, sub_x, sub_y, sub_z]; ring
theorem dot_sub_right (a b c : Vec3 K) : dot a (b - c) = dot a b - dot a c := by
  simp only [dot, sub_x, sub_y, sub_z]; ring
theorem dot_smul_left (k : K) (a b : Vec3 K) : dot (k • a) b = k * dot a b := by
  simp only [dot, smul_x, smul_y, smul_z]; ring
theorem dot_smul_right (k : K) (a b : Vec3 K) : dot a (k • b) = k * dot a b := by
  simp only [dot, smul_x, smul_y, smul_z]; ring
theorem dot_neg_left (a b : Vec3 K) : dot (-a) b = -dot a b := by
  simp only [dot, neg_x, neg_y, neg_z]; ring
theorem dot_neg_right (a b : Vec3 K) : dot a (-b) = -dot a b := by
  simp only [dot, neg_x, neg_y, neg_z]; ring
@[simp] theorem dot_zero_left (a : Vec3 K) : dot 0 a = 0 := by simp [dot]
@[simp] theorem dot_zero_right (a : Vec3 K) : dot a 0 = 0 := by simp [dot]
theorem cross_add_left (a b c : Vec3 K) : cross (a + b) c = cross a c + cross b c := by
  ext <;> simp <;> ring
theorem cross_add_right (a b c : Vec3 K) : cross a (b + c) = cross a b + cross a c := by
  ext <;> simp <;> ring
theorem cross_sub_left (a b c : Vec3 K) : cross (a - b) c = cross a c - cross b c := by
  ext <;> simp <;> ring
theorem cross_sub_right (a b c : Vec3 K) : cross a (b - c) = cross a b - cross a c := by
  ext <;> simp <;> ring
theorem cross_smul_left (k : K) (a b : Vec3 K) : cross (k • a) b = k • cross a b := by
  ext <;> simp <;> ring
theorem cross_smul_right (k : K) (a b : Vec3 K) : cross a (k • b) = k • cross a b := by
  ext <;> simp <;> ring
@[simp] theorem cross_self (a : Vec3 K) : cross a a = 0 := by ext <;> simp <;> ring
theorem cross_swap (a b : Vec3 K) : cross a b = -cross b a := by ext <;> simp <;> ring
theorem dot_cross_self (a b : Vec3 K) : dot a (cross a b) = 0 := by
  simp only [dot, cross]; ring
theorem dot_cross_self' (a b : Vec3 K) : dot b (cross a b) = 0 := by
  simp only [dot, cross]; ring
@[simp] theorem cross_zero_left (a : Vec3 K) : cross 0 a = 0 := by ext <;> simp
@[simp] theorem cross_zero_right (a : Vec3 K) : cross a 0 = 0 := by ext <;> simp
theorem normSq_def (a : Vec3 K) : normSq a = a.x * a.x + a.y * a.y + a.z * a.z := rfl

end ring

section order
variable {K : Type} [Field K] [LinearOrder K] [IsStrictOrderedRing K]

theorem normSq_nonneg (a : Vec3 K) : 0 ≤ normSq a := by
  rw [normSq_def]
  have := mul_self_nonneg a.x
  have := mul_self_nonneg a.y
  have := mul_self_nonneg a.z
  linarith

theorem normSq_eq_zero {a : Vec3 K} : normSq a = 0 ↔ a = 0 := by
  constructor
  · intro h
    rw [normSq_def] at h
    have hx := mul_self_nonneg a.x
    have hy := mul_self_nonneg a.y
    have hz := mul_self_nonneg a.z
    ext
    · exact mul_self_eq_zero.1 (by linarith)
    · exact mul_self_eq_zero.1 (by linarith)
    · exact mul_self_eq_zero.1 (by linarith)
  · rintro rfl; simp [normSq_def]

theorem normSq_pos {a : Vec3 K} (h : a ≠ 0) : 0 < normSq a :=
  lt_of_le_of_ne (normSq_nonneg a) (fun e => h (normSq_eq_zero.1 e.symm))

/-- If `u`, `v` and `r` are orthogonal to a non-zero vector `m`, then `r` is orthogonal to
`u × v`. -/
theorem dot_cross_of_orth {m u v r : Vec3 K} (hm : m ≠ 0) (hu : dot m u = 0) (hv : dot m v = 0)
    (hr : dot m r = 0) : dot (cross u v) r = 0 := by
  have hmm : 0 < normSq m := normSq_pos hm
  have : normSq m * dot (cross u v) r = 0 := by
    simp only [dot, normSq, cross_x, cross_y, cross_z] at hu hv hr ⊢
    linear_combination (m.x * (u.y * v.z - u.z * v.y) + m.y * (u.z * v.x - u.x * v.z) +
      m.z * (u.x * v.y - u.y * v.x)) * hr
      - (m.y * (r.z * v.x - r.x * v.z) + m.x * (r.y * v.z - r.z * v.y) +
        m.z * (r.x * v.y - r.y * v.x)) * hu
      + (m.y * (r.z * u.x - r.x * u.z) + m.x * (r.y * u.z - r.z * u.y) +
        m.z * (r.x * u.y - r.y * u.x)) * hv
  exact (mul_eq_zero.1 this).resolve_left hmm.ne'

end order

/-- `np.linalg.norm` of an array of shape `(3,)`, over the reals. -/
noncomputable def norm (a : Vec3 ℝ) : ℝ := Real.sqrt (normSq a)

theorem norm_nonneg (a : Vec3 ℝ) : 0 ≤ norm a := Real.sqrt_nonneg _

theorem norm_sq (a : Vec3 ℝ) : norm a ^ 2 = normSq a := Real.sq_sqrt (normSq_nonneg a)

theorem norm_eq_zero {a : Vec3 ℝ} : norm a = 0 ↔ a = 0 := by
  unfold norm
  rw [Real.sqrt_eq_zero (normSq_nonneg a), normSq_eq_zero]

theorem norm_smul (c : ℝ) (a : Vec3 ℝ) : norm (c • a) = |c| * norm a := by
  unfold norm
  have : normSq (c • a) = c ^ 2 * normSq a := by
    simp only [normSq, dot, smul_x, smul_y, smul_z]; ring
  rw [this, Real.sqrt_mul (sq_nonneg c), Real.sqrt_sq_eq_abs]

theorem norm_neg (a : Vec3 ℝ) : norm (-a) = norm a := by
  unfold norm normSq
  rw [dot_neg_left, dot_neg_right, neg_neg]

theorem norm_sub_comm (a b : Vec3 ℝ) : norm (a - b) = norm (b - a) := by
  rw [← norm_neg, neg_sub]

theorem norm_le_norm {a b : Vec3 ℝ} (h : normSq a ≤ normSq b) : norm a ≤ norm b :=
  Real.sqrt_le_sqrt h

end Vec3

end B3d
