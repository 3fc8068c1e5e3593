import Verif.Proofs.RoundedVolume
import Verif.Proofs.Binary

/-!
# The volume of a flat tetrahedron with 53 binary digits

The corners `(0, 0, 0)`, `(4, 0, 0)`, `(0, 4, 0)` and `(4, 4, 0)`: the number under the root is negative.
-/

namespace B3d.Rounded

open Polygon Triangles

/-- The arithmetic with 53 binary digits, with rounded square roots. -/
noncomputable def binaryRoot : RootArith where
  toArith := binary
  sqrt x := fl (Real.sqrt x)
  sqrt_err x _ := by
    have h := fl_err' (Real.sqrt x)
    rwa [abs_of_nonneg (Real.sqrt_nonneg x)] at h

namespace NanVolume

theorem f4 : fl 4 = 4 := by
  rw [fl_of_pos (by norm_num), flp_eq (e := -50) (k := 4503599627370496) (by norm_num) (by norm_num) (by norm_num) (by norm_num)]
  norm_num

theorem f1 : fl 1 = 1 := by
  rw [fl_of_pos (by norm_num), flp_eq (e := -52) (k := 4503599627370496) (by norm_num) (by norm_num) (by norm_num) (by norm_num)]
  norm_num

theorem f50 : fl 50 = 50 := by
  rw [fl_of_pos (by norm_num), flp_eq (e := -47) (k := 7036874417766400) (by norm_num) (by norm_num) (by norm_num) (by norm_num)]
  norm_num

theorem f16 : fl 16 = 16 := by
  rw [fl_of_pos (by norm_num), flp_eq (e := -48) (k := 4503599627370496) (by norm_num) (by norm_num) (by norm_num) (by norm_num)]
  norm_num

theorem f32 : fl 32 = 32 := by
  rw [fl_of_pos (by norm_num), flp_eq (e := -47) (k := 4503599627370496) (by norm_num) (by norm_num) (by norm_num) (by norm_num)]
  norm_num

theorem f64 : fl 64 = 64 := by
  rw [fl_of_pos (by norm_num), flp_eq (e := -46) (k := 4503599627370496) (by norm_num) (by norm_num) (by norm_num) (by norm_num)]
  norm_num

theorem f1024 : fl 1024 = 1024 := by
  rw [fl_of_pos (by norm_num), flp_eq (e := -42) (k := 4503599627370496) (by norm_num) (by norm_num) (by norm_num) (by norm_num)]
  norm_num

/-- The root of 32. -/
theorem froot : fl (Real.sqrt 32) = 6369051672525773 / 2 ^ 50 := by
  have h1 : (6369051672525773 - 1 / 2) / 2 ^ 50 ≤ Real.sqrt 32 := Real.le_sqrt_of_sq_le (by norm_num)
  have h2 : Real.sqrt 32 < (6369051672525773 + 1 / 2) / 2 ^ 50 := by
    rw [Real.sqrt_lt' (by norm_num)]; norm_num
  rw [fl_of_pos (lt_of_lt_of_le (by norm_num) h1), flp_eq (e := -50) (k := 6369051672525773)
    (le_trans (by norm_num) h1) (lt_of_lt_of_le h2 (by norm_num)) (le_trans (by norm_num) h1)
    (lt_of_lt_of_le h2 (by norm_num))]
  norm_num

/-- Its square. -/
theorem fsq : fl (6369051672525773 / 2 ^ 50 * (6369051672525773 / 2 ^ 50)) = 4503599627370497 / 2 ^ 47 := by
  rw [fl_of_pos (by norm_num), flp_eq (e := -47) (k := 4503599627370497) (by norm_num) (by norm_num) (by norm_num) (by norm_num)]
  norm_num

theorem g1 : fl (16 + 4503599627370497 / 2 ^ 47) = 6755399441055745 / 2 ^ 47 := by
  rw [fl_of_pos (by norm_num), flp_eq (e := -47) (k := 6755399441055745) (by norm_num) (by norm_num) (by norm_num) (by norm_num)]
  norm_num

theorem g2 : fl (6755399441055745 / 2 ^ 47 - 16) = 4503599627370497 / 2 ^ 47 := by
  rw [fl_of_pos (by norm_num), flp_eq (e := -47) (k := 4503599627370497) (by norm_num) (by norm_num) (by norm_num) (by norm_num)]
  norm_num

theorem g3 : fl (32 - 4503599627370497 / 2 ^ 47) = -(1 / 2 ^ 47) := by
  rw [show (32 - 4503599627370497 / 2 ^ 47 : ℝ) = -(1 / 2 ^ 47) by norm_num, fl_neg, fl_of_pos (by norm_num),
    flp_eq (e := -99) (k := 4503599627370496) (by norm_num) (by norm_num) (by norm_num) (by norm_num)]
  norm_num

theorem g4 : fl (4503599627370497 / 2 ^ 47 * (4503599627370497 / 2 ^ 47)) = 4503599627370498 / 2 ^ 42 := by
  rw [fl_of_pos (by norm_num), flp_eq (e := -42) (k := 4503599627370498) (by norm_num) (by norm_num) (by norm_num) (by norm_num)]
  norm_num

theorem g5 : fl (1024 * (4503599627370497 / 2 ^ 47)) = 4503599627370497 / 2 ^ 37 := by
  rw [fl_of_pos (by norm_num), flp_eq (e := -37) (k := 4503599627370497) (by norm_num) (by norm_num) (by norm_num) (by norm_num)]
  norm_num

theorem g6 : fl (16 * (4503599627370498 / 2 ^ 42)) = 4503599627370498 / 2 ^ 38 := by
  rw [fl_of_pos (by norm_num), flp_eq (e := -38) (k := 4503599627370498) (by norm_num) (by norm_num) (by norm_num) (by norm_num)]
  norm_num

theorem g7 : fl (-(1 / 2 ^ 47) * -(1 / 2 ^ 47)) = 1 / 2 ^ 94 := by
  rw [fl_of_pos (by norm_num), flp_eq (e := -146) (k := 4503599627370496) (by norm_num) (by norm_num) (by norm_num) (by norm_num)]
  norm_num

theorem g8 : fl (4503599627370497 / 2 ^ 47 * (1 / 2 ^ 94)) = 4503599627370497 / 2 ^ 141 := by
  rw [fl_of_pos (by norm_num), flp_eq (e := -141) (k := 4503599627370497) (by norm_num) (by norm_num) (by norm_num) (by norm_num)]
  norm_num

theorem g9 : fl (4503599627370497 / 2 ^ 37 - 4503599627370498 / 2 ^ 38) = 16384 := by
  rw [fl_of_pos (by norm_num), flp_eq (e := -38) (k := 4503599627370496) (by norm_num) (by norm_num) (by norm_num) (by norm_num)]
  norm_num

theorem g10 : fl (16384 - 4503599627370498 / 2 ^ 38) = -(1 / 2 ^ 37) := by
  rw [show (16384 - 4503599627370498 / 2 ^ 38 : ℝ) = -(1 / 2 ^ 37) by norm_num, fl_neg, fl_of_pos (by norm_num),
    flp_eq (e := -89) (k := 4503599627370496) (by norm_num) (by norm_num) (by norm_num) (by norm_num)]
  norm_num

theorem g11 : fl (-(1 / 2 ^ 37) - 4503599627370497 / 2 ^ 141) = -(4503599627370497 / 2 ^ 89) := by
  rw [show (-(1 / 2 ^ 37) - 4503599627370497 / 2 ^ 141 : ℝ) = -(1 / 2 ^ 37 + 4503599627370497 / 2 ^ 141) by norm_num, fl_neg,
    fl_of_pos (by norm_num), flp_eq (e := -89) (k := 4503599627370497) (by norm_num) (by norm_num) (by norm_num) (by norm_num)]
  norm_num

theorem g12 : fl (4503599627370498 / 2 ^ 42 * -(1 / 2 ^ 47)) = -(4503599627370498 / 2 ^ 89) := by
  rw [show (4503599627370498 / 2 ^ 42 * -(1 / 2 ^ 47) : ℝ) = -(4503599627370498 / 2 ^ 89) by norm_num, fl_neg,
    fl_of_pos (by norm_num), flp_eq (e := -89) (k := 4503599627370498) (by norm_num) (by norm_num) (by norm_num) (by norm_num)]
  norm_num

theorem g13 : fl (-(4503599627370497 / 2 ^ 89) + -(4503599627370498 / 2 ^ 89)) = -(4503599627370498 / 2 ^ 88) := by
  rw [show (-(4503599627370497 / 2 ^ 89) + -(4503599627370498 / 2 ^ 89) : ℝ) = -(9007199254740995 / 2 ^ 89) by norm_num, fl_neg,
    fl_of_pos (by norm_num), flp_eq (e := -88) (k := 4503599627370498) (by norm_num) (by norm_num) (by norm_num) (by norm_num)]
  norm_num

theorem geps : fl (EPSILON : ℝ) ≤ 2 / 10 ^ 12 := by
  have h := abs_le.1 (fl_err' (EPSILON : ℝ))
  have he : (EPSILON : ℝ) = 1 / 10 ^ 12 := by norm_num [EPSILON]
  rw [he] at h ⊢
  rw [abs_of_pos (by norm_num : (0 : ℝ) < 1 / 10 ^ 12)] at h
  norm_num at h ⊢
  linarith [h.2]

theorem n400 : bnorm ⟨4, 0, 0⟩ = 4 := by
  have e : Real.sqrt 16 = 4 := by rw [show (16 : ℝ) = 4 ^ 2 by norm_num]; exact Real.sqrt_sq (by norm_num)
  unfold bnorm
  norm_num [fl_zero, f16, e, f4]

theorem n040 : bnorm ⟨0, 4, 0⟩ = 4 := by
  have e : Real.sqrt 16 = 4 := by rw [show (16 : ℝ) = 4 ^ 2 by norm_num]; exact Real.sqrt_sq (by norm_num)
  unfold bnorm
  norm_num [fl_zero, f16, e, f4]

theorem n440 : bnorm ⟨4, 4, 0⟩ = 6369051672525773 / 2 ^ 50 := by
  have h := froot
  unfold bnorm
  rw [show ((4 : ℝ) * 4) = 16 by norm_num, f16, mul_zero, fl_zero, add_zero, show ((16 : ℝ) + 16) = 32 by norm_num, f32, f32, h]

theorem n440' : bnorm ⟨-4, 4, 0⟩ = 6369051672525773 / 2 ^ 50 := by
  have h := froot
  unfold bnorm
  rw [show ((-4 : ℝ) * -4) = 16 by norm_num, show ((4 : ℝ) * 4) = 16 by norm_num, f16, mul_zero, fl_zero, add_zero,
    show ((16 : ℝ) + 16) = 32 by norm_num, f32, f32, h]

theorem nominator_eq : nominator binary 0 ⟨4, 0, 0⟩ ⟨0, 4, 0⟩ ⟨4, 4, 0⟩ = -(4503599627370498 / 2 ^ 88) := by
  have s1 : subv binary ⟨4, 0, 0⟩ 0 = ⟨4, 0, 0⟩ := by simp [subv, binary, f4]
  have s2 : subv binary ⟨0, 4, 0⟩ 0 = ⟨0, 4, 0⟩ := by simp [subv, binary, f4]
  have s3 : subv binary ⟨4, 4, 0⟩ 0 = ⟨4, 4, 0⟩ := by simp [subv, binary, f4]
  have s4 : subv binary ⟨0, 4, 0⟩ ⟨4, 0, 0⟩ = ⟨-4, 4, 0⟩ := by simp [subv, binary, f4, fl_neg]
  have s5 : subv binary ⟨4, 4, 0⟩ ⟨0, 4, 0⟩ = ⟨4, 0, 0⟩ := by simp [subv, binary, f4]
  have s6 : subv binary ⟨4, 4, 0⟩ ⟨4, 0, 0⟩ = ⟨0, 4, 0⟩ := by simp [subv, binary, f4]
  have m : ∀ v, binary.norm v = bnorm v := fun _ => rfl
  have p : ∀ a b, binary.mul a b = fl (a * b) := fun _ _ => rfl
  have q : ∀ a b, binary.add a b = fl (a + b) := fun _ _ => rfl
  have r : ∀ a b, binary.sub a b = fl (a - b) := fun _ _ => rfl
  have a16 : fl ((4 : ℝ) * 4) = 16 := by rw [show ((4 : ℝ) * 4) = 16 by norm_num, f16]
  have a32 : fl ((16 : ℝ) + 16) = 32 := by rw [show ((16 : ℝ) + 16) = 32 by norm_num, f32]
  have a64 : fl ((4 : ℝ) * 16) = 64 := by rw [show ((4 : ℝ) * 16) = 64 by norm_num, f64]
  have a1024 : fl ((64 : ℝ) * 16) = 1024 := by rw [show ((64 : ℝ) * 16) = 1024 by norm_num, f1024]
  unfold nominator
  rw [s1, s2, s3, s4, s5, s6]
  simp only [m, n400, n040, n440, n440', sqr, p, q, r, a16, a32, a64, a1024, fsq, g1, g2, g3, g4, g5, g6, g7, g8, g9, g10, g11,
    g12, g13]

theorem volume_none : tetrahedronVolume binaryRoot 0 ⟨4, 0, 0⟩ ⟨0, 4, 0⟩ ⟨4, 4, 0⟩ = none := by
  unfold tetrahedronVolume
  rw [if_pos]
  have h : (binaryRoot.toArith) = binary := rfl
  rw [h, nominator_eq]
  change fl (-(4503599627370498 / 2 ^ 88) + fl EPSILON) < 0
  have h1 : 0 < 4503599627370498 / 2 ^ 88 - fl EPSILON := by
    have := geps
    norm_num at this ⊢
    linarith
  rw [show -(4503599627370498 / 2 ^ 88) + fl EPSILON = -(4503599627370498 / 2 ^ 88 - fl EPSILON) by ring, fl_neg, fl_of_pos h1]
  linarith [flp_pos h1]

end NanVolume

end B3d.Rounded
