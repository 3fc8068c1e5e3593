import Verif.Proofs.RoundedArea
import Verif.Proofs.RoundedNan

/-!
# The area of a thin triangle with 53 binary digits

The corners `(0, 0, 0)`, `(48, 72, 0)` and `(24, 36 + 1 / 2 ^ 22, 0)`: the number under the root is negative.  No
intermediate result is halfway between two numbers, so it does not matter how ties are rounded.
-/

namespace B3d.Rounded.NanArea

open Polygon Triangles NanVolume

macro "dyadic" e:term:max k:term:max : tactic => `(tactic| (
  rw [fl_of_pos (by norm_num), flp_eq (e := $e) (k := $k) (by norm_num) (by norm_num) (by norm_num) (by norm_num)]; norm_num))

theorem f48 : fl 48 = 48 := by dyadic (-47) 6755399441055744
theorem f72 : fl 72 = 72 := by dyadic (-46) 5066549580791808
theorem f24 : fl 24 = 24 := by dyadic (-48) 6755399441055744
theorem f576 : fl 576 = 576 := by dyadic (-43) 5066549580791808
theorem f2304 : fl 2304 = 2304 := by dyadic (-41) 5066549580791808
theorem f5184 : fl 5184 = 5184 := by dyadic (-40) 5699868278390784
theorem f7488 : fl 7488 = 7488 := by dyadic (-40) 8233143068786688
theorem fy1 : fl (150994945 / 2 ^ 22) = 150994945 / 2 ^ 22 := by dyadic (-47) 5066549614346240
theorem fy2 : fl (150994943 / 2 ^ 22) = 150994943 / 2 ^ 22 := by dyadic (-47) 5066549547237376
theorem fyy1 : fl (150994945 / 2 ^ 22 * (150994945 / 2 ^ 22)) = 679477257 / 2 ^ 19 := by dyadic (-42) 5699868353888256
theorem fyy2 : fl (150994943 / 2 ^ 22 * (150994943 / 2 ^ 22)) = 679477239 / 2 ^ 19 := by dyadic (-42) 5699868202893312
theorem fs1 : fl (981467145 / 2 ^ 19) = 981467145 / 2 ^ 19 := by dyadic (-42) 8233143144284160
theorem fs2 : fl (981467127 / 2 ^ 19) = 981467127 / 2 ^ 19 := by dyadic (-42) 8233142993289216

theorem root_eq {x : ℝ} {e k : ℤ} (hk : (2 : ℝ) ^ 52 + 1 ≤ k) (hk' : (k : ℝ) + 1 ≤ 2 ^ 53)
    (h1 : (((k : ℝ) - 1 / 2) * 2 ^ e) ^ 2 ≤ x) (h2 : x < (((k : ℝ) + 1 / 2) * 2 ^ e) ^ 2) :
    fl (Real.sqrt x) = k * 2 ^ e := by
  have hp : (0 : ℝ) < 2 ^ e := by positivity
  have hk0 : (0 : ℝ) < k := lt_of_lt_of_le (by norm_num) hk
  have g1 : ((k : ℝ) - 1 / 2) * 2 ^ e ≤ Real.sqrt x := Real.le_sqrt_of_sq_le h1
  have g2 : Real.sqrt x < ((k : ℝ) + 1 / 2) * 2 ^ e := by
    rw [Real.sqrt_lt' (by positivity)]; exact h2
  have g3 : (2 : ℝ) ^ 52 * 2 ^ e ≤ ((k : ℝ) - 1 / 2) * 2 ^ e := mul_le_mul_of_nonneg_right (by linarith) hp.le
  have g4 : ((k : ℝ) + 1 / 2) * 2 ^ e ≤ (2 : ℝ) ^ 53 * 2 ^ e := mul_le_mul_of_nonneg_right (by linarith) hp.le
  have hq : (0 : ℝ) < 2 ^ 52 * 2 ^ e := by positivity
  rw [fl_of_pos (by linarith), flp_eq (e := e) (k := k) (by linarith) (by linarith) g1 g2]

theorem ra : fl (Real.sqrt 7488) = 6089234767741815 / 2 ^ 46 := by
  rw [root_eq (e := -46) (k := 6089234767741815) (by norm_num) (by norm_num) (by norm_num) (by norm_num)]
  norm_num

theorem rb : fl (Real.sqrt (981467127 / 2 ^ 19)) = 6089234739822839 / 2 ^ 47 := by
  rw [root_eq (e := -47) (k := 6089234739822839) (by norm_num) (by norm_num) (by norm_num) (by norm_num)]
  norm_num

theorem rc : fl (Real.sqrt (981467145 / 2 ^ 19)) = 6089234795660789 / 2 ^ 47 := by
  rw [root_eq (e := -47) (k := 6089234795660789) (by norm_num) (by norm_num) (by norm_num) (by norm_num)]
  norm_num

theorem gab : fl (6089234767741815 / 2 ^ 46 + 6089234739822839 / 2 ^ 47) = 4566926068826617 / 2 ^ 45 := by
  dyadic (-45) 4566926068826617
theorem gabc : fl (4566926068826617 / 2 ^ 45 + 6089234795660789 / 2 ^ 47) = 3044617383870907 / 2 ^ 44 := by
  dyadic (-45) 6089234767741814
theorem gs : fl (1 / 2 * (3044617383870907 / 2 ^ 44)) = 3044617383870907 / 2 ^ 45 := by dyadic (-46) 6089234767741814
theorem gu : fl (1 / 2 ^ 46) = 1 / 2 ^ 46 := by dyadic (-98) 4503599627370496
theorem gsa : fl (3044617383870907 / 2 ^ 45 - 6089234767741815 / 2 ^ 46) = -(1 / 2 ^ 46) := by
  rw [show (3044617383870907 / 2 ^ 45 - 6089234767741815 / 2 ^ 46 : ℝ) = -(1 / 2 ^ 46) by norm_num, fl_neg, gu]
theorem gsb : fl (3044617383870907 / 2 ^ 45 - 6089234739822839 / 2 ^ 47) = 6089234795660789 / 2 ^ 47 := by
  dyadic (-47) 6089234795660789
theorem gsc : fl (3044617383870907 / 2 ^ 45 - 6089234795660789 / 2 ^ 47) = 6089234739822839 / 2 ^ 47 := by
  dyadic (-47) 6089234739822839
theorem gm1' : fl (3044617383870907 / 2 ^ 91) = 3044617383870907 / 2 ^ 91 := by dyadic (-92) 6089234767741814
theorem gm1 : fl (3044617383870907 / 2 ^ 45 * -(1 / 2 ^ 46)) = -(3044617383870907 / 2 ^ 91) := by
  rw [show (3044617383870907 / 2 ^ 45 * -(1 / 2 ^ 46) : ℝ) = -(3044617383870907 / 2 ^ 91) by norm_num, fl_neg, gm1']
theorem gm2' : fl (3044617383870907 / 2 ^ 91 * (6089234795660789 / 2 ^ 47)) = 8233143106535423 / 2 ^ 87 := by
  dyadic (-87) 8233143106535423
theorem gm2 : fl (-(3044617383870907 / 2 ^ 91) * (6089234795660789 / 2 ^ 47)) = -(8233143106535423 / 2 ^ 87) := by
  rw [neg_mul, fl_neg, gm2']
theorem gm3' : fl (8233143106535423 / 2 ^ 87 * (6089234739822839 / 2 ^ 47)) = 5565941154889001 / 2 ^ 81 := by
  dyadic (-81) 5565941154889001
theorem gm3 : fl (-(8233143106535423 / 2 ^ 87) * (6089234739822839 / 2 ^ 47)) = -(5565941154889001 / 2 ^ 81) := by
  rw [neg_mul, fl_neg, gm3']

theorem na : bnorm ⟨48, 72, 0⟩ = 6089234767741815 / 2 ^ 46 := by
  have h := ra
  unfold bnorm
  rw [show ((48 : ℝ) * 48) = 2304 by norm_num, show ((72 : ℝ) * 72) = 5184 by norm_num, f2304, f5184, mul_zero, fl_zero, add_zero,
    show ((2304 : ℝ) + 5184) = 7488 by norm_num, f7488, f7488, h]

theorem nb : bnorm ⟨-24, -(150994943 / 2 ^ 22), 0⟩ = 6089234739822839 / 2 ^ 47 := by
  have h := rb
  unfold bnorm
  rw [show ((-24 : ℝ) * -24) = 576 by norm_num, neg_mul_neg, f576, fyy2, mul_zero, fl_zero, add_zero,
    show ((576 : ℝ) + 679477239 / 2 ^ 19) = 981467127 / 2 ^ 19 by norm_num, fs2, fs2, h]

theorem nc : bnorm ⟨24, 150994945 / 2 ^ 22, 0⟩ = 6089234795660789 / 2 ^ 47 := by
  have h := rc
  unfold bnorm
  rw [show ((24 : ℝ) * 24) = 576 by norm_num, f576, fyy1, mul_zero, fl_zero, add_zero,
    show ((576 : ℝ) + 679477257 / 2 ^ 19) = 981467145 / 2 ^ 19 by norm_num, fs1, fs1, h]

theorem heron_eq : heron binary 0 ⟨48, 72, 0⟩ ⟨24, 150994945 / 2 ^ 22, 0⟩ = -(5565941154889001 / 2 ^ 81) := by
  have s1 : subv binary ⟨48, 72, 0⟩ 0 = ⟨48, 72, 0⟩ := by simp [subv, binary, f48, f72]
  have s2 : subv binary ⟨24, 150994945 / 2 ^ 22, 0⟩ ⟨48, 72, 0⟩ = ⟨-24, -(150994943 / 2 ^ 22), 0⟩ := by
    have e1 : fl ((24 : ℝ) - 48) = -24 := by rw [show ((24 : ℝ) - 48) = -24 by norm_num, fl_neg, f24]
    have e2 : fl (150994945 / 2 ^ 22 - 72) = -(150994943 / 2 ^ 22) := by
      rw [show (150994945 / 2 ^ 22 - 72 : ℝ) = -(150994943 / 2 ^ 22) by norm_num, fl_neg, fy2]
    have e3 : fl ((0 : ℝ) - 0) = 0 := by rw [sub_zero, fl_zero]
    have r : ∀ a b, binary.sub a b = fl (a - b) := fun _ _ => rfl
    simp only [subv, r, e1, e2, e3]
  have s3 : subv binary ⟨24, 150994945 / 2 ^ 22, 0⟩ 0 = ⟨24, 150994945 / 2 ^ 22, 0⟩ := by
    have r : ∀ a b, binary.sub a b = fl (a - b) := fun _ _ => rfl
    simp only [subv, r, Vec3.zero_x, Vec3.zero_y, Vec3.zero_z, sub_zero, f24, fy1, fl_zero]
  have m : ∀ v, binary.norm v = bnorm v := fun _ => rfl
  have p : ∀ a b, binary.mul a b = fl (a * b) := fun _ _ => rfl
  have q : ∀ a b, binary.add a b = fl (a + b) := fun _ _ => rfl
  have r : ∀ a b, binary.sub a b = fl (a - b) := fun _ _ => rfl
  unfold heron
  rw [s1, s2, s3]
  simp only [m, na, nb, nc, p, q, r, gab, gabc, gs, gsa, gsb, gsc, gm1, gm2, gm3]

theorem area_none : triangleArea binaryRoot 0 ⟨48, 72, 0⟩ ⟨24, 150994945 / 2 ^ 22, 0⟩ = none := by
  unfold triangleArea
  rw [if_pos]
  have h : (binaryRoot.toArith) = binary := rfl
  rw [h, heron_eq]
  change fl (-(5565941154889001 / 2 ^ 81) + fl EPSILON) < 0
  have h1 : 0 < 5565941154889001 / 2 ^ 81 - fl EPSILON := by
    have := geps
    norm_num at this ⊢
    linarith
  rw [show -(5565941154889001 / 2 ^ 81) + fl EPSILON = -(5565941154889001 / 2 ^ 81 - fl EPSILON) by ring, fl_neg, fl_of_pos h1]
  linarith [flp_pos h1]

end B3d.Rounded.NanArea
