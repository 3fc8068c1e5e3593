import Verif.Proofs.RoundedRays
import Verif.Proofs.RoundedNanArea

/-!
# A ray that is not noticed

A ceiling at the height of two metres, and a ray with the speed of sound from `(2, 2 + 1/512, 1/4)` straight upwards, computed
with 53 binary digits.
-/

namespace B3d.Rounded.Miss

open Spec Polygon Triangles NanArea

/-- The corners of the ceiling. -/
def corners : List (Vec3 ℝ) := [⟨0, 0, 2⟩, ⟨4, 0, 2⟩, ⟨4, 4, 2⟩, ⟨0, 4, 2⟩]

/-- The computed point where the ray comes to the plane of the ceiling. -/
noncomputable def meet : Vec3 ℝ := ⟨2, 1025 / 512, 9007199254740991 / 4503599627370496⟩

theorem g2 : fl 2 = 2 := by dyadic (-51) 4503599627370496
theorem g4 : fl 4 = 4 := by dyadic (-50) 4503599627370496
theorem g16 : fl 16 = 16 := by dyadic (-48) 4503599627370496
theorem g256 : fl 256 = 256 := by dyadic (-44) 4503599627370496
theorem g343 : fl 343 = 343 := by dyadic (-44) 6034119813234688
theorem g1 : fl 1 = 1 := by dyadic (-52) 4503599627370496
theorem gq : fl (1 / 4) = 1 / 4 := by dyadic (-54) 4503599627370496
theorem g7 : fl (7 / 4) = 7 / 4 := by dyadic (-52) 7881299347898368
theorem gy : fl (1025 / 512) = 1025 / 512 := by dyadic (-51) 4507997673881600

theorem gs : fl (7 / 4 / 343) = 5882252574524729 / 2 ^ 60 := by dyadic (-60) 5882252574524729
theorem gm : fl (5882252574524729 / 2 ^ 60 * 343) = 7881299347898367 / 2 ^ 52 := by dyadic (-52) 7881299347898367
theorem gz : fl (1 / 4 + 7881299347898367 / 2 ^ 52) = 9007199254740991 / 4503599627370496 := by
  dyadic (-52) 9007199254740991
theorem gu : fl (1 / 4503599627370496) = 1 / 4503599627370496 := by dyadic (-104) 4503599627370496
theorem gy2 : fl (1023 / 512) = 1023 / 512 := by dyadic (-52) 8998403161718784
theorem gu4 : fl (1 / 1125899906842624) = 1 / 1125899906842624 := by dyadic (-102) 4503599627370496
theorem gy3 : fl (1023 / 128) = 1023 / 128 := by dyadic (-50) 8998403161718784
theorem gy4 : fl (1025 / 128) = 1025 / 128 := by dyadic (-49) 4507997673881600
theorem g8 : fl 8 = 8 := by dyadic (-49) 4503599627370496
theorem gd : fl (1 / 128) = 1 / 128 := by dyadic (-59) 4503599627370496
theorem gdd : fl (1 / 16384) = 1 / 16384 := by dyadic (-66) 4503599627370496
theorem guu : fl (1 / 1125899906842624 * (1 / 1125899906842624)) = 1 / 2 ^ 100 := by dyadic (-152) 4503599627370496
theorem guu2 : fl (1 / 2 ^ 100 + 1 / 2 ^ 100) = 1 / 2 ^ 99 := by dyadic (-151) 4503599627370496
theorem gsum : fl (1 / 2 ^ 99 + 1 / 16384) = 1 / 16384 := by dyadic (-66) 4503599627370496
theorem gr : fl (1 / 1125899906842624 / (1 / 128)) = 1 / 2 ^ 43 := by dyadic (-95) 4503599627370496

theorem radd (a b : ℝ) : binary.add a b = fl (a + b) := rfl
theorem rsub (a b : ℝ) : binary.sub a b = fl (a - b) := rfl
theorem rmul (a b : ℝ) : binary.mul a b = fl (a * b) := rfl
theorem rdiv (a b : ℝ) : binary.div a b = fl (a / b) := rfl
theorem rnorm (v : Vec3 ℝ) : binary.norm v = bnorm v := rfl
theorem rlit (a : ℝ) : binary.lit a = fl a := rfl

theorem norm16 : bnorm ⟨0, 0, 16⟩ = 16 := by
  have e : Real.sqrt 256 = 16 := by rw [show (256 : ℝ) = 16 ^ 2 by norm_num]; exact Real.sqrt_sq (by norm_num)
  unfold bnorm
  simp only [mul_zero, fl_zero, add_zero, zero_add]
  rw [show (16 : ℝ) * 16 = 256 by norm_num, g256, g256, e, g16]

theorem normSmall {x z : ℝ} (hx : x = 1 / 1125899906842624 ∨ x = -(1 / 1125899906842624)) (hz : z = 1 / 128 ∨ z = -(1 / 128)) :
    bnorm ⟨x, x, z⟩ = 1 / 128 := by
  have e : Real.sqrt (1 / 16384) = 1 / 128 := by
    rw [show (1 / 16384 : ℝ) = (1 / 128) ^ 2 by norm_num]; exact Real.sqrt_sq (by norm_num)
  have hxx : fl (x * x) = 1 / 2 ^ 100 := by
    rcases hx with rfl | rfl
    · exact guu
    · rw [neg_mul_neg]; exact guu
  have hzz : fl (z * z) = 1 / 16384 := by
    rcases hz with rfl | rfl
    · rw [show (1 / 128 : ℝ) * (1 / 128) = 1 / 16384 by norm_num, gdd]
    · rw [neg_mul_neg, show (1 / 128 : ℝ) * (1 / 128) = 1 / 16384 by norm_num, gdd]
  unfold bnorm
  simp only [hxx, hzz, guu2, gsum, e, gd]

theorem plane : planeCoefficients binary corners = .ok (some (⟨0, 0, 1⟩, -2)) := by
  have hs1 : subv binary ⟨0, 0, 2⟩ ⟨0, 4, 2⟩ = ⟨0, -4, 0⟩ := by
    simp [subv, rsub, fl_neg, g4]
  have hs2 : subv binary ⟨4, 0, 2⟩ ⟨0, 4, 2⟩ = ⟨4, -4, 0⟩ := by
    simp [subv, rsub, fl_neg, g4]
  have hc : Rounded.cross binary ⟨0, -4, 0⟩ ⟨4, -4, 0⟩ = ⟨0, 0, 16⟩ := by
    simp only [Rounded.cross, rsub, rmul]
    norm_num [fl_zero, fl_neg, g16]
  have hn : normal binary ⟨0, 4, 2⟩ ⟨0, 0, 2⟩ ⟨4, 0, 2⟩ = some ⟨0, 0, 1⟩ := by
    have hl : binary.norm (Rounded.cross binary (subv binary ⟨0, 0, 2⟩ ⟨0, 4, 2⟩) (subv binary ⟨4, 0, 2⟩ ⟨0, 4, 2⟩)) = 16 := by
      rw [hs1, hs2, hc, rnorm, norm16]
    unfold normal
    simp only []
    rw [if_neg]
    · rw [hl, hs1, hs2, hc]
      simp only [divv, rdiv]
      norm_num [fl_zero, g1]
    · intro h
      rw [hl] at h
      have := le_of_isClose binary (by norm_num [NP_RTOL]) (by norm_num [NP_ATOL]) h
      norm_num [NP_RTOL, NP_ATOL] at this
  simp only [planeCoefficients, corners, List.getLast?_cons_cons, List.getLast?_singleton, List.getElem?_cons_zero,
    List.getElem?_cons_succ, hn, Option.map_some, projectionCoefficient]
  rw [binary.dot_z, rmul]
  norm_num [g2]

open Classical in
theorem project (tri : List Tri) : isPointInsideProjection binary (1 / 1000) ⟨2, 1025 / 512, 1 / 4⟩ ⟨0, 0, 343⟩ corners tri =
    pointInPolygonTol binary (1 / 1000) meet corners tri := by
  unfold isPointInsideProjection
  rw [plane]
  have hd : binary.add (binary.add (binary.mul 0 0) (binary.mul 0 0)) (binary.mul 1 343) = 343 := by
    simp only [radd, rmul]; norm_num [fl_zero, g343]
  have hn : binary.sub (binary.sub (binary.sub (- -2) (binary.mul 0 2)) (binary.mul 0 (1025 / 512))) (binary.mul 1 (1 / 4)) = 7 / 4 := by
    simp only [rsub, rmul, zero_mul, one_mul, fl_zero, neg_neg, sub_zero, g2, gq]
    norm_num [g7]
  simp only [hd, hn, rdiv, gs]
  have hlit := (lit_rel binary (1 / 1000)).le (by norm_num)
  rw [if_neg (by norm_num at hlit ⊢; linarith [hlit.2]), if_neg (by norm_num)]
  congr 1
  simp only [addv, scale, radd, rmul, mul_zero, fl_zero, add_zero, g2, gy, gm, gz, meet]

open Classical in
/-- The comparison fails in the first component. -/
theorem side_false {p q r : Vec3 ℝ} {x z : ℝ} (hx : x = 1 / 1125899906842624 ∨ x = -(1 / 1125899906842624)) (hz : z = 1 / 128 ∨ z = -(1 / 128))
    (hv : Rounded.cross binary (subv binary q p) (subv binary meet p) = ⟨x, x, z⟩)
    (hr : Rounded.cross binary (subv binary q p) (subv binary r p) = ⟨0, 0, 16⟩) :
    isPointOnSameSide binary p q meet r = .ok false := by
  have hl := (atol_bounds binary).2
  unfold isPointOnSameSide
  simp only [hv, hr, rnorm, norm16, normSmall hx hz]
  rw [if_neg (by norm_num at hl ⊢; linarith), if_neg (by norm_num at hl ⊢; linarith)]
  refine congrArg Except.ok (decide_eq_false ?_)
  rintro ⟨h, -, -⟩
  have h0 : (divv binary (⟨0, 0, 16⟩ : Vec3 ℝ) 16).x = 0 := by simp [divv, rdiv, fl_zero]
  rw [h0] at h
  have hd : |(divv binary (⟨x, x, z⟩ : Vec3 ℝ) (1 / 128)).x| = 1 / 2 ^ 43 := by
    simp only [divv, rdiv]
    rcases hx with rfl | rfl
    · rw [gr, abs_of_pos (by norm_num)]
    · rw [neg_div, fl_neg, gr, abs_neg, abs_of_pos (by norm_num)]
  have := le_of_isClose binary (by norm_num [NP_RTOL]) (by norm_num [GEOM_ATOL]) h
  rw [sub_zero, hd] at this
  norm_num [NP_RTOL, GEOM_ATOL] at this

theorem beside {s : ℝ} {a b : Vec3 ℝ} (hs : s = 1 ∨ s = -1) (hb : b.z = a.z) (hlo : 1 ≤ (b.x - a.x) ^ 2 + (b.y - a.y) ^ 2)
    (hhi : (b.x - a.x) ^ 2 + (b.y - a.y) ^ 2 ≤ 36) (hn : |2 - a.x| ≤ 4 ∧ |1025 / 512 - a.y| ≤ 4)
    (hd : 6 / 1000 ≤ s * levelArea a b meet) : Beside 4 (1 / 1000) s a b meet where
  level := hb
  sign := hs
  size := by norm_num
  wide := by norm_num
  side := by
    refine le_trans (by norm_num : (1 / 1000 : ℝ) ≤ 1) ?_
    exact Real.le_sqrt_of_sq_le (by simpa using hlo)
  near := hn
  deep := by
    have : levelLength a b ≤ 6 := Real.sqrt_le_iff.2 ⟨by norm_num, by norm_num; linarith⟩
    linarith

open Classical in
theorem other {c : Vec3 ℝ} (h : c.x = 0 ∨ c.x = 4) : pointsEqual binary meet c = false := by
  unfold pointsEqual
  refine decide_eq_false ?_
  rintro ⟨hc, -, -⟩
  have := le_of_isClose binary (by norm_num [NP_RTOL]) (by norm_num [GEOM_ATOL]) hc
  rcases h with h | h <;> rw [h] at this <;> norm_num [meet, NP_RTOL, GEOM_ATOL] at this

open Classical in
theorem side_ok {p q r : Vec3 ℝ} (hr : Rounded.cross binary (subv binary q p) (subv binary r p) = ⟨0, 0, 16⟩) :
    ∃ x, isPointOnSameSide binary p q meet r = .ok x := by
  have hl := (atol_bounds binary).2
  unfold isPointOnSameSide
  simp only [hr, rnorm, norm16]
  rw [if_neg (by norm_num at hl ⊢; linarith)]
  split <;> exact ⟨_, rfl⟩

theorem levels : |meet.z - 2| ≤ 4 := by norm_num [meet, abs_le]

open Classical in
theorem first_false : isPointInside binary meet ⟨0, 4, 2⟩ ⟨0, 0, 2⟩ ⟨4, 0, 2⟩ = .ok false := by
  have e1 := (beside (s := 1) (a := ⟨0, 4, 2⟩) (b := ⟨0, 0, 2⟩) (by simp) rfl (by norm_num) (by norm_num)
    (by norm_num [abs_le]) (by norm_num [levelArea, meet])).edge (A := binary) levels
  have e2 := (beside (s := 1) (a := ⟨0, 0, 2⟩) (b := ⟨4, 0, 2⟩) (by simp) rfl (by norm_num) (by norm_num)
    (by norm_num [abs_le]) (by norm_num [levelArea, meet])).edge (A := binary) levels
  have e3 := (beside (s := -1) (a := ⟨4, 0, 2⟩) (b := ⟨0, 4, 2⟩) (by simp) rfl (by norm_num) (by norm_num)
    (by norm_num [abs_le]) (by norm_num [levelArea, meet])).edge (A := binary) levels
  have s3 : isPointOnSameSide binary ⟨4, 0, 2⟩ ⟨0, 4, 2⟩ meet ⟨0, 0, 2⟩ = .ok false := by
    have u1 : subv binary ⟨0, 4, 2⟩ ⟨4, 0, 2⟩ = ⟨-4, 4, 0⟩ := by simp [subv, rsub, fl_neg, g4]
    have u2 : subv binary meet ⟨4, 0, 2⟩ = ⟨-2, 1025 / 512, -(1 / 4503599627370496)⟩ := by
      simp only [subv, rsub, meet]
      rw [show (2 - 4 : ℝ) = -2 by norm_num, show (1025 / 512 - 0 : ℝ) = 1025 / 512 by norm_num,
        show (9007199254740991 / 4503599627370496 - 2 : ℝ) = -(1 / 4503599627370496) by norm_num, fl_neg, fl_neg, g2, gy, gu]
    have u3 : subv binary ⟨0, 0, 2⟩ ⟨4, 0, 2⟩ = ⟨-4, 0, 0⟩ := by simp [subv, rsub, fl_neg, g4]
    refine side_false (x := -(1 / 1125899906842624)) (z := -(1 / 128)) (by simp) (by simp) ?_ ?_
    · rw [u1, u2]
      simp only [Rounded.cross, rsub, rmul]
      norm_num [fl_zero, fl_neg, gu4, gy4, g8, gd]
    · rw [u1, u3]
      simp only [Rounded.cross, rsub, rmul]
      norm_num [fl_zero, fl_neg, g16]
  obtain ⟨x1, k1⟩ : ∃ x, isPointOnSameSide binary ⟨0, 4, 2⟩ ⟨0, 0, 2⟩ meet ⟨4, 0, 2⟩ = .ok x := by
    refine side_ok ?_
    rw [show subv binary ⟨0, 0, 2⟩ ⟨0, 4, 2⟩ = ⟨0, -4, 0⟩ by simp [subv, rsub, fl_neg, g4],
      show subv binary ⟨4, 0, 2⟩ ⟨0, 4, 2⟩ = ⟨4, -4, 0⟩ by simp [subv, rsub, fl_neg, g4]]
    simp only [Rounded.cross, rsub, rmul]
    norm_num [fl_zero, fl_neg, g16]
  obtain ⟨x2, k2⟩ : ∃ x, isPointOnSameSide binary ⟨0, 0, 2⟩ ⟨4, 0, 2⟩ meet ⟨0, 4, 2⟩ = .ok x := by
    refine side_ok ?_
    rw [show subv binary ⟨4, 0, 2⟩ ⟨0, 0, 2⟩ = ⟨4, 0, 0⟩ by simp [subv, rsub, g4],
      show subv binary ⟨0, 4, 2⟩ ⟨0, 0, 2⟩ = ⟨0, 4, 0⟩ by simp [subv, rsub, g4]]
    simp only [Rounded.cross, rsub, rmul]
    norm_num [fl_zero, fl_neg, g16]
  unfold isPointInside
  simp only [bind, Except.bind, pure, Except.pure, e1, e2, e3, k1, k2, s3, other (c := ⟨0, 4, 2⟩) (by simp),
    other (c := ⟨0, 0, 2⟩) (by simp), other (c := ⟨4, 0, 2⟩) (by simp), Bool.or_self, Bool.and_false, Bool.false_eq_true, if_false]
  split <;> rfl

open Classical in
theorem second_false : isPointInside binary meet ⟨0, 4, 2⟩ ⟨4, 0, 2⟩ ⟨4, 4, 2⟩ = .ok false := by
  have e1 := (beside (s := 1) (a := ⟨0, 4, 2⟩) (b := ⟨4, 0, 2⟩) (by simp) rfl (by norm_num) (by norm_num)
    (by norm_num [abs_le]) (by norm_num [levelArea, meet])).edge (A := binary) levels
  have e2 := (beside (s := 1) (a := ⟨4, 0, 2⟩) (b := ⟨4, 4, 2⟩) (by simp) rfl (by norm_num) (by norm_num)
    (by norm_num [abs_le]) (by norm_num [levelArea, meet])).edge (A := binary) levels
  have e3 := (beside (s := 1) (a := ⟨4, 4, 2⟩) (b := ⟨0, 4, 2⟩) (by simp) rfl (by norm_num) (by norm_num)
    (by norm_num [abs_le]) (by norm_num [levelArea, meet])).edge (A := binary) levels
  have s1 : isPointOnSameSide binary ⟨0, 4, 2⟩ ⟨4, 0, 2⟩ meet ⟨4, 4, 2⟩ = .ok false := by
    have u1 : subv binary ⟨4, 0, 2⟩ ⟨0, 4, 2⟩ = ⟨4, -4, 0⟩ := by simp [subv, rsub, fl_neg, g4]
    have u2 : subv binary meet ⟨0, 4, 2⟩ = ⟨2, -(1023 / 512), -(1 / 4503599627370496)⟩ := by
      simp only [subv, rsub, meet]
      rw [show (2 - 0 : ℝ) = 2 by norm_num, show (1025 / 512 - 4 : ℝ) = -(1023 / 512) by norm_num,
        show (9007199254740991 / 4503599627370496 - 2 : ℝ) = -(1 / 4503599627370496) by norm_num, fl_neg, fl_neg, g2, gy2, gu]
    have u3 : subv binary ⟨4, 4, 2⟩ ⟨0, 4, 2⟩ = ⟨4, 0, 0⟩ := by simp [subv, rsub, g4]
    refine side_false (x := 1 / 1125899906842624) (z := 1 / 128) (by simp) (by simp) ?_ ?_
    · rw [u1, u2]
      simp only [Rounded.cross, rsub, rmul]
      norm_num [fl_zero, fl_neg, gu4, gy3, g8, gd]
    · rw [u1, u3]
      simp only [Rounded.cross, rsub, rmul]
      norm_num [fl_zero, fl_neg, g16]
  obtain ⟨x2, k2⟩ : ∃ x, isPointOnSameSide binary ⟨4, 0, 2⟩ ⟨4, 4, 2⟩ meet ⟨0, 4, 2⟩ = .ok x := by
    refine side_ok ?_
    rw [show subv binary ⟨4, 4, 2⟩ ⟨4, 0, 2⟩ = ⟨0, 4, 0⟩ by simp [subv, rsub, g4],
      show subv binary ⟨0, 4, 2⟩ ⟨4, 0, 2⟩ = ⟨-4, 4, 0⟩ by simp [subv, rsub, fl_neg, g4]]
    simp only [Rounded.cross, rsub, rmul]
    norm_num [fl_zero, fl_neg, g16]
  obtain ⟨x3, k3⟩ : ∃ x, isPointOnSameSide binary ⟨4, 4, 2⟩ ⟨0, 4, 2⟩ meet ⟨4, 0, 2⟩ = .ok x := by
    refine side_ok ?_
    rw [show subv binary ⟨0, 4, 2⟩ ⟨4, 4, 2⟩ = ⟨-4, 0, 0⟩ by simp [subv, rsub, fl_neg, g4],
      show subv binary ⟨4, 0, 2⟩ ⟨4, 4, 2⟩ = ⟨0, -4, 0⟩ by simp [subv, rsub, fl_neg, g4]]
    simp only [Rounded.cross, rsub, rmul]
    norm_num [fl_zero, fl_neg, g16]
  unfold isPointInside
  simp only [bind, Except.bind, pure, Except.pure, e1, e2, e3, k2, k3, s1, other (c := ⟨0, 4, 2⟩) (by simp),
    other (c := ⟨4, 0, 2⟩) (by simp), other (c := ⟨4, 4, 2⟩) (by simp), Bool.or_self, Bool.false_and, Bool.false_eq_true, if_false]
  split <;> rfl

/-- The point of the ceiling straight above is not noticed. -/
theorem missed : isPointInsideProjection binary (1 / 1000) ⟨2, 1025 / 512, 1 / 4⟩ ⟨0, 0, 343⟩ corners [(3, 0, 1), (3, 1, 2)] =
    .ok false := by
  rw [project]
  have f1 := first_false
  have f2 := second_false
  have hl : triangleLoop binary meet corners true [(3, 0, 1), (3, 1, 2)] = .ok false := by
    simp [triangleLoop, corners, f1, f2]
  unfold pointInPolygonTol
  obtain ⟨r, hr, -⟩ := insideBbox_ok (m := 1) binary (by norm_num) (ps := corners) (by simp [corners]) (by
    intro p hp
    simp only [corners, List.mem_cons, List.not_mem_nil, or_false] at hp
    rcases hp with rfl | rfl | rfl | rfl <;> norm_num [Reach, abs_le]) meet
  rw [hr]
  cases r
  · rfl
  · simp only [hl, ite_self]

end B3d.Rounded.Miss
