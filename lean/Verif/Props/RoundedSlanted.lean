import Verif.Props.Rounded

/-! # C109: slanted planes -/

namespace B3d.Rounded

open Spec Planar Triangles

/-! ## A few roundings -/

theorem fl_3 : fl 3 = 3 := by
  rw [fl_of_pos (by norm_num), flp_eq (e := -51) (k := 6755399441055744) (by norm_num) (by norm_num) (by norm_num) (by norm_num)]
  norm_num

theorem fl_4 : fl 4 = 4 := by
  rw [fl_of_pos (by norm_num), flp_eq (e := -50) (k := 4503599627370496) (by norm_num) (by norm_num) (by norm_num) (by norm_num)]
  norm_num

theorem fl_12 : fl 12 = 12 := by
  rw [fl_of_pos (by norm_num), flp_eq (e := -49) (k := 6755399441055744) (by norm_num) (by norm_num) (by norm_num) (by norm_num)]
  norm_num

theorem fl_16 : fl 16 = 16 := by
  rw [fl_of_pos (by norm_num), flp_eq (e := -48) (k := 4503599627370496) (by norm_num) (by norm_num) (by norm_num) (by norm_num)]
  norm_num

theorem fl_144 : fl 144 = 144 := by
  rw [fl_of_pos (by norm_num), flp_eq (e := -45) (k := 5066549580791808) (by norm_num) (by norm_num) (by norm_num) (by norm_num)]
  norm_num

theorem fl_288 : fl 288 = 288 := by
  rw [fl_of_pos (by norm_num), flp_eq (e := -44) (k := 5066549580791808) (by norm_num) (by norm_num) (by norm_num) (by norm_num)]
  norm_num

theorem fl_root : fl (Real.sqrt 288) = 4776788754394329 * 2 ^ (-48 : ℤ) := by
  rw [fl_of_pos (by norm_num)]
  have h1 : (4776788754394329 - 1 / 2) * 2 ^ (-48 : ℤ) ≤ Real.sqrt 288 := Real.le_sqrt_of_sq_le (by norm_num)
  have h2 : Real.sqrt 288 < (4776788754394329 + 1 / 2) * 2 ^ (-48 : ℤ) := (Real.sqrt_lt' (by norm_num)).2 (by norm_num)
  exact_mod_cast flp_eq (e := -48) (k := 4776788754394329) (le_trans (by norm_num) h1) (lt_of_lt_of_le h2 (by norm_num))
    (by exact_mod_cast h1) (by exact_mod_cast h2)

theorem fl_nu : fl (12 / (4776788754394329 * 2 ^ (-48 : ℤ))) = 6369051672525773 * 2 ^ (-53 : ℤ) := by
  rw [fl_of_pos (by norm_num)]
  exact_mod_cast flp_eq (e := -53) (k := 6369051672525773) (by norm_num) (by norm_num) (by norm_num) (by norm_num)

theorem fl_nu997 : fl (6369051672525773 * 2 ^ (-53 : ℤ) * 997) = 6201117692879097 * 2 ^ (-43 : ℤ) := by
  rw [fl_of_pos (by norm_num)]
  exact_mod_cast flp_eq (e := -43) (k := 6201117692879097) (by norm_num) (by norm_num) (by norm_num) (by norm_num)

theorem fl_nu3 : fl (6369051672525773 * 2 ^ (-53 : ℤ) * 3) = 4776788754394330 * 2 ^ (-51 : ℤ) := by
  rw [fl_of_pos (by norm_num)]
  exact_mod_cast flp_eq (e := -51) (k := 4776788754394330) (by norm_num) (by norm_num) (by norm_num) (by norm_num)

theorem fl_nu993 : fl (6369051672525773 * 2 ^ (-53 : ℤ) * 993) = 6176238584783294 * 2 ^ (-43 : ℤ) := by
  rw [fl_of_pos (by norm_num)]
  exact_mod_cast flp_eq (e := -43) (k := 6176238584783294) (by norm_num) (by norm_num) (by norm_num) (by norm_num)

theorem fl_nu7 : fl (6369051672525773 * 2 ^ (-53 : ℤ) * 7) = 5572920213460051 * 2 ^ (-50 : ℤ) := by
  rw [fl_of_pos (by norm_num)]
  exact_mod_cast flp_eq (e := -50) (k := 5572920213460051) (by norm_num) (by norm_num) (by norm_num) (by norm_num)

theorem fl_sum0 : fl (6201117692879097 * 2 ^ (-43 : ℤ) + 4776788754394330 * 2 ^ (-51 : ℤ)) = 6219777023950950 * 2 ^ (-43 : ℤ) := by
  rw [fl_of_pos (by norm_num)]
  exact_mod_cast flp_eq (e := -43) (k := 6219777023950950) (by norm_num) (by norm_num) (by norm_num) (by norm_num)

theorem fl_sum1 : fl (6176238584783294 * 2 ^ (-43 : ℤ) + 5572920213460051 * 2 ^ (-50 : ℤ)) = 6219777023950951 * 2 ^ (-43 : ℤ) := by
  rw [fl_of_pos (by norm_num)]
  exact_mod_cast flp_eq (e := -43) (k := 6219777023950951) (by norm_num) (by norm_num) (by norm_num) (by norm_num)

theorem fl_diff : fl (-(6219777023950950 * 2 ^ (-43 : ℤ)) + 6219777023950951 * 2 ^ (-43 : ℤ)) = 4503599627370496 * 2 ^ (-95 : ℤ) := by
  rw [fl_of_pos (by norm_num)]
  exact_mod_cast flp_eq (e := -95) (k := 4503599627370496) (by norm_num) (by norm_num) (by norm_num) (by norm_num)

/-! ## A diagonal wall one kilometre from the origin -/

/-- A wall over the edge from `(997, 3)` to `(993, 7)`, three metres high. -/
noncomputable def diagonalWall : List (Vec3 ℝ) := [⟨997, 3, 0⟩, ⟨993, 7, 0⟩, ⟨993, 7, 3⟩, ⟨997, 3, 3⟩]

theorem sub_10 : subv binary ⟨993, 7, 0⟩ ⟨997, 3, 0⟩ = ⟨-4, 4, 0⟩ := by
  simp only [subv, binary]
  norm_num [fl_neg, fl_4, fl_zero]

theorem sub_20 : subv binary ⟨993, 7, 3⟩ ⟨997, 3, 0⟩ = ⟨-4, 4, 3⟩ := by
  simp only [subv, binary]
  norm_num [fl_neg, fl_4, fl_3]

theorem wall_cross : cross binary ⟨-4, 4, 0⟩ ⟨-4, 4, 3⟩ = ⟨12, 12, 0⟩ := by
  simp only [cross, binary]
  norm_num [fl_neg, fl_12, fl_16, fl_zero]

theorem wall_norm : binary.norm ⟨12, 12, 0⟩ = 4776788754394329 * 2 ^ (-48 : ℤ) := by
  show bnorm _ = _
  unfold bnorm
  rw [← fl_root]
  norm_num [fl_144, fl_288, fl_zero]

theorem wall_normal : normal binary ⟨997, 3, 0⟩ ⟨993, 7, 0⟩ ⟨993, 7, 3⟩ = some ⟨6369051672525773 * 2 ^ (-53 : ℤ), 6369051672525773 * 2 ^ (-53 : ℤ), 0⟩ := by
  unfold normal
  simp only [sub_10, sub_20, wall_cross, wall_norm]
  rw [if_neg]
  · simp only [divv, binary, fl_nu]
    simp [fl_zero]
  · rw [sub_10, sub_20, wall_cross, wall_norm]
    intro h
    have := le_of_isClose binary (by norm_num [NP_RTOL]) (by norm_num [NP_ATOL]) h
    norm_num [NP_RTOL, NP_ATOL] at this

theorem wall_dot0 : binary.dot ⟨6369051672525773 * 2 ^ (-53 : ℤ), 6369051672525773 * 2 ^ (-53 : ℤ), 0⟩ ⟨997, 3, 0⟩ = 6219777023950950 * 2 ^ (-43 : ℤ) := by
  show bdot _ _ = _
  simp only [bdot, fl_nu997, fl_nu3, mul_zero, fl_zero, add_zero, fl_sum0]
  rw [← fl_sum0, fl_fl]

theorem wall_dot1 : binary.dot ⟨6369051672525773 * 2 ^ (-53 : ℤ), 6369051672525773 * 2 ^ (-53 : ℤ), 0⟩ ⟨993, 7, 0⟩ = 6219777023950951 * 2 ^ (-43 : ℤ) := by
  show bdot _ _ = _
  simp only [bdot, fl_nu993, fl_nu7, mul_zero, fl_zero, add_zero, fl_sum1]
  rw [← fl_sum1, fl_fl]

theorem lit_atol : binary.lit GEOM_ATOL ≤ 101 / 10 ^ 15 := by
  have := fl_err' GEOM_ATOL
  have h := abs_le.1 this
  show fl GEOM_ATOL ≤ _
  norm_num [GEOM_ATOL] at h ⊢
  linarith

theorem wall_off : ¬ |binary.add (-binary.dot ⟨6369051672525773 * 2 ^ (-53 : ℤ), 6369051672525773 * 2 ^ (-53 : ℤ), 0⟩ ⟨997, 3, 0⟩)
    (binary.dot ⟨6369051672525773 * 2 ^ (-53 : ℤ), 6369051672525773 * 2 ^ (-53 : ℤ), 0⟩ ⟨993, 7, 0⟩)| < binary.lit GEOM_ATOL := by
  rw [wall_dot0, wall_dot1]
  have : binary.add (-(6219777023950950 * 2 ^ (-43 : ℤ))) (6219777023950951 * 2 ^ (-43 : ℤ)) = 1 / 2 ^ 43 := by
    show fl _ = _
    rw [fl_diff]; norm_num
  rw [this]
  have := lit_atol
  norm_num at this ⊢
  linarith

theorem length_le {x y z : ℝ} {k : ℝ} (hk : 0 ≤ k) (h : x ^ 2 + y ^ 2 + z ^ 2 ≤ k ^ 2) : binary.norm ⟨x, y, z⟩ ≤ 2 * k := by
  have h1 := abs_le.1 (binary.norm_err ⟨x, y, z⟩)
  have h2 : Vec3.norm (⟨x, y, z⟩ : Vec3 ℝ) ≤ k := by
    refine Vec3.norm_le_of_sq hk ?_
    rw [Vec3.normSq_def]
    linarith
  have h3 := Vec3.norm_nonneg (⟨x, y, z⟩ : Vec3 ℝ)
  norm_num at h1
  linarith

theorem length_ge {x y z : ℝ} {k : ℝ} (h : k ^ 2 ≤ x ^ 2 + y ^ 2 + z ^ 2) : k / 2 ≤ binary.norm ⟨x, y, z⟩ := by
  have h1 := abs_le.1 (binary.norm_err ⟨x, y, z⟩)
  have h2 : k ≤ Vec3.norm (⟨x, y, z⟩ : Vec3 ℝ) := by
    refine Vec3.le_norm_of_sq ?_
    rw [Vec3.normSq_def]
    linarith
  norm_num at h1
  linarith

theorem lit_eps : binary.lit EPSILON ≤ 1 := by
  have h := abs_le.1 (fl_err' EPSILON)
  show fl EPSILON ≤ _
  norm_num [EPSILON] at h ⊢
  linarith

theorem wall_not_collinear : arePointsCollinear binary diagonalWall = .ok false := by
  have u1 : unitFrom binary ⟨997, 3, 0⟩ ⟨993, 7, 0⟩ = divv binary ⟨-4, 4, 0⟩ (binary.norm ⟨-4, 4, 0⟩) := by
    simp only [unitFrom, sub_10]
    rw [if_pos]
    have := length_ge (x := -4) (y := 4) (z := 0) (k := 4) (by norm_num)
    have := lit_eps
    linarith
  have u2 : unitFrom binary ⟨997, 3, 0⟩ ⟨993, 7, 3⟩ = divv binary ⟨-4, 4, 3⟩ (binary.norm ⟨-4, 4, 3⟩) := by
    simp only [unitFrom, sub_20]
    rw [if_pos]
    have := length_ge (x := -4) (y := 4) (z := 3) (k := 4) (by norm_num)
    have := lit_eps
    linarith
  have hz : 1 / 10 ≤ (divv binary ⟨-4, 4, 3⟩ (binary.norm ⟨-4, 4, 3⟩)).z := by
    have h1 := length_ge (x := -4) (y := 4) (z := 3) (k := 4) (by norm_num)
    have h2 := length_le (x := -4) (y := 4) (z := 3) (k := 7) (by norm_num) (by norm_num)
    show 1 / 10 ≤ fl (3 / _)
    set n := binary.norm ⟨-4, 4, 3⟩
    have h3 : 3 / 14 ≤ 3 / n := by
      apply div_le_div_of_nonneg_left <;> linarith
    have h4 := abs_le.1 (fl_err' (3 / n))
    rw [abs_of_pos (by linarith)] at h4
    norm_num at h4 h3 ⊢
    linarith
  have z0 : (divv binary ⟨-4, 4, 0⟩ (binary.norm ⟨-4, 4, 0⟩)).z = 0 := by
    show fl (0 / _) = 0
    rw [zero_div, fl_zero]
  have key : ∀ b : ℝ, b = 0 → ¬ isClose binary (divv binary ⟨-4, 4, 3⟩ (binary.norm ⟨-4, 4, 3⟩)).z b NP_RTOL GEOM_ATOL := by
    rintro b rfl h
    have := le_of_isClose binary (by norm_num [NP_RTOL]) (by norm_num [GEOM_ATOL]) h
    have := le_abs_self ((divv binary ⟨-4, 4, 3⟩ (binary.norm ⟨-4, 4, 3⟩)).z - 0)
    norm_num [NP_RTOL, GEOM_ATOL] at *
    linarith
  unfold arePointsCollinear diagonalWall
  simp only [List.map_cons, List.map_nil, u1, u2, collinearLoop]
  rw [if_neg]
  rintro (h | h)
  · exact key _ z0 h.2.2
  · exact key _ (by rw [Vec3.neg_z, z0, neg_zero]) h.2.2

/-- **C109 is false for slanted planes.**  The four corners of a wall at 45 degrees, one kilometre from the origin, are
exactly in a plane, and exact arithmetic makes a polygon of them.  With 53 binary digits the constructor raises an
AssertionError, because the corners seem to be `1.1e-13` out of the plane, more than the tolerance of `1e-13`. -/
theorem C109_slanted_fails : (∃ P, Polygon.polygonNew diagonalWall none none = .ok P ∧ P.pts = diagonalWall) ∧
    polygonNew binary diagonalWall = .error .assertionError := by
  constructor
  · have hr2 : Real.sqrt 2 * Real.sqrt 2 = 2 := Real.mul_self_sqrt (by norm_num)
    have hp : 0 < Real.sqrt 2 := by positivity
    set r := Real.sqrt 2
    have hb : 1 < r ∧ r < 2 := by constructor <;> nlinarith
    have hx : Axes (⟨-r / 2, r / 2, 0⟩ : Vec3 ℝ) ⟨0, 0, 1⟩ := by
      refine ⟨?_, ?_, ?_⟩ <;> simp [Vec3.dot]
      nlinarith
    have e : diagonalWall = [(0, 0), (4 * r, 0), (4 * r, 3), (0, 3)].map (inPlane ⟨997, 3, 0⟩ ⟨-r / 2, r / 2, 0⟩ ⟨0, 0, 1⟩) := by
      simp only [diagonalWall, List.map_cons, List.map_nil, inPlane]
      congr 1
      · ext <;> simp
      congr 1
      · ext <;> simp <;> nlinarith
      congr 1
      · ext <;> simp <;> nlinarith
      congr 1
      · ext <;> simp
    obtain ⟨c1, c2, c3⟩ := rectangle_crisp (m := 1) (p := 4 * r) (q := 3) (by norm_num) (by linarith) (by linarith)
      (by norm_num) (by norm_num)
    have hc := convex_crisp (o := ⟨997, 3, 0⟩) hx c1 (by simp) c2 c3 (by
      rw [← List.forall_mem_map (f := inPlane ⟨997, 3, 0⟩ ⟨-r / 2, r / 2, 0⟩ ⟨0, 0, 1⟩) (P := Reach 1), ← e]
      simp only [diagonalWall, List.forall_mem_cons, Reach]
      norm_num)
    obtain ⟨P, h1, h2, -⟩ := Polygon.C84_convex_partial hc
    rw [e]
    exact ⟨P, h1, h2⟩
  · have hc : arePointsCoplanar binary diagonalWall = false := by
      unfold arePointsCoplanar
      have := wall_not_collinear
      unfold diagonalWall at this ⊢
      simp only [List.length_cons, List.length_nil, this, firstNormal, wall_normal]
      simp only [Nat.reduceAdd, Nat.reduceLeDiff, if_false, List.all_cons, Bool.and_eq_false_iff]
      exact .inr (.inl (decide_eq_false wall_off))
    unfold polygonNew
    rw [if_pos hc]

end B3d.Rounded
