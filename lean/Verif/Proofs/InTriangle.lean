import Verif.Proofs.Norms
import Verif.Proofs.Region
import Verif.Proofs.Rectangle
import Verif.Props.Bboxes

/-! # What the point-in-triangle test means -/

namespace B3d.Triangles

open Spec Points

theorem npRound_close (x : ℝ) : |npRound x - x| ≤ 1 / 2 / 10 ^ 8 := by
  have key : ∃ r : ℤ, npRound x = (r : ℝ) / 10 ^ 8 ∧ |(r : ℝ) - x * 10 ^ 8| ≤ 1 / 2 := by
    unfold npRound
    simp only []
    refine ⟨_, rfl, ?_⟩
    generalize x * 10 ^ 8 = y
    have h1 := Int.floor_le y
    have h2 := Int.lt_floor_add_one y
    split
    · rw [abs_le]; constructor <;> linarith
    · split
      · push_cast; rw [abs_le]; constructor <;> linarith
      · split
        · rw [abs_le]; constructor <;> linarith
        · push_cast; rw [abs_le]; constructor <;> linarith
  obtain ⟨r, hr, h⟩ := key
  rw [hr]
  have e : (r : ℝ) / 10 ^ 8 - x = ((r : ℝ) - x * 10 ^ 8) / 10 ^ 8 := by field_simp
  rw [e, abs_div, abs_of_pos (by norm_num : (0 : ℝ) < 10 ^ 8)]
  exact div_le_div_of_nonneg_right h (by norm_num)

/-- The box test of `edgeTest` on one axis. -/
theorem box_axis {x p q : ℝ} (h : ¬ (npRound x > max (npRound p) (npRound q) + GEOM_ATOL ∨
    npRound x < min (npRound p) (npRound q) - GEOM_ATOL)) :
    x ≤ max p q + 11 / 10 ^ 9 ∧ min p q - 11 / 10 ^ 9 ≤ x := by
  push Not at h
  obtain ⟨h1, h2⟩ := h
  have a := abs_le.1 (npRound_close x)
  have b := abs_le.1 (npRound_close p)
  have c := abs_le.1 (npRound_close q)
  have hm : max (npRound p) (npRound q) ≤ max p q + 1 / 2 / 10 ^ 8 := by
    apply max_le
    · linarith [le_max_left p q]
    · linarith [le_max_right p q]
  have hm2 : min p q - 1 / 2 / 10 ^ 8 ≤ min (npRound p) (npRound q) := by
    apply le_min
    · linarith [min_le_left p q]
    · linarith [min_le_right p q]
  clear b c
  generalize max (npRound p) (npRound q) = A at *
  generalize min (npRound p) (npRound q) = B at *
  generalize max p q = A' at *
  generalize min p q = B' at *
  simp only [GEOM_ATOL] at h1 h2
  norm_num at h1 h2 hm hm2 a ⊢
  constructor <;> linarith

/-- One axis of a point `p + s v` in the box of `p` and `p + l u`, with `v` close to `u`. -/
theorem axis_len {u v s l : ℝ} (hu : 1 / 2 ≤ |u|) (hv : |v - u| ≤ GEOM_ATOL + NP_RTOL * |u|) (hu1 : |u| ≤ 1)
    (hs : 0 ≤ s) (hl : 0 ≤ l) (h1 : s * v ≤ max 0 (l * u) + 11 / 10 ^ 9)
    (h2 : min 0 (l * u) - 11 / 10 ^ 9 ≤ s * v) : s ≤ l + 21 / 10 ^ 6 * l + 23 / 10 ^ 9 := by
  have hv' : |v - u| ≤ 10001 / 10 ^ 9 := by
    simp only [GEOM_ATOL, NP_RTOL] at hv
    norm_num at hv ⊢
    linarith
  rw [abs_le] at hv'
  norm_num at hv'
  norm_num only at h1 h2 ⊢
  rcases le_or_gt 0 u with h | h
  · rw [abs_of_nonneg h] at hu hu1
    rw [max_eq_right (mul_nonneg hl h)] at h1
    nlinarith
  · rw [abs_of_neg h] at hu hu1
    rw [min_eq_right (mul_nonpos_of_nonneg_of_nonpos hl h.le)] at h2
    nlinarith

theorem axis_back {u v s l : ℝ} (hu : 1 / 2 ≤ |u|) (hv : |v + u| ≤ GEOM_ATOL + NP_RTOL * |u|) (hu1 : |u| ≤ 1)
    (hs : 0 ≤ s) (hl : 0 ≤ l) (h1 : s * v ≤ max 0 (l * u) + 11 / 10 ^ 9)
    (h2 : min 0 (l * u) - 11 / 10 ^ 9 ≤ s * v) : s ≤ 23 / 10 ^ 9 := by
  have hv' : |v + u| ≤ 10001 / 10 ^ 9 := by
    simp only [GEOM_ATOL, NP_RTOL] at hv
    norm_num at hv ⊢
    linarith
  rw [abs_le] at hv'
  norm_num at hv'
  norm_num only at h1 h2 ⊢
  rcases le_or_gt 0 u with h | h
  · rw [abs_of_nonneg h] at hu hu1
    rw [min_eq_left (mul_nonneg hl h)] at h2
    nlinarith
  · rw [abs_of_neg h] at hu hu1
    rw [max_eq_left (mul_nonpos_of_nonneg_of_nonpos hl h.le)] at h1
    nlinarith

theorem edge_arith {s l M d m : ℝ} (hsl : s ≤ l + 21 / 10 ^ 6 * l + 23 / 10 ^ 9)
    (h3 : s - m ≤ 21 / 10 ^ 6 * l + 23 / 10 ^ 9) (h4 : s * d ≤ s * (10001 / 10 ^ 9)) (hlM : l ≤ 2 * M)
    (hM : 0 ≤ M) : s * d + (s - m) ≤ 1 / 10 ^ 4 * M + 1 / 10 ^ 7 := by
  generalize s * d = k at *
  norm_num at hsl h3 h4 ⊢
  linarith

/-- A point accepted by the edge test is close to the edge. -/
theorem edgeTest_sound {x p q : Vec3 ℝ} {M : ℝ} (hp : Vec3.norm p ≤ M) (hq : Vec3.norm q ≤ M)
    (h : edgeTest x p q GEOM_ATOL = some true) :
    ∃ t : ℝ, 0 ≤ t ∧ t ≤ 1 ∧ Vec3.norm (x - (p + t • (q - p))) ≤ 1 / 10 ^ 4 * M + 1 / 10 ^ 7 := by
  have hM : 0 ≤ M := (Vec3.norm_nonneg p).trans hp
  unfold edgeTest at h
  split at h
  case h_2 => cases h
  rename_i hcol
  simp only [Option.some.injEq, decide_eq_true_eq] at h
  push Not at h
  obtain ⟨bx, bY, bz⟩ := h
  have bx := box_axis (not_or.2 ⟨not_lt.2 bx.1, not_lt.2 bx.2⟩)
  have bY := box_axis (not_or.2 ⟨not_lt.2 bY.1, not_lt.2 bY.2⟩)
  have bz := box_axis (not_or.2 ⟨not_lt.2 bz.1, not_lt.2 bz.2⟩)
  have shift : ∀ {g a b : ℝ}, g ≤ max a b + 11 / 10 ^ 9 ∧ min a b - 11 / 10 ^ 9 ≤ g →
      g - a ≤ max 0 (b - a) + 11 / 10 ^ 9 ∧ min 0 (b - a) - 11 / 10 ^ 9 ≤ g - a := by
    intro g a b h
    rcases le_total a b with hab | hab
    · rw [max_eq_right hab, min_eq_left hab] at h
      rw [max_eq_right (by linarith), min_eq_left (by linarith)]
      constructor <;> linarith
    · rw [max_eq_left hab, min_eq_right hab] at h
      rw [max_eq_left (by linarith), min_eq_right (by linarith)]
      constructor <;> linarith
  have sx := shift bx
  have sy := shift bY
  have sz := shift bz
  simp only [arePointsCollinear, List.map_cons, List.map_nil, Except.ok.injEq, collinearLoop] at hcol
  split at hcol
  case isFalse => cases hcol
  rename_i hcl
  -- degenerate edge
  by_cases hL : EPSILON < Vec3.norm (q - p)
  case neg =>
    refine ⟨0, le_refl _, zero_le_one, ?_⟩
    rw [zero_smul, add_zero]
    have hL' : Vec3.norm (q - p) ≤ 1 / 10 ^ 12 := by
      have := not_lt.1 hL
      simpa only [EPSILON] using this
    have c : ∀ {g a : ℝ}, |a| ≤ Vec3.norm (q - p) → g ≤ max 0 a + 11 / 10 ^ 9 ∧ min 0 a - 11 / 10 ^ 9 ≤ g →
        |g| ≤ 12 / 10 ^ 9 := by
      intro g a ha h
      rw [abs_le] at ha
      have h1 : max 0 a ≤ 1 / 10 ^ 12 := max_le (by norm_num) (by linarith)
      have h2 : -(1 / 10 ^ 12) ≤ min 0 a := le_min (by norm_num) (by linarith)
      generalize max 0 a = A at *
      generalize min 0 a = B at *
      rw [abs_le]
      norm_num at h1 h2 h ⊢
      constructor <;> linarith
    have := Vec3.norm_le_two (a := x - p) (c (Vec3.abs_x_le (q - p)) sx) (c (Vec3.abs_y_le (q - p)) sy)
      (c (Vec3.abs_z_le (q - p)) sz)
    norm_num at this ⊢
    linarith
  by_cases hS : EPSILON < Vec3.norm (x - p)
  case neg =>
    refine ⟨0, le_refl _, zero_le_one, ?_⟩
    rw [zero_smul, add_zero]
    have hS' : Vec3.norm (x - p) ≤ 1 / 10 ^ 12 := by
      have := not_lt.1 hS
      simpa only [EPSILON] using this
    norm_num at hS' ⊢
    linarith
  have heps : (0 : ℝ) < EPSILON := by norm_num [EPSILON]
  have hL0 : 0 < Vec3.norm (q - p) := heps.trans hL
  have hS0 : 0 < Vec3.norm (x - p) := heps.trans hS
  simp only [unitFrom, if_pos hL, if_pos hS] at hcl
  obtain ⟨u, hu⟩ : ∃ u, u = (1 / Vec3.norm (q - p)) • (q - p) := ⟨_, rfl⟩
  obtain ⟨v, hv⟩ : ∃ v, v = (1 / Vec3.norm (x - p)) • (x - p) := ⟨_, rfl⟩
  have hu1 : Vec3.norm u = 1 := by rw [hu]; exact Vec3.norm_unit hL0
  obtain ⟨l, hl⟩ : ∃ l, l = Vec3.norm (q - p) := ⟨_, rfl⟩
  obtain ⟨s, hs⟩ : ∃ s, s = Vec3.norm (x - p) := ⟨_, rfl⟩
  have eq' : q - p = l • u := by
    rw [hu, hl, smul_smul, mul_one_div, div_self hL0.ne', one_smul]
  have ex' : x - p = s • v := by
    rw [hv, hs, smul_smul, mul_one_div, div_self hS0.ne', one_smul]
  rw [← hu, ← hv] at hcl
  have hlM : l ≤ 2 * M := by
    rw [hl]
    exact (Vec3.norm_sub_le q p).trans (by linarith)
  rw [← hl] at hL0
  rw [← hs] at hS0
  have hux := Vec3.abs_x_le u
  have huy := Vec3.abs_y_le u
  have huz := Vec3.abs_z_le u
  rw [hu1] at hux huy huz
  have tx : s * v.x ≤ max 0 (l * u.x) + 11 / 10 ^ 9 ∧ min 0 (l * u.x) - 11 / 10 ^ 9 ≤ s * v.x := by
    have e1 := congrArg Vec3.x eq'
    have e2 := congrArg Vec3.x ex'
    simp only [Vec3.sub_x, Vec3.smul_x] at e1 e2
    rw [← e1, ← e2]; exact sx
  have ty : s * v.y ≤ max 0 (l * u.y) + 11 / 10 ^ 9 ∧ min 0 (l * u.y) - 11 / 10 ^ 9 ≤ s * v.y := by
    have e1 := congrArg Vec3.y eq'
    have e2 := congrArg Vec3.y ex'
    simp only [Vec3.sub_y, Vec3.smul_y] at e1 e2
    rw [← e1, ← e2]; exact sy
  have tz : s * v.z ≤ max 0 (l * u.z) + 11 / 10 ^ 9 ∧ min 0 (l * u.z) - 11 / 10 ^ 9 ≤ s * v.z := by
    have e1 := congrArg Vec3.z eq'
    have e2 := congrArg Vec3.z ex'
    simp only [Vec3.sub_z, Vec3.smul_z] at e1 e2
    rw [← e1, ← e2]; exact sz
  rcases hcl with ⟨c1, c2, c3⟩ | ⟨c1, c2, c3⟩
  · simp only [isClose] at c1 c2 c3
    have hsl : s ≤ l + 21 / 10 ^ 6 * l + 23 / 10 ^ 9 := by
      rcases Vec3.exists_half hu1 with h | h | h
      · exact axis_len h c1 hux hS0.le hL0.le tx.1 tx.2
      · exact axis_len h c2 huy hS0.le hL0.le ty.1 ty.2
      · exact axis_len h c3 huz hS0.le hL0.le tz.1 tz.2
    have hd : Vec3.norm (v - u) ≤ 2 * GEOM_ATOL + NP_RTOL * Vec3.norm u :=
      Vec3.norm_le_of_close (by norm_num [GEOM_ATOL]) (by norm_num [NP_RTOL]) c1 c2 c3
    have hd' : Vec3.norm (v - u) ≤ 10001 / 10 ^ 9 := by
      rw [hu1] at hd
      simp only [GEOM_ATOL, NP_RTOL] at hd
      norm_num at hd ⊢
      linarith
    refine ⟨min s l / l, div_nonneg (le_min hS0.le hL0.le) hL0.le, (div_le_one hL0).2 (min_le_right _ _), ?_⟩
    have e : x - (p + (min s l / l) • (q - p)) = s • (v - u) + (s - min s l) • u := by
      have e0 : x - (p + (min s l / l) • (q - p)) = (x - p) - (min s l / l) • (q - p) := by abel
      rw [e0, eq', ex', smul_smul, div_mul_cancel₀ _ hL0.ne', smul_sub, sub_smul]
      abel
    rw [e]
    refine (Vec3.norm_add_le _ _).trans ?_
    rw [Vec3.norm_smul, Vec3.norm_smul, hu1, abs_of_pos hS0, abs_of_nonneg (by linarith [min_le_left s l]), mul_one]
    have h3 : s - min s l ≤ 21 / 10 ^ 6 * l + 23 / 10 ^ 9 := by
      rcases le_total s l with hh | hh
      · rw [min_eq_left hh]; norm_num; nlinarith
      · rw [min_eq_right hh]; linarith
    have h4 := mul_le_mul_of_nonneg_left hd' hS0.le
    exact edge_arith hsl h3 h4 hlM hM
  · simp only [isClose, Vec3.smul_x, Vec3.smul_y, Vec3.smul_z, neg_mul, one_mul, sub_neg_eq_add, abs_neg]
      at c1 c2 c3
    have hsl : s ≤ 23 / 10 ^ 9 := by
      rcases Vec3.exists_half hu1 with h | h | h
      · exact axis_back h c1 hux hS0.le hL0.le tx.1 tx.2
      · exact axis_back h c2 huy hS0.le hL0.le ty.1 ty.2
      · exact axis_back h c3 huz hS0.le hL0.le tz.1 tz.2
    refine ⟨0, le_refl _, zero_le_one, ?_⟩
    rw [zero_smul, add_zero, ← hs]
    norm_num at hsl ⊢
    linarith

/-- Equal for `np.allclose` means close, relative to the second point. -/
theorem pointsEqual_close {x v : Vec3 ℝ} {M : ℝ} (hv : Vec3.norm v ≤ M) (h : pointsEqual x v GEOM_ATOL = true) :
    Vec3.norm (x - v) ≤ 1 / 10 ^ 4 * M + 1 / 10 ^ 7 := by
  have hM : 0 ≤ M := (Vec3.norm_nonneg v).trans hv
  simp only [pointsEqual, decide_eq_true_eq] at h
  obtain ⟨c1, c2, c3⟩ := h
  simp only [isClose] at c1 c2 c3
  have hd : Vec3.norm (x - v) ≤ 2 * GEOM_ATOL + NP_RTOL * Vec3.norm v :=
    Vec3.norm_le_of_close (by norm_num [GEOM_ATOL]) (by norm_num [NP_RTOL]) c1 c2 c3
  simp only [GEOM_ATOL, NP_RTOL] at hd
  norm_num at hd ⊢
  linarith

/-- A point on the same side as the third corner, as seen along the normal. -/
theorem sameSide_sound {n p q x r : Vec3 ℝ} (hn : n ≠ 0) (hq : Vec3.dot n (q - p) = 0)
    (hr : Vec3.dot n (r - p) = 0)
    (h : isPointOnSameSide p q x r GEOM_ATOL = .ok true) (hpos : 0 < sideOf n r p q) : 0 < sideOf n x p q := by
  unfold isPointOnSameSide at h
  simp only [] at h
  split at h
  · cases h
  rename_i h1
  split at h
  · cases h
  rename_i h2
  simp only [Except.ok.injEq, decide_eq_true_eq] at h
  have hg : (0 : ℝ) < GEOM_ATOL := by norm_num [GEOM_ATOL]
  have hn2 := Vec3.normSq_pos hn
  have hx0 : 0 < Vec3.norm (Vec3.cross (q - p) (x - p)) := by linarith
  have hr0 : 0 < Vec3.norm (Vec3.cross (q - p) (r - p)) := by linarith
  have hd := Polygon.dot_of_allClose (Polygon.normSq_unit hr0) (Polygon.normSq_unit hx0) h
  have hd0 : 0 < Vec3.dot (Vec3.cross (q - p) (r - p)) (Vec3.cross (q - p) (x - p)) := by
    rw [Vec3.dot_smul_left, Vec3.dot_smul_right, ← mul_assoc] at hd
    have h3 : 0 < 1 / Vec3.norm (Vec3.cross (q - p) (r - p)) * (1 / Vec3.norm (Vec3.cross (q - p) (x - p))) := by
      positivity
    by_contra hc
    have := mul_nonpos_of_nonneg_of_nonpos h3.le (not_lt.1 hc)
    have := hd.trans this
    norm_num at this
  have par : Vec3.normSq n • Vec3.cross (q - p) (r - p) =
      Vec3.dot n (Vec3.cross (q - p) (r - p)) • n := by
    have e : Vec3.normSq n • Vec3.cross (q - p) (r - p) - Vec3.dot n (Vec3.cross (q - p) (r - p)) • n =
        Vec3.dot n (r - p) • Vec3.cross (q - p) n - Vec3.dot n (q - p) • Vec3.cross (r - p) n := by
      ext <;> simp only [Vec3.normSq, Vec3.dot, Vec3.cross_x, Vec3.cross_y, Vec3.cross_z, Vec3.sub_x, Vec3.sub_y,
        Vec3.sub_z, Vec3.smul_x, Vec3.smul_y, Vec3.smul_z] <;> ring
    rw [hr, hq, zero_smul, zero_smul, sub_self] at e
    exact sub_eq_zero.1 e
  have h4 : 0 < Vec3.dot (Vec3.normSq n • Vec3.cross (q - p) (r - p)) (Vec3.cross (q - p) (x - p)) := by
    rw [Vec3.dot_smul_left]
    exact mul_pos hn2 hd0
  rw [par, Vec3.dot_smul_left] at h4
  exact (pos_iff_pos_of_mul_pos h4).1 hpos

theorem inside_cases {x a b c : Vec3 ℝ} (h : isPointInside x a b c = .ok true) :
    (pointsEqual x a GEOM_ATOL = true ∨ pointsEqual x b GEOM_ATOL = true ∨ pointsEqual x c GEOM_ATOL = true) ∨
    (edgeTest x a b GEOM_ATOL = some true ∨ edgeTest x b c GEOM_ATOL = some true ∨
      edgeTest x c a GEOM_ATOL = some true) ∨
    (isPointOnSameSide a b x c GEOM_ATOL = .ok true ∧ isPointOnSameSide b c x a GEOM_ATOL = .ok true ∧
      isPointOnSameSide c a x b GEOM_ATOL = .ok true) := by
  unfold isPointInside at h
  obtain ⟨rb, hb⟩ := bboxTest_ok x a b c (1 / 100)
  simp only [hb, bind, Except.bind, pure, Except.pure] at h
  split at h
  · cases h
  split at h
  · rename_i hv
    simp only [Bool.or_eq_true] at hv
    left; tauto
  right
  split at h
  · rename_i r hr
    left; left; rw [hr]; simp only [Except.ok.injEq] at h; rw [h]
  split at h
  · rename_i r hr
    left; right; left; rw [hr]; simp only [Except.ok.injEq] at h; rw [h]
  split at h
  · rename_i r hr
    left; right; right; rw [hr]; simp only [Except.ok.injEq] at h; rw [h]
  right
  cases h1 : isPointOnSameSide a b x c with
  | error e => rw [h1] at h; cases h
  | ok r1 =>
    cases h2 : isPointOnSameSide b c x a with
    | error e => rw [h1, h2] at h; cases h
    | ok r2 =>
      cases h3 : isPointOnSameSide c a x b with
      | error e => rw [h1, h2, h3] at h; cases h
      | ok r3 =>
        rw [h1, h2, h3] at h
        simp only [Except.ok.injEq, Bool.and_eq_true] at h
        obtain ⟨⟨rfl, rfl⟩, rfl⟩ := h
        exact ⟨rfl, rfl, rfl⟩

theorem inTriangle_segment {p q r : Vec3 ℝ} {t : ℝ} (h0 : 0 ≤ t) (h1 : t ≤ 1) :
    InTriangle p q r (p + t • (q - p)) :=
  ⟨1 - t, t, 0, by linarith, h0, le_refl _, by ring, by ext <;> simp <;> ring⟩

theorem inTriangle_rot {a b c x : Vec3 ℝ} (h : InTriangle a b c x) : InTriangle b c a x := by
  obtain ⟨r, s, t, hr, hs, ht, h1, h2⟩ := h
  exact ⟨s, t, r, hs, ht, hr, by linarith, by rw [h2]; abel⟩

theorem norm_pos' {n : Vec3 ℝ} (hn : n ≠ 0) : 0 < Vec3.norm n :=
  (Vec3.norm_nonneg n).lt_of_ne' (mt Vec3.norm_eq_zero.1 hn)

/-- The point of the plane below `x`. -/
noncomputable def foot (n : Vec3 ℝ) (e : ℝ) (x : Vec3 ℝ) : Vec3 ℝ := x - ((Vec3.dot n x - e) / Vec3.normSq n) • n

theorem dot_foot {n : Vec3 ℝ} (hn : n ≠ 0) (e : ℝ) (x : Vec3 ℝ) : Vec3.dot n (foot n e x) = e := by
  have := Vec3.normSq_pos hn
  have h2 : Vec3.dot n n = Vec3.normSq n := rfl
  rw [foot, Vec3.dot_sub_right, Vec3.dot_smul_right, h2]
  field_simp
  ring

theorem norm_foot {n : Vec3 ℝ} (hn : n ≠ 0) (e : ℝ) (x : Vec3 ℝ) :
    Vec3.norm (x - foot n e x) = |Vec3.dot n x - e| / Vec3.norm n := by
  have h1 := Vec3.normSq_pos hn
  have h2 := norm_pos' hn
  rw [foot, sub_sub_cancel, Vec3.norm_smul, abs_div, abs_of_pos h1, ← Vec3.norm_sq]
  field_simp

theorem sideOf_foot {n p q : Vec3 ℝ} (e : ℝ) (x : Vec3 ℝ) :
    sideOf n (foot n e x) p q = sideOf n x p q := by
  unfold sideOf foot
  generalize (Vec3.dot n x - e) / Vec3.normSq n = k
  simp only [Vec3.dot, Vec3.cross_x, Vec3.cross_y, Vec3.cross_z, Vec3.sub_x, Vec3.sub_y,
    Vec3.sub_z, Vec3.smul_x, Vec3.smul_y, Vec3.smul_z]
  ring

/-- A point accepted by the test is close to the triangle, relative to the distance of the corners
from the origin. -/
theorem isPointInside_sound {n a b c x : Vec3 ℝ} {e M : ℝ} (hn : n ≠ 0) (ha : Vec3.dot n a = e)
    (hb : Vec3.dot n b = e) (hc : Vec3.dot n c = e)
    (hA : 0 < Vec3.dot n (Vec3.cross (b - a) (c - a)))
    (hMa : Vec3.norm a ≤ M) (hMb : Vec3.norm b ≤ M) (hMc : Vec3.norm c ≤ M)
    (h : isPointInside x a b c = .ok true) :
    (∃ y, InTriangle a b c y ∧ Vec3.norm (x - y) ≤ 1 / 10 ^ 4 * M + 1 / 10 ^ 7) ∨
      InTriangle a b c (foot n e x) := by
  have vert : ∀ p q r : Vec3 ℝ, InTriangle p q r p := fun p q r =>
    ⟨1, 0, 0, zero_le_one, le_refl _, le_refl _, by ring, by simp⟩
  rcases inside_cases h with (h | h | h) | (h | h | h) | ⟨h1, h2, h3⟩
  · exact .inl ⟨a, vert a b c, pointsEqual_close hMa h⟩
  · exact .inl ⟨b, inTriangle_rot (inTriangle_rot (vert b c a)), pointsEqual_close hMb h⟩
  · exact .inl ⟨c, inTriangle_rot (vert c a b), pointsEqual_close hMc h⟩
  · obtain ⟨t, h0, h1, hd⟩ := edgeTest_sound hMa hMb h
    exact .inl ⟨_, inTriangle_segment h0 h1, hd⟩
  · obtain ⟨t, h0, h1, hd⟩ := edgeTest_sound hMb hMc h
    exact .inl ⟨_, inTriangle_rot (inTriangle_rot (inTriangle_segment h0 h1)), hd⟩
  · obtain ⟨t, h0, h1, hd⟩ := edgeTest_sound hMc hMa h
    exact .inl ⟨_, inTriangle_rot (inTriangle_segment h0 h1), hd⟩
  · right
    have d : ∀ {p q : Vec3 ℝ}, Vec3.dot n p = e → Vec3.dot n q = e → Vec3.dot n (p - q) = 0 := by
      intro p q hp hq
      rw [Vec3.dot_sub_right, hp, hq, sub_self]
    rw [inTriangle_iff hn ha hb hc (dot_foot hn e x) hA]
    rw [sideOf_foot, sideOf_foot, sideOf_foot]
    refine ⟨?_, ?_, ?_⟩
    · exact (sameSide_sound hn (d hb ha) (d hc ha) h1 hA).le
    · exact (sameSide_sound hn (d hc hb) (d ha hb) h2 (by unfold sideOf; rw [area_rot]; exact hA)).le
    · exact (sameSide_sound hn (d ha hc) (d hb hc) h3
        (by unfold sideOf; rw [area_rot, area_rot]; exact hA)).le

/-! ## Completeness -/

theorem away_cross {p q x : Vec3 ℝ} {d : ℝ} (hd : 0 ≤ d) (h : AwayFromLine p q x d) :
    d * Vec3.norm (q - p) ≤ Vec3.norm (Vec3.cross (q - p) (x - p)) := by
  by_cases h0 : q - p = 0
  · rw [h0, Vec3.norm_eq_zero.2 rfl, mul_zero]
    exact Vec3.norm_nonneg _
  have hN := Vec3.normSq_pos h0
  have h1 := h (Vec3.dot (q - p) (x - p) / Vec3.normSq (q - p))
  apply Vec3.le_norm_of_sq
  obtain ⟨w, hw⟩ : ∃ w, w = x - (p + (Vec3.dot (q - p) (x - p) / Vec3.normSq (q - p)) • (q - p)) := ⟨_, rfl⟩
  rw [← hw] at h1
  have e1 : Vec3.normSq w * Vec3.normSq (q - p) = Vec3.normSq (Vec3.cross (q - p) (x - p)) := by
    have e2 := Vec3.normSq_cross (q - p) (x - p)
    have e3 : w = (x - p) - (Vec3.dot (q - p) (x - p) / Vec3.normSq (q - p)) • (q - p) := by rw [hw]; abel
    have e4 : ∀ (k : ℝ) (a b : Vec3 ℝ), Vec3.normSq (b - k • a) =
        Vec3.normSq b - 2 * k * Vec3.dot a b + k ^ 2 * Vec3.normSq a := by
      intro k a b
      simp only [Vec3.normSq, Vec3.dot, Vec3.sub_x, Vec3.sub_y, Vec3.sub_z, Vec3.smul_x, Vec3.smul_y,
        Vec3.smul_z]
      ring
    rw [e3, e4]
    field_simp
    linarith
  rw [mul_pow, Vec3.norm_sq, ← e1]
  have h2 : d ^ 2 ≤ Vec3.normSq w := by
    rw [← Vec3.norm_sq]
    exact pow_le_pow_left₀ hd h1 2
  exact mul_le_mul_of_nonneg_right h2 hN.le

theorem inTriangle_norm_le {a b c x : Vec3 ℝ} {D : ℝ} (h : InTriangle a b c x) (h1 : Vec3.norm (b - a) ≤ D)
    (h2 : Vec3.norm (c - a) ≤ D) : Vec3.norm (x - a) ≤ D := by
  obtain ⟨r, s, t, hr, hs, ht, h3, h4⟩ := h
  have e : x - a = s • (b - a) + t • (c - a) := by
    have : r = 1 - s - t := by linarith
    rw [h4, this]
    ext <;> simp <;> ring
  rw [e]
  refine (Vec3.norm_add_le _ _).trans ?_
  rw [Vec3.norm_smul, Vec3.norm_smul, abs_of_nonneg hs, abs_of_nonneg ht]
  have := (Vec3.norm_nonneg _).trans h1
  nlinarith

/-- A point away from the line through the edge is not taken to be on it. -/
theorem edge_none {a b x : Vec3 ℝ} {D : ℝ} (hba : 1 / 10 ^ 6 ≤ Vec3.norm (b - a)) (hxa : Vec3.norm (x - a) ≤ D)
    (hab6 : AwayFromLine a b x (1 / 10 ^ 6)) (habD : AwayFromLine a b x (1 / 10 ^ 4 * D)) :
    edgeTest x a b GEOM_ATOL = none := by
  have heps : (EPSILON : ℝ) < 1 / 10 ^ 6 := by norm_num [EPSILON]
  have hD : 0 ≤ D := (Vec3.norm_nonneg _).trans hxa
  have hxa' : 1 / 10 ^ 6 ≤ Vec3.norm (x - a) := by simpa using hab6 0
  have hcrD := away_cross (by positivity) habD
  unfold edgeTest
  rw [Polygon.notCollinear (heps.trans_le hba) (heps.trans_le hxa')]
  have e2 := Vec3.normSq_cross (b - a) (x - a)
  have h3 : (1 / 10 ^ 4 * D * Vec3.norm (b - a)) ^ 2 ≤ Vec3.normSq (Vec3.cross (b - a) (x - a)) := by
    rw [← Vec3.norm_sq]
    exact pow_le_pow_left₀ (by have := Vec3.norm_nonneg (b - a); positivity) hcrD 2
  rw [mul_pow, Vec3.norm_sq] at h3
  have h4 : Vec3.normSq (x - a) ≤ D ^ 2 := by
    rw [← Vec3.norm_sq]
    exact pow_le_pow_left₀ (Vec3.norm_nonneg _) hxa 2
  have h5 := mul_le_mul_of_nonneg_left h4 (Vec3.normSq_nonneg (b - a))
  have h6 : 0 ≤ Vec3.normSq (b - a) * D ^ 2 := mul_nonneg (Vec3.normSq_nonneg _) (sq_nonneg _)
  norm_num at h3 ⊢
  nlinarith

/-- The tests of one edge for a point well inside. -/
theorem edge_clear {a b c x : Vec3 ℝ} {D : ℝ} (hin : InTriangle a b c x) (h1 : Vec3.norm (b - a) ≤ D)
    (h2 : Vec3.norm (a - c) ≤ D) (hab6 : AwayFromLine a b x (1 / 10 ^ 6))
    (habD : AwayFromLine a b x (1 / 10 ^ 4 * D)) (hca : AwayFromLine c a x (1 / 10 ^ 6)) :
    edgeTest x a b GEOM_ATOL = none ∧ isPointOnSameSide a b x c = .ok true := by
  have heps : (EPSILON : ℝ) < 1 / 10 ^ 6 := by norm_num [EPSILON]
  have hD : 0 ≤ D := (Vec3.norm_nonneg _).trans h1
  have hxa : Vec3.norm (x - a) ≤ D :=
    inTriangle_norm_le hin h1 (by rw [← Vec3.norm_neg]; simpa using h2)
  have hxa' : 1 / 10 ^ 6 ≤ Vec3.norm (x - a) := by simpa using hab6 0
  have hba : 1 / 10 ^ 6 ≤ Vec3.norm (b - a) := by
    obtain ⟨r, s, t, hr, hs, ht, h3, h4⟩ := hin
    have h5 := hca (r + s)
    have e : x - (c + (r + s) • (a - c)) = s • (b - a) := by
      have : t = 1 - r - s := by linarith
      rw [h4, this]
      ext <;> simp <;> ring
    rw [e, Vec3.norm_smul, abs_of_nonneg hs] at h5
    nlinarith [Vec3.norm_nonneg (b - a)]
  have hcr6 := away_cross (by norm_num) hab6
  constructor
  · exact edge_none hba hxa hab6 habD
  · obtain ⟨r, s, t, hr, hs, ht, h3, h4⟩ := hin
    have e : Vec3.cross (b - a) (x - a) = t • Vec3.cross (b - a) (c - a) := by
      have : r = 1 - s - t := by linarith
      rw [h4, this]
      ext <;> simp <;> ring
    have hg : (GEOM_ATOL : ℝ) = 1 / 10 ^ 13 := by norm_num [GEOM_ATOL]
    have hbig : 1 / 10 ^ 12 ≤ Vec3.norm (Vec3.cross (b - a) (x - a)) := by
      refine le_trans ?_ hcr6
      norm_num at hba ⊢
      linarith
    have hle : Vec3.norm (Vec3.cross (b - a) (x - a)) ≤ Vec3.norm (Vec3.cross (b - a) (c - a)) := by
      rw [e, Vec3.norm_smul, abs_of_nonneg ht]
      nlinarith [Vec3.norm_nonneg (Vec3.cross (b - a) (c - a))]
    have ht0 : 0 < t := by
      rcases ht.lt_or_eq with h | h
      · exact h
      · exfalso
        rw [e, ← h, zero_smul, Vec3.norm_eq_zero.2 rfl] at hbig
        norm_num at hbig
    unfold isPointOnSameSide
    simp only []
    rw [if_neg (not_lt.2 (by rw [hg]; refine le_trans ?_ (hbig.trans hle); norm_num)),
      if_neg (not_lt.2 (by rw [hg]; refine le_trans ?_ hbig; norm_num))]
    have hc0 : 0 < Vec3.norm (Vec3.cross (b - a) (c - a)) :=
      lt_of_lt_of_le (by norm_num) (hbig.trans hle)
    have e5 : (1 / Vec3.norm (Vec3.cross (b - a) (x - a))) • Vec3.cross (b - a) (x - a) =
        (1 / Vec3.norm (Vec3.cross (b - a) (c - a))) • Vec3.cross (b - a) (c - a) := by
      rw [e, Vec3.norm_smul, abs_of_pos ht0, smul_smul]
      congr 1
      field_simp
    rw [e5]
    simp only [Except.ok.injEq, decide_eq_true_eq]
    exact allClose_self (by norm_num [NP_RTOL]) (by norm_num [GEOM_ATOL])

theorem inTriangle_bbox {a b c x : Vec3 ℝ} (h : InTriangle a b c x) (pts : List (Vec3 ℝ)) (ha : a ∈ pts)
    (hb : b ∈ pts) (hc : c ∈ pts) : Bboxes.isPointInsideBbox x pts (1 / 100) = .ok true := by
  obtain ⟨lo, hi, r, h1, h2, h3, -⟩ := Bboxes.C25_inside_bbox pts (List.ne_nil_of_mem ha) x (1 / 100)
  obtain ⟨lo', hi', h1', hin, -⟩ := Bboxes.C25_bounding_box_tight pts (List.ne_nil_of_mem ha)
  rw [h1] at h1'
  cases h1'
  rw [h2]
  congr 1
  rw [h3]
  obtain ⟨u, v, w, hu, hv, hw, hs, rfl⟩ := h
  obtain ⟨⟨a1, a2⟩, ⟨a3, a4⟩, ⟨a5, a6⟩⟩ := hin a ha
  obtain ⟨⟨b1, b2⟩, ⟨b3, b4⟩, ⟨b5, b6⟩⟩ := hin b hb
  obtain ⟨⟨c1, c2⟩, ⟨c3, c4⟩, ⟨c5, c6⟩⟩ := hin c hc
  have hu' : u = 1 - v - w := by linarith
  subst hu'
  unfold Bboxes.InBox
  simp only [Vec3.add_x, Vec3.add_y, Vec3.add_z, Vec3.smul_x, Vec3.smul_y, Vec3.smul_z]
  refine ⟨⟨?_, ?_⟩, ⟨?_, ?_⟩, ⟨?_, ?_⟩⟩ <;> nlinarith

/-- A point well inside the triangle is accepted. -/
theorem isPointInside_complete {a b c x : Vec3 ℝ} (h : WellInside a b c x) : isPointInside x a b c = .ok true := by
  obtain ⟨hin, D, h1, h2, h3, ha, hb, hc⟩ := h
  have hl : ∀ {p q : Vec3 ℝ}, AwayFromLine p q x (max (1 / 10 ^ 6) (1 / 10 ^ 4 * D)) →
      AwayFromLine p q x (1 / 10 ^ 6) := fun h t => (le_max_left _ _).trans (h t)
  have hr : ∀ {p q : Vec3 ℝ}, AwayFromLine p q x (max (1 / 10 ^ 6) (1 / 10 ^ 4 * D)) →
      AwayFromLine p q x (1 / 10 ^ 4 * D) := fun h t => (le_max_right _ _).trans (h t)
  have a6 := hl ha
  have b6 := hl hb
  have c6 := hl hc
  have aD := hr ha
  have bD := hr hb
  have cD := hr hc
  obtain ⟨ea, sa⟩ := edge_clear hin h1 h3 a6 aD c6
  obtain ⟨eb, sb⟩ := edge_clear (inTriangle_rot hin) h2 h1 b6 bD a6
  obtain ⟨ec, sc⟩ := edge_clear (inTriangle_rot (inTriangle_rot hin)) h3 h2 c6 cD b6
  unfold isPointInside
  rw [inTriangle_bbox hin [a, b, c] (by simp) (by simp) (by simp)]
  simp only [ea, eb, ec, sa, sb, sc, bind, Except.bind, pure, Except.pure, Bool.not_true, Bool.false_eq_true,
    if_false, Bool.and_self]
  split <;> rfl

/-- The corners are accepted. -/
theorem isPointInside_corner {a b c x : Vec3 ℝ} (h : x = a ∨ x = b ∨ x = c) : isPointInside x a b c = .ok true := by
  have hin : InTriangle a b c x := by
    rcases h with rfl | rfl | rfl
    · exact ⟨1, 0, 0, zero_le_one, le_refl _, le_refl _, by ring, by simp⟩
    · exact ⟨0, 1, 0, le_refl _, zero_le_one, le_refl _, by ring, by simp⟩
    · exact ⟨0, 0, 1, le_refl _, le_refl _, zero_le_one, by ring, by simp⟩
  have hself : ∀ y : Vec3 ℝ, pointsEqual y y GEOM_ATOL = true := fun y => by
    simp only [pointsEqual, decide_eq_true_eq]
    exact allClose_self (by norm_num [NP_RTOL]) (by norm_num [GEOM_ATOL])
  have heq : (pointsEqual x a GEOM_ATOL || pointsEqual x b GEOM_ATOL || pointsEqual x c GEOM_ATOL) = true := by
    rcases h with rfl | rfl | rfl <;> simp [hself]
  unfold isPointInside
  rw [inTriangle_bbox hin [a, b, c] (by simp) (by simp) (by simp)]
  simp only [heq, bind, Except.bind, pure, Except.pure, Bool.not_true, Bool.false_eq_true, if_false, if_true]

/-! ## Points on the edges -/

theorem npRound_mono {x y : ℝ} (h : x ≤ y) : npRound x ≤ npRound y := by
  have key : ∀ X Y : ℝ, X ≤ Y →
      (if X - (Int.floor X : ℝ) < 1 / 2 then Int.floor X else if X - (Int.floor X : ℝ) > 1 / 2 then Int.floor X + 1
        else if Int.floor X % 2 = 0 then Int.floor X else Int.floor X + 1 : ℤ) ≤
      (if Y - (Int.floor Y : ℝ) < 1 / 2 then Int.floor Y else if Y - (Int.floor Y : ℝ) > 1 / 2 then Int.floor Y + 1
        else if Int.floor Y % 2 = 0 then Int.floor Y else Int.floor Y + 1 : ℤ) := by
    intro X Y hXY
    have hf := Int.floor_mono hXY
    rcases hf.lt_or_eq with hf | hf
    · refine le_trans (b := Int.floor X + 1) ?_ (le_trans (b := Int.floor Y) (by omega) ?_)
      · split_ifs <;> omega
      · split_ifs <;> omega
    · rw [hf]
      generalize Int.floor Y = g
      split_ifs <;> first | omega | (exfalso; linarith)
  unfold npRound
  simp only []
  refine div_le_div_of_nonneg_right ?_ (by positivity)
  exact Int.cast_le.2 (key (x * 10 ^ 8) (y * 10 ^ 8) (by linarith))

/-- A point on the edge passes the test of that edge. -/
theorem edgeTest_on {a b x : Vec3 ℝ} (h : OnSegment a b x) (hba : EPSILON < Vec3.norm (b - a))
    (hxa : EPSILON < Vec3.norm (x - a)) : edgeTest x a b GEOM_ATOL = some true := by
  obtain ⟨t, h0, h1, rfl⟩ := h
  have e : a + t • (b - a) - a = t • (b - a) := by abel
  have hb0 : 0 < Vec3.norm (b - a) := lt_trans (by norm_num [EPSILON]) hba
  have ht : 0 < t := by
    rcases h0.lt_or_eq with h | h
    · exact h
    · exfalso
      rw [e, ← h, zero_smul, Vec3.norm_eq_zero.2 rfl] at hxa
      exact absurd hxa (by norm_num [EPSILON])
  have hc : arePointsCollinear [a, b, a + t • (b - a)] GEOM_ATOL = .ok true := by
    have hxa' := hxa
    simp only [arePointsCollinear, List.map_cons, List.map_nil, unitFrom]
    rw [if_pos hba, if_pos hxa, e, Vec3.norm_smul, abs_of_pos ht, smul_smul]
    have e2 : 1 / (t * Vec3.norm (b - a)) * t = 1 / Vec3.norm (b - a) := by field_simp
    rw [e2]
    simp only [collinearLoop]
    rw [if_pos]
    exact .inl (allClose_self (by norm_num [NP_RTOL]) (by norm_num [GEOM_ATOL]))
  unfold edgeTest
  rw [hc]
  simp only [Option.some.injEq, decide_eq_true_eq]
  have axis : ∀ p q y : ℝ, y = p + t * (q - p) → ¬ (npRound y > max (npRound p) (npRound q) + GEOM_ATOL ∨
      npRound y < min (npRound p) (npRound q) - GEOM_ATOL) := by
    intro p q y hy
    have hg : (0 : ℝ) < GEOM_ATOL := GEOM_ATOL_pos
    push Not
    rcases le_total p q with hpq | hpq
    · have l1 : p ≤ y := by nlinarith
      have l2 : y ≤ q := by nlinarith
      exact ⟨by linarith [npRound_mono l2, le_max_right (npRound p) (npRound q)],
        by linarith [npRound_mono l1, min_le_left (npRound p) (npRound q)]⟩
    · have l1 : y ≤ p := by nlinarith
      have l2 : q ≤ y := by nlinarith
      exact ⟨by linarith [npRound_mono l1, le_max_left (npRound p) (npRound q)],
        by linarith [npRound_mono l2, min_le_right (npRound p) (npRound q)]⟩
  rintro (h | h | h)
  · exact axis a.x b.x _ (by simp) h
  · exact axis a.y b.y _ (by simp) h
  · exact axis a.z b.z _ (by simp) h

/-- A point on an edge, away from the lines through the other edges, is accepted. -/
theorem isPointInside_edge {a b c x : Vec3 ℝ} (h : WellOnEdge a b c x ∨ WellOnEdge b c a x ∨ WellOnEdge c a b x) :
    InTriangle a b c x ∧ isPointInside x a b c = .ok true := by
  have heps : (EPSILON : ℝ) < 1 / 10 ^ 6 := by norm_num [EPSILON]
  have hl : ∀ {D : ℝ} {p q : Vec3 ℝ}, AwayFromLine p q x (max (1 / 10 ^ 6) (1 / 10 ^ 4 * D)) →
      AwayFromLine p q x (1 / 10 ^ 6) := fun h t => (le_max_left _ _).trans (h t)
  have hr : ∀ {D : ℝ} {p q : Vec3 ℝ}, AwayFromLine p q x (max (1 / 10 ^ 6) (1 / 10 ^ 4 * D)) →
      AwayFromLine p q x (1 / 10 ^ 4 * D) := fun h t => (le_max_right _ _).trans (h t)
  have hin : InTriangle a b c x := by
    rcases h with h | h | h
    · obtain ⟨⟨t, h0, h1, rfl⟩, -⟩ := h
      exact inTriangle_segment h0 h1
    · obtain ⟨⟨t, h0, h1, rfl⟩, -⟩ := h
      exact inTriangle_rot (inTriangle_rot (inTriangle_segment h0 h1))
    · obtain ⟨⟨t, h0, h1, rfl⟩, -⟩ := h
      exact inTriangle_rot (inTriangle_segment h0 h1)
  -- the test of the edge itself
  have self : ∀ p q r : Vec3 ℝ, WellOnEdge p q r x → edgeTest x p q GEOM_ATOL = some true := by
    rintro p q r ⟨hs, D, -, -, -, -, hca⟩
    have hxp : 1 / 10 ^ 6 ≤ Vec3.norm (x - p) := by
      have := hl hca 1
      rwa [show r + (1 : ℝ) • (p - r) = p by simp] at this
    refine edgeTest_on hs (heps.trans_le ?_) (heps.trans_le hxp)
    obtain ⟨t, h0, h1, rfl⟩ := hs
    rw [show p + t • (q - p) - p = t • (q - p) by abel, Vec3.norm_smul, abs_of_nonneg h0] at hxp
    nlinarith [Vec3.norm_nonneg (q - p)]
  refine ⟨hin, ?_⟩
  have fin : (edgeTest x a b GEOM_ATOL = some true) ∨ (edgeTest x a b GEOM_ATOL = none ∧ edgeTest x b c GEOM_ATOL = some true) ∨
      (edgeTest x a b GEOM_ATOL = none ∧ edgeTest x b c GEOM_ATOL = none ∧ edgeTest x c a GEOM_ATOL = some true) := by
    rcases h with h | h | h
    · exact .inl (self _ _ _ h)
    · refine .inr (.inl ⟨?_, self _ _ _ h⟩)
      obtain ⟨-, D, h1, h2, h3, hca, hab⟩ := h
      exact (edge_clear hin h3 h2 (hl hab) (hr hab) (hl hca)).1
    · refine .inr (.inr ⟨?_, ?_, self _ _ _ h⟩)
      · obtain ⟨⟨t, h0, h1, hx⟩, D, d1, d2, d3, hab, hbc⟩ := h
        have hba : 1 / 10 ^ 6 ≤ Vec3.norm (b - a) := by
          have := hl hbc (1 - t)
          have e : x - (b + (1 - t) • (c - b)) = (-t) • (b - a) := by
            rw [hx]; ext <;> simp <;> ring
          rw [e, Vec3.norm_smul, abs_neg, abs_of_nonneg h0] at this
          nlinarith [Vec3.norm_nonneg (b - a)]
        have hxa : Vec3.norm (x - a) ≤ D := inTriangle_norm_le hin d2 (by rw [← Vec3.norm_neg]; simpa using d1)
        exact edge_none hba hxa (hl hab) (hr hab)
      · obtain ⟨-, D, d1, d2, d3, hab, hbc⟩ := h
        exact (edge_clear (inTriangle_rot hin) d3 d2 (hl hbc) (hr hbc) (hl hab)).1
  unfold isPointInside
  rw [inTriangle_bbox hin [a, b, c] (by simp) (by simp) (by simp)]
  rcases fin with h1 | ⟨h1, h2⟩ | ⟨h1, h2, h3⟩
  · simp only [h1, bind, Except.bind, pure, Except.pure, Bool.not_true, Bool.false_eq_true, if_false]
    split <;> rfl
  · simp only [h1, h2, bind, Except.bind, pure, Except.pure, Bool.not_true, Bool.false_eq_true, if_false]
    split <;> rfl
  · simp only [h1, h2, h3, bind, Except.bind, pure, Except.pure, Bool.not_true, Bool.false_eq_true, if_false]
    split <;> rfl

end B3d.Triangles
