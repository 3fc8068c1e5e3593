import Verif.Proofs.RoundedRays

/-!
# Rays that pass a level polygon

A point beside all triangles of a level polygon is not taken for a point of the polygon.
-/

namespace B3d.Rounded

open Spec Polygon Triangles

variable {A : Arith} {R h s : ℝ} {a b c t : Vec3 ℝ}

/-- One coordinate in which the edge is long decides on which side of the first end the point is and how far it is. -/
theorem along_one {X u L r σ : ℝ} (hu : 7 / 10 ≤ |u|) (hr : 1 / 10 ^ 6 ≤ r) (hL : 0 < L) (hσ : σ = 1 ∨ σ = -1)
    (hX : |X - σ * r * u| ≤ 2 / 10 ^ 5 * r) (hlo : min 0 (L * u) - 3 / 10 ^ 8 ≤ X) (hhi : X ≤ max 0 (L * u) + 3 / 10 ^ 8) :
    σ = 1 ∧ r - L ≤ 3 / 10 ^ 5 * r + 5 / 10 ^ 8 := by
  have hX' := abs_le.1 hX
  rcases le_abs'.1 hu with hu' | hu'
  · have hLu : L * u ≤ 0 := by nlinarith
    rw [max_eq_left hLu] at hhi
    rw [min_eq_right hLu] at hlo
    rcases hσ with rfl | rfl
    · refine ⟨rfl, ?_⟩
      by_contra hc
      push Not at hc
      have : (r - L) * u ≤ (r - L) * (-(7 / 10)) := mul_le_mul_of_nonneg_left hu' (by norm_num at *; linarith)
      norm_num at *
      linarith [hX'.1, hX'.2]
    · exfalso
      have : r * u ≤ r * (-(7 / 10)) := mul_le_mul_of_nonneg_left hu' (by norm_num at *; linarith)
      norm_num at *
      linarith [hX'.1, hX'.2]
  · have hLu : 0 ≤ L * u := by nlinarith
    rw [max_eq_right hLu] at hhi
    rw [min_eq_left hLu] at hlo
    rcases hσ with rfl | rfl
    · refine ⟨rfl, ?_⟩
      by_contra hc
      push Not at hc
      have : (r - L) * (7 / 10) ≤ (r - L) * u := mul_le_mul_of_nonneg_left hu' (by norm_num at *; linarith)
      norm_num at *
      linarith [hX'.1, hX'.2]
    · exfalso
      have : r * (7 / 10) ≤ r * u := mul_le_mul_of_nonneg_left hu' (by norm_num at *; linarith)
      norm_num at *
      linarith [hX'.1, hX'.2]

/-- A point nearly in the direction of an edge, and in the box of the edge, is near the edge. -/
theorem along_edge {X Y u v L r σ : ℝ} (huv : u ^ 2 + v ^ 2 = 1) (hr : 1 / 10 ^ 6 ≤ r) (hL : 0 < L) (hσ : σ = 1 ∨ σ = -1)
    (hX : |X - σ * r * u| ≤ 2 / 10 ^ 5 * r) (hY : |Y - σ * r * v| ≤ 2 / 10 ^ 5 * r)
    (hx : min 0 (L * u) - 3 / 10 ^ 8 ≤ X ∧ X ≤ max 0 (L * u) + 3 / 10 ^ 8)
    (hy : min 0 (L * v) - 3 / 10 ^ 8 ≤ Y ∧ Y ≤ max 0 (L * v) + 3 / 10 ^ 8) :
    ∃ l : ℝ, 0 ≤ l ∧ l ≤ 1 ∧ |X - l * (L * u)| ≤ 5 / 10 ^ 5 * r + 5 / 10 ^ 8 ∧ |Y - l * (L * v)| ≤ 5 / 10 ^ 5 * r + 5 / 10 ^ 8 := by
  have hk : σ = 1 ∧ r - L ≤ 3 / 10 ^ 5 * r + 5 / 10 ^ 8 := by
    by_cases hu : 7 / 10 ≤ |u|
    · exact along_one hu hr hL hσ hX hx.1 hx.2
    · refine along_one (u := v) ?_ hr hL hσ hY hy.1 hy.2
      by_contra hv
      push Not at hu hv
      have h1 : u ^ 2 ≤ (7 / 10) ^ 2 := by rw [← sq_abs]; exact pow_le_pow_left₀ (abs_nonneg _) hu.le 2
      have h2 : v ^ 2 ≤ (7 / 10) ^ 2 := by rw [← sq_abs]; exact pow_le_pow_left₀ (abs_nonneg _) hv.le 2
      norm_num at h1 h2
      linarith
  obtain ⟨rfl, hrL⟩ := hk
  have hr0 : 0 < r := lt_of_lt_of_le (by norm_num) hr
  rw [one_mul] at hX hY
  by_cases hle : r ≤ L
  · refine ⟨r / L, by positivity, (div_le_one hL).2 hle, ?_, ?_⟩
    · rw [← mul_assoc, div_mul_cancel₀ _ hL.ne']; norm_num at hX ⊢; linarith
    · rw [← mul_assoc, div_mul_cancel₀ _ hL.ne']; norm_num at hY ⊢; linarith
  · push Not at hle
    have hu1 : |u| ≤ 1 := abs_le_of_sq_le_sq (by nlinarith [sq_nonneg v]) (by norm_num)
    have hv1 : |v| ≤ 1 := abs_le_of_sq_le_sq (by nlinarith [sq_nonneg u]) (by norm_num)
    have fin : ∀ Z w : ℝ, |w| ≤ 1 → |Z - r * w| ≤ 2 / 10 ^ 5 * r → |Z - 1 * (L * w)| ≤ 5 / 10 ^ 5 * r + 5 / 10 ^ 8 := by
      intro Z w hw hZ
      have e : Z - 1 * (L * w) = (Z - r * w) + (r - L) * w := by ring
      have h1 : |(r - L) * w| ≤ (r - L) * 1 := by
        rw [abs_mul, abs_of_pos (by linarith)]; exact mul_le_mul_of_nonneg_left hw (by linarith)
      rw [e]
      refine (abs_add_le _ _).trans ?_
      norm_num at hZ h1 hrL ⊢
      linarith
    exact ⟨1, by norm_num, le_rfl, fin X u hu1 hX, fin Y v hv1 hY⟩

/-- The box of an edge after rounding to eight digits. -/
theorem round_box {p q y : ℝ} (hR : R ≤ 1000) (hp : |p| ≤ R) (hq : |q| ≤ R) (hy : |y| ≤ 3 * R)
    (hn : ¬ (A.round8 y > A.add (max (A.round8 p) (A.round8 q)) (A.lit GEOM_ATOL) ∨
      A.round8 y < A.sub (min (A.round8 p) (A.round8 q)) (A.lit GEOM_ATOL))) :
    min 0 (q - p) - 3 / 10 ^ 8 ≤ y - p ∧ y - p ≤ max 0 (q - p) + 3 / 10 ^ 8 := by
  push Not at hn
  obtain ⟨h1, h2⟩ := hn
  have near : ∀ x, |x| ≤ 3 * R → |A.round8 x - x| ≤ 6 / 10 ^ 9 := by
    intro x hx
    refine (A.round8_err x).trans ?_
    norm_num
    linarith
  have hR0 : 0 ≤ R := (abs_nonneg _).trans hp
  have np := abs_le.1 (near p (by linarith))
  have nq := abs_le.1 (near q (by linarith))
  have ny := abs_le.1 (near y hy)
  have hp' := abs_le.1 hp
  have hq' := abs_le.1 hq
  have hat := atol_bounds A
  have tiny : ∀ m, |m| ≤ 1001 → |A.add m (A.lit GEOM_ATOL) - m| ≤ 1 / 10 ^ 9 ∧ |A.sub m (A.lit GEOM_ATOL) - m| ≤ 1 / 10 ^ 9 := by
    intro m hm
    have e1 := A.add_err m (A.lit GEOM_ATOL)
    have e2 := A.sub_err m (A.lit GEOM_ATOL)
    have hl : |A.lit GEOM_ATOL| ≤ 1 / 10 ^ 12 := by
      rw [abs_of_nonneg (by norm_num at hat ⊢; linarith [hat.1])]; norm_num at hat ⊢; linarith [hat.2]
    have k1 := abs_add_le m (A.lit GEOM_ATOL)
    have k2 := abs_sub m (A.lit GEOM_ATOL)
    constructor
    · have := abs_add_le (A.add m (A.lit GEOM_ATOL) - (m + A.lit GEOM_ATOL)) (A.lit GEOM_ATOL)
      rw [show A.add m (A.lit GEOM_ATOL) - (m + A.lit GEOM_ATOL) + A.lit GEOM_ATOL = A.add m (A.lit GEOM_ATOL) - m by ring] at this
      norm_num at e1 hl ⊢
      linarith
    · have := abs_sub (A.sub m (A.lit GEOM_ATOL) - (m - A.lit GEOM_ATOL)) (A.lit GEOM_ATOL)
      rw [show A.sub m (A.lit GEOM_ATOL) - (m - A.lit GEOM_ATOL) - A.lit GEOM_ATOL = A.sub m (A.lit GEOM_ATOL) - m by ring] at this
      norm_num at e2 hl ⊢
      linarith
  have bmax : |max (A.round8 p) (A.round8 q)| ≤ 1001 := by
    refine max_bound (abs_le.2 ?_) (abs_le.2 ?_) <;> norm_num at np nq ⊢ <;> constructor <;> linarith [np.1, np.2, nq.1, nq.2, hp'.1, hp'.2, hq'.1, hq'.2]
  have bmin : |min (A.round8 p) (A.round8 q)| ≤ 1001 := by
    refine min_bound (abs_le.2 ?_) (abs_le.2 ?_) <;> norm_num at np nq ⊢ <;> constructor <;> linarith [np.1, np.2, nq.1, nq.2, hp'.1, hp'.2, hq'.1, hq'.2]
  have t1 := abs_le.1 (tiny _ bmax).1
  have t2 := abs_le.1 (tiny _ bmin).2
  have m1 : max (A.round8 p) (A.round8 q) ≤ p + max 0 (q - p) + 6 / 10 ^ 9 :=
    max_le (by have := le_max_left 0 (q - p); linarith [np.2]) (by have := le_max_right 0 (q - p); linarith [nq.2])
  have m2 : p + min 0 (q - p) - 6 / 10 ^ 9 ≤ min (A.round8 p) (A.round8 q) :=
    le_min (by have := min_le_left 0 (q - p); linarith [np.1]) (by have := min_le_right 0 (q - p); linarith [nq.1])
  constructor <;> linarith [t1.1, t1.2, t2.1, t2.2, ny.1, ny.2]

theorem unitFrom_long {p q : Vec3 ℝ} (hd : 2 / 10 ^ 12 ≤ Vec3.norm (p - q)) :
    p - q ≠ 0 ∧ RelV (2 / 10 ^ 14) (unitFrom A q p) ((1 / Vec3.norm (p - q)) • (p - q)) := by
  have hne : p - q ≠ 0 := by
    intro h0
    rw [h0, Vec3.norm_eq_zero.2 rfl] at hd
    norm_num at hd
  refine ⟨hne, ?_⟩
  have hsub := subv_rel A p q
  unfold unitFrom
  simp only
  rw [if_pos]
  · exact unit_rel A hsub hne
  · have h1 := ((norm_rel A _).trans (hsub.norm (by norm_num)) (g := 1 / 10 ^ 14) (by norm_num)).le (Vec3.norm_nonneg _)
    have h2 := (lit_rel A EPSILON).le (by norm_num [EPSILON])
    norm_num [EPSILON] at *
    linarith [h1.1, h2.2]

theorem norm_level {p q : Vec3 ℝ} (h : q.z = p.z) : Vec3.norm (q - p) = levelLength p q := by
  have := Vec3.norm_sq (q - p)
  rw [Vec3.normSq_def] at this
  refine (pow_left_inj₀ (Vec3.norm_nonneg _) (levelLength_nonneg _ _) two_ne_zero).1 ?_
  rw [this, levelLength_sq]
  simp only [Vec3.sub_x, Vec3.sub_y, Vec3.sub_z, h]; ring

/-- One component of two unit vectors which compare as equal. -/
theorem close_comp {x y x' y' : ℝ} (hx : |x| ≤ 1) (hy : |y| ≤ 1) (hx' : Rel (2 / 10 ^ 14) x' x) (hy' : Rel (2 / 10 ^ 14) y' y)
    (hc : isClose A x' y' NP_RTOL GEOM_ATOL) : |x - y| ≤ 2 / 10 ^ 5 := by
  have h3 := le_of_isClose A (by norm_num [NP_RTOL]) (by norm_num [GEOM_ATOL]) hc
  have e1 := hx'.err
  have e2 := hy'.err
  have h4 : |y'| ≤ 1001 / 1000 := by
    have := abs_add_le (y' - y) y
    rw [sub_add_cancel] at this
    norm_num at e2 ⊢
    linarith
  have h5 := abs_sub_le x x' y
  have h6 := abs_sub_le x' y' y
  rw [abs_sub_comm x x'] at h5
  norm_num [NP_RTOL, GEOM_ATOL] at h3 e1 e2 ⊢
  linarith

open Classical in
/-- If the test of an edge says yes, the point is near the edge. -/
theorem near_edge {p q : Vec3 ℝ} (hR : R ≤ 1000) (hR' : 1 / 100 ≤ R) (hp : Bounded R p) (hq : Bounded R q) (hpq : q.z = p.z)
    (hlong : 2 / 10 ^ 12 ≤ levelLength p q) (hx : |t.x| ≤ 3 * R) (hy : |t.y| ≤ 3 * R) (hz : |t.z - p.z| ≤ 2 * R)
    (he : edgeTest A t p q = some true) :
    ∃ l : ℝ, 0 ≤ l ∧ l ≤ 1 ∧ |t.x - (p.x + l * (q.x - p.x))| ≤ 4 / 10 ^ 4 * R ∧ |t.y - (p.y + l * (q.y - p.y))| ≤ 4 / 10 ^ 4 * R := by
  have hL : 0 < levelLength p q := lt_of_lt_of_le (by norm_num) hlong
  have hR0 : 0 < R := lt_of_lt_of_le (by norm_num) hR'
  by_cases hr : Vec3.norm (t - p) ≤ R / 10 ^ 4
  · refine ⟨0, le_rfl, zero_le_one, ?_, ?_⟩
    · have := Vec3.abs_x_le (t - p)
      simp only [Vec3.sub_x] at this
      rw [zero_mul, add_zero]; linarith
    · have := Vec3.abs_y_le (t - p)
      simp only [Vec3.sub_y] at this
      rw [zero_mul, add_zero]; linarith
  push Not at hr
  have hr6 : 1 / 10 ^ 6 ≤ Vec3.norm (t - p) := by
    refine le_trans ?_ hr.le; norm_num at hR' ⊢; linarith
  obtain ⟨n1, u1⟩ := unitFrom_long (A := A) (p := q) (q := p) (by rw [norm_level hpq]; exact hlong)
  obtain ⟨n2, u2⟩ := unitFrom_long (A := A) (p := t) (q := p) (le_trans (by norm_num) hr6)
  have N1 := norm_unit n1
  have N2 := norm_unit n2
  set r := Vec3.norm (t - p) with hrdef
  rw [norm_level hpq] at u1 N1
  set L := levelLength p q with hLdef
  have hr0 : 0 < r := lt_of_lt_of_le (by norm_num) hr6
  unfold edgeTest at he
  have hcol : collinearLoop A [unitFrom A p q, unitFrom A p t] = true := by
    by_contra hne
    rw [Bool.not_eq_true] at hne
    simp only [arePointsCollinear, List.map_cons, List.map_nil, hne] at he
    cases he
  simp only [arePointsCollinear, List.map_cons, List.map_nil, hcol, Option.some.injEq, decide_eq_true_eq] at he
  have hbx := round_box (A := A) hR hp.1 hq.1 hx (fun k => he (.inl k))
  have hby := round_box (A := A) hR hp.2.1 hq.2.1 hy (fun k => he (.inr (.inl k)))
  have hdir : ∃ σ : ℝ, (σ = 1 ∨ σ = -1) ∧ |1 / r * (t.x - p.x) - σ * (1 / L * (q.x - p.x))| ≤ 2 / 10 ^ 5 ∧
      |1 / r * (t.y - p.y) - σ * (1 / L * (q.y - p.y))| ≤ 2 / 10 ^ 5 := by
    have x2 := Vec3.abs_x_le ((1 / r) • (t - p))
    have y2 := Vec3.abs_y_le ((1 / r) • (t - p))
    have x1 := Vec3.abs_x_le ((1 / L) • (q - p))
    have y1 := Vec3.abs_y_le ((1 / L) • (q - p))
    rw [N2] at x2 y2
    rw [N1] at x1 y1
    simp only [collinearLoop] at hcol
    split at hcol
    · rename_i hc
      rcases hc with hc | hc
      · refine ⟨1, .inl rfl, ?_, ?_⟩
        · have := close_comp x2 x1 u2.1 u1.1 hc.1
          simpa using this
        · have := close_comp y2 y1 u2.2.1 u1.2.1 hc.2.1
          simpa using this
      · refine ⟨-1, .inr rfl, ?_, ?_⟩
        · have := close_comp (y := -((1 / L) • (q - p)).x) x2 (by rw [abs_neg]; exact x1) u2.1 u1.1.neg hc.1
          simpa using this
        · have := close_comp (y := -((1 / L) • (q - p)).y) y2 (by rw [abs_neg]; exact y1) u2.2.1 u1.2.1.neg hc.2.1
          simpa using this
    · cases hcol
  obtain ⟨σ, hσ, d1, d2⟩ := hdir
  have huv : ((q.x - p.x) / L) ^ 2 + ((q.y - p.y) / L) ^ 2 = 1 := by
    rw [div_pow, div_pow, ← add_div, hLdef, ← levelLength_sq]
    exact div_self (by positivity)
  have conv : ∀ X U : ℝ, |1 / r * X - σ * (1 / L * U)| ≤ 2 / 10 ^ 5 → |X - σ * r * (U / L)| ≤ 2 / 10 ^ 5 * r := by
    intro X U hXU
    have e : X - σ * r * (U / L) = (1 / r * X - σ * (1 / L * U)) * r := by field_simp
    rw [e, abs_mul, abs_of_pos hr0]
    exact mul_le_mul_of_nonneg_right hXU hr0.le
  have c1 : L * ((q.x - p.x) / L) = q.x - p.x := by field_simp
  have c2 : L * ((q.y - p.y) / L) = q.y - p.y := by field_simp
  obtain ⟨l, l0, l1, k1, k2⟩ := along_edge huv hr6 hL hσ (conv _ _ d1) (conv _ _ d2) (by rw [c1]; exact hbx) (by rw [c2]; exact hby)
  rw [c1] at k1
  rw [c2] at k2
  have hrR : r ≤ 6 * R := by
    refine Vec3.norm_le_of_sq (by linarith) ?_
    rw [Vec3.normSq_def]
    simp only [Vec3.sub_x, Vec3.sub_y, Vec3.sub_z]
    have g : ∀ x m : ℝ, |x| ≤ m → x * x ≤ m * m := fun x m hx => by
      rw [← abs_mul_abs_self]; exact mul_le_mul hx hx (abs_nonneg _) ((abs_nonneg _).trans hx)
    have g1 := g _ _ ((abs_sub t.x p.x).trans (add_le_add hx hp.1))
    have g2 := g _ _ ((abs_sub t.y p.y).trans (add_le_add hy hp.2.1))
    have g3 := g _ _ hz
    nlinarith [mul_pos hR0 hR0]
  refine ⟨l, l0, l1, ?_, ?_⟩
  · rw [← sub_sub]; norm_num at k1 hR' ⊢; linarith
  · rw [← sub_sub]; norm_num at k2 hR' ⊢; linarith

/-- A point near an edge of a triangle is not deep outside. -/
theorem DeepOut.far (hd : DeepOut h a b c t) (hR0 : 0 < R) (hh : 9 / 10 ^ 4 * R ≤ h) {x y : Vec3 ℝ} (hx : x = a ∨ x = b ∨ x = c)
    (hy : y = a ∨ y = b ∨ y = c) {l : ℝ} (l0 : 0 ≤ l) (l1 : l ≤ 1) (h1 : |t.x - (x.x + l * (y.x - x.x))| ≤ 4 / 10 ^ 4 * R)
    (h2 : |t.y - (x.y + l * (y.y - x.y))| ≤ 4 / 10 ^ 4 * R) : False := by
  obtain ⟨s, hs, hD, hd⟩ := hd
  have key : ∀ p q r : Vec3 ℝ, levelArea p q r = levelArea a b c → s * levelArea p q t ≤ -(h * levelLength p q) →
      (x = p ∨ x = q ∨ x = r) → (y = p ∨ y = q ∨ y = r) → False := by
    intro p q r e hpq hx hy
    have z1 : levelArea p q p = 0 := by unfold levelArea; ring
    have z2 : levelArea p q q = 0 := by unfold levelArea; ring
    have nn : ∀ w, (w = p ∨ w = q ∨ w = r) → 0 ≤ s * levelArea p q w := by
      rintro w (rfl | rfl | rfl)
      · rw [z1, mul_zero]
      · rw [z2, mul_zero]
      · rw [e]; exact hD.le
    obtain ⟨e1, e2⟩ := le_levelLength p q
    have hL := levelLength_nonneg p q
    have hpos : 0 < levelLength p q := by
      refine lt_of_le_of_ne hL fun h0 => ?_
      rw [← h0] at e1 e2
      have a1 := abs_nonpos_iff.1 e1
      have a2 := abs_nonpos_iff.1 e2
      have : levelArea p q r = 0 := by unfold levelArea; rw [a1, a2]; ring
      rw [← e, this, mul_zero] at hD
      exact lt_irrefl _ hD
    have id : levelArea p q t = (1 - l) * levelArea p q x + l * levelArea p q y +
        ((q.x - p.x) * (t.y - (x.y + l * (y.y - x.y))) - (q.y - p.y) * (t.x - (x.x + l * (y.x - x.x)))) := by
      unfold levelArea; ring
    have b1 : |(q.x - p.x) * (t.y - (x.y + l * (y.y - x.y))) - (q.y - p.y) * (t.x - (x.x + l * (y.x - x.x)))| ≤
        8 / 10 ^ 4 * R * levelLength p q := by
      refine (abs_sub _ _).trans ?_
      rw [abs_mul, abs_mul]
      have k1 := mul_le_mul e1 h2 (abs_nonneg _) hL
      have k2 := mul_le_mul e2 h1 (abs_nonneg _) hL
      linarith
    have b2 := abs_le.1 b1
    have w1 := mul_nonneg (sub_nonneg.2 l1) (nn x hx)
    have w2 := mul_nonneg l0 (nn y hy)
    have w3 := mul_le_mul_of_nonneg_right hh hL
    have w4 := mul_pos hR0 hpos
    rw [id] at hpq
    rcases hs with rfl | rfl <;> nlinarith [b2.1, b2.2]
  rcases hd with hd | hd | hd
  · exact key a b c rfl hd hx hy
  · exact key b c a (levelArea_rot a b c) hd (by tauto) (by tauto)
  · exact key c a b (by rw [levelArea_rot, levelArea_rot]) hd (by tauto) (by tauto)

theorem level_cross_near (hR : R ≤ 1000) (ha : Bounded R a) (hb : Bounded R b) (hc : Bounded R c) :
    |(Rounded.cross A (subv A b a) (subv A c a)).z - levelArea a b c| ≤ 6 / 10 ^ 8 := by
  have h := det_err2 A (sub_rel A b.x a.x) (sub_rel A b.y a.y) (sub_rel A c.x a.x) (sub_rel A c.y a.y)
  have two : ∀ x y : ℝ, |x| ≤ R → |y| ≤ R → |x - y| ≤ 2000 := fun x y hx hy => (abs_sub _ _).trans (by linarith)
  have k1 := mul_le_mul (two _ _ hb.1 ha.1) (two _ _ hc.2.1 ha.2.1) (abs_nonneg _) (by norm_num)
  have k2 := mul_le_mul (two _ _ hb.2.1 ha.2.1) (two _ _ hc.1 ha.1) (abs_nonneg _) (by norm_num)
  rw [← abs_mul] at k1 k2
  change |(Rounded.cross A (subv A b a) (subv A c a)).z - levelArea a b c| ≤ _ at h
  norm_num at h k1 k2 ⊢
  linarith

open Classical in
/-- A point on the other side of an edge is not said to be on the same side. -/
theorem other_side (hR : R ≤ 1000) (hR0 : 0 < R) (ha : Bounded R a) (hb : Bounded R b) (hc : Bounded R c) (h1 : b.z = a.z) (h2 : c.z = a.z)
    (hs : s = 1 ∨ s = -1) (hD : 1 / 10 ^ 7 ≤ s * levelArea a b c) (hh : 9 / 10 ^ 4 * R ≤ h) (hx : |t.x| ≤ 3 * R)
    (hy : |t.y| ≤ 3 * R) (hd : s * levelArea a b t ≤ -(h * levelLength a b)) : isPointOnSameSide A a b t c ≠ .ok true := by
  obtain ⟨zx, zy⟩ := level_cross (A := A) h1 h2
  have hn := level_cross_near (A := A) hR ha hb hc
  have hL := levelLength_nonneg a b
  obtain ⟨e1, e2⟩ := le_levelLength a b
  have hLpos : 0 < levelLength a b := by
    refine lt_of_le_of_ne hL fun h0 => ?_
    rw [← h0] at e1 e2
    have a1 := abs_nonpos_iff.1 e1
    have a2 := abs_nonpos_iff.1 e2
    have : levelArea a b c = 0 := by unfold levelArea; rw [a1, a2]; ring
    rw [this] at hD
    norm_num at hD
  set vr := Rounded.cross A (subv A b a) (subv A c a) with hvr
  set vt := Rounded.cross A (subv A b a) (subv A t a) with hvt
  have hrz : 4 / 10 ^ 8 ≤ s * vr.z := by
    have := abs_le.1 hn
    rcases hs with rfl | rfl <;> norm_num at this hD ⊢ <;> linarith [this.1, this.2]
  have htz : s * vt.z ≤ 0 := by
    have h := det_err2 A (sub_rel A b.x a.x) (sub_rel A b.y a.y) (sub_rel A t.x a.x) (sub_rel A t.y a.y)
    change |vt.z - levelArea a b t| ≤ _ at h
    have k1 := mul_le_mul e1 ((abs_sub t.y a.y).trans (add_le_add hy ha.2.1)) (abs_nonneg _) hL
    have k2 := mul_le_mul e2 ((abs_sub t.x a.x).trans (add_le_add hx ha.1)) (abs_nonneg _) hL
    rw [← abs_mul] at k1 k2
    have w3 := mul_le_mul_of_nonneg_right hh hL
    have w4 := mul_pos hR0 hLpos
    have h' := abs_le.1 (h.trans (mul_le_mul_of_nonneg_left (add_le_add k1 k2) (by norm_num)))
    norm_num at h' w3 hd
    rcases hs with rfl | rfl <;> norm_num at hd ⊢ <;> linarith [h'.1, h'.2]
  intro hsame
  unfold isPointOnSameSide at hsame
  simp only [← hvr, ← hvt] at hsame
  split at hsame
  · cases hsame
  split at hsame
  · cases hsame
  rename_i q1 q2
  rw [Except.ok.injEq, decide_eq_true_eq] at hsame
  have hcl := hsame.2.2
  have hl := (atol_bounds A).1
  have lr : 0 < A.norm vr := by push Not at q1; norm_num at hl q1; linarith
  have lt : 0 < A.norm vt := by push Not at q2; norm_num at hl q2; linarith
  have hclose := le_of_isClose A (by norm_num [NP_RTOL]) (by norm_num [GEOM_ATOL]) hcl
  simp only [divv] at hclose
  have dr := (div_rel A vr.z lr.ne')
  have hnr := (norm_rel A vr).le (Vec3.norm_nonneg vr)
  rw [norm_upright zx zy] at hnr
  have ar : |vr.z| = s * vr.z := by
    rcases hs with rfl | rfl
    · rw [one_mul, abs_of_pos]; norm_num at hrz ⊢; linarith
    · rw [neg_one_mul, abs_of_neg]; norm_num at hrz ⊢; linarith
  have ur : 9 / 10 ≤ s * A.div vr.z (A.norm vr) ∧ |A.div vr.z (A.norm vr)| ≤ 11 / 10 := by
    have k2 : |vr.z / A.norm vr| ≤ 1 + 9 / 10 ^ 15 := by
      rw [abs_div, abs_of_pos lr, div_le_iff₀ lr]; norm_num at hnr ⊢; linarith [hnr.1]
    have k3 : 1 - 9 / 10 ^ 15 ≤ s * (vr.z / A.norm vr) := by
      rw [← mul_div_assoc, ← ar, le_div_iff₀ lr]; norm_num at hnr ⊢; linarith [hnr.2]
    have k4 := abs_le.1 dr.err
    have k5 := abs_add_le (A.div vr.z (A.norm vr) - vr.z / A.norm vr) (vr.z / A.norm vr)
    rw [sub_add_cancel] at k5
    have k6 := dr.err
    constructor
    · rcases hs with rfl | rfl <;> norm_num at k4 k2 k3 ⊢ <;> linarith [k4.1, k4.2]
    · norm_num at k6 k2 ⊢; linarith
  have ut : s * A.div vt.z (A.norm vt) ≤ 0 := by
    obtain ⟨d, hd', e⟩ := div_rel A vt.z lt.ne'
    have hd2 := abs_le.1 hd'
    rw [e, show s * (vt.z / A.norm vt * (1 + d)) = (s * vt.z) * ((1 + d) / A.norm vt) by ring]
    exact mul_nonpos_of_nonpos_of_nonneg htz (div_nonneg (by norm_num at hd2; linarith [hd2.1]) lt.le)
  have h' := abs_le.1 hclose
  norm_num [NP_RTOL, GEOM_ATOL] at h' ur
  rcases hs with rfl | rfl <;> norm_num at ur ut <;> linarith [h'.1, h'.2, ur.1, ur.2]

theorem long_edge (hR : R ≤ 1000) (ha : Bounded R a) (hc : Bounded R c) (hD : 1 / 10 ^ 7 ≤ |levelArea a b c|) :
    2 / 10 ^ 12 ≤ levelLength a b := by
  have h1 := levelArea_le a b c
  have h2 : levelLength c a ≤ 3000 := by
    refine Real.sqrt_le_iff.2 ⟨by norm_num, ?_⟩
    have g : ∀ x y : ℝ, |x| ≤ R → |y| ≤ R → (x - y) ^ 2 ≤ 2000 ^ 2 := fun x y hx hy => by
      rw [← sq_abs]; exact pow_le_pow_left₀ (abs_nonneg _) ((abs_sub _ _).trans (by linarith)) 2
    have g1 := g _ _ ha.1 hc.1
    have g2 := g _ _ ha.2.1 hc.2.1
    norm_num at g1 g2 ⊢
    linarith
  have h3 := mul_le_mul_of_nonneg_left h2 (levelLength_nonneg a b)
  norm_num at hD ⊢
  linarith

/-- What the box of a triangle tells about a coordinate. -/
theorem box_coord {x y z v : ℝ} (hR : R ≤ 1000) (hx : |x| ≤ R) (hy : |y| ≤ R) (hz : |z| ≤ R)
    (hn : ¬ (v < A.sub (min (min x y) z) (A.lit (1 / 100)) ∨ A.add (max (max x y) z) (A.lit (1 / 100)) < v)) :
    min (min x y) z - 2 / 100 ≤ v ∧ v ≤ max (max x y) z + 2 / 100 := by
  push Not at hn
  have hl := (lit_rel A (1 / 100)).le (by norm_num)
  have k : ∀ m, |m| ≤ R → |A.sub m (A.lit (1 / 100)) - m| ≤ 2 / 100 ∧ |A.add m (A.lit (1 / 100)) - m| ≤ 2 / 100 := by
    intro m hm
    have e1 := A.add_err m (A.lit (1 / 100))
    have e2 := A.sub_err m (A.lit (1 / 100))
    have hl1 : |A.lit (1 / 100)| ≤ 11 / 1000 := by
      rw [abs_of_nonneg (by norm_num at hl ⊢; linarith [hl.1])]; norm_num at hl ⊢; linarith [hl.2]
    have k1 := abs_add_le m (A.lit (1 / 100))
    have k2 := abs_sub m (A.lit (1 / 100))
    constructor
    · have := abs_sub (A.sub m (A.lit (1 / 100)) - (m - A.lit (1 / 100))) (A.lit (1 / 100))
      rw [show A.sub m (A.lit (1 / 100)) - (m - A.lit (1 / 100)) - A.lit (1 / 100) = A.sub m (A.lit (1 / 100)) - m by ring] at this
      linarith
    · have := abs_add_le (A.add m (A.lit (1 / 100)) - (m + A.lit (1 / 100))) (A.lit (1 / 100))
      rw [show A.add m (A.lit (1 / 100)) - (m + A.lit (1 / 100)) + A.lit (1 / 100) = A.add m (A.lit (1 / 100)) - m by ring] at this
      linarith
  have k1 := abs_le.1 (k _ (min_bound (min_bound hx hy) hz)).1
  have k2 := abs_le.1 (k _ (max_bound (max_bound hx hy) hz)).2
  constructor <;> linarith [hn.1, hn.2, k1.1, k2.2]

open Classical in
/-- The test of a triangle refuses points deep outside. -/
theorem inside_out (hR : R ≤ 1000) (hR' : 1 / 100 ≤ R) (ha : Bounded R a) (hb : Bounded R b) (hc : Bounded R c) (h1 : b.z = a.z)
    (h2 : c.z = a.z) (hD : 1 / 10 ^ 7 ≤ |levelArea a b c|) (hh : 9 / 10 ^ 4 * R ≤ h) (hd : DeepOut h a b c t) :
    isPointInside A t a b c = .ok false := by
  obtain ⟨r, hr⟩ := inside_ok (A := A) hR ha hb hc hD t
  cases r with
  | false => exact hr
  | true =>
  exfalso
  have hR0 : 0 < R := lt_of_lt_of_le (by norm_num) hR'
  have hD2 : 1 / 10 ^ 7 ≤ |levelArea b c a| := by rw [levelArea_rot]; exact hD
  have hD3 : 1 / 10 ^ 7 ≤ |levelArea c a b| := by rw [levelArea_rot, levelArea_rot]; exact hD
  unfold isPointInside at hr
  simp only [bind, Except.bind, pure, Except.pure] at hr
  by_cases hbox : inBbox A t a b c = true
  swap
  · rw [Bool.not_eq_true] at hbox
    simp [hbox] at hr
  have hin := hbox
  unfold inBbox at hin
  rw [decide_eq_true_eq] at hin
  have bx := box_coord (A := A) hR ha.1 hb.1 hc.1 (fun k => hin (.inl k))
  have by' := box_coord (A := A) hR ha.2.1 hb.2.1 hc.2.1 (fun k => hin (.inr (.inl k)))
  have bz := box_coord (A := A) hR ha.2.2 hb.2.2 hc.2.2 (fun k => hin (.inr (.inr k)))
  have lim : ∀ x y z v : ℝ, |x| ≤ R → |y| ≤ R → |z| ≤ R → min (min x y) z - 2 / 100 ≤ v ∧ v ≤ max (max x y) z + 2 / 100 → |v| ≤ 3 * R := by
    intro x y z v hx hy hz hv
    have m1 := abs_le.1 (min_bound (min_bound hx hy) hz)
    have m2 := abs_le.1 (max_bound (max_bound hx hy) hz)
    rw [abs_le]
    constructor <;> linarith [hv.1, hv.2, m1.1, m2.2]
  have tx := lim _ _ _ _ ha.1 hb.1 hc.1 bx
  have ty := lim _ _ _ _ ha.2.1 hb.2.1 hc.2.1 by'
  have tz : |t.z - a.z| ≤ 2 * R := by
    rw [h1, h2, min_self, min_self, max_self, max_self] at bz
    rw [abs_le]
    constructor <;> linarith [bz.1, bz.2]
  have eqs : ∀ x : Vec3 ℝ, (x = a ∨ x = b ∨ x = c) → Bounded R x → pointsEqual A t x = false := by
    intro x hx hbx
    unfold pointsEqual
    refine decide_eq_false ?_
    rintro ⟨c1, c2, -⟩
    have k1 := le_of_isClose A (by norm_num [NP_RTOL]) (by norm_num [GEOM_ATOL]) c1
    have k2 := le_of_isClose A (by norm_num [NP_RTOL]) (by norm_num [GEOM_ATOL]) c2
    have b1 := hbx.1
    have b2 := hbx.2.1
    norm_num [NP_RTOL, GEOM_ATOL] at k1 k2
    refine DeepOut.far hd hR0 hh hx hx le_rfl zero_le_one ?_ ?_
    · rw [zero_mul, add_zero]; norm_num; linarith
    · rw [zero_mul, add_zero]; norm_num; linarith
  have edges : ∀ x y : Vec3 ℝ, (x = a ∨ x = b ∨ x = c) → (y = a ∨ y = b ∨ y = c) → Bounded R x → Bounded R y → y.z = x.z → x.z = a.z →
      2 / 10 ^ 12 ≤ levelLength x y → edgeTest A t x y ≠ some true := by
    intro x y hx hy bx' by'' hz hza hl he
    obtain ⟨l, l0, l1, k1, k2⟩ := near_edge hR hR' bx' by'' hz hl tx ty (by rw [hza]; exact tz) he
    exact DeepOut.far hd hR0 hh hx hy l0 l1 k1 k2
  have E1 := edges a b (by simp) (by simp) ha hb h1 rfl (long_edge hR ha hc hD)
  have E2 := edges b c (by simp) (by simp) hb hc (h2.trans h1.symm) h1 (long_edge hR hb ha hD2)
  have E3 := edges c a (by simp) (by simp) hc ha h2.symm h2 (long_edge hR hc hb hD3)
  simp only [hbox, Bool.not_true, Bool.false_eq_true, if_false, eqs a (by simp) ha, eqs b (by simp) hb, eqs c (by simp) hc, Bool.or_self] at hr
  split at hr
  · rename_i r1 q1
    rw [Except.ok.injEq] at hr
    exact E1 (by rw [q1, hr])
  split at hr
  · rename_i r1 q1
    rw [Except.ok.injEq] at hr
    exact E2 (by rw [q1, hr])
  split at hr
  · rename_i r1 q1
    rw [Except.ok.injEq] at hr
    exact E3 (by rw [q1, hr])
  split at hr
  · cases hr
  rename_i s1 k1
  split at hr
  · cases hr
  rename_i s2 k2
  split at hr
  · cases hr
  rename_i s3 k3
  rw [Except.ok.injEq, Bool.and_eq_true, Bool.and_eq_true] at hr
  obtain ⟨⟨rfl, rfl⟩, rfl⟩ := hr
  obtain ⟨s, hs, hsD, hd⟩ := hd
  have big : ∀ D : ℝ, 1 / 10 ^ 7 ≤ |D| → 0 < s * D → 1 / 10 ^ 7 ≤ s * D := by
    intro D hD hsD
    rcases hs with rfl | rfl
    · rw [one_mul] at hsD ⊢; rwa [abs_of_pos hsD] at hD
    · rw [neg_one_mul] at hsD ⊢; rwa [abs_of_neg (by linarith)] at hD
  rcases hd with hd | hd | hd
  · exact other_side hR hR0 ha hb hc h1 h2 hs (big _ hD hsD) hh tx ty hd k1
  · exact other_side hR hR0 hb hc ha (h2.trans h1.symm) h1.symm hs (big _ hD2 (by rw [levelArea_rot]; exact hsD)) hh tx ty hd k2
  · exact other_side hR hR0 hc ha hb h2.symm (h1.trans h2.symm) hs (big _ hD3 (by rw [levelArea_rot, levelArea_rot]; exact hsD)) hh tx ty hd k3

/-- The test of a level polygon refuses points deep outside. -/
theorem polygon_out {z0 atol : ℝ} {pts : List (Vec3 ℝ)} {tri : List Tri} (hR : R ≤ 1000) (hR' : 1 / 100 ≤ R)
    (HP : LevelPolygon R z0 pts tri) (hh : 9 / 10 ^ 4 * R ≤ h) (hd : DeepOutside h pts tri t) :
    pointInPolygonTol A atol t pts tri = .ok false := by
  have hloop : triangleLoop A t pts true tri = .ok false := by
    have : ∀ T : List Tri, (∀ x ∈ T, TriangleWith pts x fun a b c => 1 / 10 ^ 7 ≤ |levelArea a b c|) →
        (∀ x ∈ T, TriangleWith pts x fun a b c => DeepOut h a b c t) → triangleLoop A t pts true T = .ok false := by
      intro T
      induction T with
      | nil => intro _ _; rfl
      | cons x T ih =>
        intro hA hB
        obtain ⟨i, j, k⟩ := x
        obtain ⟨a', b', c', ea', eb', ec', hA'⟩ := hA _ List.mem_cons_self
        obtain ⟨a'', b'', c'', fa, fb, fc, hB'⟩ := hB _ List.mem_cons_self
        rw [ea', Option.some.injEq] at fa
        rw [eb', Option.some.injEq] at fb
        rw [ec', Option.some.injEq] at fc
        subst fa fb fc
        simp only at ea' eb' ec'
        have ma' := List.mem_of_getElem? ea'
        have mb' := List.mem_of_getElem? eb'
        have mc' := List.mem_of_getElem? ec'
        have hr := inside_out (A := A) hR hR' (HP.bounded _ ma') (HP.bounded _ mb') (HP.bounded _ mc')
          ((HP.level _ mb').trans (HP.level _ ma').symm) ((HP.level _ mc').trans (HP.level _ ma').symm) hA' hh hB'
        unfold triangleLoop
        simp only [ea', eb', ec', hr]
        exact ih (fun y hy => hA y (List.mem_cons_of_mem _ hy)) (fun y hy => hB y (List.mem_cons_of_mem _ hy))
    exact this tri HP.triangles hd
  obtain ⟨l, p0, p1, p2, el, -⟩ := HP.corners
  obtain ⟨lo, hi, hb, -⟩ := Bboxes.boundingBox_spec (List.ne_nil_of_mem (List.mem_of_getLast? el))
  unfold pointInPolygonTol insideBbox
  rw [hb]
  simp only [bind, Except.bind, pure, Except.pure]
  split
  · rename_i e; cases e
  · rfl
  · rw [hloop, ite_self]

theorem DeepOut.move {h' η : ℝ} {q : Vec3 ℝ} (H : DeepOut h a b c q) (hx : |t.x - q.x| ≤ η) (hy : |t.y - q.y| ≤ η)
    (hη : h' + 2 * η ≤ h) : DeepOut h' a b c t := by
  obtain ⟨s, hs, hD, hd⟩ := H
  have key : ∀ p r : Vec3 ℝ, s * levelArea p r q ≤ -(h * levelLength p r) → s * levelArea p r t ≤ -(h' * levelLength p r) := by
    intro p r hpr
    obtain ⟨l1, l2⟩ := le_levelLength p r
    have hL := levelLength_nonneg p r
    have e : levelArea p r t - levelArea p r q = (r.x - p.x) * (t.y - q.y) - (r.y - p.y) * (t.x - q.x) := by
      unfold levelArea; ring
    have hd : |levelArea p r t - levelArea p r q| ≤ 2 * η * levelLength p r := by
      rw [e]
      refine (abs_sub _ _).trans ?_
      rw [abs_mul, abs_mul]
      have k1 := mul_le_mul l1 hy (abs_nonneg _) hL
      have k2 := mul_le_mul l2 hx (abs_nonneg _) hL
      linarith
    have hm := mul_le_mul_of_nonneg_right hη hL
    have hd' := abs_le.1 hd
    rcases hs with rfl | rfl <;> linarith [hd'.1, hd'.2]
  exact ⟨s, hs, hD, hd.imp (key _ _) (Or.imp (key _ _) (key _ _))⟩

variable {ε z0 : ℝ}

/-- A ray that goes away from the plane. -/
theorem core_away (hp : Precise A ε) {p v : Vec3 ℝ} {k s : ℝ} (hk : k ≤ 20) (hR0 : 0 < R) (hfar : R / 10 ^ 13 ≤ |z0 - p.z|)
    (haway : (z0 - p.z) * v.z < 0) (way : |s * v.z - (z0 - p.z)| ≤ k * (ε * R)) : s < 0 := by
  by_contra hs
  push Not at hs
  have hε := mul_le_mul_of_nonneg_right hp.small hR0.le
  have hkX : k * (ε * R) ≤ 20 * (ε * R) := mul_le_mul_of_nonneg_right hk (mul_nonneg hp.nonneg hR0.le)
  have way' := abs_le.1 way
  rcases mul_neg_iff.1 haway with ⟨k1, k2⟩ | ⟨k1, k2⟩
  · rw [abs_of_pos k1] at hfar
    have := mul_nonpos_of_nonneg_of_nonpos hs k2.le
    norm_num at hfar hε
    linarith [way'.1]
  · rw [abs_of_neg k1] at hfar
    have := mul_nonneg hs k2.le
    norm_num at hfar hε
    linarith [way'.2]

/-- A ray that comes to the plane beside the polygon. -/
theorem core_passed (hp : Precise A ε) {pts : List (Vec3 ℝ)} {tri : List Tri} {p v : Vec3 ℝ} {k s s0 : ℝ} (hk0 : 0 ≤ k) (hk : k ≤ 20)
    (hR : R ≤ 1000) (hR' : 1 / 100 ≤ R) (HP : LevelPolygon R z0 pts tri) (hb : Bounded R p) (hz : (p + s0 • v).z = z0)
    (hv : 2 / 1000 ≤ |v.z|) (hx : |v.x| ≤ 1000 * |v.z|) (hy : |v.y| ≤ 1000 * |v.z|)
    (hd : DeepOutside (R / 1000) pts tri (p + s0 • v)) (way : |s * v.z - (z0 - p.z)| ≤ k * (ε * R)) :
    pointInPolygonTol A (1 / 1000) (addv A p (scale A s v)) pts tri = .ok false := by
  have hR0 : 0 < R := lt_of_lt_of_le (by norm_num) hR'
  have hvn : v.z ≠ 0 := by intro h0; rw [h0] at hv; norm_num at hv
  have hvz : 0 < |v.z| := abs_pos.2 hvn
  have hs1 : s0 = (z0 - p.z) / v.z := by
    simp only [Vec3.add_z, Vec3.smul_z] at hz
    rw [eq_div_iff hvn]; linarith
  have hz0 : |z0| ≤ R := by
    obtain ⟨l, p0, p1, p2, el, -⟩ := HP.corners
    have ml := List.mem_of_getLast? el
    rw [← HP.level l ml]; exact (HP.bounded l ml).2.2
  have hf2 : |z0 - p.z| ≤ 2 * R := (abs_sub _ _).trans (by linarith [hb.2.2])
  have hε0 := hp.nonneg
  have hεR0 := mul_nonneg hε0 hR0.le
  have hεR := mul_le_mul_of_nonneg_right hp.small hR0.le
  have way' : |s * v.z - (z0 - p.z)| ≤ k * (ε * (2001 * R)) := way.trans (by nlinarith [mul_nonneg hk0 hεR0])
  have far : ∀ x w : ℝ, |x| ≤ R → |w| ≤ 1000 * |v.z| → |x + (z0 - p.z) / v.z * w| ≤ 2001 * R := by
    intro x w hx' hw
    have e : (z0 - p.z) / v.z * w = (z0 - p.z) * (w / v.z) := by field_simp
    have hr : |w / v.z| ≤ 1000 := by rw [abs_div, div_le_iff₀ hvz]; exact hw
    have h2 : |(z0 - p.z) / v.z * w| ≤ 2 * R * 1000 := by
      rw [e, abs_mul]; exact mul_le_mul hf2 hr (abs_nonneg _) (by linarith)
    exact (abs_add_le _ _).trans (by linarith)
  have qx := way_step (A := A) hp hk0 hk hvn way' (by linarith) (v := v.x) (p := p.x) (G := 1000) (by norm_num) hx (far _ _ hb.1 hx)
  have qy := way_step (A := A) hp hk0 hk hvn way' (by linarith) (v := v.y) (p := p.y) (G := 1000) (by norm_num) hy (far _ _ hb.2.1 hy)
  rw [← hs1] at qx qy
  have hkX : k * (ε * R) ≤ 20 * (ε * R) := mul_le_mul_of_nonneg_right hk hεR0
  have small : (k + 4) * (ε * (2001 * R) * 1000) ≤ 49 / 10 ^ 9 * R := by norm_num at hεR ⊢; linarith
  refine polygon_out (h := 9 / 10 ^ 4 * R) hR hR' HP le_rfl fun tr htr => ?_
  obtain ⟨a, b, c, ea, eb, ec, hT⟩ := hd tr htr
  refine ⟨a, b, c, ea, eb, ec, DeepOut.move hT (qx.trans small) (qy.trans small) ?_⟩
  norm_num
  linarith

end B3d.Rounded
