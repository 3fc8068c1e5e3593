import Verif.Model.RoundedRays
import Verif.Spec.RoundedRays
import Verif.Proofs.RoundedPoints

/-! # Points a little off the plane of a level triangle -/

namespace B3d.Rounded

open Spec Polygon Triangles

variable (A : Arith)

theorem det_err2 {p1 p2 q1 q2 x1 x2 y1 y2 : ℝ} (h1 : Rel (1 / 10 ^ 15) p1 x1) (h2 : Rel (1 / 10 ^ 15) p2 x2)
    (h3 : Rel (1 / 10 ^ 15) q1 y1) (h4 : Rel (1 / 10 ^ 15) q2 y2) :
    |A.sub (A.mul p1 q2) (A.mul p2 q1) - (x1 * y2 - x2 * y1)| ≤ 6 / 10 ^ 15 * (|x1 * y2| + |x2 * y1|) := by
  have a := ((mul_rel A p1 q2).trans (h1.mul h4 le_rfl) (g := 4 / 10 ^ 15) (by norm_num)).err
  have b := ((mul_rel A p2 q1).trans (h2.mul h3 le_rfl) (g := 4 / 10 ^ 15) (by norm_num)).err
  have c := (sub_rel A (A.mul p1 q2) (A.mul p2 q1)).err
  set P := A.mul p1 q2
  set Q := A.mul p2 q1
  have t1 : |P - Q| ≤ |P - x1 * y2| + |Q - x2 * y1| + |x1 * y2| + |x2 * y1| := by
    have : P - Q = (P - x1 * y2) - (Q - x2 * y1) + x1 * y2 - x2 * y1 := by ring
    rw [this]
    refine (abs_sub _ _).trans ?_
    gcongr
    refine (abs_add_le _ _).trans ?_
    gcongr
    exact abs_sub _ _
  have t2 : |A.sub P Q - (x1 * y2 - x2 * y1)| ≤ |A.sub P Q - (P - Q)| + |P - x1 * y2| + |Q - x2 * y1| := by
    have : A.sub P Q - (x1 * y2 - x2 * y1) = (A.sub P Q - (P - Q)) + (P - x1 * y2) - (Q - x2 * y1) := by ring
    rw [this]
    refine (abs_sub _ _).trans ?_
    gcongr
    exact abs_add_le _ _
  have := abs_nonneg (x1 * y2)
  have := abs_nonneg (x2 * y1)
  norm_num at *
  linarith

theorem levelLength_nonneg (a b : Vec3 ℝ) : 0 ≤ levelLength a b := Real.sqrt_nonneg _

theorem levelLength_sq (a b : Vec3 ℝ) : levelLength a b ^ 2 = (b.x - a.x) ^ 2 + (b.y - a.y) ^ 2 :=
  Real.sq_sqrt (by positivity)

theorem le_levelLength (a b : Vec3 ℝ) : |b.x - a.x| ≤ levelLength a b ∧ |b.y - a.y| ≤ levelLength a b := by
  constructor <;> refine abs_le_of_sq_le_sq ?_ (levelLength_nonneg a b) <;> rw [levelLength_sq] <;> nlinarith [sq_nonneg (b.x - a.x), sq_nonneg (b.y - a.y)]

/-- The area is at most the product of two sides. -/
theorem levelArea_le (a b c : Vec3 ℝ) : |levelArea a b c| ≤ levelLength a b * levelLength c a := by
  refine abs_le_of_sq_le_sq ?_ (mul_nonneg (levelLength_nonneg _ _) (levelLength_nonneg _ _))
  rw [mul_pow, levelLength_sq, levelLength_sq]
  unfold levelArea
  nlinarith [sq_nonneg ((b.x - a.x) * (c.x - a.x) + (b.y - a.y) * (c.y - a.y))]

/-- A side of a triangle and a point beside the side, not far off the plane. -/
structure Beside (W h s : ℝ) (a b t : Vec3 ℝ) : Prop where
  level : b.z = a.z
  sign : s = 1 ∨ s = -1
  size : 1 / 10 ^ 5 ≤ h
  wide : W ≤ 5000 * h
  side : h ≤ levelLength a b
  near : |t.x - a.x| ≤ W ∧ |t.y - a.y| ≤ W
  deep : h * levelLength a b ≤ s * levelArea a b t

variable {A} {W h s : ℝ} {a b c t : Vec3 ℝ}

/-- The computed cross product. -/
theorem Beside.cross (H : Beside W h s a b t) {e : ℝ} (he : |t.z - a.z| ≤ e) :
    let v := cross A (subv A b a) (subv A t a)
    |v.x| ≤ (1 + 1 / 10 ^ 14) * (levelLength a b * e) ∧ |v.y| ≤ (1 + 1 / 10 ^ 14) * (levelLength a b * e) ∧
      |v.z - levelArea a b t| ≤ 6 / 10 ^ 11 * (h * levelLength a b) := by
  obtain ⟨l1, l2⟩ := le_levelLength a b
  have hL := levelLength_nonneg a b
  have he0 : 0 ≤ e := (abs_nonneg _).trans he
  have small : ∀ x y d : ℝ, |y| ≤ levelLength a b → Rel (1 / 10 ^ 15) x y → ∀ w, Rel (1 / 10 ^ 15) w (A.mul x (A.sub t.z a.z)) → |w| ≤ (1 + 1 / 10 ^ 14) * (levelLength a b * e) := by
    intro x y d hy hx w hw
    have h1 := (hw.trans ((mul_rel A x (A.sub t.z a.z)).trans (hx.mul (sub_rel A t.z a.z) le_rfl) (g := 4 / 10 ^ 15)
      (by norm_num)) (g := 1 / 10 ^ 14) (by norm_num))
    have h2 := ((h1.abs (by norm_num)).le (abs_nonneg _)).2
    refine h2.trans (mul_le_mul_of_nonneg_left ?_ (by norm_num))
    rw [abs_mul]
    exact mul_le_mul hy he (abs_nonneg _) hL
  have hz : A.sub b.z a.z = 0 := by rw [H.level]; simp
  refine ⟨?_, ?_, ?_⟩
  · simp only [Rounded.cross, subv, hz, zero_mul']
    exact small _ _ 0 l2 (sub_rel A b.y a.y) _ (sub_zero_rel A _)
  · simp only [Rounded.cross, subv, hz, zero_mul']
    rw [A.sub_swap, abs_neg]
    exact small _ _ 0 l1 (sub_rel A b.x a.x) _ (sub_zero_rel A _)
  · simp only [Rounded.cross, subv]
    refine (det_err2 A (sub_rel A b.x a.x) (sub_rel A b.y a.y) (sub_rel A t.x a.x) (sub_rel A t.y a.y)).trans ?_
    obtain ⟨n1, n2⟩ := H.near
    rw [abs_mul, abs_mul]
    have k1 := mul_le_mul l1 n2 (abs_nonneg _) hL
    have k2 := mul_le_mul l2 n1 (abs_nonneg _) hL
    have k3 := mul_le_mul_of_nonneg_left H.wide hL
    norm_num at *
    linarith

/-- The bounds of a vector nearly upright. -/
theorem upright {v : Vec3 ℝ} {s C d : ℝ} (hs : s = 1 ∨ s = -1) (hC : 0 < C) (hz : C ≤ s * v.z) (hd : d ≤ 98 / 10 ^ 15 * C)
    (h1 : |v.x| ≤ d) (h2 : |v.y| ≤ d) :
    let n := divv A v (A.norm v)
    |n.x| ≤ 99 / 10 ^ 15 ∧ |n.y| ≤ 99 / 10 ^ 15 ∧ |n.z - s| ≤ 1 / 10 ^ 12 ∧ (1 - 1 / 10 ^ 14) * C ≤ A.norm v := by
  have hn := (norm_rel A v).le (Vec3.norm_nonneg v)
  have hvz : s * v.z = |v.z| := by
    rcases hs with rfl | rfl
    · rw [one_mul, abs_of_pos (by linarith)]
    · rw [abs_of_neg (by linarith)]; ring
  have lo : s * v.z ≤ Vec3.norm v := by rw [hvz]; exact Vec3.abs_z_le v
  have hi : Vec3.norm v ≤ s * v.z + 2 * d := by
    have d0 : 0 ≤ d := (abs_nonneg _).trans h1
    have : Vec3.norm v ≤ |v.x| + |v.y| + |v.z| := by
      refine Vec3.norm_le_of_sq (by positivity) ?_
      rw [Vec3.normSq_def, ← abs_mul_abs_self v.x, ← abs_mul_abs_self v.y, ← abs_mul_abs_self v.z]
      nlinarith [abs_nonneg v.x, abs_nonneg v.y, abs_nonneg v.z, mul_nonneg (abs_nonneg v.x) (abs_nonneg v.y), mul_nonneg (abs_nonneg v.x) (abs_nonneg v.z), mul_nonneg (abs_nonneg v.y) (abs_nonneg v.z)]
    rw [hvz]; linarith
  have hl0 : 0 < A.norm v := by norm_num at hn ⊢; linarith [hn.1]
  have hlo : (1 - 1 / 10 ^ 14) * C ≤ A.norm v := by norm_num at hn ⊢; linarith [hn.1]
  have small : ∀ x : ℝ, |x| ≤ d → |A.div x (A.norm v)| ≤ 99 / 10 ^ 15 := by
    intro x hx
    have k := (((div_rel A x hl0.ne').abs (by norm_num)).le (abs_nonneg _)).2
    have k2 : |x / A.norm v| ≤ 985 / 10 ^ 16 := by
      rw [abs_div, abs_of_pos hl0, div_le_iff₀ hl0]
      norm_num at hlo hd ⊢
      linarith
    norm_num at k k2 ⊢
    linarith
  refine ⟨small _ h1, small _ h2, ?_, hlo⟩
  have k := (div_rel A v.z hl0.ne').err
  have k2 : |v.z / A.norm v - s| ≤ 5 / 10 ^ 13 := by
    have e : v.z / A.norm v - s = (v.z - s * A.norm v) / A.norm v := by field_simp
    rw [e, abs_div, abs_of_pos hl0, div_le_iff₀ hl0]
    have e2 : |v.z - s * A.norm v| = |s * v.z - A.norm v| := by
      rcases hs with rfl | rfl
      · rw [one_mul, one_mul]
      · rw [← abs_neg]; congr 1; ring
    rw [e2, abs_le]
    norm_num at hn hlo hd ⊢
    constructor <;> linarith [hn.1, hn.2]
  have k3 : |v.z / A.norm v| ≤ 2 := by
    have := abs_add_le (v.z / A.norm v - s) s
    rw [sub_add_cancel] at this
    have hs1 : |s| = 1 := by rcases hs with rfl | rfl <;> simp
    rw [hs1] at this
    norm_num at k2 ⊢
    linarith
  have := abs_sub_le (A.div v.z (A.norm v)) (v.z / A.norm v) s
  change |A.div v.z (A.norm v) - s| ≤ _
  norm_num at k k2 k3 ⊢
  linarith

open Classical in
/-- The test of the side. -/
theorem Beside.same (H : Beside W h s a b t) (Hc : Beside W h s a b c) (hc : c.z = a.z) (he : |t.z - a.z| ≤ 97 / 10 ^ 15 * h) :
    isPointOnSameSide A a b t c = .ok true := by
  have hL := levelLength_nonneg a b
  have hh : 0 < h := lt_of_lt_of_le (by norm_num) H.size
  have hL0 : 0 < levelLength a b := lt_of_lt_of_le hh H.side
  have hp : 0 < h * levelLength a b := mul_pos hh hL0
  have hbig : 1 / 10 ^ 10 ≤ h * levelLength a b := by
    have := mul_le_mul H.size (H.size.trans H.side) (by norm_num) hh.le
    norm_num at this ⊢; linarith
  have key : ∀ y : Vec3 ℝ, Beside W h s a b y → ∀ e, |y.z - a.z| ≤ e → e ≤ 97 / 10 ^ 15 * h →
      let v := Rounded.cross A (subv A b a) (subv A y a)
      let n := divv A v (A.norm v)
      |n.x| ≤ 99 / 10 ^ 15 ∧ |n.y| ≤ 99 / 10 ^ 15 ∧ |n.z - s| ≤ 1 / 10 ^ 12 ∧ 1 / 10 ^ 11 ≤ A.norm v := by
    intro y Hy e he he2
    obtain ⟨c1, c2, c3⟩ := Hy.cross (A := A) he
    have hz : (1 - 1 / 10 ^ 10) * (h * levelLength a b) ≤ s * (Rounded.cross A (subv A b a) (subv A y a)).z := by
      have hd := Hy.deep
      have := abs_le.1 c3
      rcases H.sign with rfl | rfl
      · norm_num at this hd ⊢; linarith [this.1]
      · norm_num at this hd ⊢; linarith [this.2]
    have hm := mul_le_mul_of_nonneg_left he2 hL
    have := upright (A := A) H.sign (by positivity) hz (d := (1 + 1 / 10 ^ 14) * (levelLength a b * e))
      (by norm_num at hm ⊢; linarith) c1 c2
    refine ⟨this.1, this.2.1, this.2.2.1, ?_⟩
    have h4 := this.2.2.2
    norm_num at h4 hbig ⊢
    linarith
  obtain ⟨t1, t2, t3, t4⟩ := key t H _ le_rfl he
  obtain ⟨c1, c2, c3, c4⟩ := key c Hc 0 (by rw [hc]; simp) (by positivity)
  have hz : A.sub b.z a.z = 0 := by rw [H.level]; simp
  have hz2 : A.sub c.z a.z = 0 := by rw [hc]; simp
  have hlit := (atol_bounds A).2
  have zx : (Rounded.cross A (subv A b a) (subv A c a)).x = 0 := by
    simp only [Rounded.cross, subv, hz, hz2, zero_mul', mul_zero', sub_self']
  have zy : (Rounded.cross A (subv A b a) (subv A c a)).y = 0 := by
    simp only [Rounded.cross, subv, hz, hz2, zero_mul', mul_zero', sub_self']
  unfold isPointOnSameSide
  simp only
  have g1 : ¬ A.norm (Rounded.cross A (subv A b a) (subv A c a)) < A.lit GEOM_ATOL := by
    norm_num at hlit c4 ⊢; linarith
  have g2 : ¬ A.norm (Rounded.cross A (subv A b a) (subv A t a)) < A.lit GEOM_ATOL := by
    norm_num at hlit t4 ⊢; linarith
  rw [if_neg g1, if_neg g2]
  refine congrArg Except.ok (decide_eq_true ?_)
  have hne : A.norm (Rounded.cross A (subv A b a) (subv A c a)) ≠ 0 := by
    intro h0; rw [h0] at c4; norm_num at c4
  have sm : ∀ x : ℝ, |x| ≤ 99 / 10 ^ 15 → isClose A x 0 NP_RTOL GEOM_ATOL := by
    intro x hx
    refine isClose_of A (by norm_num [NP_RTOL]) (by norm_num [GEOM_ATOL]) ?_
    rw [sub_zero]
    norm_num [GEOM_ATOL, NP_RTOL] at hx ⊢
    linarith
  refine ⟨?_, ?_, ?_⟩
  · have : (divv A (Rounded.cross A (subv A b a) (subv A c a)) (A.norm (Rounded.cross A (subv A b a) (subv A c a)))).x = 0 := by
      simp only [divv]; rw [zx]; exact zero_div' A hne
    rw [this]; exact sm _ t1
  · have : (divv A (Rounded.cross A (subv A b a) (subv A c a)) (A.norm (Rounded.cross A (subv A b a) (subv A c a)))).y = 0 := by
      simp only [divv]; rw [zy]; exact zero_div' A hne
    rw [this]; exact sm _ t2
  · refine isClose_of A (by norm_num [NP_RTOL]) (by norm_num [GEOM_ATOL]) ?_
    set p := (divv A (Rounded.cross A (subv A b a) (subv A t a)) (A.norm (Rounded.cross A (subv A b a) (subv A t a)))).z
    set q := (divv A (Rounded.cross A (subv A b a) (subv A c a)) (A.norm (Rounded.cross A (subv A b a) (subv A c a)))).z
    have hs1 : |s| = 1 := by rcases H.sign with rfl | rfl <;> simp
    have i1 := abs_sub_le p s q
    have i2 := abs_sub_abs_le_abs_sub s q
    rw [abs_sub_comm s q] at i1 i2
    rw [hs1] at i2
    norm_num [GEOM_ATOL, NP_RTOL] at t3 c3 ⊢
    linarith

/-- A vector that is not short, divided by its length. -/
theorem unitFrom_far {p q : Vec3 ℝ} (hd : 1 / 10 ^ 5 ≤ Vec3.norm (p - q)) :
    p - q ≠ 0 ∧ RelV (2 / 10 ^ 14) (unitFrom A q p) ((1 / Vec3.norm (p - q)) • (p - q)) := by
  have hne : p - q ≠ 0 := by
    intro h0
    rw [h0, Vec3.norm_eq_zero.2 rfl] at hd
    norm_num at hd
  refine ⟨hne, ?_⟩
  have hsub := subv_rel A p q
  unfold unitFrom
  simp only
  rw [if_pos]
  · exact unit_rel A hsub hne
  · have h1 := ((norm_rel A _).trans (hsub.norm (by norm_num)) (g := 1 / 10 ^ 14) (by norm_num)).le (Vec3.norm_nonneg _)
    have h2 := (lit_rel A EPSILON).le (by norm_num [EPSILON])
    norm_num [EPSILON] at *
    linarith [h1.1, h2.2]

/-- Points beside a side are not collinear with it. -/
theorem Beside.edge (H : Beside W h s a b t) (he : |t.z - a.z| ≤ W) : edgeTest A t a b = none := by
  have hL := levelLength_nonneg a b
  have hh : 0 < h := lt_of_lt_of_le (by norm_num) H.size
  have hL0 : 0 < levelLength a b := lt_of_lt_of_le hh H.side
  have hW : 0 ≤ W := (abs_nonneg _).trans he
  have hba : Vec3.normSq (b - a) = levelLength a b ^ 2 := by
    rw [Vec3.normSq_def, levelLength_sq]; simp only [Vec3.sub_x, Vec3.sub_y, Vec3.sub_z, H.level]; ring
  have nb : Vec3.norm (b - a) = levelLength a b := by
    have := Vec3.norm_sq (b - a)
    rw [hba] at this
    exact (pow_left_inj₀ (Vec3.norm_nonneg _) hL two_ne_zero).1 this
  have hD : h * levelLength a b ≤ |levelArea a b t| := by
    have hd := H.deep
    rcases H.sign with rfl | rfl
    · rw [one_mul] at hd; exact hd.trans (le_abs_self _)
    · rw [neg_one_mul] at hd; exact hd.trans (neg_le_abs _)
  have cz : (Vec3.cross (b - a) (t - a)).z = levelArea a b t := by
    simp [levelArea]
  have hcr : (h * levelLength a b) ^ 2 ≤ Vec3.normSq (Vec3.cross (b - a) (t - a)) := by
    have h1 : (h * levelLength a b) ^ 2 ≤ levelArea a b t ^ 2 := by
      rw [← sq_abs (levelArea a b t)]
      exact pow_le_pow_left₀ (by positivity) hD 2
    rw [Vec3.normSq_def, cz]
    nlinarith [sq_nonneg (Vec3.cross (b - a) (t - a)).x, sq_nonneg (Vec3.cross (b - a) (t - a)).y]
  have ht2 : h ^ 2 ≤ Vec3.normSq (t - a) := by
    have h1 := Vec3.normSq_cross (b - a) (t - a)
    have h2 : Vec3.normSq (Vec3.cross (b - a) (t - a)) ≤ levelLength a b ^ 2 * Vec3.normSq (t - a) := by
      rw [← hba]; nlinarith [sq_nonneg (Vec3.dot (b - a) (t - a))]
    have h3 : levelLength a b ^ 2 * h ^ 2 ≤ levelLength a b ^ 2 * Vec3.normSq (t - a) := by
      rw [mul_pow] at hcr; linarith
    exact le_of_mul_le_mul_left h3 (by positivity)
  have nt : h ≤ Vec3.norm (t - a) := Vec3.le_norm_of_sq ht2
  have ht3 : Vec3.normSq (t - a) ≤ 3 * W ^ 2 := by
    rw [Vec3.normSq_def]
    simp only [Vec3.sub_x, Vec3.sub_y, Vec3.sub_z]
    have g : ∀ x : ℝ, |x| ≤ W → x * x ≤ W ^ 2 := fun x hx => by rw [← abs_mul_abs_self]; nlinarith [abs_nonneg x]
    linarith [g _ H.near.1, g _ H.near.2, g _ he]
  obtain ⟨n1, u1⟩ := unitFrom_far (A := A) (p := b) (q := a) (by rw [nb]; exact H.size.trans H.side)
  obtain ⟨n2, u2⟩ := unitFrom_far (A := A) (p := t) (q := a) (H.size.trans nt)
  have big : 4 / 10 ^ 9 ≤ Vec3.normSq (Vec3.cross ((1 / Vec3.norm (t - a)) • (t - a)) ((1 / Vec3.norm (b - a)) • (b - a))) := by
    have e : Vec3.normSq (Vec3.cross ((1 / Vec3.norm (t - a)) • (t - a)) ((1 / Vec3.norm (b - a)) • (b - a))) =
        (1 / Vec3.norm (t - a)) ^ 2 * (1 / Vec3.norm (b - a)) ^ 2 * Vec3.normSq (Vec3.cross (b - a) (t - a)) := by
      simp only [Vec3.normSq_def, Vec3.cross_x, Vec3.cross_y, Vec3.cross_z, Vec3.smul_x, Vec3.smul_y, Vec3.smul_z]
      ring
    have p2 : 0 < Vec3.normSq (t - a) := lt_of_lt_of_le (by positivity) ht2
    rw [e, div_pow, div_pow, Vec3.norm_sq, Vec3.norm_sq, hba, one_pow, div_mul_div_comm, one_mul, one_div_mul_eq_div,
      le_div_iff₀ (by positivity)]
    have hw2 : W ^ 2 ≤ (5000 * h) ^ 2 := pow_le_pow_left₀ hW H.wide 2
    have k1 : Vec3.normSq (t - a) * levelLength a b ^ 2 ≤ 3 * (5000 * h) ^ 2 * levelLength a b ^ 2 :=
      mul_le_mul_of_nonneg_right (by linarith) (by positivity)
    nlinarith
  unfold edgeTest
  have : arePointsCollinear A [a, b, t] = .ok false := by
    simp only [arePointsCollinear, List.map_cons, List.map_nil, collinearLoop]
    rw [if_neg]
    rintro (hc | hc)
    · exact not_close_of_cross A (norm_unit n2) (norm_unit n1) u2 u1 big hc
    · refine not_close_of_cross A (norm_unit n2) (by rw [Vec3.norm_neg]; exact norm_unit n1) u2 u1.neg ?_ hc
      refine big.trans (le_of_eq ?_)
      simp only [Vec3.normSq_def, Vec3.cross_x, Vec3.cross_y, Vec3.cross_z, Vec3.neg_x, Vec3.neg_y, Vec3.neg_z]
      ring
  rw [this]

theorem levelArea_sum (a b c q : Vec3 ℝ) : levelArea a b q + levelArea b c q + levelArea c a q = levelArea a b c := by
  unfold levelArea; ring

theorem levelArea_rot (a b c : Vec3 ℝ) : levelArea b c a = levelArea a b c := by unfold levelArea; ring

theorem levelLength_comm (a b : Vec3 ℝ) : levelLength a b = levelLength b a := by
  unfold levelLength; congr 1; ring

theorem DeepIn.rot {q : Vec3 ℝ} (H : DeepIn h a b c q) : DeepIn h b c a q := by
  obtain ⟨s, hs, h1, h2, h3⟩ := H
  exact ⟨s, hs, h2, h3, h1⟩

/-- A level triangle and a point not far off its plane. -/
structure Above (W h e : ℝ) (a b c t : Vec3 ℝ) : Prop where
  level1 : b.z = a.z
  level2 : c.z = a.z
  size : 1 / 10 ^ 5 ≤ h
  wide : W ≤ 5000 * h
  nearA : |t.x - a.x| ≤ W ∧ |t.y - a.y| ≤ W
  nearB : |t.x - b.x| ≤ W ∧ |t.y - b.y| ≤ W
  nearC : |t.x - c.x| ≤ W ∧ |t.y - c.y| ≤ W
  near1 : |b.x - a.x| ≤ W ∧ |b.y - a.y| ≤ W
  near2 : |c.x - b.x| ≤ W ∧ |c.y - b.y| ≤ W
  near3 : |a.x - c.x| ≤ W ∧ |a.y - c.y| ≤ W
  off : |t.z - a.z| ≤ e
  area : levelArea a b c ≠ 0

theorem Above.rot {e : ℝ} (H : Above W h e a b c t) : Above W h e b c a t where
  level1 := H.level2.trans H.level1.symm
  level2 := H.level1.symm
  size := H.size
  wide := H.wide
  nearA := H.nearB
  nearB := H.nearC
  nearC := H.nearA
  near1 := H.near2
  near2 := H.near3
  near3 := H.near1
  off := by rw [H.level1]; exact H.off
  area := by rw [levelArea_rot]; exact H.area

/-- The sides of a triangle around a point deep in it. -/
theorem Above.sides {e : ℝ} (H : Above W h e a b c t) {s : ℝ} (hs : s = 1 ∨ s = -1)
    (h1 : h * levelLength a b ≤ s * levelArea a b t) (h2 : h * levelLength b c ≤ s * levelArea b c t)
    (h3 : h * levelLength c a ≤ s * levelArea c a t) : Beside W h s a b t ∧ Beside W h s a b c := by
  have hh : 0 < h := lt_of_lt_of_le (by norm_num) H.size
  have l1 := mul_nonneg hh.le (levelLength_nonneg a b)
  have l2 := mul_nonneg hh.le (levelLength_nonneg b c)
  have l3 := mul_nonneg hh.le (levelLength_nonneg c a)
  have hsum : s * levelArea a b t + s * levelArea b c t + s * levelArea c a t = s * levelArea a b c := by
    rw [← levelArea_sum a b c t]; ring
  have hle := levelArea_le a b c
  have hsa : s * levelArea a b c ≤ |levelArea a b c| := by
    rcases hs with rfl | rfl
    · rw [one_mul]; exact le_abs_self _
    · rw [neg_one_mul]; exact neg_le_abs _
  have hca : 0 < levelLength c a := by
    rcases (levelLength_nonneg c a).lt_or_eq with h | h
    · exact h
    · exfalso
      rw [← h, mul_zero] at hle
      exact H.area (abs_nonpos_iff.1 hle)
  have hside : h ≤ levelLength a b := by
    have : h * levelLength c a ≤ levelLength a b * levelLength c a := by linarith
    exact le_of_mul_le_mul_right this hca
  have hc3 : |c.x - a.x| ≤ W ∧ |c.y - a.y| ≤ W := by
    rw [abs_sub_comm c.x, abs_sub_comm c.y]; exact H.near3
  exact ⟨⟨H.level1, hs, H.size, H.wide, hside, H.nearA, h1⟩, ⟨H.level1, hs, H.size, H.wide, hside, hc3, by linarith⟩⟩

theorem weighted {x y z p q r t lo hi : ℝ} (hx : 0 ≤ x) (hy : 0 ≤ y) (hz : 0 ≤ z) (hsum : 0 < x + y + z)
    (e : x * p + y * q + z * r = (x + y + z) * t) (l1 : lo ≤ p) (l2 : lo ≤ q) (l3 : lo ≤ r) (u1 : p ≤ hi) (u2 : q ≤ hi)
    (u3 : r ≤ hi) : lo ≤ t ∧ t ≤ hi := by
  constructor
  · refine le_of_mul_le_mul_left ?_ hsum
    have := mul_le_mul_of_nonneg_left l1 hx
    have := mul_le_mul_of_nonneg_left l2 hy
    have := mul_le_mul_of_nonneg_left l3 hz
    linarith
  · refine le_of_mul_le_mul_left ?_ hsum
    have := mul_le_mul_of_nonneg_left u1 hx
    have := mul_le_mul_of_nonneg_left u2 hy
    have := mul_le_mul_of_nonneg_left u3 hz
    linarith

/-- Points deep in a triangle are between its corners. -/
theorem DeepIn.between (hd : DeepIn h a b c t) (hh : 0 ≤ h) (hD : levelArea a b c ≠ 0) {lo hi : Vec3 ℝ}
    (la : lo.x ≤ a.x ∧ lo.y ≤ a.y ∧ a.x ≤ hi.x ∧ a.y ≤ hi.y) (lb : lo.x ≤ b.x ∧ lo.y ≤ b.y ∧ b.x ≤ hi.x ∧ b.y ≤ hi.y)
    (lc : lo.x ≤ c.x ∧ lo.y ≤ c.y ∧ c.x ≤ hi.x ∧ c.y ≤ hi.y) :
    (lo.x ≤ t.x ∧ t.x ≤ hi.x) ∧ lo.y ≤ t.y ∧ t.y ≤ hi.y := by
  obtain ⟨s, hs, h1, h2, h3⟩ := hd
  have k1 := (mul_nonneg hh (levelLength_nonneg a b)).trans h1
  have k2 := (mul_nonneg hh (levelLength_nonneg b c)).trans h2
  have k3 := (mul_nonneg hh (levelLength_nonneg c a)).trans h3
  have hsum : s * levelArea b c t + s * levelArea c a t + s * levelArea a b t = s * levelArea a b c := by
    rw [← levelArea_sum a b c t]; ring
  have hs0 : s ≠ 0 := by rcases hs with rfl | rfl <;> norm_num
  have hpos : 0 < s * levelArea b c t + s * levelArea c a t + s * levelArea a b t := by
    refine lt_of_le_of_ne (by linarith) ?_
    rw [hsum]; exact (mul_ne_zero hs0 hD).symm
  refine ⟨weighted k2 k3 k1 hpos ?_ la.1 lb.1 lc.1 la.2.2.1 lb.2.2.1 lc.2.2.1,
    weighted k2 k3 k1 hpos ?_ la.2.1 lb.2.1 lc.2.1 la.2.2.2 lb.2.2.2 lc.2.2.2⟩
  · rw [hsum]; unfold levelArea; ring
  · rw [hsum]; unfold levelArea; ring

/-- The margin of a box is not lost. -/
theorem box_low {L v d R : ℝ} (hR : R ≤ 10 ^ 9) (hL : |L| ≤ R) (hd : d ≤ 1 / 200) (hv : L - d ≤ v) : ¬ v < A.sub L (A.lit (1 / 100)) := by
  have hl := (lit_rel A (1 / 100)).le (by norm_num)
  have e1 := abs_le.1 (A.sub_err L (A.lit (1 / 100)))
  have b1 : |L - A.lit (1 / 100)| ≤ 10 ^ 10 := by
    rw [abs_le]; have := abs_le.1 hL
    norm_num at *
    constructor <;> linarith
  norm_num at *
  linarith

theorem box_high {L v d R : ℝ} (hR : R ≤ 10 ^ 9) (hL : |L| ≤ R) (hd : d ≤ 1 / 200) (hv : v ≤ L + d) : ¬ A.add L (A.lit (1 / 100)) < v := by
  have hl := (lit_rel A (1 / 100)).le (by norm_num)
  have e1 := abs_le.1 (A.add_err L (A.lit (1 / 100)))
  have b1 : |L + A.lit (1 / 100)| ≤ 10 ^ 10 := by
    rw [abs_le]; have := abs_le.1 hL
    norm_num at *
    constructor <;> linarith
  norm_num at *
  linarith

theorem min_bound {x y R : ℝ} (hx : |x| ≤ R) (hy : |y| ≤ R) : |min x y| ≤ R := by
  rcases min_choice x y with h | h <;> rw [h] <;> assumption

theorem max_bound {x y R : ℝ} (hx : |x| ≤ R) (hy : |y| ≤ R) : |max x y| ≤ R := by
  rcases max_choice x y with h | h <;> rw [h] <;> assumption

open Classical in
/-- The rounded test of a triangle finds points deep in it, a little off its plane. -/
theorem inside_deep {R : ℝ} (H : Above W h (97 / 10 ^ 15 * h) a b c t) (hd : DeepIn h a b c t) (hR : R ≤ 10 ^ 9) (hhR : h ≤ R)
    (ha : Bounded R a) (hb : Bounded R b) (hc : Bounded R c) : isPointInside A t a b c = .ok true := by
  obtain ⟨s, hs, h1, h2, h3⟩ := hd
  have hh : 0 < h := lt_of_lt_of_le (by norm_num) H.size
  obtain ⟨s1, r1⟩ := H.sides hs h1 h2 h3
  obtain ⟨s2, r2⟩ := H.rot.sides hs h2 h3 h1
  obtain ⟨s3, r3⟩ := H.rot.rot.sides hs h3 h1 h2
  have hW : h ≤ 2 * W := by
    have q1 := le_levelLength a b
    have hL := levelLength_sq a b
    have := s1.side
    have k1 : (b.x - a.x) ^ 2 ≤ W ^ 2 := sq_le_sq' (abs_le.1 H.near1.1).1 (abs_le.1 H.near1.1).2
    have k2 : (b.y - a.y) ^ 2 ≤ W ^ 2 := sq_le_sq' (abs_le.1 H.near1.2).1 (abs_le.1 H.near1.2).2
    have hW0 : 0 ≤ W := (abs_nonneg _).trans H.near1.1
    refine le_trans this (le_of_sq_le_sq (b := 2 * W) ?_ (by positivity))
    nlinarith
  have off : ∀ z, |t.z - z| ≤ 97 / 10 ^ 15 * h → |t.z - z| ≤ W := fun z hz => hz.trans (by norm_num; linarith)
  have e1 := s1.edge (A := A) (off _ H.off)
  have e2 := s2.edge (A := A) (off _ H.rot.off)
  have e3 := s3.edge (A := A) (off _ H.rot.rot.off)
  have m1 := s1.same (A := A) r1 H.level2 H.off
  have m2 := s2.same (A := A) r2 H.rot.level2 H.rot.off
  have m3 := s3.same (A := A) r3 H.rot.rot.level2 H.rot.rot.off
  have hbox : inBbox A t a b c = true := by
    have hz : |t.z - a.z| ≤ 1 / 200 := H.off.trans (by norm_num at hR ⊢; linarith)
    have hz' := abs_le.1 hz
    obtain ⟨⟨x1, x2⟩, y1, y2⟩ := DeepIn.between (t := t) ⟨s, hs, h1, h2, h3⟩ hh.le H.area
      (lo := ⟨min (min a.x b.x) c.x, min (min a.y b.y) c.y, 0⟩) (hi := ⟨max (max a.x b.x) c.x, max (max a.y b.y) c.y, 0⟩)
      (by simp) (by simp) (by simp)
    simp only at x1 x2 y1 y2
    unfold inBbox
    simp only [H.level1, H.level2, min_self, max_self]
    refine decide_eq_true ?_
    rintro ((k | k) | (k | k) | (k | k))
    · exact box_low hR (min_bound (min_bound ha.1 hb.1) hc.1) (d := 0) (by norm_num) (by linarith) k
    · exact box_high hR (max_bound (max_bound ha.1 hb.1) hc.1) (d := 0) (by norm_num) (by linarith) k
    · exact box_low hR (min_bound (min_bound ha.2.1 hb.2.1) hc.2.1) (d := 0) (by norm_num) (by linarith) k
    · exact box_high hR (max_bound (max_bound ha.2.1 hb.2.1) hc.2.1) (d := 0) (by norm_num) (by linarith) k
    · exact box_low hR ha.2.2 le_rfl (by linarith) k
    · exact box_high hR ha.2.2 le_rfl (by linarith) k
  unfold isPointInside
  rw [hbox]
  simp only [bind, Except.bind, pure, Except.pure, Bool.not_true, Bool.false_eq_true, if_false, e1, e2, e3, m1, m2, m3]
  split <;> rfl

/-- Two points near each other are both deep in a triangle. -/
theorem DeepIn.move {h' η : ℝ} {q : Vec3 ℝ} (H : DeepIn h a b c q) (hx : |t.x - q.x| ≤ η) (hy : |t.y - q.y| ≤ η)
    (hη : h' + 2 * η ≤ h) : DeepIn h' a b c t := by
  obtain ⟨s, hs, h1, h2, h3⟩ := H
  have key : ∀ p r : Vec3 ℝ, h * levelLength p r ≤ s * levelArea p r q → h' * levelLength p r ≤ s * levelArea p r t := by
    intro p r hpr
    obtain ⟨l1, l2⟩ := le_levelLength p r
    have hL := levelLength_nonneg p r
    have e : levelArea p r t - levelArea p r q = (r.x - p.x) * (t.y - q.y) - (r.y - p.y) * (t.x - q.x) := by
      unfold levelArea; ring
    have hd : |levelArea p r t - levelArea p r q| ≤ 2 * η * levelLength p r := by
      rw [e]
      refine (abs_sub _ _).trans ?_
      rw [abs_mul, abs_mul]
      have k1 := mul_le_mul l1 hy (abs_nonneg _) hL
      have k2 := mul_le_mul l2 hx (abs_nonneg _) hL
      linarith
    have hm := mul_le_mul_of_nonneg_right hη hL
    have hd' := abs_le.1 hd
    rcases hs with rfl | rfl <;> linarith [hd'.1, hd'.2]
  exact ⟨s, hs, key _ _ h1, key _ _ h2, key _ _ h3⟩

/-! ## Normals of level triangles -/

theorem level_cross (h1 : b.z = a.z) (h2 : c.z = a.z) :
    (Rounded.cross A (subv A b a) (subv A c a)).x = 0 ∧ (Rounded.cross A (subv A b a) (subv A c a)).y = 0 := by
  have hz : A.sub b.z a.z = 0 := by rw [h1]; simp
  have hz2 : A.sub c.z a.z = 0 := by rw [h2]; simp
  constructor <;> simp only [Rounded.cross, subv, hz, hz2, zero_mul', mul_zero', sub_self']

theorem level_cross_z {R : ℝ} (hR : R ≤ 1000) (ha : Bounded R a) (hb : Bounded R b) (hc : Bounded R c)
    (hD : 1 / 10 ^ 7 ≤ |levelArea a b c|) : 4 / 10 ^ 8 ≤ |(Rounded.cross A (subv A b a) (subv A c a)).z| := by
  have h := det_err2 A (sub_rel A b.x a.x) (sub_rel A b.y a.y) (sub_rel A c.x a.x) (sub_rel A c.y a.y)
  have hR0 : 0 ≤ R := (abs_nonneg _).trans ha.1
  have two : ∀ x y : ℝ, |x| ≤ R → |y| ≤ R → |x - y| ≤ 2000 := fun x y hx hy => (abs_sub _ _).trans (by linarith)
  have k1 := mul_le_mul (two _ _ hb.1 ha.1) (two _ _ hc.2.1 ha.2.1) (abs_nonneg _) (by norm_num)
  have k2 := mul_le_mul (two _ _ hb.2.1 ha.2.1) (two _ _ hc.1 ha.1) (abs_nonneg _) (by norm_num)
  rw [← abs_mul] at k1 k2
  have i := abs_sub_abs_le_abs_sub (levelArea a b c) (Rounded.cross A (subv A b a) (subv A c a)).z
  rw [abs_sub_comm] at i
  change |(Rounded.cross A (subv A b a) (subv A c a)).z - levelArea a b c| ≤ _ at h
  norm_num at h k1 k2 hD i ⊢
  linarith

theorem abs_z_norm {v : Vec3 ℝ} : (1 - 8 / 10 ^ 15) * |v.z| ≤ A.norm v :=
  (mul_le_mul_of_nonneg_left (Vec3.abs_z_le v) (by norm_num)).trans ((norm_rel A v).le (Vec3.norm_nonneg v)).1

theorem norm_upright {v : Vec3 ℝ} (hx : v.x = 0) (hy : v.y = 0) : Vec3.norm v = |v.z| := by
  have h := Vec3.norm_sq v
  rw [Vec3.normSq_def, hx, hy, ← abs_mul_abs_self v.z] at h
  refine (pow_left_inj₀ (Vec3.norm_nonneg v) (abs_nonneg _) two_ne_zero).1 ?_
  rw [h]; ring

open Classical in
/-- The computed normal of three level points. -/
theorem level_normal {R : ℝ} (hR : R ≤ 1000) (ha : Bounded R a) (hb : Bounded R b) (hc : Bounded R c) (h1 : b.z = a.z)
    (h2 : c.z = a.z) (hD : 1 / 10 ^ 7 ≤ |levelArea a b c|) :
    ∃ g : ℝ, normal A a b c = some ⟨0, 0, g⟩ ∧ |(|g|) - 1| ≤ 2 / 10 ^ 14 := by
  obtain ⟨zx, zy⟩ := level_cross (A := A) h1 h2
  have hz := level_cross_z (A := A) hR ha hb hc hD
  unfold normal
  simp only
  set v := Rounded.cross A (subv A b a) (subv A c a)
  have hn := (norm_rel A v).le (Vec3.norm_nonneg v)
  rw [norm_upright zx zy] at hn
  have hl0 : 0 < A.norm v := by norm_num at hn hz ⊢; linarith [hn.1]
  rw [if_neg]
  · refine ⟨A.div v.z (A.norm v), ?_, ?_⟩
    · simp only [divv, zx, zy, zero_div' A hl0.ne']
    · have k := ((div_rel A v.z hl0.ne').abs (by norm_num)).le (abs_nonneg _)
      rw [abs_div, abs_of_pos hl0] at k
      have k2 : |v.z| / A.norm v ≤ 1 + 9 / 10 ^ 15 := by
        rw [div_le_iff₀ hl0]; norm_num at hn ⊢; linarith [hn.1]
      have k3 : 1 - 9 / 10 ^ 15 ≤ |v.z| / A.norm v := by
        rw [le_div_iff₀ hl0]; norm_num at hn ⊢; linarith [hn.2]
      rw [abs_le]
      norm_num at k k2 k3 ⊢
      constructor <;> linarith [k.1, k.2]
  · intro hcl
    have := le_of_isClose A (by norm_num [NP_RTOL]) (by norm_num [NP_ATOL]) hcl
    rw [sub_zero, abs_of_pos hl0, abs_zero] at this
    norm_num [NP_RTOL, NP_ATOL] at this hn hz
    linarith [hn.1]

open Classical in
/-- Triangles that are not needles do not raise exceptions. -/
theorem inside_ok {R : ℝ} (hR : R ≤ 1000) (ha : Bounded R a) (hb : Bounded R b) (hc : Bounded R c) (hD : 1 / 10 ^ 7 ≤ |levelArea a b c|) (t : Vec3 ℝ) : ∃ r, isPointInside A t a b c = .ok r := by
  have key : ∀ p q r : Vec3 ℝ, Bounded R p → Bounded R q → Bounded R r → 1 / 10 ^ 7 ≤ |levelArea p q r| →
      ∃ x, isPointOnSameSide A p q t r = .ok x := by
    intro p q r hp hq hr hA
    have hz := level_cross_z (A := A) hR hp hq hr hA
    have hn := abs_z_norm (A := A) (v := Rounded.cross A (subv A q p) (subv A r p))
    have hl := (atol_bounds A).2
    unfold isPointOnSameSide
    simp only
    rw [if_neg (by norm_num at hn hz hl ⊢; linarith)]
    split
    · exact ⟨_, rfl⟩
    · exact ⟨_, rfl⟩
  obtain ⟨x1, e1⟩ := key a b c ha hb hc hD
  obtain ⟨x2, e2⟩ := key b c a hb hc ha (by rw [levelArea_rot]; exact hD)
  obtain ⟨x3, e3⟩ := key c a b hc ha hb (by rw [levelArea_rot, levelArea_rot]; exact hD)
  unfold isPointInside
  simp only [bind, Except.bind, pure, Except.pure, e1, e2, e3]
  split
  · exact ⟨_, rfl⟩
  split
  · exact ⟨_, rfl⟩
  split
  · exact ⟨_, rfl⟩
  split
  · exact ⟨_, rfl⟩
  split
  · exact ⟨_, rfl⟩
  · exact ⟨_, rfl⟩

theorem levelArea_eq_zero_or (hD : 1 / 10 ^ 7 ≤ |levelArea a b c|) : levelArea a b c ≠ 0 := by
  intro h
  rw [h] at hD
  norm_num at hD

open Classical in
/-- The rounded test of a polygon finds points deep in one of its triangles, a little off its plane. -/
theorem polygon_deep {R z0 atol : ℝ} {pts : List (Vec3 ℝ)} {tri : List Tri} (hR : R ≤ 1000) (h5 : 1 / 10 ^ 5 ≤ h)
    (hhR : h ≤ R) (hRh : R ≤ 2400 * h) (HP : LevelPolygon R z0 pts tri) (hd : DeepInside h pts tri t)
    (hz : |t.z - z0| ≤ 97 / 10 ^ 15 * h)
    (hcop : ∀ g : ℝ, |(|g|) - 1| ≤ 2 / 10 ^ 14 → |A.add (-A.mul g z0) (A.mul g t.z)| < A.lit atol) (hat : 0 < A.lit atol) :
    pointInPolygonTol A atol t pts tri = .ok true := by
  obtain ⟨l, p0, p1, p2, el, e0, e1, e2, hl, hp⟩ := HP.corners
  obtain ⟨tr, htr, a, b, c, ea, eb, ec, hT⟩ := hd
  have hh : 0 < h := lt_of_lt_of_le (by norm_num) h5
  have ma := List.mem_of_getElem? ea
  have mb := List.mem_of_getElem? eb
  have mc := List.mem_of_getElem? ec
  have hD : 1 / 10 ^ 7 ≤ |levelArea a b c| := by
    obtain ⟨a', b', c', ea', eb', ec', hA⟩ := HP.triangles tr htr
    rw [ea, Option.some.injEq] at ea'
    rw [eb, Option.some.injEq] at eb'
    rw [ec, Option.some.injEq] at ec'
    subst ea' eb' ec'
    exact hA
  have hne := levelArea_eq_zero_or hD
  have hR9 : R ≤ 10 ^ 9 := hR.trans (by norm_num)
  have tb : |t.x| ≤ R ∧ |t.y| ≤ R := by
    have f : ∀ p : Vec3 ℝ, Bounded R p → -R ≤ p.x ∧ -R ≤ p.y ∧ p.x ≤ R ∧ p.y ≤ R := fun p hp =>
      ⟨(abs_le.1 hp.1).1, (abs_le.1 hp.2.1).1, (abs_le.1 hp.1).2, (abs_le.1 hp.2.1).2⟩
    obtain ⟨x, y⟩ := DeepIn.between hT hh.le hne (lo := ⟨-R, -R, 0⟩) (hi := ⟨R, R, 0⟩) (f a (HP.bounded a ma))
      (f b (HP.bounded b mb)) (f c (HP.bounded c mc))
    exact ⟨abs_le.2 x, abs_le.2 y⟩
  have two : ∀ x y : ℝ, |x| ≤ R → |y| ≤ R → |x - y| ≤ 2 * R := fun x y hx hy => (abs_sub _ _).trans (by linarith)
  have Ba := HP.bounded a ma
  have Bb := HP.bounded b mb
  have Bc := HP.bounded c mc
  have H : Above (2 * R) h (97 / 10 ^ 15 * h) a b c t :=
    { level1 := (HP.level b mb).trans (HP.level a ma).symm
      level2 := (HP.level c mc).trans (HP.level a ma).symm
      size := h5
      wide := by linarith
      nearA := ⟨two _ _ tb.1 Ba.1, two _ _ tb.2 Ba.2.1⟩
      nearB := ⟨two _ _ tb.1 Bb.1, two _ _ tb.2 Bb.2.1⟩
      nearC := ⟨two _ _ tb.1 Bc.1, two _ _ tb.2 Bc.2.1⟩
      near1 := ⟨two _ _ Bb.1 Ba.1, two _ _ Bb.2.1 Ba.2.1⟩
      near2 := ⟨two _ _ Bc.1 Bb.1, two _ _ Bc.2.1 Bb.2.1⟩
      near3 := ⟨two _ _ Ba.1 Bc.1, two _ _ Ba.2.1 Bc.2.1⟩
      off := by rw [HP.level a ma]; exact hz
      area := hne }
  have hin := inside_deep (A := A) H hT hR9 hhR Ba Bb Bc
  have hbox : insideBbox A t pts (1 / 100) = .ok true := by
    obtain ⟨lo, hi, hb, hin, ⟨px, hpx, ex⟩, ⟨py, hpy, ey⟩, ⟨pz, hpz, ez⟩, ⟨qx, hqx, fx⟩, ⟨qy, hqy, fy⟩, ⟨qz, hqz, fz⟩⟩ :=
      Bboxes.boundingBox_spec (List.ne_nil_of_mem ma)
    have f : ∀ p ∈ pts, lo.x ≤ p.x ∧ lo.y ≤ p.y ∧ p.x ≤ hi.x ∧ p.y ≤ hi.y := fun p hp =>
      ⟨(hin p hp).1, (hin p hp).2.1, (hin p hp).2.2.2.1, (hin p hp).2.2.2.2.1⟩
    obtain ⟨⟨x1, x2⟩, y1, y2⟩ := DeepIn.between hT hh.le hne (f a ma) (f b mb) (f c mc)
    have hz' := abs_le.1 (hz.trans (show 97 / 10 ^ 15 * h ≤ 1 / 200 by norm_num; linarith))
    have b1 : |lo.x| ≤ R := by rw [← ex]; exact (HP.bounded px hpx).1
    have b2 : |hi.x| ≤ R := by rw [← fx]; exact (HP.bounded qx hqx).1
    have b3 : |lo.y| ≤ R := by rw [← ey]; exact (HP.bounded py hpy).2.1
    have b4 : |hi.y| ≤ R := by rw [← fy]; exact (HP.bounded qy hqy).2.1
    have b5 : |lo.z| ≤ R := by rw [← ez]; exact (HP.bounded pz hpz).2.2
    have b6 : |hi.z| ≤ R := by rw [← fz]; exact (HP.bounded qz hqz).2.2
    have b7 : lo.z - 1 / 200 ≤ t.z := by rw [← ez, HP.level pz hpz]; linarith
    have b8 : t.z ≤ hi.z + 1 / 200 := by rw [← fz, HP.level qz hqz]; linarith
    unfold insideBbox
    rw [hb]
    refine congrArg Except.ok (decide_eq_true ?_)
    rintro ((k | k) | (k | k) | (k | k))
    · exact box_low (A := A) hR9 b1 (d := 0) (by norm_num) (by linarith) k
    · exact box_high (A := A) hR9 b2 (d := 0) (by norm_num) (by linarith) k
    · exact box_low (A := A) hR9 b3 (d := 0) (by norm_num) (by linarith) k
    · exact box_high (A := A) hR9 b4 (d := 0) (by norm_num) (by linarith) k
    · exact box_low (A := A) hR9 b5 le_rfl b7 k
    · exact box_high (A := A) hR9 b6 le_rfl b8 k
  have hc : arePointsCoplanarTol A atol (pts ++ [t]) = true := by
    match pts, e0, e1, e2 with
    | x0 :: x1 :: x2 :: rest, e0, e1, e2 =>
      simp only [List.getElem?_cons_zero, List.getElem?_cons_succ, Option.some.injEq] at e0 e1 e2
      subst e0 e1 e2
      obtain ⟨g, hg, hg1⟩ := level_normal (A := A) hR (HP.bounded x0 (by simp)) (HP.bounded x1 (by simp)) (HP.bounded x2 (by simp))
        ((HP.level x1 (by simp)).trans (HP.level x0 (by simp)).symm) ((HP.level x2 (by simp)).trans (HP.level x0 (by simp)).symm) hp
      have hf : firstNormal A (x0 :: x1 :: x2 :: rest ++ [t]) = some ⟨0, 0, g⟩ := by
        simp only [List.cons_append, firstNormal, hg]
      have hall : ((x0 :: x1 :: x2 :: rest ++ [t]).all fun p => decide (|A.add (-A.dot ⟨0, 0, g⟩ x0) (A.dot ⟨0, 0, g⟩ p)| < A.lit atol)) = true := by
        rw [List.all_eq_true]
        intro p hp
        rw [decide_eq_true_eq, A.dot_z, A.dot_z, HP.level x0 (by simp)]
        rw [List.mem_append] at hp
        rcases hp with hp | hp
        · rw [HP.level p hp, add_neg_self', abs_zero]; exact hat
        · rw [List.mem_singleton] at hp; rw [hp]; exact hcop g hg1
      simp only [List.cons_append] at hf hall ⊢
      unfold arePointsCoplanarTol
      simp only [hf]
      split
      · rfl
      · split
        · rfl
        · exact hall
  have hloop : triangleLoop A t pts true tri = .ok true := by
    have : ∀ T : List Tri, (∀ x ∈ T, TriangleWith pts x fun a b c => 1 / 10 ^ 7 ≤ |levelArea a b c|) → tr ∈ T →
        triangleLoop A t pts true T = .ok true := by
      intro T
      induction T with
      | nil => intro _ h; cases h
      | cons x T ih =>
        intro hA hm
        obtain ⟨i, j, k⟩ := x
        obtain ⟨a', b', c', ea', eb', ec', hA'⟩ := hA _ List.mem_cons_self
        simp only at ea' eb' ec'
        have ma' := List.mem_of_getElem? ea'
        have mb' := List.mem_of_getElem? eb'
        have mc' := List.mem_of_getElem? ec'
        obtain ⟨r, hr⟩ := inside_ok (A := A) hR (HP.bounded _ ma') (HP.bounded _ mb') (HP.bounded _ mc') hA' t
        unfold triangleLoop
        simp only [ea', eb', ec', hr]
        cases r with
        | true => rfl
        | false =>
          refine ih (fun y hy => hA y (List.mem_cons_of_mem _ hy)) ?_
          rcases List.mem_cons.1 hm with rfl | h'
          · exfalso
            simp only at ea eb ec
            rw [ea, Option.some.injEq] at ea'
            rw [eb, Option.some.injEq] at eb'
            rw [ec, Option.some.injEq] at ec'
            subst ea' eb' ec'
            rw [hin] at hr
            cases hr
          · exact h'
    exact this tri HP.triangles htr
  unfold pointInPolygonTol
  rw [hbox]
  simp only [hc, Bool.true_eq_false, if_false]
  exact hloop

/-! ## Rays -/

/-- The four operations have a relative error of at most `ε`. -/
structure Precise (A : Arith) (ε : ℝ) : Prop where
  nonneg : 0 ≤ ε
  small : ε ≤ 1 / 10 ^ 15
  add : ∀ x y, |A.add x y - (x + y)| ≤ ε * |x + y|
  sub : ∀ x y, |A.sub x y - (x - y)| ≤ ε * |x - y|
  mul : ∀ x y, |A.mul x y - x * y| ≤ ε * |x * y|
  div : ∀ x y, y ≠ 0 → |A.div x y - x / y| ≤ ε * |x / y|

theorem precise_any : Precise A (1 / 10 ^ 15) := ⟨by norm_num, le_rfl, A.add_err, A.sub_err, A.mul_err, A.div_err⟩

variable {ε R z0 : ℝ}

theorem Rel.abs_le' {e x' x : ℝ} (h : Rel e x' x) (he : e < 1) : |x'| ≤ (1 + e) * |x| := ((h.abs he).le (abs_nonneg x)).2

/-- The computed way of a ray to a level plane. -/
theorem ray_way (hp : Precise A ε) {g pz vz f : ℝ} (hg : |(|g|) - 1| ≤ 2 / 10 ^ 14) (hz : |z0| ≤ R) (hpz : |pz| ≤ R)
    (hf : f = z0 - pz) (hv : vz ≠ 0) :
    let s := A.div (A.sub (A.sub (A.sub (A.mul g z0) 0) 0) (A.mul g pz)) (A.add 0 (A.mul g vz))
    |s * vz - f| ≤ 13 * ε * R := by
  have hε := hp.nonneg
  have hε1 := hp.small
  have hR0 : 0 ≤ R := (abs_nonneg _).trans hz
  have hεR := mul_nonneg hε hR0
  have hεεR : ε * (ε * R) ≤ 1 / 10 ^ 15 * (ε * R) := mul_le_mul_of_nonneg_right hε1 hεR
  have hg' := abs_le.1 hg
  have hg0 : 0 < |g| := lt_of_lt_of_le (by norm_num : (0 : ℝ) < 1 - 2 / 10 ^ 14) (by linarith [hg'.1])
  have hgn : g ≠ 0 := abs_pos.1 hg0
  have hε2 : ε * ε ≤ ε / 10 ^ 15 := by
    have := mul_le_mul_of_nonneg_left hε1 hε
    linarith
  have r0 : ∀ x, Rel ε (A.sub x 0) x := fun x => by
    have := rel_of_err hε (hp.sub x 0); rwa [sub_zero] at this
  have m1 := rel_of_err hε (hp.mul g z0)
  have m2 := rel_of_err hε (hp.mul g pz)
  have n1 : Rel (31 / 10 * ε) (A.sub (A.sub (A.mul g z0) 0) 0) (g * z0) :=
    (r0 _).trans ((r0 _).trans m1 (g := 205 / 100 * ε) (by norm_num at hε2 ⊢; linarith)) (by
      norm_num at hε2 ⊢; nlinarith)
  set N1 := A.sub (A.sub (A.mul g z0) 0) 0
  set N2 := A.mul g pz
  have d0 : Rel (21 / 10 * ε) (A.add 0 (A.mul g vz)) (g * vz) := by
    have h1 := rel_of_err hε (hp.add 0 (A.mul g vz))
    rw [zero_add] at h1
    exact h1.trans (rel_of_err hε (hp.mul g vz)) (by norm_num at hε2 ⊢; linarith)
  set D := A.add 0 (A.mul g vz)
  have hgv : g * vz ≠ 0 := mul_ne_zero hgn hv
  have hε3 : 21 / 10 * ε < 1 := by norm_num at hε1 ⊢; linarith
  have hD : D ≠ 0 := by
    have := ((d0.abs hε3).pos hε3 (abs_pos.2 hgv))
    exact abs_pos.1 this
  have hs := rel_of_err hε (hp.div (A.sub N1 N2) D hD)
  have hi := d0.inv hε3 (g := 22 / 10 * ε) (by norm_num at hε2 hε1 ⊢; nlinarith)
  have hN := hp.sub N1 N2
  set N := A.sub N1 N2
  have e1 := n1.err
  have e2 := m2.err
  have az : |g * z0| ≤ |g| * R := by rw [abs_mul]; exact mul_le_mul_of_nonneg_left hz hg0.le
  have ap : |g * pz| ≤ |g| * R := by rw [abs_mul]; exact mul_le_mul_of_nonneg_left hpz hg0.le
  have q1 : |N1 - g * z0| ≤ 31 / 10 * ε * (|g| * R) := e1.trans (mul_le_mul_of_nonneg_left az (by positivity))
  have q2 : |N2 - g * pz| ≤ ε * (|g| * R) := e2.trans (mul_le_mul_of_nonneg_left ap hε)
  have gf : |g * f| ≤ 2 * (|g| * R) := by
    rw [hf, mul_sub]; exact (abs_sub _ _).trans (by linarith)
  have hgR : 0 ≤ |g| * R := by positivity
  have hεgR : 0 ≤ ε * (|g| * R) := by positivity
  have hεεgR : ε * (ε * (|g| * R)) ≤ 1 / 10 ^ 15 * (ε * (|g| * R)) := mul_le_mul_of_nonneg_right hε1 hεgR
  have q3 : |(N1 - N2) - g * f| ≤ 41 / 10 * ε * (|g| * R) := by
    have : N1 - N2 - g * f = (N1 - g * z0) - (N2 - g * pz) := by rw [hf]; ring
    rw [this]
    exact (abs_sub _ _).trans (by linarith)
  have q4 : |N1 - N2| ≤ 2 * (|g| * R) + 41 / 10 * ε * (|g| * R) := by
    have := abs_add_le (N1 - N2 - g * f) (g * f)
    rw [sub_add_cancel] at this
    linarith
  have q5 : |N - g * f| ≤ 62 / 10 * ε * (|g| * R) := by
    have := abs_sub_le N (N1 - N2) (g * f)
    have h2 := mul_le_mul_of_nonneg_left q4 hε
    norm_num at hεεgR h2 ⊢
    nlinarith
  have q6 : |N / g - f| ≤ 62 / 10 * ε * R := by
    have : N / g - f = (N - g * f) / g := by field_simp
    rw [this, abs_div, div_le_iff₀ hg0]
    linarith
  have fR : |f| ≤ 2 * R := by rw [hf]; exact (abs_sub _ _).trans (by linarith)
  have q7 : |N / g| ≤ 2 * R + 62 / 10 * ε * R := by
    have := abs_add_le (N / g - f) f
    rw [sub_add_cancel] at this
    linarith
  have hs2 : Rel (33 / 10 * ε) (A.div N D * vz) (N / g) := by
    have h1 : Rel (22 / 10 * ε) (N / D) (N / (g * vz)) := by
      rw [div_eq_mul_inv, div_eq_mul_inv]
      exact Rel.mul (⟨0, by simp, by simp⟩ : Rel 0 N N) hi (by linarith)
    have h2 := hs.trans h1 (g := 33 / 10 * ε) (by norm_num at hε2 ⊢; nlinarith)
    have h3 := h2.mul (⟨0, by simp, by simp⟩ : Rel 0 vz vz) (g := 33 / 10 * ε) (by linarith)
    have e : N / (g * vz) * vz = N / g := by field_simp
    rwa [e] at h3
  have q8 := hs2.err
  have q9 := mul_le_mul_of_nonneg_left q7 (show 0 ≤ 33 / 10 * ε by positivity)
  have := abs_sub_le (A.div N D * vz) (N / g) f
  change |A.div N D * vz - f| ≤ _
  norm_num at hεεR q9 q6 q8 ⊢
  nlinarith

/-- The steps after it. -/
theorem way_step (hp : Precise A ε) {k s v f p G : ℝ} {vz : ℝ} (hk0 : 0 ≤ k) (hk : k ≤ 20) (hv : vz ≠ 0)
    (h : |s * vz - f| ≤ k * (ε * R)) (hf : |f| ≤ 2 * R)
    (hG : 1 ≤ G) (hvG : |v| ≤ G * |vz|) (hq : |p + f / vz * v| ≤ R) :
    |A.add p (A.mul s v) - (p + f / vz * v)| ≤ (k + 4) * (ε * R * G) := by
  have hε := hp.nonneg
  have hε1 := hp.small
  have hR0 : 0 ≤ R := (abs_nonneg _).trans hq
  have hεR := mul_nonneg hε hR0
  have hvz : 0 < |vz| := abs_pos.2 hv
  have hG0 : 0 ≤ G := by linarith
  have hεRG : 0 ≤ ε * R * G := by positivity
  have hεRG1 : ε * R ≤ ε * R * G := le_mul_of_one_le_right hεR hG
  have q1 : |s * v - f / vz * v| ≤ k * (ε * R * G) := by
    have e : s * v - f / vz * v = (s * vz - f) * (v / vz) := by field_simp
    have hr : |v / vz| ≤ G := by rw [abs_div, div_le_iff₀ hvz]; exact hvG
    rw [e, abs_mul]
    have := mul_le_mul h hr (abs_nonneg _) (by positivity)
    linarith
  have q2 : |f / vz * v| ≤ 2 * R * G := by
    have e : f / vz * v = f * (v / vz) := by field_simp
    have hr : |v / vz| ≤ G := by rw [abs_div, div_le_iff₀ hvz]; exact hvG
    rw [e, abs_mul]
    exact mul_le_mul hf hr (abs_nonneg _) (by positivity)
  have q3 : |s * v| ≤ 2 * R * G + k * (ε * R * G) := by
    have := abs_add_le (s * v - f / vz * v) (f / vz * v)
    rw [sub_add_cancel] at this
    linarith
  have k1 := hp.mul s v
  have k2 := mul_le_mul_of_nonneg_left q3 hε
  have hkX : k * (ε * R * G) ≤ 20 * (ε * R * G) := mul_le_mul_of_nonneg_right hk hεRG
  have hkX0 : 0 ≤ k * (ε * R * G) := mul_nonneg hk0 hεRG
  have hεεRG : ε * (ε * R * G) ≤ 1 / 10 ^ 15 * (ε * R * G) := mul_le_mul_of_nonneg_right hε1 hεRG
  have q4 : |A.mul s v - f / vz * v| ≤ (k + 21 / 10) * (ε * R * G) := by
    have := abs_sub_le (A.mul s v) (s * v) (f / vz * v)
    norm_num at hεεRG ⊢
    nlinarith
  have q5 : |p + A.mul s v - (p + f / vz * v)| ≤ (k + 21 / 10) * (ε * R * G) := by
    have e : p + A.mul s v - (p + f / vz * v) = A.mul s v - f / vz * v := by ring
    rw [e]; exact q4
  have q6 : |p + A.mul s v| ≤ R + (k + 21 / 10) * (ε * R * G) := by
    have := abs_add_le (p + A.mul s v - (p + f / vz * v)) (p + f / vz * v)
    rw [sub_add_cancel] at this
    linarith
  have k3 := hp.add p (A.mul s v)
  have k4 := mul_le_mul_of_nonneg_left q6 hε
  have := abs_sub_le (A.add p (A.mul s v)) (p + A.mul s v) (p + f / vz * v)
  norm_num at hεεRG ⊢
  nlinarith

/-- A number near zero, as the test of coplanarity sees it. -/
theorem plane_near {g z y d : ℝ} (hg : |(|g|) - 1| ≤ 2 / 10 ^ 14) (hz : |z| ≤ R) (hd : |y - z| ≤ d) (hp : Precise A ε) :
    |A.add (-A.mul g z) (A.mul g y)| ≤ 11 / 10 * d + 31 / 10 * ε * R := by
  have hε := hp.nonneg
  have hε1 := hp.small
  have hR0 : 0 ≤ R := (abs_nonneg _).trans hz
  have hd0 : 0 ≤ d := (abs_nonneg _).trans hd
  have hεR := mul_nonneg hε hR0
  have hg' := abs_le.1 hg
  have hg2 : |g| ≤ 1 + 1 / 1000 := by have := hg'.2; norm_num at this ⊢; linarith
  have hy : |y| ≤ R + d := by
    have := abs_add_le (y - z) z
    rw [sub_add_cancel] at this
    linarith
  have e1 : |g * z| ≤ (1 + 1 / 1000) * R := by rw [abs_mul]; exact mul_le_mul hg2 hz (abs_nonneg _) (by norm_num)
  have e2 : |g * y| ≤ (1 + 1 / 1000) * (R + d) := by rw [abs_mul]; exact mul_le_mul hg2 hy (abs_nonneg _) (by norm_num)
  have e3 : |g * y - g * z| ≤ (1 + 1 / 1000) * d := by
    rw [← mul_sub, abs_mul]; exact mul_le_mul hg2 hd (abs_nonneg _) (by norm_num)
  have k1 := (hp.mul g z).trans (mul_le_mul_of_nonneg_left e1 hε)
  have k2 := (hp.mul g y).trans (mul_le_mul_of_nonneg_left e2 hε)
  have hεd : ε * d ≤ 1 / 10 ^ 15 * d := mul_le_mul_of_nonneg_right hε1 hd0
  have k3 : |-A.mul g z + A.mul g y| ≤ (1 + 2 / 1000) * d + 203 / 100 * ε * R := by
    have e : -A.mul g z + A.mul g y = (A.mul g y - g * y) - (A.mul g z - g * z) + (g * y - g * z) := by ring
    rw [e]
    refine (abs_add_le _ _).trans ?_
    have := abs_sub (A.mul g y - g * y) (A.mul g z - g * z)
    norm_num at hεd ⊢
    nlinarith
  have k4 := hp.add (-A.mul g z) (A.mul g y)
  have k5 := abs_add_le (A.add (-A.mul g z) (A.mul g y) - (-A.mul g z + A.mul g y)) (-A.mul g z + A.mul g y)
  rw [sub_add_cancel] at k5
  have k6 := mul_le_mul_of_nonneg_left k3 hε
  have hεεR : ε * (ε * R) ≤ 1 / 10 ^ 15 * (ε * R) := mul_le_mul_of_nonneg_right hε1 hεR
  norm_num at hεd hεεR k3 k6 ⊢
  nlinarith

/-- The end of the test of a ray that comes to a point deep in a level polygon. -/
theorem core_noticed (hp : Precise A ε) {pts : List (Vec3 ℝ)} {tri : List Tri} {p v : Vec3 ℝ} {k s s0 : ℝ} (hk0 : 0 ≤ k) (hk : k ≤ 20)
    (hR : R ≤ 1000) (h5 : 1 / 10 ^ 4 ≤ h) (hhR : h ≤ R) (hRh : R ≤ 2000 * h) (hε : (k + 5) * 10 ^ 13 * (ε * R) ≤ h)
    (HP : LevelPolygon R z0 pts tri) (hb : |p.z| ≤ R) (hs0 : 0 < s0) (hz : (p + s0 • v).z = z0)
    (hfar : R / 10 ^ 13 ≤ |z0 - p.z|) (hv : 2 / 1000 ≤ |v.z|) (hx : |v.x| ≤ 1000 * |v.z|) (hy : |v.y| ≤ 1000 * |v.z|)
    (hd : DeepInside h pts tri (p + s0 • v)) (way : |s * v.z - (z0 - p.z)| ≤ k * (ε * R)) :
    ¬ s < 0 ∧ pointInPolygonTol A (1 / 1000) (addv A p (scale A s v)) pts tri = .ok true := by
  obtain ⟨l, p0, p1, p2, el, e0, e1, e2, hl, hc⟩ := HP.corners
  have hε0 := hp.nonneg
  have hε1 := hp.small
  have hh : 0 < h := lt_of_lt_of_le (by norm_num) h5
  have hR0 : 0 < R := lt_of_lt_of_le hh hhR
  have hεR := mul_nonneg hε0 hR0.le
  have hεR1 : ε * R ≤ 1 / 10 ^ 15 * R := mul_le_mul_of_nonneg_right hε1 hR0.le
  have hkX : k * (ε * R) ≤ 20 * (ε * R) := mul_le_mul_of_nonneg_right hk hεR
  have m0 := List.mem_of_getElem? e0
  have hz0 : |z0| ≤ R := by rw [← HP.level p0 m0]; exact (HP.bounded p0 m0).2.2
  have hvn : v.z ≠ 0 := by intro h0; rw [h0] at hv; norm_num at hv
  have hvz : 0 < |v.z| := abs_pos.2 hvn
  have hs1 : s0 = (z0 - p.z) / v.z := by
    simp only [Vec3.add_z, Vec3.smul_z] at hz
    rw [eq_div_iff hvn]; linarith
  have hlit := (lit_rel A (1 / 1000)).le (by norm_num)
  have hf2 : |z0 - p.z| ≤ 2 * R := (abs_sub _ _).trans (by linarith)
  have hsn : ¬ s < 0 := by
    intro hneg
    have hff : s0 * v.z = z0 - p.z := by rw [hs1]; field_simp
    have hff2 : |z0 - p.z| = s0 * |v.z| := by rw [← hff, abs_mul, abs_of_pos hs0]
    have : |s * v.z - (z0 - p.z)| = (s0 - s) * |v.z| := by
      rw [← hff, ← sub_mul, abs_mul, abs_of_neg (by linarith)]; ring
    have h2 : 0 < -s * |v.z| := mul_pos (by linarith) hvz
    norm_num at hfar hεR1
    linarith
  -- where the ray comes to the plane
  obtain ⟨tr, htr, a, b, c, ea, eb, ec, hT⟩ := hd
  have ma := List.mem_of_getElem? ea
  have mb := List.mem_of_getElem? eb
  have mc := List.mem_of_getElem? ec
  have hD : levelArea a b c ≠ 0 := by
    obtain ⟨a', b', c', ea', eb', ec', hA⟩ := HP.triangles tr htr
    rw [ea, Option.some.injEq] at ea'
    rw [eb, Option.some.injEq] at eb'
    rw [ec, Option.some.injEq] at ec'
    subst ea' eb' ec'
    exact levelArea_eq_zero_or hA
  have fb : ∀ p : Vec3 ℝ, Bounded R p → -R ≤ p.x ∧ -R ≤ p.y ∧ p.x ≤ R ∧ p.y ≤ R := fun p hp =>
    ⟨(abs_le.1 hp.1).1, (abs_le.1 hp.2.1).1, (abs_le.1 hp.1).2, (abs_le.1 hp.2.1).2⟩
  obtain ⟨bx, by'⟩ := DeepIn.between hT hh.le hD (lo := ⟨-R, -R, 0⟩) (hi := ⟨R, R, 0⟩) (fb a (HP.bounded a ma))
    (fb b (HP.bounded b mb)) (fb c (HP.bounded c mc))
  have qx := way_step (A := A) hp hk0 hk hvn way hf2 (v := v.x) (p := p.x) (G := 1000) (by norm_num) hx (by
    rw [← hs1]; exact abs_le.2 bx)
  have qy := way_step (A := A) hp hk0 hk hvn way hf2 (v := v.y) (p := p.y) (G := 1000) (by norm_num) hy (by
    rw [← hs1]; exact abs_le.2 by')
  have ez : p.z + (z0 - p.z) / v.z * v.z = z0 := by field_simp; ring
  have qz := way_step (A := A) hp hk0 hk hvn way hf2 (v := v.z) (p := p.z) (G := 1) le_rfl (by simp) (by rw [ez]; exact hz0)
  rw [ez] at qz
  rw [← hs1] at qx qy
  set t : Vec3 ℝ := addv A p (scale A s v) with ht
  have hdt : DeepInside (999 / 1000 * h) pts tri t := by
    refine ⟨tr, htr, a, b, c, ea, eb, ec, DeepIn.move hT qx qy ?_⟩
    norm_num at hεR1 ⊢
    linarith
  refine ⟨hsn, polygon_deep (A := A) (atol := 1 / 1000) (h := 999 / 1000 * h) (t := t) hR (by norm_num at h5 ⊢; linarith)
    (by linarith) (by linarith) HP hdt (by
      refine le_trans qz ?_
      norm_num at hε ⊢
      linarith) (fun g' hg' => by
      have := plane_near (A := A) (ε := ε) hg' hz0 qz hp
      refine lt_of_le_of_lt this ?_
      norm_num at hlit hεR1 ⊢
      linarith [hlit.1]) (by norm_num at hlit ⊢; linarith [hlit.1])⟩

end B3d.Rounded
