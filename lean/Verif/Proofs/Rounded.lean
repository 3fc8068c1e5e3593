import Verif.Model.Rounded
import Verif.Spec.Rounded
import Verif.Proofs.Planar

/-!
# Rounded arithmetic: error bounds

For outlines without doubtful cases in a plane parallel to two coordinate axes, the rounded tests of the ear clipping give
the exact answers.
-/

namespace B3d.Rounded

open Spec Planar

/-! ## Relative errors -/

/-- `x'` is `x` up to a relative error of `e`. -/
def Rel (e x' x : ℝ) : Prop := ∃ d, |d| ≤ e ∧ x' = x * (1 + d)

theorem rel_of_err {e x' x : ℝ} (he : 0 ≤ e) (h : |x' - x| ≤ e * |x|) : Rel e x' x := by
  by_cases hx : x = 0
  · subst hx
    refine ⟨0, by simpa using he, ?_⟩
    rw [abs_zero, mul_zero] at h
    have := abs_nonpos_iff.1 h
    linarith
  · refine ⟨(x' - x) / x, ?_, by field_simp; ring⟩
    rw [abs_div, div_le_iff₀ (abs_pos.2 hx)]
    exact h

theorem Rel.err {e x' x : ℝ} (h : Rel e x' x) : |x' - x| ≤ e * |x| := by
  obtain ⟨d, hd, rfl⟩ := h
  rw [show x * (1 + d) - x = d * x by ring, abs_mul]
  exact mul_le_mul_of_nonneg_right hd (abs_nonneg x)

theorem Rel.zero {e x' : ℝ} (h : Rel e x' 0) : x' = 0 := by
  obtain ⟨d, -, rfl⟩ := h; ring

theorem Rel.neg {e x' x : ℝ} (h : Rel e x' x) : Rel e (-x') (-x) := by
  obtain ⟨d, hd, rfl⟩ := h
  exact ⟨d, hd, by ring⟩

theorem Rel.trans {e f g a b c : ℝ} (h1 : Rel e a b) (h2 : Rel f b c) (hg : e + f + e * f ≤ g) : Rel g a c := by
  obtain ⟨d, hd, rfl⟩ := h1
  obtain ⟨d', hd', rfl⟩ := h2
  refine ⟨d + d' + d * d', le_trans ?_ hg, by ring⟩
  have he : 0 ≤ e := le_trans (abs_nonneg d) hd
  have h3 := abs_add_le (d + d') (d * d')
  have h4 := abs_add_le d d'
  have h5 : |d * d'| ≤ e * f := by
    rw [abs_mul]; exact mul_le_mul hd hd' (abs_nonneg _) he
  linarith

theorem Rel.mul {e f g a b x y : ℝ} (h1 : Rel e a x) (h2 : Rel f b y) (hg : e + f + e * f ≤ g) : Rel g (a * b) (x * y) := by
  obtain ⟨d, hd, rfl⟩ := h1
  obtain ⟨d', hd', rfl⟩ := h2
  refine ⟨d + d' + d * d', le_trans ?_ hg, by ring⟩
  have he : 0 ≤ e := le_trans (abs_nonneg d) hd
  have h3 := abs_add_le (d + d') (d * d')
  have h4 := abs_add_le d d'
  have h5 : |d * d'| ≤ e * f := by
    rw [abs_mul]; exact mul_le_mul hd hd' (abs_nonneg _) he
  linarith

theorem Rel.inv {e g b y : ℝ} (h : Rel e b y) (he : e < 1) (hg : e ≤ g * (1 - e)) : Rel g b⁻¹ y⁻¹ := by
  obtain ⟨d, hd, rfl⟩ := h
  have h1 := abs_le.1 hd
  have hp : 0 < 1 + d := by linarith
  refine ⟨-d / (1 + d), ?_, ?_⟩
  · rw [abs_div, abs_neg, abs_of_pos hp, div_le_iff₀ hp]
    have he0 : 0 ≤ e := le_trans (abs_nonneg d) hd
    have hg0 : 0 ≤ g := by
      by_contra hc
      push Not at hc
      nlinarith [mul_pos_of_neg_of_neg hc (show e - 1 < 0 by linarith)]
    nlinarith
  · rw [mul_inv]
    congr 1
    field_simp
    ring

theorem Rel.pos {e a b : ℝ} (h : Rel e a b) (he : e < 1) (hb : 0 < b) : 0 < a := by
  obtain ⟨d, hd, rfl⟩ := h
  have := abs_le.1 hd
  exact mul_pos hb (by linarith)

theorem Rel.abs {e a b : ℝ} (h : Rel e a b) (he : e < 1) : Rel e |a| |b| := by
  obtain ⟨d, hd, rfl⟩ := h
  have := abs_le.1 hd
  exact ⟨d, hd, by rw [abs_mul, abs_of_pos (show 0 < 1 + d by linarith)]⟩

theorem Rel.le {e a b : ℝ} (h : Rel e a b) (hb : 0 ≤ b) : (1 - e) * b ≤ a ∧ a ≤ (1 + e) * b := by
  obtain ⟨d, hd, rfl⟩ := h
  have := abs_le.1 hd
  constructor <;> nlinarith

variable (A : Arith)

theorem sub_rel (x y : ℝ) : Rel (1 / 10 ^ 15) (A.sub x y) (x - y) := rel_of_err (by norm_num) (A.sub_err x y)
theorem add_rel (x y : ℝ) : Rel (1 / 10 ^ 15) (A.add x y) (x + y) := rel_of_err (by norm_num) (A.add_err x y)
theorem mul_rel (x y : ℝ) : Rel (1 / 10 ^ 15) (A.mul x y) (x * y) := rel_of_err (by norm_num) (A.mul_err x y)
theorem div_rel (x : ℝ) {y : ℝ} (hy : y ≠ 0) : Rel (1 / 10 ^ 15) (A.div x y) (x / y) :=
  rel_of_err (by norm_num) (A.div_err x y hy)
theorem lit_rel (x : ℝ) : Rel (1 / 10 ^ 15) (A.lit x) x := rel_of_err (by norm_num) (A.lit_err x)
theorem norm_rel (v : Vec3 ℝ) : Rel (8 / 10 ^ 15) (A.norm v) (Vec3.norm v) := by
  have h := A.norm_err v
  refine rel_of_err (by norm_num) ?_
  rwa [abs_of_nonneg (Vec3.norm_nonneg v)]

@[simp] theorem sub_self' (x : ℝ) : A.sub x x = 0 := by
  have := sub_rel A x x; rw [sub_self] at this; exact this.zero

@[simp] theorem mul_zero' (x : ℝ) : A.mul x 0 = 0 := by
  have := mul_rel A x 0; rw [mul_zero] at this; exact this.zero

@[simp] theorem zero_mul' (x : ℝ) : A.mul 0 x = 0 := by
  have := mul_rel A 0 x; rw [zero_mul] at this; exact this.zero

@[simp] theorem norm_zero' : A.norm 0 = 0 := by
  have := norm_rel A 0; rw [Vec3.norm_eq_zero.2 rfl] at this; exact this.zero

theorem zero_div' {y : ℝ} (hy : y ≠ 0) : A.div 0 y = 0 := by
  have := div_rel A 0 hy; rw [zero_div] at this; exact this.zero

theorem sub_zero_rel (x : ℝ) : Rel (1 / 10 ^ 15) (A.sub x 0) x := by
  have := sub_rel A x 0; rwa [sub_zero] at this

theorem add_neg_self' (x : ℝ) : A.add (-x) x = 0 := by
  have := add_rel A (-x) x; rw [neg_add_cancel] at this; exact this.zero

/-- The stored value of `1e-13`. -/
theorem atol_bounds : 99 / 10 ^ 15 ≤ A.lit GEOM_ATOL ∧ A.lit GEOM_ATOL ≤ 101 / 10 ^ 15 := by
  have h := (lit_rel A GEOM_ATOL).le (by norm_num [GEOM_ATOL])
  norm_num [GEOM_ATOL] at h ⊢
  constructor <;> linarith [h.1, h.2]

/-- The tolerance of a comparison. -/
theorem tol_bounds {rtol atol : ℝ} (hr : 0 ≤ rtol) (ha : 0 ≤ atol) (b : ℝ) :
    (1 - 1 / 10 ^ 14) * (atol + rtol * |b|) ≤ A.add (A.lit atol) (A.mul (A.lit rtol) |b|) ∧
      A.add (A.lit atol) (A.mul (A.lit rtol) |b|) ≤ (1 + 1 / 10 ^ 14) * (atol + rtol * |b|) := by
  have h1 := (lit_rel A atol).le ha
  have hb : 0 ≤ rtol * |b| := mul_nonneg hr (abs_nonneg b)
  have h2 := (((mul_rel A (A.lit rtol) |b|).trans ((lit_rel A rtol).mul (⟨0, by simp, by simp⟩ : Rel 0 |b| |b|) le_rfl)
    (g := 3 / 10 ^ 15) (by norm_num))).le hb
  have h3 := (add_rel A (A.lit atol) (A.mul (A.lit rtol) |b|)).le
    (by norm_num at h1 h2 ⊢; nlinarith [h1.1, h2.1])
  norm_num at h1 h2 h3 ⊢
  constructor <;> nlinarith [h1.1, h1.2, h2.1, h2.2, h3.1, h3.2]

/-- Nearly equal numbers are close. -/
theorem isClose_of {a b rtol atol : ℝ} (hr : 0 ≤ rtol) (ha : 0 ≤ atol)
    (h : |a - b| ≤ (1 - 1 / 10 ^ 13) * (atol + rtol * |b|)) : isClose A a b rtol atol := by
  have h1 := ((sub_rel A a b).abs (by norm_num)).le (abs_nonneg _)
  have h2 := tol_bounds A hr ha b
  have hb : 0 ≤ atol + rtol * |b| := add_nonneg ha (mul_nonneg hr (abs_nonneg b))
  unfold isClose
  norm_num at h h1 h2 ⊢
  nlinarith [h1.2, h2.1]

theorem le_of_isClose {a b rtol atol : ℝ} (hr : 0 ≤ rtol) (ha : 0 ≤ atol) (h : isClose A a b rtol atol) :
    |a - b| ≤ (1 + 1 / 10 ^ 13) * (atol + rtol * |b|) := by
  have h1 := ((sub_rel A a b).abs (by norm_num)).le (abs_nonneg _)
  have h2 := tol_bounds A hr ha b
  have hb : 0 ≤ atol + rtol * |b| := add_nonneg ha (mul_nonneg hr (abs_nonneg b))
  unfold isClose at h
  norm_num at h1 h2 ⊢
  nlinarith [h1.1, h2.2]

/-! ## Vectors -/

/-- Each component up to a relative error of `e`. -/
def RelV (e : ℝ) (v' v : Vec3 ℝ) : Prop := Rel e v'.x v.x ∧ Rel e v'.y v.y ∧ Rel e v'.z v.z

theorem subv_rel (p q : Vec3 ℝ) : RelV (1 / 10 ^ 15) (subv A p q) (p - q) :=
  ⟨sub_rel A _ _, sub_rel A _ _, sub_rel A _ _⟩

theorem RelV.norm {e : ℝ} {v' v : Vec3 ℝ} (h : RelV e v' v) (he : e < 1) : Rel e (Vec3.norm v') (Vec3.norm v) := by
  obtain ⟨⟨d1, h1, e1⟩, ⟨d2, h2, e2⟩, ⟨d3, h3, e3⟩⟩ := h
  have he0 : 0 ≤ e := le_trans (abs_nonneg d1) h1
  have sq : ∀ x d : ℝ, |d| ≤ e → (1 - e) ^ 2 * (x * x) ≤ (x * (1 + d)) * (x * (1 + d)) ∧
      (x * (1 + d)) * (x * (1 + d)) ≤ (1 + e) ^ 2 * (x * x) := by
    intro x d hd
    have hd' := abs_le.1 hd
    have hx : 0 ≤ x * x := mul_self_nonneg x
    have a1 : (1 - e) ^ 2 ≤ (1 + d) ^ 2 := by apply pow_le_pow_left₀ <;> linarith
    have a2 : (1 + d) ^ 2 ≤ (1 + e) ^ 2 := by apply pow_le_pow_left₀ <;> linarith
    constructor
    · calc (1 - e) ^ 2 * (x * x) ≤ (1 + d) ^ 2 * (x * x) := mul_le_mul_of_nonneg_right a1 hx
        _ = _ := by ring
    · calc (x * (1 + d)) * (x * (1 + d)) = (1 + d) ^ 2 * (x * x) := by ring
        _ ≤ _ := mul_le_mul_of_nonneg_right a2 hx
  have s1 := sq v.x d1 h1
  have s2 := sq v.y d2 h2
  have s3 := sq v.z d3 h3
  rw [← e1] at s1
  rw [← e2] at s2
  rw [← e3] at s3
  have hn := Vec3.norm_nonneg v
  have hq := Vec3.norm_sq v
  rw [Vec3.normSq_def] at hq
  have up : Vec3.norm v' ≤ (1 + e) * Vec3.norm v := by
    refine Vec3.norm_le_of_sq (by positivity) ?_
    rw [mul_pow, hq, Vec3.normSq_def]
    linarith [s1.2, s2.2, s3.2]
  have lo : (1 - e) * Vec3.norm v ≤ Vec3.norm v' := by
    refine Vec3.le_norm_of_sq ?_
    rw [mul_pow, hq, Vec3.normSq_def]
    linarith [s1.1, s2.1, s3.1]
  refine rel_of_err he0 ?_
  rw [abs_of_nonneg hn, abs_le]
  constructor <;> linarith

/-- A vector divided by its computed length. -/
theorem unit_rel {v v' : Vec3 ℝ} (h : RelV (1 / 10 ^ 15) v' v) (hv : v ≠ 0) :
    RelV (2 / 10 ^ 14) (divv A v' (A.norm v')) ((1 / Vec3.norm v) • v) := by
  have hpos : 0 < Vec3.norm v := lt_of_le_of_ne (Vec3.norm_nonneg v) (fun e => hv (Vec3.norm_eq_zero.1 e.symm))
  have hl : Rel (91 / 10 ^ 16) (A.norm v') (Vec3.norm v) := (norm_rel A v').trans (h.norm (by norm_num)) (by norm_num)
  have hl0 : A.norm v' ≠ 0 := (hl.pos (by norm_num) hpos).ne'
  have hi : Rel (92 / 10 ^ 16) (A.norm v')⁻¹ (Vec3.norm v)⁻¹ := hl.inv (by norm_num) (by norm_num)
  have key : ∀ x' x : ℝ, Rel (1 / 10 ^ 15) x' x → Rel (2 / 10 ^ 14) (A.div x' (A.norm v')) (1 / Vec3.norm v * x) := by
    intro x' x hx
    have h1 : Rel (103 / 10 ^ 16) (x' / A.norm v') (1 / Vec3.norm v * x) := by
      rw [div_eq_inv_mul x', one_div (Vec3.norm v)]
      exact hi.mul hx (by norm_num)
    exact (div_rel A x' hl0).trans h1 (by norm_num)
  exact ⟨key _ _ h.1, key _ _ h.2.1, key _ _ h.2.2⟩

theorem RelV.refl {e : ℝ} (he : 0 ≤ e) (v : Vec3 ℝ) : RelV e v v :=
  ⟨⟨0, by simpa using he, by simp⟩, ⟨0, by simpa using he, by simp⟩, ⟨0, by simpa using he, by simp⟩⟩

theorem RelV.neg {e : ℝ} {v' v : Vec3 ℝ} (h : RelV e v' v) : RelV e (-v') (-v) := ⟨h.1.neg, h.2.1.neg, h.2.2.neg⟩

/-- Two vectors near the same one are close. -/
theorem allClose_of_rel {v v1 v2 : Vec3 ℝ} {rtol atol : ℝ} (h1 : RelV (2 / 10 ^ 14) v1 v) (h2 : RelV (2 / 10 ^ 14) v2 v)
    (hr : 1 / 10 ^ 6 ≤ rtol) (ha : 0 ≤ atol) : allClose A v1 v2 rtol atol := by
  have key : ∀ x a b : ℝ, Rel (2 / 10 ^ 14) a x → Rel (2 / 10 ^ 14) b x → isClose A a b rtol atol := by
    intro x a b ha' hb'
    refine isClose_of A (le_trans (by norm_num) hr) ha ?_
    have e1 := ha'.err
    have e2 := hb'.err
    have e3 := ((hb'.abs (by norm_num)).le (abs_nonneg x)).1
    have e4 := abs_sub_le a x b
    rw [abs_sub_comm x b] at e4
    have e5 : 1 / 10 ^ 6 * |b| ≤ rtol * |b| := mul_le_mul_of_nonneg_right hr (abs_nonneg b)
    have h0 := abs_nonneg x
    norm_num at e1 e2 e3 e4 e5 ⊢
    linarith
  exact ⟨key _ _ _ h1.1 h2.1, key _ _ _ h1.2.1 h2.2.1, key _ _ _ h1.2.2 h2.2.2⟩

theorem abs_half {v : Vec3 ℝ} (hv : Vec3.norm v = 1) : 1 / 2 ≤ |v.x| ∨ 1 / 2 ≤ |v.y| ∨ 1 / 2 ≤ |v.z| := by
  have hs := ConvexEars.normSq_eq_one hv
  by_contra hc
  push Not at hc
  obtain ⟨h1, h2, h3⟩ := hc
  have key : ∀ x : ℝ, |x| < 1 / 2 → x * x < 1 / 4 := by
    intro x hx
    rw [← abs_mul_abs_self]
    nlinarith [abs_nonneg x]
  rw [Vec3.normSq_def] at hs
  linarith [key _ h1, key _ h2, key _ h3]

/-- Two vectors near opposite unit vectors are not close. -/
theorem not_allClose_of_rel {v v1 v2 : Vec3 ℝ} {rtol atol : ℝ} (hv : Vec3.norm v = 1) (h1 : RelV (2 / 10 ^ 14) v1 (-v))
    (h2 : RelV (2 / 10 ^ 14) v2 v) (hr0 : 0 ≤ rtol) (hr : rtol ≤ 1 / 10) (ha0 : 0 ≤ atol) (ha : atol ≤ 1 / 10) :
    ¬ allClose A v1 v2 rtol atol := by
  have key : ∀ x a b : ℝ, Rel (2 / 10 ^ 14) a (-x) → Rel (2 / 10 ^ 14) b x → 1 / 2 ≤ |x| → |x| ≤ 1 →
      ¬ isClose A a b rtol atol := by
    intro x a b ha' hb' hx hx1 hc
    have h3 := le_of_isClose A hr0 ha0 hc
    have e1 := ha'.err
    have e2 := hb'.err
    rw [abs_neg] at e1
    have e3 : |b| ≤ 11 / 10 := by
      have := ((hb'.abs (by norm_num)).le (abs_nonneg x)).2
      norm_num at this ⊢; linarith
    have e4 : 2 * |x| ≤ |a - b| + |a - -x| + |b - x| := by
      have t1 := abs_sub_le x b a
      have t2 := abs_sub_le x a (-x)
      have t3 : |x - -x| = 2 * |x| := by
        rw [show x - -x = 2 * x by ring, abs_mul, abs_of_pos (by norm_num : (0 : ℝ) < 2)]
      rw [abs_sub_comm x b, abs_sub_comm b a] at t1
      linarith
    have e5 : rtol * |b| ≤ 1 / 10 * (11 / 10) := mul_le_mul hr e3 (abs_nonneg b) (by norm_num)
    norm_num at *
    linarith
  rintro ⟨c1, c2, c3⟩
  have l1 := Vec3.abs_x_le v
  have l2 := Vec3.abs_y_le v
  have l3 := Vec3.abs_z_le v
  rw [hv] at l1 l2 l3
  rcases abs_half hv with h | h | h
  · exact key _ _ _ h1.1 h2.1 h l1 c1
  · exact key _ _ _ h1.2.1 h2.2.1 h l2 c2
  · exact key _ _ _ h1.2.2 h2.2.2 h l3 c3

/-! ## Cross products in a flat plane -/

theorem det_err {p1 p2 q1 q2 x1 x2 y1 y2 : ℝ} (h1 : Rel (1 / 10 ^ 15) p1 x1) (h2 : Rel (1 / 10 ^ 15) p2 x2)
    (h3 : Rel (1 / 10 ^ 15) q1 y1) (h4 : Rel (1 / 10 ^ 15) q2 y2) :
    |A.sub (A.mul p1 q2) (A.mul p2 q1) - (x1 * y2 - x2 * y1)| ≤
      6 / 10 ^ 15 * ((x1 * x1 + x2 * x2 + (y1 * y1 + y2 * y2)) / 2) := by
  have a := ((mul_rel A p1 q2).trans (h1.mul h4 le_rfl) (g := 4 / 10 ^ 15) (by norm_num)).err
  have b := ((mul_rel A p2 q1).trans (h2.mul h3 le_rfl) (g := 4 / 10 ^ 15) (by norm_num)).err
  have c := (sub_rel A (A.mul p1 q2) (A.mul p2 q1)).err
  set P := A.mul p1 q2
  set Q := A.mul p2 q1
  have t1 : |P - Q| ≤ |P - x1 * y2| + |Q - x2 * y1| + |x1 * y2| + |x2 * y1| := by
    have : P - Q = (P - x1 * y2) - (Q - x2 * y1) + x1 * y2 - x2 * y1 := by ring
    rw [this]
    refine (abs_sub _ _).trans ?_
    gcongr
    refine (abs_add_le _ _).trans ?_
    gcongr
    exact abs_sub _ _
  have t2 : |A.sub P Q - (x1 * y2 - x2 * y1)| ≤ |A.sub P Q - (P - Q)| + |P - x1 * y2| + |Q - x2 * y1| := by
    have : A.sub P Q - (x1 * y2 - x2 * y1) = (A.sub P Q - (P - Q)) + (P - x1 * y2) - (Q - x2 * y1) := by ring
    rw [this]
    refine (abs_sub _ _).trans ?_
    gcongr
    exact abs_add_le _ _
  have s1 : |x1 * y2| ≤ (x1 * x1 + y2 * y2) / 2 := by
    rw [abs_le]; constructor <;> nlinarith [sq_nonneg (x1 - y2), sq_nonneg (x1 + y2)]
  have s2 : |x2 * y1| ≤ (x2 * x2 + y1 * y1) / 2 := by
    rw [abs_le]; constructor <;> nlinarith [sq_nonneg (x2 - y1), sq_nonneg (x2 + y1)]
  have := abs_nonneg (x1 * y2)
  have := abs_nonneg (x2 * y1)
  norm_num at *
  linarith

variable {o u w : Vec3 ℝ} {m : ℝ} {pts : List (ℝ × ℝ)}

/-- In a flat plane the computed cross product is exactly along the normal. -/
theorem cross_flat (hx : Axes u w) (hf : AxisPlane u w) (a b c d : ℝ × ℝ) {D : ℝ}
    (hD : Vec3.cross (inPlane o u w b - inPlane o u w a) (inPlane o u w d - inPlane o u w c) = D • Vec3.cross u w) :
    ∃ e, cross A (subv A (inPlane o u w b) (inPlane o u w a)) (subv A (inPlane o u w d) (inPlane o u w c)) =
        e • Vec3.cross u w ∧ |e - D| ≤ 6 / 10 ^ 15 * ((distSq b a + distSq d c) / 2) := by
  have hn := ConvexEars.normSq_eq_one (norm_cross hx)
  have n1 := normSq_inPlane (o := o) hx b a
  have n2 := normSq_inPlane (o := o) hx d c
  rw [← n1, ← n2]
  have one : ∀ s x y B : ℝ, s * s = 1 → |x - y * s| ≤ B → |s * x - y| ≤ B := by
    intro s x y B hs hB
    have : s * x - y = s * (x - y * s) := by linear_combination y * hs
    rw [this, abs_mul]
    have : |s| = 1 := by
      have : |s| * |s| = 1 := by rw [abs_mul_abs_self, hs]
      nlinarith [abs_nonneg s]
    rw [this, one_mul]
    exact hB
  have hDx := congrArg Vec3.x hD
  have hDy := congrArg Vec3.y hD
  have hDz := congrArg Vec3.z hD
  rw [Vec3.normSq_def] at hn
  simp only [Vec3.normSq_def]
  rcases hf with ⟨f1, f2⟩ | ⟨f1, f2⟩ | ⟨f1, f2⟩
  · have z : ∀ p q, A.sub (inPlane o u w p).x (inPlane o u w q).x = 0 := by
      intro p q
      have : (inPlane o u w p).x = (inPlane o u w q).x := by simp [inPlane, f1, f2]
      rw [this, sub_self']
    have zy : (Vec3.cross u w).y = 0 := by simp [f1, f2]
    have zz : (Vec3.cross u w).z = 0 := by simp [f1, f2]
    rw [zy, zz] at hn
    refine ⟨(Vec3.cross u w).x * (cross A (subv A (inPlane o u w b) (inPlane o u w a))
      (subv A (inPlane o u w d) (inPlane o u w c))).x, ?_, ?_⟩
    · ext
      · rw [Vec3.smul_x]; linear_combination (-(cross A (subv A (inPlane o u w b) (inPlane o u w a))
          (subv A (inPlane o u w d) (inPlane o u w c))).x) * hn
      · rw [Vec3.smul_y, zy]; simp [cross, subv, z]
      · rw [Vec3.smul_z, zz]; simp [cross, subv, z]
    · refine one _ _ _ _ (by linear_combination hn) ?_
      rw [Vec3.smul_x] at hDx
      rw [← hDx, Vec3.cross_x]
      refine (det_err A (sub_rel A _ _) (sub_rel A _ _) (sub_rel A _ _) (sub_rel A _ _)).trans ?_
      simp only [Vec3.sub_x, Vec3.sub_y, Vec3.sub_z]
      have := mul_self_nonneg ((inPlane o u w b).x - (inPlane o u w a).x)
      have := mul_self_nonneg ((inPlane o u w d).x - (inPlane o u w c).x)
      norm_num
      linarith
  · have z : ∀ p q, A.sub (inPlane o u w p).y (inPlane o u w q).y = 0 := by
      intro p q
      have : (inPlane o u w p).y = (inPlane o u w q).y := by simp [inPlane, f1, f2]
      rw [this, sub_self']
    have zy : (Vec3.cross u w).x = 0 := by simp [f1, f2]
    have zz : (Vec3.cross u w).z = 0 := by simp [f1, f2]
    rw [zy, zz] at hn
    refine ⟨(Vec3.cross u w).y * (cross A (subv A (inPlane o u w b) (inPlane o u w a))
      (subv A (inPlane o u w d) (inPlane o u w c))).y, ?_, ?_⟩
    · ext
      · rw [Vec3.smul_x, zy]; simp [cross, subv, z]
      · rw [Vec3.smul_y]; linear_combination (-(cross A (subv A (inPlane o u w b) (inPlane o u w a))
          (subv A (inPlane o u w d) (inPlane o u w c))).y) * hn
      · rw [Vec3.smul_z, zz]; simp [cross, subv, z]
    · refine one _ _ _ _ (by linear_combination hn) ?_
      rw [Vec3.smul_y] at hDy
      rw [← hDy, Vec3.cross_y]
      refine (det_err A (sub_rel A _ _) (sub_rel A _ _) (sub_rel A _ _) (sub_rel A _ _)).trans ?_
      simp only [Vec3.sub_x, Vec3.sub_y, Vec3.sub_z]
      have := mul_self_nonneg ((inPlane o u w b).y - (inPlane o u w a).y)
      have := mul_self_nonneg ((inPlane o u w d).y - (inPlane o u w c).y)
      norm_num
      linarith
  · have z : ∀ p q, A.sub (inPlane o u w p).z (inPlane o u w q).z = 0 := by
      intro p q
      have : (inPlane o u w p).z = (inPlane o u w q).z := by simp [inPlane, f1, f2]
      rw [this, sub_self']
    have zy : (Vec3.cross u w).x = 0 := by simp [f1, f2]
    have zz : (Vec3.cross u w).y = 0 := by simp [f1, f2]
    rw [zy, zz] at hn
    refine ⟨(Vec3.cross u w).z * (cross A (subv A (inPlane o u w b) (inPlane o u w a))
      (subv A (inPlane o u w d) (inPlane o u w c))).z, ?_, ?_⟩
    · ext
      · rw [Vec3.smul_x, zy]; simp [cross, subv, z]
      · rw [Vec3.smul_y, zz]; simp [cross, subv, z]
      · rw [Vec3.smul_z]; linear_combination (-(cross A (subv A (inPlane o u w b) (inPlane o u w a))
          (subv A (inPlane o u w d) (inPlane o u w c))).z) * hn
    · refine one _ _ _ _ (by linear_combination hn) ?_
      rw [Vec3.smul_z] at hDz
      rw [← hDz, Vec3.cross_z]
      refine (det_err A (sub_rel A _ _) (sub_rel A _ _) (sub_rel A _ _) (sub_rel A _ _)).trans ?_
      simp only [Vec3.sub_x, Vec3.sub_y, Vec3.sub_z]
      have := mul_self_nonneg ((inPlane o u w b).z - (inPlane o u w a).z)
      have := mul_self_nonneg ((inPlane o u w d).z - (inPlane o u w c).z)
      norm_num
      linarith

/-! ## The tests -/

theorem le_norm_inPlane (hx : Axes u w) (h : Crisp m pts) {p q : ℝ × ℝ} (hp : p ∈ pts) (hq : q ∈ pts) (hne : p ≠ q) :
    m ≤ Vec3.norm (inPlane o u w p - inPlane o u w q) :=
  Vec3.le_norm_of_sq (by rw [normSq_inPlane hx]; exact h.far p hp q hq hne)

theorem ne_inPlane (hx : Axes u w) (h : Crisp m pts) {p q : ℝ × ℝ} (hp : p ∈ pts) (hq : q ∈ pts) (hne : p ≠ q) :
    inPlane o u w p - inPlane o u w q ≠ 0 := by
  intro e
  have := le_norm_inPlane (o := o) hx h hp hq hne
  rw [e, Vec3.norm_eq_zero.2 rfl] at this
  linarith [h.pos]

theorem pointsEqual_self (p : Vec3 ℝ) : pointsEqual A p p = true := by
  have key : ∀ x : ℝ, isClose A x x NP_RTOL GEOM_ATOL := by
    intro x
    refine isClose_of A (by norm_num [NP_RTOL]) (by norm_num [GEOM_ATOL]) ?_
    rw [sub_self, abs_zero]
    have : (0 : ℝ) ≤ NP_RTOL * |x| := mul_nonneg (by norm_num [NP_RTOL]) (abs_nonneg x)
    have : (0 : ℝ) ≤ GEOM_ATOL := by norm_num [GEOM_ATOL]
    refine mul_nonneg (by norm_num) (by linarith)
  simp only [pointsEqual, decide_eq_true_eq]
  exact ⟨key _, key _, key _⟩

theorem pointsEqual_ne (hx : Axes u w) (h : Crisp m pts) {p q : ℝ × ℝ} (hp : p ∈ pts) (hq : q ∈ pts) (hne : p ≠ q)
    (hr : Reach m (inPlane o u w q)) : pointsEqual A (inPlane o u w p) (inPlane o u w q) = false := by
  have hs := h.scale
  have key : ∀ x y : ℝ, m / 2 ≤ |x - y| → |y| ≤ 10 ^ 4 * m → ¬ isClose A x y NP_RTOL GEOM_ATOL := by
    intro x y h1 h2 hc
    have := le_of_isClose A (by norm_num [NP_RTOL]) (by norm_num [GEOM_ATOL]) hc
    norm_num [NP_RTOL, GEOM_ATOL] at *
    linarith
  simp only [pointsEqual, decide_eq_false_iff_not]
  rintro ⟨c1, c2, c3⟩
  obtain ⟨r1, r2, r3⟩ := hr
  rcases coord_of_far (o := o) hx h.pos (h.far p hp q hq hne) with hd | hd | hd
  · exact key _ _ hd r1 c1
  · exact key _ _ hd r2 c2
  · exact key _ _ hd r3 c3

theorem unitFrom_rel (hx : Axes u w) (h : Crisp m pts) {p q : ℝ × ℝ} (hp : p ∈ pts) (hq : q ∈ pts) (hne : p ≠ q) :
    RelV (2 / 10 ^ 14) (unitFrom A (inPlane o u w q) (inPlane o u w p))
      ((1 / Vec3.norm (inPlane o u w p - inPlane o u w q)) • (inPlane o u w p - inPlane o u w q)) := by
  have hs := h.scale
  have hm := le_norm_inPlane (o := o) hx h hp hq hne
  have hsub := subv_rel A (inPlane o u w p) (inPlane o u w q)
  unfold unitFrom
  simp only
  rw [if_pos]
  · exact unit_rel A hsub (ne_inPlane hx h hp hq hne)
  · have h1 := ((norm_rel A _).trans (hsub.norm (by norm_num)) (g := 1 / 10 ^ 14) (by norm_num)).le (Vec3.norm_nonneg _)
    have h2 := (lit_rel A EPSILON).le (by norm_num [EPSILON])
    norm_num [EPSILON] at *
    linarith [h1.1, h2.2]

/-- Corners on a line with an edge are collinear with it. -/
theorem collinear_on (hx : Axes u w) (h : Crisp m pts) {a b t : ℝ × ℝ} (ha : a ∈ pts) (hb : b ∈ pts) (ht : t ∈ pts)
    (hab : b ≠ a) (hat : t ≠ a) {k : ℝ} (e1 : t.1 - a.1 = k * (b.1 - a.1)) (e2 : t.2 - a.2 = k * (b.2 - a.2)) :
    arePointsCollinear A [inPlane o u w a, inPlane o u w b, inPlane o u w t] = .ok true := by
  have hv : inPlane o u w t - inPlane o u w a = k • (inPlane o u w b - inPlane o u w a) := by
    rw [inPlane_sub, inPlane_sub, e1, e2]
    ext <;> simp <;> ring
  have h1 := unitFrom_rel A (o := o) hx h hb ha hab
  have h2 := unitFrom_rel A (o := o) hx h ht ha hat
  have hpos : 0 < Vec3.norm (inPlane o u w b - inPlane o u w a) :=
    lt_of_lt_of_le h.pos (le_norm_inPlane hx h hb ha hab)
  have hk : k ≠ 0 := by
    rintro rfl
    rw [zero_smul] at hv
    exact ne_inPlane hx h ht ha hat hv
  rw [hv, Vec3.norm_smul] at h2
  simp only [arePointsCollinear, List.map_cons, List.map_nil, collinearLoop]
  rw [if_pos]
  have hr : (1 : ℝ) / 10 ^ 6 ≤ NP_RTOL := by norm_num [NP_RTOL]
  have hg : (0 : ℝ) ≤ GEOM_ATOL := by norm_num [GEOM_ATOL]
  rcases lt_or_gt_of_ne hk with hneg | hk0
  · right
    refine allClose_of_rel A h2 ?_ hr hg
    have : (1 / (|k| * Vec3.norm (inPlane o u w b - inPlane o u w a))) • k • (inPlane o u w b - inPlane o u w a) =
        -((1 / Vec3.norm (inPlane o u w b - inPlane o u w a)) • (inPlane o u w b - inPlane o u w a)) := by
      rw [smul_smul, ← neg_smul, abs_of_neg hneg]
      congr 1
      field_simp
    rw [this]
    exact h1.neg
  · left
    refine allClose_of_rel A h2 ?_ hr hg
    have : (1 / (|k| * Vec3.norm (inPlane o u w b - inPlane o u w a))) • k • (inPlane o u w b - inPlane o u w a) =
        (1 / Vec3.norm (inPlane o u w b - inPlane o u w a)) • (inPlane o u w b - inPlane o u w a) := by
      rw [smul_smul, abs_of_pos hk0]
      congr 1
      field_simp
    rw [this]
    exact h1

theorem normSq_cross_le (x y : Vec3 ℝ) : Vec3.normSq (Vec3.cross x y) ≤ Vec3.normSq (x - y) * Vec3.normSq y := by
  have e : Vec3.cross x y = Vec3.cross (x - y) y := by ext <;> simp <;> ring
  rw [e]
  have := Vec3.normSq_cross (x - y) y
  nlinarith [sq_nonneg (Vec3.dot (x - y) y)]

/-- Unit vectors that are not nearly parallel are not close. -/
theorem not_close_of_cross {x y x' y' : Vec3 ℝ} (hx1 : Vec3.norm x = 1) (hy1 : Vec3.norm y = 1)
    (hx : RelV (2 / 10 ^ 14) x' x) (hy : RelV (2 / 10 ^ 14) y' y) (hc : 4 / 10 ^ 9 ≤ Vec3.normSq (Vec3.cross x y)) :
    ¬ allClose A x' y' NP_RTOL GEOM_ATOL := by
  rintro ⟨c1, c2, c3⟩
  have key : ∀ a b a' b' : ℝ, |a| ≤ 1 → |b| ≤ 1 → Rel (2 / 10 ^ 14) a' a → Rel (2 / 10 ^ 14) b' b →
      isClose A a' b' NP_RTOL GEOM_ATOL → (a - b) * (a - b) ≤ 4 / 10 ^ 10 := by
    intro a b a' b' ha hb ha' hb' hcl
    have h3 := le_of_isClose A (by norm_num [NP_RTOL]) (by norm_num [GEOM_ATOL]) hcl
    have e1 := ha'.err
    have e2 := hb'.err
    have e3 := ((hb'.abs (by norm_num)).le (abs_nonneg b)).2
    have t : |a - b| ≤ |a' - a| + |a' - b'| + |b' - b| := by
      have := abs_sub_le a a' b
      have := abs_sub_le a' b' b
      rw [abs_sub_comm a a'] at *
      linarith
    have hd : |a - b| ≤ 2 / 10 ^ 5 := by
      norm_num [NP_RTOL, GEOM_ATOL] at *
      linarith
    rw [← abs_mul_abs_self]
    have := mul_le_mul hd hd (abs_nonneg _) (by norm_num)
    norm_num at this ⊢
    linarith
  have lx := Vec3.abs_x_le x
  have ly := Vec3.abs_y_le x
  have lz := Vec3.abs_z_le x
  have mx := Vec3.abs_x_le y
  have my := Vec3.abs_y_le y
  have mz := Vec3.abs_z_le y
  rw [hx1] at lx ly lz
  rw [hy1] at mx my mz
  have k1 := key _ _ _ _ lx mx hx.1 hy.1 c1
  have k2 := key _ _ _ _ ly my hx.2.1 hy.2.1 c2
  have k3 := key _ _ _ _ lz mz hx.2.2 hy.2.2 c3
  have := normSq_cross_le x y
  rw [ConvexEars.normSq_eq_one hy1, mul_one, Vec3.normSq_def (x - y)] at this
  simp only [Vec3.sub_x, Vec3.sub_y, Vec3.sub_z] at this
  norm_num at *
  linarith

theorem norm_unit {v : Vec3 ℝ} (hv : v ≠ 0) : Vec3.norm ((1 / Vec3.norm v) • v) = 1 := by
  have hpos : 0 < Vec3.norm v := lt_of_le_of_ne (Vec3.norm_nonneg v) (fun e => hv (Vec3.norm_eq_zero.1 e.symm))
  rw [Vec3.norm_smul, abs_of_pos (by positivity)]
  field_simp

/-- Corners off the line of an edge are not collinear with it. -/
theorem collinear_off (hx : Axes u w) (h : Crisp m pts) {a b t : ℝ × ℝ} (ha : a ∈ pts) (hb : b ∈ pts) (ht : t ∈ pts)
    (h0 : signedArea a b t ≠ 0) :
    arePointsCollinear A [inPlane o u w a, inPlane o u w b, inPlane o u w t] = .ok false := by
  have hab : b ≠ a := by rintro rfl; apply h0; unfold signedArea; ring
  have hat : t ≠ a := by rintro rfl; apply h0; unfold signedArea; ring
  have h1 := unitFrom_rel A (o := o) hx h hb ha hab
  have h2 := unitFrom_rel A (o := o) hx h ht ha hat
  have n1 := ne_inPlane (o := o) hx h hb ha hab
  have n2 := ne_inPlane (o := o) hx h ht ha hat
  have m1 := le_norm_inPlane (o := o) hx h hb ha hab
  have m2 := le_norm_inPlane (o := o) hx h ht ha hat
  have q1 := Vec3.norm_sq (inPlane o u w b - inPlane o u w a)
  have q2 := Vec3.norm_sq (inPlane o u w t - inPlane o u w a)
  rw [normSq_inPlane hx] at q1 q2
  have hD : m ^ 2 ≤ |signedArea a b t| := by
    rcases h.sides a ha b hb t ht with h | h
    · exact (h0 h).elim
    · exact h
  have hcr := cross_inPlane (o := o) (u := u) (w := w) a b t
  have hn := ConvexEars.normSq_eq_one (norm_cross hx)
  have big : 4 / 10 ^ 9 ≤ Vec3.normSq (Vec3.cross
      ((1 / Vec3.norm (inPlane o u w t - inPlane o u w a)) • (inPlane o u w t - inPlane o u w a))
      ((1 / Vec3.norm (inPlane o u w b - inPlane o u w a)) • (inPlane o u w b - inPlane o u w a))) := by
    have e : Vec3.normSq (Vec3.cross
        ((1 / Vec3.norm (inPlane o u w t - inPlane o u w a)) • (inPlane o u w t - inPlane o u w a))
        ((1 / Vec3.norm (inPlane o u w b - inPlane o u w a)) • (inPlane o u w b - inPlane o u w a))) =
        (1 / Vec3.norm (inPlane o u w t - inPlane o u w a)) ^ 2 * (1 / Vec3.norm (inPlane o u w b - inPlane o u w a)) ^ 2 *
          Vec3.normSq (Vec3.cross (inPlane o u w b - inPlane o u w a) (inPlane o u w t - inPlane o u w a)) := by
      simp only [Vec3.normSq_def, Vec3.cross_x, Vec3.cross_y, Vec3.cross_z, Vec3.smul_x, Vec3.smul_y, Vec3.smul_z]
      ring
    have e2 : Vec3.normSq (signedArea a b t • Vec3.cross u w) = signedArea a b t ^ 2 := by
      simp only [Vec3.normSq_def, Vec3.smul_x, Vec3.smul_y, Vec3.smul_z] at hn ⊢
      linear_combination signedArea a b t ^ 2 * hn
    have hm := h.pos
    have p1 : 0 < Vec3.norm (inPlane o u w b - inPlane o u w a) := lt_of_lt_of_le hm m1
    have p2 : 0 < Vec3.norm (inPlane o u w t - inPlane o u w a) := lt_of_lt_of_le hm m2
    rw [e, hcr, e2, div_pow, div_pow, q1, q2]
    have d1 := distSq_pos hab
    have d2 := distSq_pos hat
    have u1 := h.near b hb a ha
    have u2 := h.near t ht a ha
    have hD2 : m ^ 2 * m ^ 2 ≤ signedArea a b t ^ 2 := by
      rw [← sq_abs (signedArea a b t), pow_two |signedArea a b t|]
      exact mul_le_mul hD hD (by positivity) (abs_nonneg _)
    have hp : distSq t a * distSq b a ≤ 5000 * m ^ 2 * (5000 * m ^ 2) := mul_le_mul u2 u1 d1.le (by positivity)
    rw [one_pow, div_mul_div_comm, one_mul, one_div_mul_eq_div, le_div_iff₀ (by positivity)]
    nlinarith
  simp only [arePointsCollinear, List.map_cons, List.map_nil, collinearLoop]
  rw [if_neg]
  rintro (hc | hc)
  · exact not_close_of_cross A (norm_unit n2) (norm_unit n1) h2 h1 big hc
  · refine not_close_of_cross A (norm_unit n2) (by rw [Vec3.norm_neg]; exact norm_unit n1) h2 h1.neg ?_ hc
    refine big.trans (le_of_eq ?_)
    simp only [Vec3.normSq_def, Vec3.cross_x, Vec3.cross_y, Vec3.cross_z, Vec3.neg_x, Vec3.neg_y, Vec3.neg_z]
    ring

theorem edge_off (hx : Axes u w) (h : Crisp m pts) {a b t : ℝ × ℝ} (ha : a ∈ pts) (hb : b ∈ pts) (ht : t ∈ pts)
    (h0 : signedArea a b t ≠ 0) : edgeTest A (inPlane o u w t) (inPlane o u w a) (inPlane o u w b) = none := by
  unfold edgeTest
  rw [collinear_off A hx h ha hb ht h0]

theorem edge_on (hx : Axes u w) (h : Crisp m pts) {a b t : ℝ × ℝ} (ha : a ∈ pts) (hb : b ∈ pts) (ht : t ∈ pts)
    (hab : b ≠ a) (hat : t ≠ a) {k : ℝ} (h0 : 0 ≤ k) (h1 : k ≤ 1) (e1 : t.1 - a.1 = k * (b.1 - a.1))
    (e2 : t.2 - a.2 = k * (b.2 - a.2)) :
    edgeTest A (inPlane o u w t) (inPlane o u w a) (inPlane o u w b) = some true := by
  unfold edgeTest
  rw [collinear_on A hx h ha hb ht hab hat e1 e2]
  simp only [Option.some.injEq, decide_eq_true_eq]
  have hat := atol_bounds A
  have hpos : 0 ≤ A.lit GEOM_ATOL := le_trans (by norm_num) hat.1
  have axis : ∀ p q y : ℝ, y - p = k * (q - p) → ¬ (A.round8 y > A.add (max (A.round8 p) (A.round8 q)) (A.lit GEOM_ATOL) ∨
      A.round8 y < A.sub (min (A.round8 p) (A.round8 q)) (A.lit GEOM_ATOL)) := by
    intro p q y hy
    have hmax : A.round8 y ≤ max (A.round8 p) (A.round8 q) := by
      rcases le_total p q with hpq | hpq
      · exact le_max_of_le_right (A.round8_mono _ _ (by nlinarith))
      · exact le_max_of_le_left (A.round8_mono _ _ (by nlinarith))
    have hmin : min (A.round8 p) (A.round8 q) ≤ A.round8 y := by
      rcases le_total p q with hpq | hpq
      · exact min_le_of_left_le (A.round8_mono _ _ (by nlinarith))
      · exact min_le_of_right_le (A.round8_mono _ _ (by nlinarith))
    have g1 : max (A.round8 p) (A.round8 q) ≤ A.add (max (A.round8 p) (A.round8 q)) (A.lit GEOM_ATOL) := by
      rcases max_choice (A.round8 p) (A.round8 q) with e | e <;> rw [e] <;> exact A.add_grow _ _ hpos
    have g2 : A.sub (min (A.round8 p) (A.round8 q)) (A.lit GEOM_ATOL) ≤ min (A.round8 p) (A.round8 q) := by
      rcases min_choice (A.round8 p) (A.round8 q) with e | e <;> rw [e] <;> exact A.sub_shrink _ _ hpos
    rintro (hc | hc) <;> linarith
  have hv : inPlane o u w t - inPlane o u w a = k • (inPlane o u w b - inPlane o u w a) := by
    rw [inPlane_sub, inPlane_sub, e1, e2]
    ext <;> simp <;> ring
  have ex := congrArg Vec3.x hv
  have ey := congrArg Vec3.y hv
  have ez := congrArg Vec3.z hv
  simp only [Vec3.sub_x, Vec3.sub_y, Vec3.sub_z, Vec3.smul_x, Vec3.smul_y, Vec3.smul_z] at ex ey ez
  rintro (hc | hc | hc)
  · exact axis _ _ _ ex hc
  · exact axis _ _ _ ey hc
  · exact axis _ _ _ ez hc

/-- A coordinate well beyond both ends. -/
theorem out_of_far (hm0 : 1 / 10 ^ 3 ≤ m) {p q y : ℝ} (rq : |q| ≤ 10 ^ 4 * m)
    (ry : |y| ≤ 10 ^ 4 * m) (hd : m / 2 ≤ |y - q|) {k : ℝ} (hk : 0 ≤ k) (e : y - q = k * (q - p)) :
    A.round8 y > A.add (max (A.round8 p) (A.round8 q)) (A.lit GEOM_ATOL) ∨
      A.round8 y < A.sub (min (A.round8 p) (A.round8 q)) (A.lit GEOM_ATOL) := by
  have hat := atol_bounds A
  have r1 := abs_le.1 (A.round8_err p)
  have r2 := abs_le.1 (A.round8_err q)
  have r3 := abs_le.1 (A.round8_err y)
  rcases le_total q y with hqy | hqy
  · left
    rw [abs_of_nonneg (by linarith)] at hd
    have hpq : p ≤ q := by
      by_contra hc
      push Not at hc
      nlinarith [mul_nonneg hk (sub_pos.2 hc).le]
    have hM : max (A.round8 p) (A.round8 q) = A.round8 q := max_eq_right (A.round8_mono _ _ hpq)
    rw [hM]
    have ha := abs_le.1 (A.add_err (A.round8 q) (A.lit GEOM_ATOL))
    have hb : |A.round8 q + A.lit GEOM_ATOL| ≤ 2 * 10 ^ 4 * m := by
      rw [abs_le]
      have := abs_le.1 rq
      norm_num at *
      constructor <;> linarith
    norm_num at *
    linarith
  · right
    rw [abs_of_nonpos (by linarith)] at hd
    have hpq : q ≤ p := by
      by_contra hc
      push Not at hc
      nlinarith [mul_nonneg hk (sub_pos.2 hc).le]
    have hM : min (A.round8 p) (A.round8 q) = A.round8 q := min_eq_right (A.round8_mono _ _ hpq)
    rw [hM]
    have ha := abs_le.1 (A.sub_err (A.round8 q) (A.lit GEOM_ATOL))
    have hb : |A.round8 q - A.lit GEOM_ATOL| ≤ 2 * 10 ^ 4 * m := by
      rw [abs_le]
      have := abs_le.1 rq
      norm_num at *
      constructor <;> linarith
    norm_num at *
    linarith

theorem edge_beyond (hx : Axes u w) (h : Crisp m pts) (hr : ∀ p ∈ pts, Reach m (inPlane o u w p)) {a b t : ℝ × ℝ}
    (hb : b ∈ pts) (ht : t ∈ pts) (htb : t ≠ b) {k : ℝ} (hk : 0 ≤ k)
    (e1 : t.1 - b.1 = k * (b.1 - a.1)) (e2 : t.2 - b.2 = k * (b.2 - a.2)) :
    edgeTest A (inPlane o u w t) (inPlane o u w a) (inPlane o u w b) ≠ some true ∧
      edgeTest A (inPlane o u w t) (inPlane o u w b) (inPlane o u w a) ≠ some true := by
  have hv : inPlane o u w t - inPlane o u w b = k • (inPlane o u w b - inPlane o u w a) := by
    rw [inPlane_sub, inPlane_sub, e1, e2]
    ext <;> simp <;> ring
  have ex := congrArg Vec3.x hv
  have ey := congrArg Vec3.y hv
  have ez := congrArg Vec3.z hv
  simp only [Vec3.sub_x, Vec3.sub_y, Vec3.sub_z, Vec3.smul_x, Vec3.smul_y, Vec3.smul_z] at ex ey ez
  obtain ⟨b1, b2, b3⟩ := hr b hb
  obtain ⟨t1, t2, t3⟩ := hr t ht
  have far := coord_of_far (o := o) hx h.pos (h.far t ht b hb htb)
  constructor
  · unfold edgeTest
    split
    · simp only [ne_eq, Option.some.injEq, decide_eq_true_eq, not_not]
      rcases far with hd | hd | hd
      · exact .inl (out_of_far A h.scale b1 t1 hd hk ex)
      · exact .inr (.inl (out_of_far A h.scale b2 t2 hd hk ey))
      · exact .inr (.inr (out_of_far A h.scale b3 t3 hd hk ez))
    · simp
  · unfold edgeTest
    split
    · simp only [ne_eq, Option.some.injEq, decide_eq_true_eq, not_not, max_comm (A.round8 (inPlane o u w b).x),
        max_comm (A.round8 (inPlane o u w b).y), max_comm (A.round8 (inPlane o u w b).z),
        min_comm (A.round8 (inPlane o u w b).x), min_comm (A.round8 (inPlane o u w b).y),
        min_comm (A.round8 (inPlane o u w b).z)]
      rcases far with hd | hd | hd
      · exact .inl (out_of_far A h.scale b1 t1 hd hk ex)
      · exact .inr (.inl (out_of_far A h.scale b2 t2 hd hk ey))
      · exact .inr (.inr (out_of_far A h.scale b3 t3 hd hk ez))
    · simp

theorem inBbox_inPlane (hm : m ≤ 10 ^ 6) (hr : ∀ p ∈ pts, Reach m (inPlane o u w p)) {a b c t : ℝ × ℝ}
    (ha : a ∈ pts) (hb : b ∈ pts) (hc : c ∈ pts) (hD : 0 < signedArea a b c) (hg : InClosed t a b c) :
    inBbox A (inPlane o u w t) (inPlane o u w a) (inPlane o u w b) (inPlane o u w c) = true := by
  obtain ⟨r, s, q, hr0, hs0, hq0, h1, e⟩ := inTriangle_inPlane (o := o) (u := u) (w := w) hD hg
  have hl := (lit_rel A (1 / 100)).le (by norm_num)
  have axis : ∀ x y z v : ℝ, v = r * x + s * y + q * z → |x| ≤ 10 ^ 4 * m → |y| ≤ 10 ^ 4 * m → |z| ≤ 10 ^ 4 * m →
      ¬ (v < A.sub (min (min x y) z) (A.lit (1 / 100)) ∨ A.add (max (max x y) z) (A.lit (1 / 100)) < v) := by
    intro x y z v hv hx hy hz
    have lo : min (min x y) z ≤ v := by
      have a1 : min (min x y) z ≤ x := le_trans (min_le_left _ _) (min_le_left _ _)
      have a2 : min (min x y) z ≤ y := le_trans (min_le_left _ _) (min_le_right _ _)
      have a3 : min (min x y) z ≤ z := min_le_right _ _
      generalize min (min x y) z = M at *
      calc M = r * M + s * M + q * M := by linear_combination (-M) * h1
        _ ≤ r * x + s * y + q * z := by
          have := mul_le_mul_of_nonneg_left a1 hr0
          have := mul_le_mul_of_nonneg_left a2 hs0
          have := mul_le_mul_of_nonneg_left a3 hq0
          linarith
        _ = v := hv.symm
    have hi : v ≤ max (max x y) z := by
      have a1 : x ≤ max (max x y) z := le_trans (le_max_left _ _) (le_max_left _ _)
      have a2 : y ≤ max (max x y) z := le_trans (le_max_right _ _) (le_max_left _ _)
      have a3 : z ≤ max (max x y) z := le_max_right _ _
      generalize max (max x y) z = M at *
      calc v = r * x + s * y + q * z := hv
        _ ≤ r * M + s * M + q * M := by
          have := mul_le_mul_of_nonneg_left a1 hr0
          have := mul_le_mul_of_nonneg_left a2 hs0
          have := mul_le_mul_of_nonneg_left a3 hq0
          linarith
        _ = M := by linear_combination M * h1
    have bl : |min (min x y) z| ≤ 10 ^ 4 * m := by
      rcases min_choice (min x y) z with e | e <;> rw [e]
      · rcases min_choice x y with e | e <;> rw [e] <;> assumption
      · assumption
    have bh : |max (max x y) z| ≤ 10 ^ 4 * m := by
      rcases max_choice (max x y) z with e | e <;> rw [e]
      · rcases max_choice x y with e | e <;> rw [e] <;> assumption
      · assumption
    generalize min (min x y) z = L at *
    generalize max (max x y) z = H at *
    have e1 := abs_le.1 (A.sub_err L (A.lit (1 / 100)))
    have e2 := abs_le.1 (A.add_err H (A.lit (1 / 100)))
    have b1 : |L - A.lit (1 / 100)| ≤ 10 ^ 12 := by
      rw [abs_le]; have := abs_le.1 bl
      norm_num at *
      constructor <;> linarith
    have b2 : |H + A.lit (1 / 100)| ≤ 10 ^ 12 := by
      rw [abs_le]; have := abs_le.1 bh
      norm_num at *
      constructor <;> linarith
    norm_num at *
    constructor <;> linarith
  obtain ⟨a1, a2, a3⟩ := hr a ha
  obtain ⟨b1, b2, b3⟩ := hr b hb
  obtain ⟨c1, c2, c3⟩ := hr c hc
  have ex := congrArg Vec3.x e
  have ey := congrArg Vec3.y e
  have ez := congrArg Vec3.z e
  simp only [Vec3.add_x, Vec3.add_y, Vec3.add_z, Vec3.smul_x, Vec3.smul_y, Vec3.smul_z] at ex ey ez
  simp only [inBbox, decide_eq_true_eq]
  rintro (hc | hc | hc)
  · exact axis _ _ _ _ ex a1 b1 c1 hc
  · exact axis _ _ _ _ ey a2 b2 c2 hc
  · exact axis _ _ _ _ ez a3 b3 c3 hc

theorem cross_crisp (hx : Axes u w) (hf : AxisPlane u w) (h : Crisp m pts) {a b c d : ℝ × ℝ} (ha : a ∈ pts) (hb : b ∈ pts)
    (hc : c ∈ pts) (hd : d ∈ pts) {D : ℝ}
    (hD : Vec3.cross (inPlane o u w b - inPlane o u w a) (inPlane o u w d - inPlane o u w c) = D • Vec3.cross u w) :
    ∃ e, cross A (subv A (inPlane o u w b) (inPlane o u w a)) (subv A (inPlane o u w d) (inPlane o u w c)) =
        e • Vec3.cross u w ∧ |e - D| ≤ 1 / 10 ^ 10 * m ^ 2 := by
  obtain ⟨e, h1, h2⟩ := cross_flat A hx hf a b c d hD
  refine ⟨e, h1, h2.trans ?_⟩
  have := h.near b hb a ha
  have := h.near d hd c hc
  have := sq_nonneg m
  norm_num at *
  linarith

/-- The unit vector of the computed cross product. -/
theorem unit_along (hx : Axes u w) {e D : ℝ} (hs : 1 / 10 ^ 3 ≤ m) (hD : m ^ 2 ≤ |D|) (he : |e - D| ≤ 1 / 10 ^ 10 * m ^ 2) :
    1 / 10 ^ 7 ≤ A.norm (e • Vec3.cross u w) ∧
    (0 < D → RelV (2 / 10 ^ 14) (divv A (e • Vec3.cross u w) (A.norm (e • Vec3.cross u w))) (Vec3.cross u w)) ∧
    (D < 0 → RelV (2 / 10 ^ 14) (divv A (e • Vec3.cross u w) (A.norm (e • Vec3.cross u w))) (-Vec3.cross u w)) := by
  have hv := norm_cross hx
  have hm2 : 1 / 10 ^ 6 ≤ m ^ 2 := by norm_num at hs ⊢; nlinarith
  have he' := abs_le.1 he
  have hlen : Vec3.norm (e • Vec3.cross u w) = |e| := by rw [Vec3.norm_smul, hv, mul_one]
  have hbig : 9 / 10 ^ 7 ≤ |e| := by
    have := abs_sub_abs_le_abs_sub D e
    rw [abs_sub_comm] at this
    norm_num at *
    linarith
  refine ⟨?_, ?_, ?_⟩
  · have := ((norm_rel A (e • Vec3.cross u w)).le (Vec3.norm_nonneg _)).1
    rw [hlen] at this
    norm_num at *
    linarith
  · intro hp
    rw [abs_of_pos hp] at hD
    have hep : 0 < e := by norm_num at *; linarith
    have hne : e • Vec3.cross u w ≠ 0 := by
      intro h0
      rw [h0, Vec3.norm_eq_zero.2 rfl] at hlen
      rw [← hlen] at hbig
      norm_num at hbig
    have := unit_rel A (RelV.refl (by norm_num) (e • Vec3.cross u w)) hne
    rwa [(ConvexEars.unit_smul hv hep).2] at this
  · intro hp
    rw [abs_of_neg hp] at hD
    have hep : 0 < -e := by norm_num at *; linarith
    have hne : e • Vec3.cross u w ≠ 0 := by
      intro h0
      rw [h0, Vec3.norm_eq_zero.2 rfl] at hlen
      rw [← hlen] at hbig
      norm_num at hbig
    have := unit_rel A (RelV.refl (by norm_num) (e • Vec3.cross u w)) hne
    have e' : e • Vec3.cross u w = (-e) • (-Vec3.cross u w) := by ext <;> simp
    rw [e', (ConvexEars.unit_smul (by rw [Vec3.norm_neg, hv]) hep).2, ← e'] at this
    exact this

theorem _root_.B3d.Spec.Crisp.big (h : Crisp m pts) {a b c : ℝ × ℝ} (ha : a ∈ pts) (hb : b ∈ pts) (hc : c ∈ pts)
    (h0 : signedArea a b c ≠ 0) : m ^ 2 ≤ |signedArea a b c| := by
  rcases h.sides a ha b hb c hc with h | h
  · exact (h0 h).elim
  · exact h

open Classical in
theorem sameSide_flat (hx : Axes u w) (hf : AxisPlane u w) (h : Crisp m pts) {a b c t : ℝ × ℝ} (ha : a ∈ pts) (hb : b ∈ pts)
    (hc : c ∈ pts) (ht : t ∈ pts) (hD : 0 < signedArea a b c) (h0 : signedArea a b t ≠ 0) :
    isPointOnSameSide A (inPlane o u w a) (inPlane o u w b) (inPlane o u w t) (inPlane o u w c) =
      .ok (decide (0 < signedArea a b t)) := by
  have hv := norm_cross hx
  obtain ⟨e1, c1, d1⟩ := cross_crisp A hx hf h ha hb ha hc (cross_inPlane (o := o) a b c)
  obtain ⟨e2, c2, d2⟩ := cross_crisp A hx hf h ha hb ha ht (cross_inPlane (o := o) a b t)
  obtain ⟨l1, p1, -⟩ := unit_along A hx h.scale (h.big ha hb hc hD.ne') d1
  obtain ⟨l2, p2, n2⟩ := unit_along A hx h.scale (h.big ha hb ht h0) d2
  have hat := (atol_bounds A).2
  unfold isPointOnSameSide
  simp only [c1, c2]
  rw [if_neg (by norm_num at *; linarith), if_neg (by norm_num at *; linarith)]
  rcases lt_or_gt_of_ne h0 with hlt | hgt
  · rw [decide_eq_false (not_lt.2 hlt.le), decide_eq_false]
    exact not_allClose_of_rel A hv (n2 hlt) (p1 hD) (by norm_num [NP_RTOL]) (by norm_num [NP_RTOL]) (by norm_num [GEOM_ATOL])
      (by norm_num [GEOM_ATOL])
  · rw [decide_eq_true hgt, decide_eq_true]
    exact allClose_of_rel A (p2 hgt) (p1 hD) (by norm_num [NP_RTOL]) (by norm_num [GEOM_ATOL])

open Classical in
/-- The rounded test of a triangle is exact. -/
theorem isPointInside_flat (hx : Axes u w) (hf : AxisPlane u w) (h : Crisp m pts) (hm : m ≤ 10 ^ 6)
    (hr : ∀ p ∈ pts, Reach m (inPlane o u w p)) {a b c t : ℝ × ℝ} (ha : a ∈ pts) (hb : b ∈ pts) (hc : c ∈ pts)
    (ht : t ∈ pts) (hD : 0 < signedArea a b c) :
    isPointInside A (inPlane o u w t) (inPlane o u w a) (inPlane o u w b) (inPlane o u w c) =
      .ok (decide (InClosed t a b c)) := by
  have hD2 : 0 < signedArea b c a := by rw [signedArea_rot]; exact hD
  have hD3 : 0 < signedArea c a b := by rw [signedArea_rot, signedArea_rot]; exact hD
  have ne : ∀ p q r : ℝ × ℝ, 0 < signedArea p q r → q ≠ p := by
    rintro p _ r hd rfl; unfold signedArea at hd; ring_nf at hd; simp at hd
  by_cases hcorner : t = a ∨ t = b ∨ t = c
  · have hg : InClosed t a b c := by
      rcases hcorner with rfl | rfl | rfl
      · exact inClosed_of_line hD (le_refl 0) zero_le_one (by ring) (by ring)
      · exact inClosed_of_line hD zero_le_one (le_refl 1) (by ring) (by ring)
      · exact (inClosed_rot _ _ _ _).1 (inClosed_of_line hD2 zero_le_one (le_refl 1) (by ring) (by ring))
    rw [decide_eq_true hg]
    unfold isPointInside
    rw [inBbox_inPlane A hm hr ha hb hc hD hg]
    simp only [bind, Except.bind, pure, Except.pure, Bool.not_true, Bool.false_eq_true, if_false]
    rw [if_pos]
    rcases hcorner with rfl | rfl | rfl <;> simp [pointsEqual_self]
  push Not at hcorner
  obtain ⟨ta, tb, tc⟩ := hcorner
  -- each edge
  have ed : ∀ p ∈ pts, ∀ q ∈ pts, ∀ r ∈ pts, 0 < signedArea p q r → t ≠ p → t ≠ q →
      (signedArea p q t = 0 ∧
        edgeTest A (inPlane o u w t) (inPlane o u w p) (inPlane o u w q) = some (decide (InClosed t p q r))) ∨
      (signedArea p q t ≠ 0 ∧ edgeTest A (inPlane o u w t) (inPlane o u w p) (inPlane o u w q) = none ∧
        isPointOnSameSide A (inPlane o u w p) (inPlane o u w q) (inPlane o u w t) (inPlane o u w r) =
          .ok (decide (0 < signedArea p q t))) := by
    intro p hp q hq r hr' hd htp htq
    by_cases h0 : signedArea p q t = 0
    · refine .inl ⟨h0, ?_⟩
      have hqp := ne _ _ _ hd
      obtain ⟨k, e1, e2⟩ := on_line (distSq_pos hqp) h0
      by_cases hk : 0 ≤ k ∧ k ≤ 1
      · rw [decide_eq_true (inClosed_of_line hd hk.1 hk.2 e1 e2)]
        exact edge_on A hx h hp hq ht hqp htp hk.1 hk.2 e1 e2
      · have hng : ¬ InClosed t p q r := by
          rintro ⟨-, g2, g3⟩
          apply hk
          have f1 : signedArea r p t = k * signedArea p q r := by
            unfold signedArea
            linear_combination (-(r.2 - p.2)) * (-e1) + (-(r.1 - p.1)) * e2
          have f2 : signedArea q r t = (1 - k) * signedArea p q r := by
            have := signedArea_sum p q r t
            rw [h0, f1] at this
            linarith
          rw [f1] at g3
          rw [f2] at g2
          have k1 := nonneg_of_mul_nonneg_left g2 hd
          exact ⟨nonneg_of_mul_nonneg_left g3 hd, by linarith⟩
        rw [decide_eq_false hng]
        have hcol := collinear_on A (o := o) hx h hp hq ht hqp htp e1 e2
        have hsome : ∃ v, edgeTest A (inPlane o u w t) (inPlane o u w p) (inPlane o u w q) = some v := by
          unfold edgeTest
          rw [hcol]
          exact ⟨_, rfl⟩
        obtain ⟨v, hv⟩ := hsome
        cases v with
        | false => exact hv
        | true =>
          exfalso
          rcases not_and_or.1 hk with hk | hk
          · push Not at hk
            exact (edge_beyond A hx h hr (a := q) hp ht htp (k := -k) (by linarith) (by rw [e1]; ring) (by rw [e2]; ring)).2 hv
          · push Not at hk
            exact (edge_beyond A hx h hr (a := p) hq ht htq (k := k - 1) (by linarith) (by linear_combination e1)
              (by linear_combination e2)).1 hv
    · exact .inr ⟨h0, edge_off A hx h hp hq ht h0, sameSide_flat A hx hf h hp hq hr' ht hd h0⟩
  have r1 : InClosed t b c a ↔ InClosed t a b c := inClosed_rot t a b c
  have r2 : InClosed t c a b ↔ InClosed t a b c := (inClosed_rot t b c a).trans r1
  have d1 := ed a ha b hb c hc hD ta tb
  have d2 := ed b hb c hc a ha hD2 tb tc
  have d3 := ed c hc a ha b hb hD3 tc ta
  have pa := pointsEqual_ne A (o := o) hx h ht ha ta (hr a ha)
  have pb := pointsEqual_ne A (o := o) hx h ht hb tb (hr b hb)
  have pc := pointsEqual_ne A (o := o) hx h ht hc tc (hr c hc)
  simp only [r1] at d2
  simp only [r2] at d3
  have main : inBbox A (inPlane o u w t) (inPlane o u w a) (inPlane o u w b) (inPlane o u w c) = true →
      isPointInside A (inPlane o u w t) (inPlane o u w a) (inPlane o u w b) (inPlane o u w c) =
        .ok (decide (InClosed t a b c)) := by
    intro hb
    unfold isPointInside
    rw [hb, pa, pb, pc]
    simp only [bind, Except.bind, pure, Except.pure, Bool.not_true, Bool.false_eq_true, if_false, Bool.or_self]
    rcases d1 with ⟨-, e1⟩ | ⟨z1, e1, s1⟩
    · simp only [e1]
    rcases d2 with ⟨-, e2⟩ | ⟨z2, e2, s2⟩
    · simp only [e1, e2]
    rcases d3 with ⟨-, e3⟩ | ⟨z3, e3, s3⟩
    · simp only [e1, e2, e3]
    simp only [e1, e2, e3, s1, s2, s3]
    congr 1
    rw [← Bool.decide_and, ← Bool.decide_and, decide_eq_decide]
    unfold InClosed
    have q : ∀ x : ℝ, x ≠ 0 → (0 < x ↔ 0 ≤ x) := fun x hx => ⟨le_of_lt, fun hl => lt_of_le_of_ne hl (Ne.symm hx)⟩
    rw [q _ z1, q _ z2, q _ z3, and_assoc]
  by_cases hg : InClosed t a b c
  · exact main (inBbox_inPlane A hm hr ha hb hc hD hg)
  · by_cases hbb : inBbox A (inPlane o u w t) (inPlane o u w a) (inPlane o u w b) (inPlane o u w c) = true
    · exact main hbb
    · rw [decide_eq_false hg]
      unfold isPointInside
      rw [Bool.not_eq_true _ |>.mp hbb]
      rfl

/-- Straight corners: the computed cross product is exactly zero. -/
theorem cross_straight (hs : StraightOnAxes o u w pts) {a b c : ℝ × ℝ}
    (ha : a ∈ pts) (hb : b ∈ pts) (hc : c ∈ pts) (h0 : signedArea a b c = 0) :
    cross A (subv A (inPlane o u w b) (inPlane o u w a)) (subv A (inPlane o u w c) (inPlane o u w b)) = 0 := by
  by_cases hab : a = b
  · subst hab; ext <;> simp [cross, subv]
  by_cases hbc : b = c
  · subst hbc; ext <;> simp [cross, subv]
  by_cases hac : a = c
  · subst hac
    have key : ∀ x y x' y' : ℝ, A.sub (A.mul (A.sub x y) (A.sub y' x')) (A.mul (A.sub x' y') (A.sub y x)) = 0 := by
      intro x y x' y'
      rw [A.sub_swap x' y', A.sub_swap x y, A.mul_neg, A.mul_neg, A.mul_comm (A.sub x' y'), sub_self']
    ext
    · exact key _ _ _ _
    · exact key _ _ _ _
    · exact key _ _ _ _
  · rcases hs a ha b hb c hc hab hbc hac h0 with ⟨e1, e2, e3, e4⟩ | ⟨e1, e2, e3, e4⟩ | ⟨e1, e2, e3, e4⟩ <;>
      ext <;> simp [cross, subv, e1, e2, e3, e4]

open Classical in
/-- The rounded test of a corner is exact. -/
theorem isCornerConvex_flat (hx : Axes u w) (hf : AxisPlane u w) (h : Crisp m pts) (hs : StraightOnAxes o u w pts)
    {vn : Vec3 ℝ} (hvn : RelV (2 / 10 ^ 14) vn (Vec3.cross u w)) {a b c : ℝ × ℝ} (ha : a ∈ pts) (hb : b ∈ pts)
    (hc : c ∈ pts) :
    isCornerConvex A vn (inPlane o u w a) (inPlane o u w b) (inPlane o u w c) = .ok (decide (0 < signedArea a b c)) := by
  have hv := norm_cross hx
  have hat := atol_bounds A
  have h1 : |A.sub (A.norm vn) 1| < A.lit GEOM_ATOL := by
    have r := ((norm_rel A vn).trans (hvn.norm (by norm_num)) (g := 29 / 10 ^ 15) (by norm_num)).err
    rw [hv] at r
    have q := ((sub_rel A (A.norm vn) 1).abs (by norm_num)).le (abs_nonneg _)
    norm_num at *
    linarith [q.2]
  unfold isCornerConvex
  rw [if_neg (not_not.2 h1)]
  by_cases h0 : signedArea a b c = 0
  · simp only [cross_straight A hs ha hb hc h0, norm_zero']
    rw [if_pos (by norm_num at *; linarith), h0]
    simp
  · obtain ⟨e, c1, d1⟩ := cross_crisp A hx hf h ha hb hb hc (cross_inPlane' (o := o) a b c)
    obtain ⟨l, p, n⟩ := unit_along A hx h.scale (h.big ha hb hc h0) d1
    simp only [c1]
    rw [if_neg (by norm_num at *; linarith)]
    rcases lt_or_gt_of_ne h0 with hlt | hgt
    · rw [decide_eq_false (not_lt.2 hlt.le), decide_eq_false]
      exact not_allClose_of_rel A hv (n hlt) hvn (by norm_num [GEOM_RTOL]) (by norm_num [GEOM_RTOL]) (by norm_num [NP_ATOL])
        (by norm_num [NP_ATOL])
    · rw [decide_eq_true hgt, decide_eq_true]
      exact allClose_of_rel A (p hgt) hvn (by norm_num [GEOM_RTOL]) (by norm_num [NP_ATOL])

open Classical in
theorem triangulate_flat (hx : Axes u w) (hf : AxisPlane u w) (h : Crisp m pts) (hm : m ≤ 10 ^ 6)
    (hs : StraightOnAxes o u w pts) (hr : ∀ p ∈ pts, Reach m (inPlane o u w p)) {vn : Vec3 ℝ}
    (hvn : RelV (2 / 10 ^ 14) vn (Vec3.cross u w)) {fuel : Nat} :
    triangulate A fuel (pts.map (inPlane o u w)) vn =
      (exactTriangulate fuel pts).map fun r => r.map fun x => (x.1.map (inPlane o u w), x.2) := by
  unfold triangulate exactTriangulate
  rw [decide_eq_false]
  · refine Grid.tries_map (inPlane o u w) 2 pts (fun a ha b hb c hc => isCornerConvex_flat A hx hf h hs hvn ha hb hc) ?_
    intro a ha b hb c hc hcv t ht
    simp only [Except.ok.injEq, decide_eq_true_eq] at hcv
    exact isPointInside_flat A hx hf h hm hr ha hb hc ht hcv
  · intro hc
    have h1 := le_of_isClose A (by norm_num [NP_RTOL]) (by norm_num [NP_ATOL]) hc
    have r := abs_le.1 ((norm_rel A vn).trans (hvn.norm (by norm_num)) (g := 29 / 10 ^ 15) (by norm_num)).err
    rw [norm_cross hx] at r
    rw [sub_zero] at h1
    have := le_abs_self (A.norm vn)
    norm_num [NP_ATOL, NP_RTOL] at *
    linarith [r.1]

theorem normal_flat (hx : Axes u w) (hf : AxisPlane u w) (h : Crisp m pts) {a b c : ℝ × ℝ} (ha : a ∈ pts) (hb : b ∈ pts)
    (hc : c ∈ pts) (hD : 0 < signedArea a b c) :
    ∃ v, normal A (inPlane o u w a) (inPlane o u w b) (inPlane o u w c) = some v ∧
      RelV (2 / 10 ^ 14) v (Vec3.cross u w) := by
  obtain ⟨e, c1, d1⟩ := cross_crisp A hx hf h ha hb ha hc (cross_inPlane (o := o) a b c)
  obtain ⟨l, p, -⟩ := unit_along A hx h.scale (h.big ha hb hc hD.ne') d1
  refine ⟨_, ?_, p hD⟩
  unfold normal
  simp only [c1]
  rw [if_neg]
  intro hc
  rw [c1] at hc
  have h1 := le_of_isClose A (by norm_num [NP_RTOL]) (by norm_num [NP_ATOL]) hc
  rw [sub_zero] at h1
  have := le_abs_self (A.norm (e • Vec3.cross u w))
  norm_num [NP_ATOL, NP_RTOL] at *
  linarith

/-- In a flat plane every computed normal has only one component. -/
theorem normal_axis (hx : Axes u w) (hf : AxisPlane u w) (a b c : ℝ × ℝ) {v : Vec3 ℝ}
    (hv : normal A (inPlane o u w a) (inPlane o u w b) (inPlane o u w c) = some v) (p q : ℝ × ℝ) :
    A.dot v (inPlane o u w p) = A.dot v (inPlane o u w q) := by
  obtain ⟨e, c1, -⟩ := cross_flat A hx hf a b a c (cross_inPlane (o := o) a b c)
  unfold normal at hv
  simp only [c1] at hv
  split at hv
  · cases hv
  · rename_i hne
    have hl : A.norm (e • Vec3.cross u w) ≠ 0 := by
      intro h0
      apply hne
      rw [c1, h0]
      refine isClose_of A (by norm_num [NP_RTOL]) (by norm_num [NP_ATOL]) ?_
      norm_num [NP_ATOL]
    simp only [Option.some.injEq] at hv
    subst hv
    rcases hf with ⟨f1, f2⟩ | ⟨f1, f2⟩ | ⟨f1, f2⟩
    · have : divv A (e • Vec3.cross u w) (A.norm (e • Vec3.cross u w)) =
          ⟨A.div (e • Vec3.cross u w).x (A.norm (e • Vec3.cross u w)), 0, 0⟩ := by
        have y0 : (e • Vec3.cross u w).y = 0 := by simp [f1, f2]
        have z0 : (e • Vec3.cross u w).z = 0 := by simp [f1, f2]
        unfold divv
        rw [y0, z0, zero_div' A hl]
      rw [this, A.dot_x, A.dot_x]
      simp [inPlane, f1, f2]
    · have : divv A (e • Vec3.cross u w) (A.norm (e • Vec3.cross u w)) =
          ⟨0, A.div (e • Vec3.cross u w).y (A.norm (e • Vec3.cross u w)), 0⟩ := by
        have y0 : (e • Vec3.cross u w).x = 0 := by simp [f1, f2]
        have z0 : (e • Vec3.cross u w).z = 0 := by simp [f1, f2]
        unfold divv
        rw [y0, z0, zero_div' A hl]
      rw [this, A.dot_y, A.dot_y]
      simp [inPlane, f1, f2]
    · have : divv A (e • Vec3.cross u w) (A.norm (e • Vec3.cross u w)) =
          ⟨0, 0, A.div (e • Vec3.cross u w).z (A.norm (e • Vec3.cross u w))⟩ := by
        have y0 : (e • Vec3.cross u w).x = 0 := by simp [f1, f2]
        have z0 : (e • Vec3.cross u w).y = 0 := by simp [f1, f2]
        unfold divv
        rw [y0, z0, zero_div' A hl]
      rw [this, A.dot_z, A.dot_z]
      simp [inPlane, f1, f2]

theorem firstNormal_axis (hx : Axes u w) (hf : AxisPlane u w) : ∀ (l : List (ℝ × ℝ)) {v : Vec3 ℝ},
    firstNormal A (l.map (inPlane o u w)) = some v → ∀ p q, A.dot v (inPlane o u w p) = A.dot v (inPlane o u w q)
  | [], _, h => by simp [firstNormal] at h
  | [_], _, h => by simp [firstNormal] at h
  | [_, _], _, h => by simp [firstNormal] at h
  | a :: b :: c :: t, v, h => by
    simp only [List.map_cons, firstNormal] at h
    split at h
    · rename_i v' hv'
      cases h
      exact normal_axis A hx hf a b c hv'
    · exact firstNormal_axis hx hf (b :: c :: t) (by simpa using h)

/-- In a flat plane every set of points passes the test of coplanarity. -/
theorem coplanar_flat (hx : Axes u w) (hf : AxisPlane u w) (pts : List (ℝ × ℝ)) :
    arePointsCoplanar A (pts.map (inPlane o u w)) = true := by
  cases pts with
  | nil => rfl
  | cons a t =>
    simp only [List.map_cons, arePointsCoplanar]
    split
    · rfl
    · split
      · rfl
      · split
        · rfl
        · rename_i v hv
          have key := firstNormal_axis A hx hf (a :: t) hv
          rw [List.all_eq_true]
          intro p hp
          obtain ⟨q, rfl⟩ : ∃ q, p = inPlane o u w q := by
            rw [← List.map_cons] at hp
            obtain ⟨q, -, rfl⟩ := List.mem_map.1 hp
            exact ⟨q, rfl⟩
          rw [key q a, add_neg_self', decide_eq_true_eq, abs_zero]
          exact lt_of_lt_of_le (by norm_num) (atol_bounds A).1

end B3d.Rounded
