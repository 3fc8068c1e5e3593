import Verif.Model.RoundedVolume
import Verif.Proofs.Rounded
import Verif.Props.Triangles

/-!
# Volumes in rounded arithmetic (helper lemmas for C120)
-/

namespace B3d.Rounded

open Polygon Triangles Spec

/-- The exact value `x` is at most `s`, and `x'` is `k` units of `1e-15 s` away from it. -/
def Unit (k s x' x : ℝ) : Prop := |x| ≤ s ∧ |x' - x| ≤ k / 10 ^ 15 * s

section
variable {A : Arith} {k l s t x x' y y' : ℝ}

theorem Unit.nonneg (h : Unit k s x' x) : 0 ≤ s := (abs_nonneg _).trans h.1

theorem Unit.mono (h : Unit k s x' x) (hk : k ≤ l) : Unit l s x' x :=
  ⟨h.1, h.2.trans (mul_le_mul_of_nonneg_right (by gcongr) h.nonneg)⟩

theorem Unit.abs (h : Unit k s x' x) : |x'| ≤ (1 + k / 10 ^ 15) * s := by
  have h1 := abs_add_le (x' - x) x
  rw [sub_add_cancel] at h1
  have := h.1
  have := h.2
  linarith

theorem Unit.mul (h : Unit k s x' x) (h' : Unit l t y' y) (hk : 0 ≤ k) (hl : 0 ≤ l) (hk' : k ≤ 1000) (hl' : l ≤ 1000) :
    Unit (k + l + 2) (s * t) (A.mul x' y') (x * y) := by
  have hs := h.nonneg
  have ht := h'.nonneg
  refine ⟨by rw [abs_mul]; exact mul_le_mul h.1 h'.1 (abs_nonneg _) hs, ?_⟩
  have e : A.mul x' y' - x * y = (A.mul x' y' - x' * y') + ((x' - x) * y' + x * (y' - y)) := by ring
  rw [e]
  refine (abs_add_le _ _).trans ?_
  have h1 := A.mul_err x' y'
  rw [abs_mul] at h1
  have h2 := abs_add_le ((x' - x) * y') (x * (y' - y))
  rw [abs_mul, abs_mul] at h2
  have hst := mul_nonneg hs ht
  have m1 : |x'| * |y'| ≤ ((1 + k / 10 ^ 15) * s) * ((1 + l / 10 ^ 15) * t) :=
    mul_le_mul h.abs h'.abs (abs_nonneg _) (by positivity)
  have m2 : |x' - x| * |y'| ≤ (k / 10 ^ 15 * s) * ((1 + l / 10 ^ 15) * t) :=
    mul_le_mul h.2 h'.abs (abs_nonneg _) (by positivity)
  have m3 : |x| * |y' - y| ≤ s * (l / 10 ^ 15 * t) := mul_le_mul h.1 h'.2 (abs_nonneg _) hs
  have key : 1 / 10 ^ 15 * ((1 + k / 10 ^ 15) * (1 + l / 10 ^ 15)) + k / 10 ^ 15 * (1 + l / 10 ^ 15) + l / 10 ^ 15 ≤
      (k + l + 2) / 10 ^ 15 := by
    have hkl : k * l ≤ 1000 * 1000 := mul_le_mul hk' hl' hl (by norm_num)
    have hkl0 : 0 ≤ k * l := mul_nonneg hk hl
    have e2 : 1 / 10 ^ 15 * ((1 + k / 10 ^ 15) * (1 + l / 10 ^ 15)) + k / 10 ^ 15 * (1 + l / 10 ^ 15) + l / 10 ^ 15 =
      (k + l + 1) / 10 ^ 15 + (k + l) / 10 ^ 30 + k * l / 10 ^ 45 + k * l / 10 ^ 30 := by ring
    rw [e2]
    norm_num
    linarith
  have := mul_le_mul_of_nonneg_right key hst
  nlinarith

theorem Unit.add (h : Unit k s x' x) (h' : Unit k t y' y) (hk' : k ≤ 1000) :
    Unit (k + 2) (s + t) (A.add x' y') (x + y) := by
  have hs := h.nonneg
  have ht := h'.nonneg
  refine ⟨(abs_add_le _ _).trans (add_le_add h.1 h'.1), ?_⟩
  have e : A.add x' y' - (x + y) = (A.add x' y' - (x' + y')) + ((x' - x) + (y' - y)) := by ring
  rw [e]
  have h1 := A.add_err x' y'
  have h2 := abs_add_le (A.add x' y' - (x' + y')) ((x' - x) + (y' - y))
  have h3 := abs_add_le (x' - x) (y' - y)
  have h4 := abs_add_le x' y'
  have h5 := h.abs
  have h6 := h'.abs
  have h7 := h.2
  have h8 := h'.2
  have m : (1 + k / 10 ^ 15) ≤ 2 := by norm_num; linarith
  have n1 := mul_le_mul_of_nonneg_right m hs
  have n2 := mul_le_mul_of_nonneg_right m ht
  have : |x' + y'| ≤ 2 * (s + t) := by linarith
  calc _ ≤ 1 / 10 ^ 15 * (2 * (s + t)) + (k / 10 ^ 15 * s + k / 10 ^ 15 * t) := by
        have := mul_le_mul_of_nonneg_left this (by norm_num : (0 : ℝ) ≤ 1 / 10 ^ 15)
        linarith
    _ = _ := by ring

theorem Unit.neg (h : Unit k s x' x) : Unit k s (-x') (-x) := by
  refine ⟨by rw [abs_neg]; exact h.1, ?_⟩
  rw [← neg_sub', abs_neg]
  exact h.2

theorem Unit.sub (h : Unit k s x' x) (h' : Unit k t y' y) (hk' : k ≤ 1000) :
    Unit (k + 2) (s + t) (A.sub x' y') (x - y) := by
  have hs := h.nonneg
  have ht := h'.nonneg
  refine ⟨(abs_sub _ _).trans (add_le_add h.1 h'.1), ?_⟩
  have e : A.sub x' y' - (x - y) = (A.sub x' y' - (x' - y')) + ((x' - x) - (y' - y)) := by ring
  rw [e]
  have h1 := A.sub_err x' y'
  have h2 := abs_add_le (A.sub x' y' - (x' - y')) ((x' - x) - (y' - y))
  have h3 := abs_sub (x' - x) (y' - y)
  have h4 := abs_sub x' y'
  have h5 := h.abs
  have h6 := h'.abs
  have h7 := h.2
  have h8 := h'.2
  have m : (1 + k / 10 ^ 15) ≤ 2 := by norm_num; linarith
  have n1 := mul_le_mul_of_nonneg_right m hs
  have n2 := mul_le_mul_of_nonneg_right m ht
  have : |x' - y'| ≤ 2 * (s + t) := by linarith
  calc _ ≤ 1 / 10 ^ 15 * (2 * (s + t)) + (k / 10 ^ 15 * s + k / 10 ^ 15 * t) := by
        have := mul_le_mul_of_nonneg_left this (by norm_num : (0 : ℝ) ≤ 1 / 10 ^ 15)
        linarith
    _ = _ := by ring

theorem unit_dist {R : ℝ} {p q : Vec3 ℝ} (h : Vec3.norm (p - q) ≤ R) : Unit 10 R (A.norm (subv A p q)) (Vec3.norm (p - q)) := by
  have h1 : Rel (10 / 10 ^ 15) (A.norm (subv A p q)) (Vec3.norm (p - q)) :=
    (norm_rel A _).trans ((subv_rel A p q).norm (by norm_num)) (by norm_num)
  have hn := Vec3.norm_nonneg (p - q)
  refine ⟨by rwa [abs_of_nonneg hn], h1.err.trans ?_⟩
  rw [abs_of_nonneg hn]
  exact mul_le_mul_of_nonneg_left h (by norm_num)

theorem Unit.sqr (h : Unit k s x' x) (hk : 0 ≤ k) (hk' : k ≤ 1000) : Unit (2 * k + 2) (s ^ 2) (sqr A x') (x ^ 2) := by
  have := h.mul (A := A) h hk hk hk' hk'
  rw [← two_mul, ← sq, ← sq] at this
  exact this

end

/-- Distances of four points are at most `R`. -/
structure Within (R : ℝ) (p0 p1 p2 p3 : Vec3 ℝ) : Prop where
  a : Vec3.norm (p1 - p0) ≤ R
  b : Vec3.norm (p2 - p0) ≤ R
  c : Vec3.norm (p3 - p0) ≤ R
  d : Vec3.norm (p2 - p1) ≤ R
  e : Vec3.norm (p3 - p2) ≤ R
  f : Vec3.norm (p3 - p1) ≤ R

/-- The number under the root. -/
theorem nominator_err (A : Arith) {R : ℝ} {p0 p1 p2 p3 : Vec3 ℝ} (h : Within R p0 p1 p2 p3) :
    |nominator A p0 p1 p2 p3 - (2 * det6 p0 p1 p2 p3) ^ 2| ≤ 6 / 10 ^ 12 * R ^ 6 ∧
      (2 * det6 p0 p1 p2 p3) ^ 2 ≤ 58 * R ^ 6 := by
  have ha := (unit_dist (A := A) h.a).sqr (A := A) (by norm_num) (by norm_num)
  have hb := (unit_dist (A := A) h.b).sqr (A := A) (by norm_num) (by norm_num)
  have hc := (unit_dist (A := A) h.c).sqr (A := A) (by norm_num) (by norm_num)
  have hd := (unit_dist (A := A) h.d).sqr (A := A) (by norm_num) (by norm_num)
  have he := (unit_dist (A := A) h.e).sqr (A := A) (by norm_num) (by norm_num)
  have hf := (unit_dist (A := A) h.f).sqr (A := A) (by norm_num) (by norm_num)
  have hx := (hb.add (A := A) hc (by norm_num)).sub (A := A) (he.mono (by norm_num)) (by norm_num)
  have hy := (ha.add (A := A) hc (by norm_num)).sub (A := A) (hf.mono (by norm_num)) (by norm_num)
  have hz := (ha.add (A := A) hb (by norm_num)).sub (A := A) (hd.mono (by norm_num)) (by norm_num)
  have h4 : Unit 0 4 4 4 := ⟨by norm_num, by norm_num⟩
  have t1 := ((h4.mul (A := A) ha (by norm_num) (by norm_num) (by norm_num) (by norm_num)).mul (A := A) hb (by norm_num)
    (by norm_num) (by norm_num) (by norm_num)).mul (A := A) hc (by norm_num) (by norm_num) (by norm_num) (by norm_num)
  have t2 := ha.mul (A := A) (hx.sqr (A := A) (by norm_num) (by norm_num)) (by norm_num) (by norm_num) (by norm_num) (by norm_num)
  have t3 := hb.mul (A := A) (hy.sqr (A := A) (by norm_num) (by norm_num)) (by norm_num) (by norm_num) (by norm_num) (by norm_num)
  have t4 := hc.mul (A := A) (hz.sqr (A := A) (by norm_num) (by norm_num)) (by norm_num) (by norm_num) (by norm_num) (by norm_num)
  have t5 := (hx.mul (A := A) hy (by norm_num) (by norm_num) (by norm_num) (by norm_num)).mul (A := A) hz (by norm_num)
    (by norm_num) (by norm_num) (by norm_num)
  have s := ((((t1.mono (l := 80) (by norm_num)).sub (A := A) (t2.mono (l := 80) (by norm_num)) (by norm_num)).sub (A := A)
    (t3.mono (by norm_num)) (by norm_num)).sub (A := A) (t4.mono (by norm_num)) (by norm_num)).add (A := A)
    (t5.mono (by norm_num)) (by norm_num)
  have hR : (0 : ℝ) ≤ R := (Vec3.norm_nonneg _).trans h.a
  have e : (2 * det6 p0 p1 p2 p3) ^ 2 = 4 * Vec3.norm (p1 - p0) ^ 2 * Vec3.norm (p2 - p0) ^ 2 * Vec3.norm (p3 - p0) ^ 2 -
      Vec3.norm (p1 - p0) ^ 2 * (Vec3.norm (p2 - p0) ^ 2 + Vec3.norm (p3 - p0) ^ 2 - Vec3.norm (p3 - p2) ^ 2) ^ 2 -
      Vec3.norm (p2 - p0) ^ 2 * (Vec3.norm (p1 - p0) ^ 2 + Vec3.norm (p3 - p0) ^ 2 - Vec3.norm (p3 - p1) ^ 2) ^ 2 -
      Vec3.norm (p3 - p0) ^ 2 * (Vec3.norm (p1 - p0) ^ 2 + Vec3.norm (p2 - p0) ^ 2 - Vec3.norm (p2 - p1) ^ 2) ^ 2 +
      (Vec3.norm (p2 - p0) ^ 2 + Vec3.norm (p3 - p0) ^ 2 - Vec3.norm (p3 - p2) ^ 2) *
      (Vec3.norm (p1 - p0) ^ 2 + Vec3.norm (p3 - p0) ^ 2 - Vec3.norm (p3 - p1) ^ 2) *
      (Vec3.norm (p1 - p0) ^ 2 + Vec3.norm (p2 - p0) ^ 2 - Vec3.norm (p2 - p1) ^ 2) := by
    simp only [Vec3.norm_sq]
    simp only [det6, Vec3.dot, Vec3.normSq_def, Vec3.cross_x, Vec3.cross_y, Vec3.cross_z, Vec3.sub_x, Vec3.sub_y, Vec3.sub_z]
    ring
  rw [e]
  have h6 : 0 ≤ R ^ 6 := by positivity
  have e2 : 4 * R ^ 2 * R ^ 2 * R ^ 2 + R ^ 2 * (R ^ 2 + R ^ 2 + R ^ 2) ^ 2 + R ^ 2 * (R ^ 2 + R ^ 2 + R ^ 2) ^ 2 +
      R ^ 2 * (R ^ 2 + R ^ 2 + R ^ 2) ^ 2 + (R ^ 2 + R ^ 2 + R ^ 2) * (R ^ 2 + R ^ 2 + R ^ 2) * (R ^ 2 + R ^ 2 + R ^ 2) =
      58 * R ^ 6 := by ring
  rw [e2] at s
  refine ⟨s.2.trans ?_, (le_abs_self _).trans s.1⟩
  norm_num
  linarith

/-- The number under the root with `EPSILON`. -/
theorem radicand_err (A : Arith) {R : ℝ} {p0 p1 p2 p3 : Vec3 ℝ} (h : Within R p0 p1 p2 p3) :
    |A.add (nominator A p0 p1 p2 p3) (A.lit EPSILON) - ((2 * det6 p0 p1 p2 p3) ^ 2 + 1 / 10 ^ 12)| ≤
      61 / 10 ^ 13 * R ^ 6 + 1 / 10 ^ 26 := by
  obtain ⟨h1, h2⟩ := nominator_err A h
  have hR : (0 : ℝ) ≤ R := (Vec3.norm_nonneg _).trans h.a
  have h6 : 0 ≤ R ^ 6 := by positivity
  have hl := A.lit_err EPSILON
  have he : (EPSILON : ℝ) = 1 / 10 ^ 12 := by norm_num [EPSILON]
  rw [he] at hl ⊢
  have ha := A.add_err (nominator A p0 p1 p2 p3) (A.lit (1 / 10 ^ 12))
  set N := nominator A p0 p1 p2 p3
  set D := (2 * det6 p0 p1 p2 p3) ^ 2
  set L := A.lit (1 / 10 ^ 12)
  set S := A.add N L
  have hD : 0 ≤ D := sq_nonneg _
  rw [abs_of_pos (by norm_num : (0 : ℝ) < 1 / 10 ^ 12)] at hl
  have hl' := abs_le.1 hl
  have h1' := abs_le.1 h1
  have hb : |N + L| ≤ 59 * R ^ 6 + 2 / 10 ^ 12 := by
    rw [abs_le]
    constructor
    · norm_num at *; linarith
    · norm_num at *; linarith
  have ha' := abs_le.1 ha
  rw [abs_le]
  constructor
  · norm_num at *; linarith
  · norm_num at *; linarith

/-- A calculated volume. -/
theorem volume_err (A : RootArith) {R : ℝ} {p0 p1 p2 p3 : Vec3 ℝ} (h : Within R p0 p1 p2 p3) :
    (7 / 10 ^ 12 * R ^ 6 ≤ (2 * det6 p0 p1 p2 p3) ^ 2 → ∃ v, tetrahedronVolume A p0 p1 p2 p3 = some v) ∧
    ∀ v, tetrahedronVolume A p0 p1 p2 p3 = some v → 0 ≤ v ∧
      |144 * v ^ 2 - (2 * det6 p0 p1 p2 p3) ^ 2| ≤ 7 / 10 ^ 12 * R ^ 6 + 2 / 10 ^ 12 := by
  have hr := radicand_err A.toArith h
  obtain ⟨-, hD'⟩ := nominator_err A.toArith h
  have hR : (0 : ℝ) ≤ R := (Vec3.norm_nonneg _).trans h.a
  have h6 : 0 ≤ R ^ 6 := by positivity
  unfold tetrahedronVolume
  set S := A.add (nominator A.toArith p0 p1 p2 p3) (A.lit EPSILON) with hS
  set D := (2 * det6 p0 p1 p2 p3) ^ 2
  have hD : 0 ≤ D := sq_nonneg _
  have hr' := abs_le.1 hr
  constructor
  · intro hd
    rw [if_neg]
    · exact ⟨_, rfl⟩
    · rw [not_lt]
      norm_num at hr' hd ⊢
      linarith
  · intro v hv
    simp only [] at hv
    split at hv
    · cases hv
    · rename_i hS0
      rw [not_lt] at hS0
      cases hv
      have r1 : Rel (1 / 10 ^ 15) (A.sqrt S) (Real.sqrt S) := rel_of_err (by norm_num) (by
        rw [abs_of_nonneg (Real.sqrt_nonneg S)]; exact A.sqrt_err S hS0)
      have r2 := div_rel A.toArith (A.sqrt S) (by norm_num : (12 : ℝ) ≠ 0)
      obtain ⟨d1, hd1, e1⟩ := r1
      obtain ⟨d2, hd2, e2⟩ := r2
      have hd1' := abs_le.1 hd1
      have hd2' := abs_le.1 hd2
      have hq := Real.sqrt_nonneg S
      have hsq : Real.sqrt S ^ 2 = S := Real.sq_sqrt hS0
      rw [e2, e1]
      set q := Real.sqrt S
      refine ⟨?_, ?_⟩
      · have : 0 ≤ 1 + d1 := by norm_num at hd1'; linarith
        have : 0 ≤ 1 + d2 := by norm_num at hd2'; linarith
        positivity
      · have e3 : 144 * (q * (1 + d1) / 12 * (1 + d2)) ^ 2 = S * ((1 + d1) * (1 + d2)) ^ 2 := by
          rw [← hsq]; ring
        have f1 : |(1 + d1) * (1 + d2) - 1| ≤ 3 / 10 ^ 15 := by
          have e4 : (1 + d1) * (1 + d2) - 1 = d1 + (d2 + d1 * d2) := by ring
          rw [e4]
          refine (abs_add_le _ _).trans ?_
          have := abs_add_le d2 (d1 * d2)
          rw [abs_mul] at this
          have m : |d1| * |d2| ≤ 1 / 10 ^ 15 * (1 / 10 ^ 15) := mul_le_mul hd1 hd2 (abs_nonneg _) (by norm_num)
          norm_num at *
          linarith
        have f2 : |((1 + d1) * (1 + d2)) ^ 2 - 1| ≤ 7 / 10 ^ 15 := by
          set t := (1 + d1) * (1 + d2)
          have f1' := abs_le.1 f1
          rw [abs_le]
          constructor
          · norm_num at f1' ⊢; nlinarith
          · norm_num at f1' ⊢; nlinarith
        rw [e3]
        have e5 : S * ((1 + d1) * (1 + d2)) ^ 2 - D = S * (((1 + d1) * (1 + d2)) ^ 2 - 1) + (S - D) := by ring
        rw [e5]
        refine (abs_add_le _ _).trans ?_
        rw [abs_mul, abs_of_nonneg hS0]
        have hS1 : S ≤ 59 * R ^ 6 + 2 / 10 ^ 12 := by norm_num at hr' ⊢; linarith
        have m : S * |((1 + d1) * (1 + d2)) ^ 2 - 1| ≤ (59 * R ^ 6 + 2 / 10 ^ 12) * (7 / 10 ^ 15) :=
          mul_le_mul hS1 f2 (abs_nonneg _) (by positivity)
        have hSD : |S - D| ≤ 61 / 10 ^ 13 * R ^ 6 + 1 / 10 ^ 26 + 1 / 10 ^ 12 := by
          rw [abs_le]
          constructor <;> (norm_num at hr' ⊢; linarith)
        norm_num at m hSD ⊢
        linarith

end B3d.Rounded
