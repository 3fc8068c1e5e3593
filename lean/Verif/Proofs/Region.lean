import Verif.Spec.Region
import Verif.Proofs.TriangleEdges
import Verif.Proofs.Tactics

/-! # Triangles, winding numbers -/

set_option linter.unusedSectionVars false

namespace B3d.Spec

open Triangles

section
variable {K : Type} [Field K] [LinearOrder K] [IsStrictOrderedRing K]

/-- Side of `x` with respect to the edge from `p` to `q`. -/
def sideOf (n x p q : Vec3 K) : K := Vec3.dot n (Vec3.cross (q - p) (x - p))

theorem side_swap (n x p q : Vec3 K) : sideOf n x q p = -sideOf n x p q := by
  simp only [sideOf, Vec3.dot, Vec3.cross_x, Vec3.cross_y, Vec3.cross_z, Vec3.sub_x, Vec3.sub_y, Vec3.sub_z]
  ring

theorem side_sum (n x a b c : Vec3 K) :
    sideOf n x a b + sideOf n x b c + sideOf n x c a = Vec3.dot n (Vec3.cross (b - a) (c - a)) := by
  simp only [sideOf, Vec3.dot, Vec3.cross_x, Vec3.cross_y, Vec3.cross_z, Vec3.sub_x, Vec3.sub_y, Vec3.sub_z]
  ring

/-- Barycentric coordinates. -/
theorem side_comb {n x a b c : Vec3 K} {e : K} (hn : n ≠ 0) (ha : Vec3.dot n a = e) (hb : Vec3.dot n b = e)
    (hc : Vec3.dot n c = e) (hx : Vec3.dot n x = e) :
    sideOf n x b c • (a - x) + sideOf n x c a • (b - x) + sideOf n x a b • (c - x) = 0 := by
  have h0 : Vec3.dot (Vec3.cross (a - x) (b - x)) (c - x) = 0 := by
    apply Vec3.dot_cross_of_orth hn <;> rw [Vec3.dot_sub_right] <;> simp [*]
  have key : sideOf n x b c • (a - x) + sideOf n x c a • (b - x) + sideOf n x a b • (c - x) =
      Vec3.dot (Vec3.cross (a - x) (b - x)) (c - x) • n := by
    ext <;> simp only [sideOf, Vec3.dot, Vec3.cross_x, Vec3.cross_y, Vec3.cross_z, Vec3.sub_x, Vec3.sub_y,
      Vec3.sub_z, Vec3.smul_x, Vec3.smul_y, Vec3.smul_z, Vec3.add_x, Vec3.add_y, Vec3.add_z] <;> ring
  rw [key, h0, zero_smul]

theorem side_of_comb {n a b c : Vec3 K} {r s t : K} (h : r + s + t = 1) :
    sideOf n (r • a + s • b + t • c) b c = r * Vec3.dot n (Vec3.cross (b - a) (c - a)) := by
  obtain rfl : r = 1 - s - t := by linarith
  simp only [sideOf, Vec3.dot, Vec3.cross_x, Vec3.cross_y, Vec3.cross_z, Vec3.sub_x, Vec3.sub_y, Vec3.sub_z,
    Vec3.smul_x, Vec3.smul_y, Vec3.smul_z, Vec3.add_x, Vec3.add_y, Vec3.add_z]
  ring

theorem area_rot (n a b c : Vec3 K) :
    Vec3.dot n (Vec3.cross (c - b) (a - b)) = Vec3.dot n (Vec3.cross (b - a) (c - a)) := by
  simp only [Vec3.dot, Vec3.cross_x, Vec3.cross_y, Vec3.cross_z, Vec3.sub_x, Vec3.sub_y, Vec3.sub_z]
  ring

theorem sides_of_comb {n a b c x : Vec3 K} {r s t : K} (h : r + s + t = 1)
    (hx : x = r • a + s • b + t • c) :
    sideOf n x b c = r * Vec3.dot n (Vec3.cross (b - a) (c - a)) ∧
    sideOf n x c a = s * Vec3.dot n (Vec3.cross (b - a) (c - a)) ∧
    sideOf n x a b = t * Vec3.dot n (Vec3.cross (b - a) (c - a)) := by
  refine ⟨?_, ?_, ?_⟩
  · rw [hx, side_of_comb h]
  · have e : x = s • b + t • c + r • a := by rw [hx]; abel
    rw [e, side_of_comb (by linarith), area_rot]
  · have e : x = t • c + r • a + s • b := by rw [hx]; abel
    rw [e, side_of_comb (by linarith), area_rot, area_rot]

theorem comb_of_sides {n x a b c : Vec3 K} {e : K} (hn : n ≠ 0) (ha : Vec3.dot n a = e)
    (hb : Vec3.dot n b = e) (hc : Vec3.dot n c = e) (hx : Vec3.dot n x = e) {A : K}
    (hA : A = Vec3.dot n (Vec3.cross (b - a) (c - a))) (h0 : A ≠ 0) :
    sideOf n x b c / A + sideOf n x c a / A + sideOf n x a b / A = 1 ∧
    x = (sideOf n x b c / A) • a + (sideOf n x c a / A) • b + (sideOf n x a b / A) • c := by
  have hs := side_sum n x a b c
  rw [← hA] at hs
  have h1 : sideOf n x b c / A + sideOf n x c a / A + sideOf n x a b / A = 1 := by
    field_simp
    linarith
  refine ⟨h1, ?_⟩
  have hv := side_comb hn ha hb hc hx
  have hv' : (sideOf n x b c / A) • a + (sideOf n x c a / A) • b + (sideOf n x a b / A) • c - x = 0 := by
    have : (sideOf n x b c / A) • a + (sideOf n x c a / A) • b + (sideOf n x a b / A) • c - x =
        (1 / A) • (sideOf n x b c • (a - x) + sideOf n x c a • (b - x) + sideOf n x a b • (c - x)) +
        (sideOf n x b c / A + sideOf n x c a / A + sideOf n x a b / A - 1) • x := by
      ext <;> simp only [Vec3.sub_x, Vec3.sub_y, Vec3.sub_z, Vec3.smul_x, Vec3.smul_y, Vec3.smul_z, Vec3.add_x,
        Vec3.add_y, Vec3.add_z] <;> ring
    rw [this, hv, h1, smul_zero, sub_self, zero_smul, add_zero]
  exact (sub_eq_zero.1 hv').symm

/-- A point of the plane of a positively oriented triangle lies in it iff it is on the left of the edges. -/
theorem inTriangle_iff {n x a b c : Vec3 K} {e : K} (hn : n ≠ 0) (ha : Vec3.dot n a = e)
    (hb : Vec3.dot n b = e) (hc : Vec3.dot n c = e) (hx : Vec3.dot n x = e)
    (hA : 0 < Vec3.dot n (Vec3.cross (b - a) (c - a))) :
    InTriangle a b c x ↔ 0 ≤ sideOf n x a b ∧ 0 ≤ sideOf n x b c ∧ 0 ≤ sideOf n x c a := by
  constructor
  · rintro ⟨r, s, t, hr, hs, ht, h1, h2⟩
    obtain ⟨e1, e2, e3⟩ := sides_of_comb (n := n) h1 h2
    rw [e1, e2, e3]
    exact ⟨mul_nonneg ht hA.le, mul_nonneg hr hA.le, mul_nonneg hs hA.le⟩
  · rintro ⟨h1, h2, h3⟩
    obtain ⟨e1, e2⟩ := comb_of_sides hn ha hb hc hx rfl hA.ne'
    exact ⟨_, _, _, div_nonneg h2 hA.le, div_nonneg h3 hA.le, div_nonneg h1 hA.le, e1, e2⟩

theorem insideTriangle_iff {n x a b c : Vec3 K} {e : K} (hn : n ≠ 0) (ha : Vec3.dot n a = e)
    (hb : Vec3.dot n b = e) (hc : Vec3.dot n c = e) (hx : Vec3.dot n x = e)
    (hA : 0 < Vec3.dot n (Vec3.cross (b - a) (c - a))) :
    InsideTriangle a b c x ↔ 0 < sideOf n x a b ∧ 0 < sideOf n x b c ∧ 0 < sideOf n x c a := by
  constructor
  · rintro ⟨r, s, t, hr, hs, ht, h1, h2⟩
    obtain ⟨e1, e2, e3⟩ := sides_of_comb (n := n) h1 h2
    rw [e1, e2, e3]
    exact ⟨mul_pos ht hA, mul_pos hr hA, mul_pos hs hA⟩
  · rintro ⟨h1, h2, h3⟩
    obtain ⟨e1, e2⟩ := comb_of_sides hn ha hb hc hx rfl hA.ne'
    exact ⟨_, _, _, div_pos h2 hA, div_pos h3 hA, div_pos h1 hA, e1, e2⟩

/-! ### Winding -/

/-- The crossing of one edge, from the heights of its ends and the side of the point. -/
def cr (h1 h2 s : K) : ℤ :=
  if h1 ≤ 0 ∧ 0 < h2 ∧ 0 < s then 1 else if h2 ≤ 0 ∧ 0 < h1 ∧ s < 0 then -1 else 0

theorem cr_low {h1 h2 s : K} (a : h1 ≤ 0) (b : h2 ≤ 0) : cr h1 h2 s = 0 := by
  simp [cr, a, b, not_lt.2 a, not_lt.2 b]

theorem cr_high {h1 h2 s : K} (a : 0 < h1) (b : 0 < h2) : cr h1 h2 s = 0 := by
  simp [cr, not_le.2 a, not_le.2 b]

theorem cr_up {h1 h2 s : K} (a : h1 ≤ 0) (b : 0 < h2) : cr h1 h2 s = if 0 < s then 1 else 0 := by
  simp [cr, a, b, not_le.2 b]

theorem cr_down {h1 h2 s : K} (a : 0 < h1) (b : h2 ≤ 0) : cr h1 h2 s = if s < 0 then -1 else 0 := by
  simp [cr, a, b, not_le.2 a]

theorem up_down {s1 s2 : K} (h : 0 < s1 ↔ s2 < 0) :
    ((if 0 < s1 then 1 else 0 : ℤ) + if s2 < 0 then -1 else 0) = 0 := by
  by_cases h1 : 0 < s1
  · simp [h1, h.1 h1]
  · simp [h1, not_lt.1 fun h2 => h1 (h.2 h2)]

theorem lone_high {ha hb hc sab sbc sca : K} (hA : 0 < sab + sbc + sca)
    (hz : sbc * ha + sca * hb + sab * hc = 0) (a : ha ≤ 0) (b : hb ≤ 0) (c : 0 < hc)
    (ho : sab < 0 ∨ sbc < 0 ∨ sca < 0) : 0 < sbc ↔ sca < 0 := by
  constructor
  · intro h
    by_contra h'
    have h1 : 0 ≤ sab * hc := by nlinarith
    have h2 : 0 ≤ sab := nonneg_of_mul_nonneg_left h1 c
    rcases ho with h | h | h <;> linarith
  · intro h
    by_contra h'
    have h1 : 0 < sab * hc := mul_pos (by linarith) c
    nlinarith

theorem lone_low {ha hb hc sab sbc sca : K} (hA : 0 < sab + sbc + sca)
    (hz : sbc * ha + sca * hb + sab * hc = 0) (a : 0 < ha) (b : 0 < hb) (c : hc ≤ 0)
    (ho : sab < 0 ∨ sbc < 0 ∨ sca < 0) : 0 < sca ↔ sbc < 0 := by
  constructor
  · intro h
    by_contra h'
    have h1 : sab * hc < 0 := by nlinarith
    have h2 : 0 < sab := by
      by_contra h2
      nlinarith
    rcases ho with h | h | h <;> linarith
  · intro h
    by_contra h'
    have h1 : sab * hc ≤ 0 := mul_nonpos_of_nonneg_of_nonpos (by linarith) c
    nlinarith

/-- A triangle runs around a point once or not at all. -/
theorem cr_triangle {ha hb hc sab sbc sca : K} (hA : 0 < sab + sbc + sca)
    (hz : sbc * ha + sca * hb + sab * hc = 0) :
    (sab < 0 ∨ sbc < 0 ∨ sca < 0 → cr ha hb sab + cr hb hc sbc + cr hc ha sca = 0) ∧
    (0 < sab → 0 < sbc → 0 < sca → ¬ (ha = 0 ∧ hb = 0 ∧ hc = 0) →
      cr ha hb sab + cr hb hc sbc + cr hc ha sca = 1) := by
  have hA2 : 0 < sbc + sca + sab := by linarith
  have hA3 : 0 < sca + sab + sbc := by linarith
  have hz2 : sca * hb + sab * hc + sbc * ha = 0 := by linarith
  have hz3 : sab * hc + sbc * ha + sca * hb = 0 := by linarith
  refine ⟨fun ho => ?_, fun h1 h2 h3 hne => ?_⟩
  · have ho2 : sbc < 0 ∨ sca < 0 ∨ sab < 0 := by tauto
    have ho3 : sca < 0 ∨ sab < 0 ∨ sbc < 0 := by tauto
    rcases le_or_gt ha 0 with a | a <;> rcases le_or_gt hb 0 with b | b <;> rcases le_or_gt hc 0 with c | c
    · rw [cr_low a b, cr_low b c, cr_low c a]; rfl
    · rw [cr_low a b, cr_up b c, cr_down c a, zero_add]
      exact up_down (lone_high hA hz a b c ho)
    · rw [cr_up a b, cr_down b c, cr_low c a, add_zero]
      exact up_down (lone_high hA3 hz3 c a b ho3)
    · rw [cr_up a b, cr_high b c, cr_down c a, add_zero]
      exact up_down (lone_low hA2 hz2 b c a ho2)
    · rw [cr_down a b, cr_low b c, cr_up c a, add_zero, add_comm]
      exact up_down (lone_high hA2 hz2 b c a ho2)
    · rw [cr_down a b, cr_up b c, cr_high c a, add_zero, add_comm]
      exact up_down (lone_low hA3 hz3 c a b ho3)
    · rw [cr_high a b, cr_down b c, cr_up c a, zero_add, add_comm]
      exact up_down (lone_low hA hz a b c ho)
    · rw [cr_high a b, cr_high b c, cr_high c a]; rfl
  · have n1 := not_lt.2 h1.le
    have n2 := not_lt.2 h2.le
    have n3 := not_lt.2 h3.le
    rcases le_or_gt ha 0 with a | a <;> rcases le_or_gt hb 0 with b | b <;> rcases le_or_gt hc 0 with c | c
    · exfalso
      apply hne
      have p1 : sbc * ha ≤ 0 := mul_nonpos_of_nonneg_of_nonpos h2.le a
      have p2 : sca * hb ≤ 0 := mul_nonpos_of_nonneg_of_nonpos h3.le b
      have p3 : sab * hc ≤ 0 := mul_nonpos_of_nonneg_of_nonpos h1.le c
      refine ⟨?_, ?_, ?_⟩
      · exact (mul_eq_zero.1 (by linarith : sbc * ha = 0)).resolve_left h2.ne'
      · exact (mul_eq_zero.1 (by linarith : sca * hb = 0)).resolve_left h3.ne'
      · exact (mul_eq_zero.1 (by linarith : sab * hc = 0)).resolve_left h1.ne'
    · rw [cr_low a b, cr_up b c, cr_down c a, if_pos h2, if_neg n3]; rfl
    · rw [cr_up a b, cr_down b c, cr_low c a, if_pos h1, if_neg n2]; rfl
    · rw [cr_up a b, cr_high b c, cr_down c a, if_pos h1, if_neg n3]; rfl
    · rw [cr_down a b, cr_low b c, cr_up c a, if_neg n1, if_pos h3]; rfl
    · rw [cr_down a b, cr_up b c, cr_high c a, if_neg n1, if_pos h2]; rfl
    · rw [cr_high a b, cr_down b c, cr_up c a, if_neg n2, if_pos h3]; rfl
    · exfalso
      have p1 := mul_pos h2 a
      have p2 := mul_pos h3 b
      have p3 := mul_pos h1 c
      linarith

theorem crossing_eq (n u x p q : Vec3 K) : crossing n u x p q =
    cr (Vec3.dot (Vec3.cross n u) (p - x)) (Vec3.dot (Vec3.cross n u) (q - x)) (sideOf n x p q) := rfl

theorem cr_antisymm (h1 h2 s : K) : cr h1 h2 s = -cr h2 h1 (-s) := by
  rcases le_or_gt h1 0 with a | a <;> rcases le_or_gt h2 0 with b | b
  · rw [cr_low a b, cr_low b a]; rfl
  · rw [cr_up a b, cr_down b a]
    by_cases h : 0 < s <;> simp [h]
  · rw [cr_down a b, cr_up b a]
    by_cases h : s < 0 <;> simp [h]
  · rw [cr_high a b, cr_high b a]; rfl

theorem crossing_antisymm (n u x p q : Vec3 K) : crossing n u x p q = -crossing n u x q p := by
  rw [crossing_eq, crossing_eq, side_swap n x p q]
  exact cr_antisymm _ _ _

theorem crossing_triangle {n u x a b c : Vec3 K} {e : K} (hn : n ≠ 0) (hu : u ≠ 0) (hnu : Vec3.dot n u = 0)
    (ha : Vec3.dot n a = e) (hb : Vec3.dot n b = e) (hc : Vec3.dot n c = e) (hx : Vec3.dot n x = e)
    (hA : 0 < Vec3.dot n (Vec3.cross (b - a) (c - a))) :
    (¬ InTriangle a b c x → crossing n u x a b + crossing n u x b c + crossing n u x c a = 0) ∧
    (InsideTriangle a b c x → crossing n u x a b + crossing n u x b c + crossing n u x c a = 1) := by
  have hs := side_sum n x a b c
  have hz : sideOf n x b c * Vec3.dot (Vec3.cross n u) (a - x) + sideOf n x c a * Vec3.dot (Vec3.cross n u) (b - x)
      + sideOf n x a b * Vec3.dot (Vec3.cross n u) (c - x) = 0 := by
    rw [← Vec3.dot_smul_right, ← Vec3.dot_smul_right, ← Vec3.dot_smul_right, ← Vec3.dot_add_right,
      ← Vec3.dot_add_right, side_comb hn ha hb hc hx, Vec3.dot_zero_right]
  obtain ⟨h1, h2⟩ := cr_triangle (by rw [hs]; exact hA) hz
  rw [inTriangle_iff hn ha hb hc hx hA, insideTriangle_iff hn ha hb hc hx hA, crossing_eq, crossing_eq,
    crossing_eq]
  refine ⟨fun h => h1 ?_, fun ⟨a1, a2, a3⟩ => h2 a1 a2 a3 ?_⟩
  · by_contra h'
    push Not at h'
    exact h h'
  · rintro ⟨z1, z2, z3⟩
    have hw : Vec3.cross n u ≠ 0 := by
      intro h0
      have e1 : Vec3.normSq (Vec3.cross n u) = Vec3.normSq n * Vec3.normSq u - Vec3.dot n u ^ 2 := by
        simp only [Vec3.normSq, Vec3.dot, Vec3.cross_x, Vec3.cross_y, Vec3.cross_z]; ring
      rw [hnu, h0, Vec3.normSq_eq_zero.2 rfl] at e1
      have := mul_pos (Vec3.normSq_pos hn) (Vec3.normSq_pos hu)
      nlinarith
    rw [Vec3.dot_sub_right] at z1 z2 z3
    have := Vec3.dot_cross_of_orth (m := Vec3.cross n u) (u := b - a) (v := c - a) (r := n) hw
      (by rw [Vec3.dot_sub_right]; linarith) (by rw [Vec3.dot_sub_right]; linarith)
      (by rw [Vec3.dot_comm]; exact Vec3.dot_cross_self n u)
    rw [Vec3.dot_comm] at this
    exact hA.ne' this

end

end B3d.Spec
