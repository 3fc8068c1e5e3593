import Verif.Proofs.RoundedSolid
import Verif.Props.Rounded

/-!
# Boxes in rounded arithmetic (helper lemmas for C120)
-/

namespace B3d.Rounded

open Spec Planar Polygon Triangles

variable {R t : ℝ}

/-- The corners of a rectangle. -/
def rect (o u w : Vec3 ℝ) (p q : ℝ) : List (Vec3 ℝ) := [o, o + p • u, o + p • u + q • w, o + q • w]

theorem rect_cone {o u w : Vec3 ℝ} {p q : ℝ} :
    coneOver (o + q • w) o (o + p • u) = p * q * Vec3.dot (Vec3.cross u w) o / 6 ∧
    coneOver (o + q • w) (o + p • u) (o + p • u + q • w) = p * q * Vec3.dot (Vec3.cross u w) o / 6 := by
  constructor <;>
  · simp only [coneOver, Vec3.dot, Vec3.cross_x, Vec3.cross_y, Vec3.cross_z, Vec3.add_x, Vec3.add_y, Vec3.add_z, Vec3.smul_x,
      Vec3.smul_y, Vec3.smul_z]
    ring

theorem rect_solid {o u w v : Vec3 ℝ} {p q : ℝ} (hx : Axes u w) (hp : 0 < p) (hq : 0 < q)
    (hv : WithinBy (1 / 10 ^ 13) v (Vec3.cross u w)) (h1 : ∀ a ∈ rect o u w p q, Vec3.norm a ≤ R)
    (h2 : ∀ a ∈ rect o u w p q, ∀ b ∈ rect o u w p q, Vec3.norm (a - b) ≤ R)
    (h3 : t * R ^ 3 ≤ p * q * |Vec3.dot (Vec3.cross u w) o| / 6) :
    SolidFace R t (rect o u w p q, v, [(3, 0, 1), (3, 1, 2)]) ∧
      faceVolume (rect o u w p q, v, [(3, 0, 1), (3, 1, 2)]) = p * q * Vec3.dot (Vec3.cross u w) o / 3 := by
  have hpq : 0 < p * q := mul_pos hp hq
  have habs : p * q * |Vec3.dot (Vec3.cross u w) o| / 6 = |p * q * Vec3.dot (Vec3.cross u w) o / 6| := by
    rw [abs_div, abs_mul, abs_of_pos hpq, abs_of_pos (by norm_num : (0 : ℝ) < 6)]
  rw [habs] at h3
  obtain ⟨c1, c2⟩ := rect_cone (o := o) (u := u) (w := w) (p := p) (q := q)
  have m0 : o ∈ rect o u w p q := by simp [rect]
  have m1 : o + p • u ∈ rect o u w p q := by simp [rect]
  have m2 : o + p • u + q • w ∈ rect o u w p q := by simp [rect]
  have m3 : o + q • w ∈ rect o u w p q := by simp [rect]
  constructor
  · intro i j k hm
    simp only [List.mem_cons, List.not_mem_nil, or_false, Prod.mk.injEq] at hm
    rcases hm with ⟨rfl, rfl, rfl⟩ | ⟨rfl, rfl, rfl⟩
    · refine ⟨o + q • w, o, o + p • u, rfl, rfl, rfl, ⟨Vec3.cross u w, p * q, norm_cross hx, hv, hpq, ?_⟩, h1 _ m3, h1 _ m0, h1 _ m1,
        h2 _ m0 _ m3, h2 _ m1 _ m3, h2 _ m1 _ m0, ?_⟩
      · ext <;> simp <;> ring
      · rw [c1]; exact h3
    · refine ⟨o + q • w, o + p • u, o + p • u + q • w, rfl, rfl, rfl, ⟨Vec3.cross u w, p * q, norm_cross hx, hv, hpq, ?_⟩, h1 _ m3,
        h1 _ m1, h1 _ m2, h2 _ m1 _ m3, h2 _ m2 _ m3, h2 _ m2 _ m1, ?_⟩
      · ext <;> simp <;> ring
      · rw [c2]; exact h3
  · have e : faceVolume (rect o u w p q, v, [(3, 0, 1), (3, 1, 2)]) = coneOver (o + q • w) o (o + p • u) +
        coneOver (o + q • w) (o + p • u) (o + p • u + q • w) := by
      simp [faceVolume, rect]
    rw [e, c1, c2]
    ring

/-- One axis of a rounded box: from `a` to `b`, nearly of the length `x`. -/
structure Side (m M h x a b : ℝ) : Prop where
  long : 99 / 100 * m ≤ b - a
  short : b - a ≤ 49 * m + 1 / 2 * m
  ga : |a| ≤ 1001 / 1000 * M
  gb : |b| ≤ 1001 / 1000 * M
  gd : b - a ≤ 1001 / 1000 * M
  la : 99 / 100 * h ≤ |a|
  lb : 99 / 100 * h ≤ |b|
  near : |b - a - x| ≤ 4 / 10 ^ 15 * M

theorem side_core (A : Arith) {m M h x c : ℝ} (hm : 0 < m) (h1 : m ≤ x) (h2 : x ≤ 49 * m) (hM : M ≤ 9000 * m)
    (g1 : |c| ≤ M) (g2 : |c + x| ≤ M) (hxM : x ≤ M)
    (hs : h = 0 ∨ (1 / (3 * 10 ^ 5) * M ≤ h ∧ (h ≤ c ∨ c + x ≤ -h))) :
    Side m M h x (A.add (A.mul 0 x) c) (A.add (A.mul 1 x) c) := by
  have hx : 0 < x := by linarith
  have hM0 : 0 ≤ M := (abs_nonneg _).trans g1
  have e1 := A.add_err (A.mul 0 x) c
  rw [zero_mul', zero_add] at e1
  rw [zero_mul']
  have e2 := A.mul_err 1 x
  rw [one_mul, abs_of_pos hx] at e2
  have e3 := A.add_err (A.mul 1 x) c
  set a := A.add 0 c
  set y := A.mul 1 x
  set b := A.add y c
  have e1' : |a - c| ≤ 1 / 10 ^ 15 * M := e1.trans (mul_le_mul_of_nonneg_left g1 (by norm_num))
  have e2' : |y - x| ≤ 1 / 10 ^ 15 * M := e2.trans (mul_le_mul_of_nonneg_left hxM (by norm_num))
  have e4 : |y + c| ≤ 2 * M := by
    have := abs_add_le (y - x) (c + x)
    rw [show y - x + (c + x) = y + c by ring] at this
    norm_num at e2'
    linarith
  have e5 : |y + c| ≤ (1 + 1 / 10 ^ 15) * M := by
    have := abs_add_le (y - x) (c + x)
    rw [show y - x + (c + x) = y + c by ring] at this
    linarith
  have e3' : |b - (y + c)| ≤ 1 / 10 ^ 15 * ((1 + 1 / 10 ^ 15) * M) := e3.trans (mul_le_mul_of_nonneg_left e5 (by norm_num))
  have e6 : |b - (c + x)| ≤ 3 / 10 ^ 15 * M := by
    have := abs_add_le (b - (y + c)) (y - x)
    rw [show b - (y + c) + (y - x) = b - (c + x) by ring] at this
    norm_num at e2' e3' ⊢
    linarith
  have e7 : |b - a - x| ≤ 4 / 10 ^ 15 * M := by
    have := abs_sub (b - (c + x)) (a - c)
    rw [show b - (c + x) - (a - c) = b - a - x by ring] at this
    norm_num at e6 e1' ⊢
    linarith
  have f1 := abs_le.1 e1'
  have f6 := abs_le.1 e6
  have f7 := abs_le.1 e7
  have k1 := abs_add_le (a - c) c
  rw [sub_add_cancel] at k1
  have k2 := abs_add_le (b - (c + x)) (c + x)
  rw [sub_add_cancel] at k2
  refine ⟨?_, ?_, ?_, ?_, ?_, ?_, ?_, e7⟩
  · norm_num at f7 ⊢; linarith
  · norm_num at f7 ⊢; linarith
  · norm_num at e1' ⊢; linarith
  · norm_num at e6 ⊢; linarith
  · norm_num at f7 ⊢; linarith
  · rcases hs with rfl | ⟨hh, h | h⟩
    · rw [mul_zero]; exact abs_nonneg a
    · refine le_trans ?_ (le_abs_self a); norm_num at f1 hh ⊢; linarith
    · refine le_trans ?_ (neg_le_abs a); norm_num at f1 hh ⊢; linarith
  · rcases hs with rfl | ⟨hh, h | h⟩
    · rw [mul_zero]; exact abs_nonneg b
    · refine le_trans ?_ (le_abs_self b); norm_num at f6 hh ⊢; linarith
    · refine le_trans ?_ (neg_le_abs b); norm_num at f6 hh ⊢; linarith

theorem side_of (A : Arith) {m M h x c : ℝ} (hm : 0 < m) (h1 : m ≤ x) (h2 : x ≤ 49 * m) (hM : M ≤ 9000 * m)
    (g1 : |c| ≤ M) (g2 : |c + x| ≤ M) (hh : 1 / (3 * 10 ^ 5) * M ≤ h) (hs : h ≤ c ∨ c + x ≤ -h) :
    Side m M h x (A.add (A.mul 0 x) c) (A.add (A.mul 1 x) c) := by
  have hM0 : 0 ≤ M := (abs_nonneg _).trans g1
  have hh0 : 0 ≤ h := le_trans (by positivity) hh
  have hxM : x ≤ M := by
    have := abs_le.1 g1
    have := abs_le.1 g2
    rcases hs with h | h <;> linarith
  exact side_core A hm h1 h2 hM g1 g2 hxM (.inr ⟨hh, hs⟩)

theorem norm_le_of {a : Vec3 ℝ} {M : ℝ} (hM : 0 ≤ M) (h1 : |a.x| ≤ 1001 / 1000 * M) (h2 : |a.y| ≤ 1001 / 1000 * M)
    (h3 : |a.z| ≤ 1001 / 1000 * M) : Vec3.norm a ≤ 7 / 4 * M := by
  apply le_of_sq_le_sq _ (by positivity)
  rw [Vec3.norm_sq, Vec3.normSq_def]
  have s : ∀ {r : ℝ}, |r| ≤ 1001 / 1000 * M → r * r ≤ (1001 / 1000 * M) * (1001 / 1000 * M) := by
    intro r hr
    have := mul_self_le_mul_self (abs_nonneg r) hr
    rwa [abs_mul_abs_self] at this
  have := s h1
  have := s h2
  have := s h3
  nlinarith [sq_nonneg M]

/-- Corner of a box: each coordinate is one of two numbers. -/
def Corner (X0 X1 Y0 Y1 Z0 Z1 : ℝ) (a : Vec3 ℝ) : Prop := (a.x = X0 ∨ a.x = X1) ∧ (a.y = Y0 ∨ a.y = Y1) ∧ (a.z = Z0 ∨ a.z = Z1)

section
variable {m M h x y z X0 X1 Y0 Y1 Z0 Z1 : ℝ} (sx : Side m M h x X0 X1) (sy : Side m M h y Y0 Y1) (sz : Side m M h z Z0 Z1)

theorem Side.either (s : Side m M h x X0 X1) {r : ℝ} (hr : r = X0 ∨ r = X1) : |r| ≤ 1001 / 1000 * M := by
  rcases hr with rfl | rfl
  · exact s.ga
  · exact s.gb

theorem Side.diff (s : Side m M h x X0 X1) (hm : 0 < m) {r q : ℝ} (hr : r = X0 ∨ r = X1) (hq : q = X0 ∨ q = X1) :
    |r - q| ≤ 1001 / 1000 * M := by
  have h0 : 0 ≤ X1 - X0 := le_trans (by positivity) s.long
  have h1 := s.gd
  rcases hr with rfl | rfl <;> rcases hq with rfl | rfl
  · rw [sub_self, abs_zero]; linarith
  · rw [abs_sub_comm, abs_of_nonneg h0]; exact h1
  · rw [abs_of_nonneg h0]; exact h1
  · rw [sub_self, abs_zero]; linarith

include sx sy sz

theorem corner_near (hM : 0 ≤ M) {a : Vec3 ℝ} (ha : Corner X0 X1 Y0 Y1 Z0 Z1 a) : Vec3.norm a ≤ 7 / 4 * M :=
  norm_le_of hM (sx.either ha.1) (sy.either ha.2.1) (sz.either ha.2.2)

theorem corner_diff (hm : 0 < m) (hM : 0 ≤ M) {a b : Vec3 ℝ} (ha : Corner X0 X1 Y0 Y1 Z0 Z1 a)
    (hb : Corner X0 X1 Y0 Y1 Z0 Z1 b) : Vec3.norm (a - b) ≤ 7 / 4 * M :=
  norm_le_of hM (sx.diff hm ha.1 hb.1) (sy.diff hm ha.2.1 hb.2.1) (sz.diff hm ha.2.2 hb.2.2)

theorem corner_reach (hM : M ≤ 9000 * m) {a : Vec3 ℝ} (ha : Corner X0 X1 Y0 Y1 Z0 Z1 a) :
    Reach (99 / 100 * m) a := by
  have h1 := sx.either ha.1
  have h2 := sy.either ha.2.1
  have h3 := sz.either ha.2.2
  have h0 := abs_nonneg a.x
  refine ⟨?_, ?_, ?_⟩ <;> · norm_num; linarith

/-- One face of a rounded box. -/
theorem box_face (A : Arith) {o u w : Vec3 ℝ} {p q : ℝ} (hm : 1 / 500 ≤ m) (hm' : m ≤ 10 ^ 6) (hM : M ≤ 9000 * m)
    (hM0 : 0 ≤ M) (hh : 0 ≤ h) (hx : Axes u w) (hf : AxisPlane u w)
    (hp : 99 / 100 * m ≤ p) (hp' : p ≤ 49 * m + 1 / 2 * m) (hq : 99 / 100 * m ≤ q) (hq' : q ≤ 49 * m + 1 / 2 * m)
    (hc : ∀ a ∈ rect o u w p q, Corner X0 X1 Y0 Y1 Z0 Z1 a) (ho : 99 / 100 * h ≤ |Vec3.dot (Vec3.cross u w) o|)
    (ht : t * (7 / 4 * M) ^ 3 ≤ h * m ^ 2 / 8) :
    ∃ v, polygonNew A (rect o u w p q) = .ok (rect o u w p q, v, [(3, 0, 1), (3, 1, 2)]) ∧
      SolidFace (7 / 4 * M) t (rect o u w p q, v, [(3, 0, 1), (3, 1, 2)]) ∧
      faceVolume (rect o u w p q, v, [(3, 0, 1), (3, 1, 2)]) = p * q * Vec3.dot (Vec3.cross u w) o / 3 := by
  have hm0 : 0 < m := lt_of_lt_of_le (by norm_num) hm
  obtain ⟨v, h1, h2⟩ := C109_rectangle (m := 99 / 100 * m) (o := o) A hx hf (by linarith) (by linarith) hp (by linarith) hq (by linarith)
    ⟨corner_reach sx sy sz hM (hc _ (by simp [rect])), corner_reach sx sy sz hM (hc _ (by simp [rect])),
      corner_reach sx sy sz hM (hc _ (by simp [rect])), corner_reach sx sy sz hM (hc _ (by simp [rect]))⟩
  have hp0 : 0 < p := lt_of_lt_of_le (by positivity) hp
  have hq0 : 0 < q := lt_of_lt_of_le (by positivity) hq
  have h3 := rect_solid (R := 7 / 4 * M) (t := t) hx hp0 hq0 h1 (fun a ha => corner_near sx sy sz hM0 (hc a ha))
    (fun a ha b hb => corner_diff sx sy sz hm0 hM0 (hc a ha) (hc b hb)) (by
      refine ht.trans ?_
      have h4 : 99 / 100 * m * (99 / 100 * m) ≤ p * q := mul_le_mul hp hq (by positivity) hp0.le
      have h5 : 99 / 100 * m * (99 / 100 * m) * (99 / 100 * h) ≤ p * q * |Vec3.dot (Vec3.cross u w) o| :=
        mul_le_mul h4 ho (by positivity) (by positivity)
      have h6 : 0 ≤ h * m ^ 2 := by positivity
      have e : 99 / 100 * m * (99 / 100 * m) * (99 / 100 * h) = 970299 / 1000000 * (h * m ^ 2) := by ring
      rw [e] at h5
      linarith)
  exact ⟨v, h2, h3⟩

end

end B3d.Rounded
