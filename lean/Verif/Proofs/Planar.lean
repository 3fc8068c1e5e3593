import Verif.Spec.Planar
import Verif.Proofs.Star
import Verif.Proofs.Grid

/-!
# Outlines without doubtful cases

For such outlines, in any plane, the tests of the ear clipping are exact.
-/

namespace B3d.Planar

open Spec Triangles Points Polygon ConvexEars

variable {o u w : Vec3 ℝ} {m : ℝ} {pts : List (ℝ × ℝ)}

theorem inPlane_sub (p q : ℝ × ℝ) :
    inPlane o u w p - inPlane o u w q = (p.1 - q.1) • u + (p.2 - q.2) • w := by
  unfold inPlane
  ext <;> simp <;> ring

theorem normSq_inPlane (h : Axes u w) (p q : ℝ × ℝ) : Vec3.normSq (inPlane o u w p - inPlane o u w q) = distSq p q := by
  rw [inPlane_sub]
  obtain ⟨h1, h2, h3⟩ := h
  simp only [Vec3.dot] at h1 h2 h3
  simp only [Vec3.normSq_def, Vec3.add_x, Vec3.add_y, Vec3.add_z, Vec3.smul_x, Vec3.smul_y, Vec3.smul_z, distSq]
  linear_combination (p.1 - q.1) ^ 2 * h1 + (p.2 - q.2) ^ 2 * h2 + 2 * (p.1 - q.1) * (p.2 - q.2) * h3

theorem cross_inPlane (a b c : ℝ × ℝ) :
    Vec3.cross (inPlane o u w b - inPlane o u w a) (inPlane o u w c - inPlane o u w a) =
      signedArea a b c • Vec3.cross u w := by
  rw [inPlane_sub, inPlane_sub]
  ext <;> simp [signedArea] <;> ring

theorem cross_inPlane' (a b c : ℝ × ℝ) :
    Vec3.cross (inPlane o u w b - inPlane o u w a) (inPlane o u w c - inPlane o u w b) =
      signedArea a b c • Vec3.cross u w := by
  rw [inPlane_sub, inPlane_sub]
  ext <;> simp [signedArea] <;> ring

theorem norm_cross (h : Axes u w) : Vec3.norm (Vec3.cross u w) = 1 := by
  have : Vec3.normSq (Vec3.cross u w) = 1 := by
    obtain ⟨h1, h2, h3⟩ := h
    have e : Vec3.normSq (Vec3.cross u w) = Vec3.dot u u * Vec3.dot w w - Vec3.dot u w ^ 2 := by
      simp only [Vec3.normSq_def, Vec3.dot, Vec3.cross_x, Vec3.cross_y, Vec3.cross_z]; ring
    rw [e, h1, h2, h3]; norm_num
  rw [Vec3.norm, this]; simp

theorem signedArea_rot (a b c : ℝ × ℝ) : signedArea b c a = signedArea a b c := by unfold signedArea; ring

theorem signedArea_swap (a b c : ℝ × ℝ) : signedArea b a c = -signedArea a b c := by unfold signedArea; ring

theorem signedArea_sum (a b c t : ℝ × ℝ) : signedArea a b t + signedArea b c t + signedArea c a t = signedArea a b c := by
  unfold signedArea; ring

theorem inClosed_rot (t a b c : ℝ × ℝ) : InClosed t b c a ↔ InClosed t a b c := by
  unfold InClosed; tauto

/-! ## Distances -/

theorem _root_.B3d.Spec.Crisp.pos (h : Crisp m pts) : 0 < m := lt_of_lt_of_le (by norm_num) h.scale

theorem coord_of_far (hx : Axes u w) (hm : 0 < m) {p q : ℝ × ℝ} (h : m ^ 2 ≤ distSq p q) :
    m / 2 ≤ |(inPlane o u w p).x - (inPlane o u w q).x| ∨ m / 2 ≤ |(inPlane o u w p).y - (inPlane o u w q).y| ∨
      m / 2 ≤ |(inPlane o u w p).z - (inPlane o u w q).z| := by
  by_contra hc
  push Not at hc
  obtain ⟨h1, h2, h3⟩ := hc
  rw [← normSq_inPlane (o := o) hx, Vec3.normSq_def] at h
  simp only [Vec3.sub_x, Vec3.sub_y, Vec3.sub_z] at h
  have key : ∀ x : ℝ, |x| < m / 2 → x * x < m ^ 2 / 4 := by
    intro x hx
    rw [← abs_mul_abs_self]
    nlinarith [abs_nonneg x]
  have k1 := key _ h1
  have k2 := key _ h2
  have k3 := key _ h3
  nlinarith

theorem apart_inPlane (hx : Axes u w) (h : Crisp m pts) {p q : ℝ × ℝ} (hp : p ∈ pts) (hq : q ∈ pts) (hne : p ≠ q)
    (hr : Reach m (inPlane o u w q)) : Apart (inPlane o u w p) (inPlane o u w q) := by
  have hs := h.scale
  have hm := h.pos
  obtain ⟨r1, r2, r3⟩ := hr
  norm_num at hs
  rcases coord_of_far (o := o) hx hm (h.far p hp q hq hne) with hd | hd | hd
  · exact .inl (by norm_num at *; linarith)
  · exact .inr (.inl (by norm_num at *; linarith))
  · exact .inr (.inr (by norm_num at *; linarith))

theorem thick_inPlane (hx : Axes u w) (h : Crisp m pts) {a b c : ℝ × ℝ} (ha : a ∈ pts) (hb : b ∈ pts) (hc : c ∈ pts)
    (hD : 0 < signedArea a b c) :
    Thick (Vec3.cross u w) (inPlane o u w a) (inPlane o u w b) (inPlane o u w c) := by
  have hs := h.scale
  have hm := h.pos
  have hD1 : m ^ 2 ≤ signedArea a b c := by
    rcases h.sides a ha b hb c hc with h | h
    · linarith
    · rwa [abs_of_pos hD] at h
  have hm2 : 1 / 10 ^ 6 ≤ m ^ 2 := by norm_num at hs ⊢; nlinarith
  have hD2 : m ^ 2 * m ^ 2 ≤ signedArea a b c ^ 2 := by
    rw [pow_two (signedArea a b c)]
    exact mul_le_mul hD1 hD1 (by positivity) hD.le
  have fin : ∀ p ∈ pts, ∀ q ∈ pts, ∀ r ∈ pts, ∀ s ∈ pts,
      4 / 10 ^ 9 * (distSq p q * distSq r s) ≤ signedArea a b c ^ 2 := by
    intro p hp q hq r hr s hs
    have n0 : ∀ p q, 0 ≤ distSq p q := by intro p q; unfold distSq; positivity
    have := mul_le_mul (h.near p hp q hq) (h.near r hr s hs) (n0 r s) (by positivity)
    nlinarith [sq_nonneg (m ^ 2)]
  refine ⟨signedArea a b c, by norm_num at hm2 ⊢; linarith, cross_inPlane a b c, ?_, ?_, ?_⟩
  · rw [normSq_inPlane hx, normSq_inPlane hx]; exact fin _ hb _ ha _ hc _ ha
  · rw [normSq_inPlane hx, normSq_inPlane hx]; exact fin _ hc _ hb _ ha _ hb
  · rw [normSq_inPlane hx, normSq_inPlane hx]; exact fin _ ha _ hc _ hb _ hc

/-! ## Segments and triangles -/

/-- Barycentric coordinates. -/
theorem inTriangle_inPlane {t a b c : ℝ × ℝ} (hD : 0 < signedArea a b c) (h : InClosed t a b c) :
    InTriangle (inPlane o u w a) (inPlane o u w b) (inPlane o u w c) (inPlane o u w t) := by
  obtain ⟨h1, h2, h3⟩ := h
  have hne := hD.ne'
  have hsum := signedArea_sum a b c t
  have e1 : t.1 = signedArea b c t / signedArea a b c * a.1 + signedArea c a t / signedArea a b c * b.1 +
      signedArea a b t / signedArea a b c * c.1 := by
    field_simp; unfold signedArea; ring
  have e2 : t.2 = signedArea b c t / signedArea a b c * a.2 + signedArea c a t / signedArea a b c * b.2 +
      signedArea a b t / signedArea a b c * c.2 := by
    field_simp; unfold signedArea; ring
  have hone : signedArea b c t / signedArea a b c + signedArea c a t / signedArea a b c +
      signedArea a b t / signedArea a b c = 1 := by
    field_simp; linarith
  refine ⟨signedArea b c t / signedArea a b c, signedArea c a t / signedArea a b c, signedArea a b t / signedArea a b c,
    div_nonneg h2 hD.le, div_nonneg h3 hD.le, div_nonneg h1 hD.le, hone, ?_⟩
  generalize signedArea b c t / signedArea a b c = r at *
  generalize signedArea c a t / signedArea a b c = s at *
  generalize signedArea a b t / signedArea a b c = q at *
  unfold inPlane
  rw [e1, e2]
  ext
  · simp; linear_combination (-o.x) * hone
  · simp; linear_combination (-o.y) * hone
  · simp; linear_combination (-o.z) * hone

/-- A point on the line of a segment. -/
theorem on_line {a b t : ℝ × ℝ} (hne : 0 < distSq b a) (h : signedArea a b t = 0) :
    ∃ k : ℝ, t.1 - a.1 = k * (b.1 - a.1) ∧ t.2 - a.2 = k * (b.2 - a.2) := by
  refine ⟨((t.1 - a.1) * (b.1 - a.1) + (t.2 - a.2) * (b.2 - a.2)) / distSq b a, ?_, ?_⟩
  · field_simp
    unfold signedArea at h; unfold distSq
    linear_combination (-(b.2 - a.2)) * h
  · field_simp
    unfold signedArea at h; unfold distSq
    linear_combination (b.1 - a.1) * h

theorem distSq_pos {p q : ℝ × ℝ} (h : p ≠ q) : 0 < distSq p q := by
  unfold distSq
  rcases lt_or_eq_of_le (show 0 ≤ (p.1 - q.1) ^ 2 + (p.2 - q.2) ^ 2 by positivity) with h' | h'
  · exact h'
  · exfalso
    have h1 : p.1 - q.1 = 0 := by nlinarith [sq_nonneg (p.1 - q.1), sq_nonneg (p.2 - q.2)]
    have h2 : p.2 - q.2 = 0 := by nlinarith [sq_nonneg (p.1 - q.1), sq_nonneg (p.2 - q.2)]
    exact h (Prod.ext (by linarith) (by linarith))

theorem onSegment_inPlane {a b t : ℝ × ℝ} {k : ℝ} (h0 : 0 ≤ k) (h1 : k ≤ 1) (e1 : t.1 - a.1 = k * (b.1 - a.1))
    (e2 : t.2 - a.2 = k * (b.2 - a.2)) : OnSegment (inPlane o u w a) (inPlane o u w b) (inPlane o u w t) := by
  refine ⟨k, h0, h1, ?_⟩
  have : inPlane o u w t = inPlane o u w a + (inPlane o u w t - inPlane o u w a) := by abel
  rw [this, inPlane_sub, inPlane_sub, e1, e2]
  ext <;> simp <;> ring

/-- A point of the triangle on the line of an edge is on the edge. -/
theorem onSegment_of_inClosed {a b c t : ℝ × ℝ} (hD : 0 < signedArea a b c) (h : InClosed t a b c)
    (h0 : signedArea a b t = 0) : OnSegment (inPlane o u w a) (inPlane o u w b) (inPlane o u w t) := by
  have hab : b ≠ a := by rintro rfl; unfold signedArea at hD; ring_nf at hD; simp at hD
  obtain ⟨k, e1, e2⟩ := on_line (distSq_pos hab) h0
  obtain ⟨-, h2, h3⟩ := h
  have f1 : signedArea c a t = k * signedArea a b c := by
    unfold signedArea
    linear_combination (-(c.2 - a.2)) * (-e1) + (-(c.1 - a.1)) * e2
  have f2 : signedArea b c t = (1 - k) * signedArea a b c := by
    have := signedArea_sum a b c t
    rw [h0, f1] at this
    linarith
  rw [f1] at h3
  rw [f2] at h2
  have k0 : 0 ≤ k := nonneg_of_mul_nonneg_left h3 hD
  have k1 : 0 ≤ 1 - k := nonneg_of_mul_nonneg_left h2 hD
  exact onSegment_inPlane k0 (by linarith) e1 e2

/-- A point of an edge is in the triangle. -/
theorem inClosed_of_line {a b c t : ℝ × ℝ} {k : ℝ} (hD : 0 < signedArea a b c) (h0 : 0 ≤ k) (h1 : k ≤ 1)
    (e1 : t.1 - a.1 = k * (b.1 - a.1)) (e2 : t.2 - a.2 = k * (b.2 - a.2)) : InClosed t a b c := by
  have f0 : signedArea a b t = 0 := by
    unfold signedArea
    linear_combination (b.1 - a.1) * e2 - (b.2 - a.2) * e1
  have f1 : signedArea c a t = k * signedArea a b c := by
    unfold signedArea
    linear_combination (-(c.2 - a.2)) * (-e1) + (-(c.1 - a.1)) * e2
  have f2 : signedArea b c t = (1 - k) * signedArea a b c := by
    have := signedArea_sum a b c t
    rw [f0, f1] at this
    linarith
  refine ⟨f0.ge, ?_, ?_⟩
  · rw [f2]; exact mul_nonneg (by linarith) hD.le
  · rw [f1]; exact mul_nonneg h0 hD.le

theorem edgeTest_comm_beyond {c n t : Vec3 ℝ} (h : Beyond c n t) : edgeTest t n c GEOM_ATOL ≠ some true := by
  obtain ⟨k, hk, e, hd⟩ := h
  have ex := congrArg Vec3.x e
  have ey := congrArg Vec3.y e
  have ez := congrArg Vec3.z e
  simp only [Vec3.sub_x, Vec3.sub_y, Vec3.sub_z, Vec3.smul_x, Vec3.smul_y, Vec3.smul_z] at ex ey ez
  unfold edgeTest
  split
  · simp only [ne_eq, Option.some.injEq, decide_eq_true_eq, not_not]
    rcases hd with hd | hd | hd
    · have := out_of_beyond (g := (·.x)) hk ex hd
      rw [max_comm, min_comm] at this
      exact .inl this
    · have := out_of_beyond (g := (·.y)) hk ey hd
      rw [max_comm, min_comm] at this
      exact .inr (.inl this)
    · have := out_of_beyond (g := (·.z)) hk ez hd
      rw [max_comm, min_comm] at this
      exact .inr (.inr this)
  · simp

/-! ## The tests -/

section tests

variable (hx : Axes u w) (h : Crisp m pts) (hr : ∀ p ∈ pts, Reach m (inPlane o u w p))
include hx h hr

theorem eps_inPlane {p q : ℝ × ℝ} (hp : p ∈ pts) (hq : q ∈ pts) (hne : p ≠ q) :
    EPSILON < Vec3.norm (inPlane o u w p - inPlane o u w q) :=
  Apart.norm_pos (apart_inPlane hx h hp hq hne (hr q hq))

theorem beyond_inPlane {a b t : ℝ × ℝ} (hb : b ∈ pts) (ht : t ∈ pts) (hne : t ≠ b) {k : ℝ} (hk : 0 ≤ k)
    (e1 : t.1 - b.1 = k * (b.1 - a.1)) (e2 : t.2 - b.2 = k * (b.2 - a.2)) :
    Beyond (inPlane o u w a) (inPlane o u w b) (inPlane o u w t) := by
  have hs := h.scale
  refine ⟨k, hk, ?_, ?_⟩
  · rw [inPlane_sub, inPlane_sub, e1, e2]
    ext <;> simp <;> ring
  · have := hr b hb
    rcases coord_of_far (o := o) hx h.pos (h.far t ht b hb hne) with hd | hd | hd
    · exact .inl (by norm_num at *; linarith)
    · exact .inr (.inl (by norm_num at *; linarith))
    · exact .inr (.inr (by norm_num at *; linarith))

/-- A corner off the line of an edge is not collinear with it. -/
theorem edge_none {a b t : ℝ × ℝ} (ha : a ∈ pts) (hb : b ∈ pts) (ht : t ∈ pts) (h0 : signedArea a b t ≠ 0) :
    edgeTest (inPlane o u w t) (inPlane o u w a) (inPlane o u w b) GEOM_ATOL = none := by
  have hv := norm_cross hx
  have hab : b ≠ a := by rintro rfl; apply h0; unfold signedArea; ring
  have hat : t ≠ a := by rintro rfl; apply h0; unfold signedArea; ring
  have h1 := eps_inPlane hx h hr hb ha hab
  have h2 := eps_inPlane hx h hr ht ha hat
  have col : arePointsCollinear [inPlane o u w a, inPlane o u w b, inPlane o u w t] = .ok false := by
    rcases lt_or_gt_of_ne h0 with hlt | hgt
    · have : 0 < signedArea a t b := by
        have : signedArea a t b = -signedArea a b t := by unfold signedArea; ring
        linarith
      exact (thick_inPlane hx h ha ht hb this).not_collinear' hv h2 h1
    · exact (thick_inPlane hx h ha hb ht hgt).not_collinear hv h1 h2
  unfold edgeTest
  rw [col]

omit hr in
theorem sameSide_inPlane {a b c t : ℝ × ℝ} (ha : a ∈ pts) (hb : b ∈ pts) (hc : c ∈ pts) (ht : t ∈ pts)
    (hD : 0 < signedArea a b c) (h0 : signedArea a b t ≠ 0) :
    isPointOnSameSide (inPlane o u w a) (inPlane o u w b) (inPlane o u w t) (inPlane o u w c) GEOM_ATOL =
      .ok (decide (0 < signedArea a b t)) := by
  have hv := norm_cross hx
  have hs := h.scale
  have hg : (GEOM_ATOL : ℝ) < 1 / 10 ^ 6 := by norm_num [GEOM_ATOL]
  have hm2 : 1 / 10 ^ 6 ≤ m ^ 2 := by norm_num at hs ⊢; nlinarith
  have hD1 : m ^ 2 ≤ signedArea a b c := by
    rcases h.sides a ha b hb c hc with h | h
    · linarith
    · rwa [abs_of_pos hD] at h
  have hT : m ^ 2 ≤ |signedArea a b t| := by
    rcases h.sides a ha b hb t ht with h | h
    · exact (h0 h).elim
    · exact h
  obtain ⟨w1, w2⟩ := unit_smul hv hD
  rw [w1] at w2
  unfold isPointOnSameSide
  simp only [cross_inPlane]
  rcases lt_or_gt_of_ne h0 with hlt | hgt
  · rw [abs_of_neg hlt] at hT
    have hv' : Vec3.norm (-Vec3.cross u w) = 1 := by rw [Vec3.norm_neg, hv]
    obtain ⟨u1, u2⟩ := unit_smul hv' (show 0 < -signedArea a b t by linarith)
    have e : (-signedArea a b t) • (-Vec3.cross u w) = signedArea a b t • Vec3.cross u w := by
      ext <;> simp
    rw [e] at u1 u2
    rw [u1] at u2
    simp only [u1, w1, u2, w2]
    rw [if_neg (by linarith), if_neg (by linarith), decide_eq_false (not_allClose_neg (normSq_eq_one hv)),
      decide_eq_false (by linarith)]
  · rw [abs_of_pos hgt] at hT
    obtain ⟨u1, u2⟩ := unit_smul hv hgt
    rw [u1] at u2
    simp only [u1, w1, u2, w2]
    rw [if_neg (by linarith), if_neg (by linarith), decide_eq_true hgt, decide_eq_true]
    have hz : ∀ x : ℝ, isClose x x NP_RTOL GEOM_ATOL := by
      intro x
      unfold isClose
      rw [sub_self, abs_zero]
      have : (0 : ℝ) ≤ NP_RTOL * |x| := mul_nonneg (by norm_num [NP_RTOL]) (abs_nonneg x)
      have : (0 : ℝ) ≤ GEOM_ATOL := by norm_num [GEOM_ATOL]
      linarith
    exact ⟨hz _, hz _, hz _⟩

open Classical in
/-- The test of a triangle is exact. -/
theorem isPointInside_inPlane {a b c t : ℝ × ℝ} (ha : a ∈ pts) (hb : b ∈ pts) (hc : c ∈ pts) (ht : t ∈ pts)
    (hD : 0 < signedArea a b c) :
    Triangles.isPointInside (inPlane o u w t) (inPlane o u w a) (inPlane o u w b) (inPlane o u w c) =
      .ok (decide (InClosed t a b c)) := by
  have hv := norm_cross hx
  have hs := h.scale
  have hm2 : 1 / 10 ^ 6 ≤ m ^ 2 := by norm_num at hs ⊢; nlinarith
  have hD2 : 0 < signedArea b c a := by rw [signedArea_rot]; exact hD
  have hD3 : 0 < signedArea c a b := by rw [signedArea_rot, signedArea_rot]; exact hD
  have ne : ∀ p q r : ℝ × ℝ, 0 < signedArea p q r → p ≠ q := by
    rintro p _ r hd rfl; unfold signedArea at hd; ring_nf at hd; simp at hd
  have hab := ne _ _ _ hD
  have hbc := ne _ _ _ hD2
  have hca := ne _ _ _ hD3
  by_cases hg : InClosed t a b c
  · rw [decide_eq_true hg]
    by_cases hcorner : t = a ∨ t = b ∨ t = c
    · exact isPointInside_corner (by rcases hcorner with rfl | rfl | rfl <;> simp)
    push Not at hcorner
    obtain ⟨ta, tb, tc⟩ := hcorner
    have ed : ∀ p ∈ pts, ∀ q ∈ pts, ∀ r ∈ pts, 0 < signedArea p q r → InClosed t p q r → t ≠ p →
        (edgeTest (inPlane o u w t) (inPlane o u w p) (inPlane o u w q) GEOM_ATOL = some true) ∨
        (edgeTest (inPlane o u w t) (inPlane o u w p) (inPlane o u w q) GEOM_ATOL = none ∧
          isPointOnSameSide (inPlane o u w p) (inPlane o u w q) (inPlane o u w t) (inPlane o u w r) = .ok true) := by
      intro p hp q hq r hr' hd hi htp
      by_cases h0 : signedArea p q t = 0
      · exact .inl (edgeTest_on (onSegment_of_inClosed hd hi h0) (eps_inPlane hx h hr hq hp (ne _ _ _ hd).symm)
          (eps_inPlane hx h hr ht hp htp))
      · refine .inr ⟨edge_none hx h hr hp hq ht h0, ?_⟩
        rw [sameSide_inPlane hx h hp hq hr' ht hd h0, decide_eq_true (lt_of_le_of_ne hi.1 (Ne.symm h0))]
    unfold Triangles.isPointInside
    rw [inTriangle_bbox (inTriangle_inPlane hD hg) _ (by simp) (by simp) (by simp)]
    simp only [bind, Except.bind, pure, Except.pure, Bool.not_true, Bool.false_eq_true, if_false]
    split
    · rfl
    rcases ed a ha b hb c hc hD hg ta with e1 | ⟨e1, s1⟩
    · simp only [e1]
    rcases ed b hb c hc a ha hD2 ((inClosed_rot t a b c).2 hg) tb with e2 | ⟨e2, s2⟩
    · simp only [e1, e2]
    rcases ed c hc a ha b hb hD3 ((inClosed_rot t b c a).2 ((inClosed_rot t a b c).2 hg)) tc with e3 | ⟨e3, s3⟩
    · simp only [e1, e2, e3]
    simp only [e1, e2, e3, s1, s2, s3, Bool.and_self]
  · rw [decide_eq_false hg]
    have hD1 : m ^ 2 ≤ signedArea a b c := by
      rcases h.sides a ha b hb c hc with h | h
      · linarith
      · rwa [abs_of_pos hD] at h
    have hlen : ¬ Vec3.norm (Vec3.cross (inPlane o u w b - inPlane o u w a) (inPlane o u w c - inPlane o u w b)) <
        GEOM_ATOL := by
      rw [cross_inPlane', (unit_smul hv hD).1]
      have : (GEOM_ATOL : ℝ) < 1 / 10 ^ 6 := by norm_num [GEOM_ATOL]
      linarith
    obtain ⟨r, hres⟩ := isPointInside_ok_of_len hlen (inPlane o u w t)
    rw [hres]
    cases r with
    | false => rfl
    | true =>
      exfalso
      have tne : t ≠ a ∧ t ≠ b ∧ t ≠ c := by
        refine ⟨?_, ?_, ?_⟩ <;> rintro rfl <;> apply hg
        · exact inClosed_of_line hD (le_refl 0) zero_le_one (by ring) (by ring)
        · exact inClosed_of_line hD zero_le_one (le_refl 1) (by ring) (by ring)
        · exact (inClosed_rot _ _ _ _).1 (inClosed_of_line hD2 zero_le_one (le_refl 1) (by ring) (by ring))
      obtain ⟨ta, tb, tc⟩ := tne
      have ed : ∀ p ∈ pts, ∀ q ∈ pts, ∀ r : ℝ × ℝ, 0 < signedArea p q r → t ≠ p → t ≠ q →
          edgeTest (inPlane o u w t) (inPlane o u w p) (inPlane o u w q) GEOM_ATOL = some true → InClosed t p q r := by
        intro p hp q hq r hd htp htq he
        by_cases h0 : signedArea p q t = 0
        · obtain ⟨k, e1, e2⟩ := on_line (distSq_pos (ne _ _ _ hd).symm) h0
          rcases lt_or_ge k 0 with hk | hk
          · exfalso
            refine edgeTest_comm_beyond (beyond_inPlane hx h hr (a := q) hp ht htp (k := -k) (by linarith) ?_ ?_) he
            · rw [e1]; ring
            · rw [e2]; ring
          · rcases lt_or_ge 1 k with hk1 | hk1
            · exfalso
              refine edgeTest_beyond (beyond_inPlane hx h hr (a := p) hq ht htq (k := k - 1) (by linarith) ?_ ?_) he
              · linear_combination e1
              · linear_combination e2
            · exact inClosed_of_line hd hk hk1 e1 e2
        · rw [edge_none hx h hr hp hq ht h0] at he
          cases he
      rcases inside_cases hres with h' | h' | ⟨h1, h2, h3⟩
      · have key : ∀ p ∈ pts, t ≠ p → pointsEqual (inPlane o u w t) (inPlane o u w p) GEOM_ATOL = false :=
          fun p hp hne => (apart_inPlane hx h ht hp hne (hr p hp)).symm_ne
        rw [key a ha ta, key b hb tb, key c hc tc] at h'
        simp at h'
      · apply hg
        rcases h' with h' | h' | h'
        · exact ed a ha b hb c hD ta tb h'
        · exact (inClosed_rot _ _ _ _).1 (ed b hb c hc a hD2 tb tc h')
        · exact (inClosed_rot _ _ _ _).1 ((inClosed_rot _ _ _ _).1 (ed c hc a ha b hD3 tc ta h'))
      · have side : ∀ p ∈ pts, ∀ q ∈ pts, ∀ r ∈ pts, 0 < signedArea p q r →
            isPointOnSameSide (inPlane o u w p) (inPlane o u w q) (inPlane o u w t) (inPlane o u w r) GEOM_ATOL = .ok true →
            0 ≤ signedArea p q t := by
          intro p hp q hq r hr' hd hside
          by_cases h0 : signedArea p q t = 0
          · exact h0.ge
          · rw [sameSide_inPlane hx h hp hq hr' ht hd h0] at hside
            simp only [Except.ok.injEq, decide_eq_true_eq] at hside
            exact hside.le
        exact hg ⟨side a ha b hb c hc hD h1, side b hb c hc a ha hD2 h2, side c hc a ha b hb hD3 h3⟩

omit hr in
open Classical in
/-- The test of a corner is exact. -/
theorem isCornerConvex_inPlane {a b c : ℝ × ℝ} (ha : a ∈ pts) (hb : b ∈ pts) (hc : c ∈ pts) :
    isCornerConvex (Vec3.cross u w) (inPlane o u w a) (inPlane o u w b) (inPlane o u w c) =
      .ok (decide (0 < signedArea a b c)) := by
  have hv := norm_cross hx
  rcases lt_trichotomy (signedArea a b c) 0 with hlt | h0 | hgt
  · rw [decide_eq_false (by linarith)]
    have hv' : Vec3.norm (-Vec3.cross u w) = 1 := by rw [Vec3.norm_neg, hv]
    obtain ⟨u1, u2⟩ := unit_smul hv' (show 0 < -signedArea a b c by linarith)
    have e : (-signedArea a b c) • (-Vec3.cross u w) = signedArea a b c • Vec3.cross u w := by
      ext <;> simp
    rw [e] at u1 u2
    unfold isCornerConvex
    rw [if_neg (by rw [hv]; norm_num [GEOM_ATOL])]
    simp only [cross_inPlane', u2]
    split
    · rfl
    congr 1
    refine decide_eq_false ?_
    rintro ⟨h1, h2, h3⟩
    have hsq := normSq_eq_one hv
    rw [Vec3.normSq_def] at hsq
    generalize Vec3.cross u w = v at *
    have key : ∀ x : ℝ, isClose (-x) x GEOM_RTOL NP_ATOL → x * x ≤ 1 / 100 := by
      intro x hx
      unfold isClose at hx
      have e : |-x - x| = 2 * |x| := by
        rw [show -x - x = -(2 * x) by ring, abs_neg, abs_mul, abs_of_pos (by norm_num : (0 : ℝ) < 2)]
      rw [e] at hx
      have hx' : |x| ≤ 1 / 10 := by
        norm_num [GEOM_RTOL, NP_ATOL] at hx ⊢
        linarith
      rw [← abs_mul_abs_self]
      nlinarith [abs_nonneg x]
    simp only [Vec3.neg_x, Vec3.neg_y, Vec3.neg_z] at h1 h2 h3
    have := key _ h1
    have := key _ h2
    have := key _ h3
    linarith
  · rw [decide_eq_false (by linarith)]
    unfold isCornerConvex
    rw [if_neg (by rw [hv]; norm_num [GEOM_ATOL])]
    have e : Vec3.norm (signedArea a b c • Vec3.cross u w) = 0 := by
      rw [h0, Vec3.norm_smul, abs_zero, zero_mul]
    simp only [cross_inPlane', e]
    rw [if_pos (by norm_num [GEOM_ATOL])]
  · rw [decide_eq_true hgt]
    exact (thick_inPlane hx h ha hb hc hgt).convex hv

end tests

/-! ## The triangulation -/

open Classical in
/-- The ear clipping with exact tests. -/
noncomputable def exactTriangulate (fuel : Nat) (pts : List (ℝ × ℝ)) :
    Option (Except PyErr (List (ℝ × ℝ) × List Tri)) :=
  triangulateTries false (fun a b c => .ok (decide (0 < signedArea a b c))) (fun t a b c => .ok (decide (InClosed t a b c)))
    fuel 2 pts

theorem triangulate_inPlane (hx : Axes u w) (h : Crisp m pts) (hr : ∀ p ∈ pts, Reach m (inPlane o u w p)) {fuel : Nat} :
    triangulate fuel (pts.map (inPlane o u w)) (Vec3.cross u w) =
      (exactTriangulate fuel pts).map fun r => r.map fun x => (x.1.map (inPlane o u w), x.2) := by
  unfold triangulate exactTriangulate
  rw [decide_eq_false (by rw [norm_cross hx]; norm_num [isClose, NP_ATOL])]
  refine Grid.tries_map (inPlane o u w) 2 pts (fun a ha b hb c hc => isCornerConvex_inPlane hx h ha hb hc) ?_
  intro a ha b hb c hc hcv t ht
  simp only [Except.ok.injEq, decide_eq_true_eq] at hcv
  exact isPointInside_inPlane hx h hr ha hb hc ht hcv

theorem coplanar_inPlane (hx : Axes u w) (pts : List (ℝ × ℝ)) :
    Points.arePointsCoplanar (pts.map (inPlane o u w)) = true := by
  refine Points.C36_coplanar_complete _ (Vec3.cross u w) (Vec3.dot (Vec3.cross u w) o) _ ?_ Points.GEOM_ATOL_pos ?_
  · intro h0
    have := norm_cross hx
    rw [h0, Vec3.norm_eq_zero.2 rfl] at this
    norm_num at this
  · intro p hp
    obtain ⟨q, -, rfl⟩ := List.mem_map.1 hp
    simp only [inPlane, Vec3.dot, Vec3.add_x, Vec3.add_y, Vec3.add_z, Vec3.smul_x, Vec3.smul_y, Vec3.smul_z, Vec3.cross_x,
      Vec3.cross_y, Vec3.cross_z]
    ring

theorem chooseNormal_inPlane (hx : Axes u w) (h : Crisp m pts) {l p0 p1 : ℝ × ℝ} (hl : pts.getLast? = some l)
    (h0 : pts[0]? = some p0) (h1 : pts[1]? = some p1) (hD : 0 < signedArea l p0 p1) :
    chooseNormal (pts.map (inPlane o u w)) none = .ok (some (Vec3.cross u w)) := by
  simp only [chooseNormal, List.getLast?_map, List.getElem?_map, hl, h0, h1, Option.map_some, Except.ok.injEq]
  exact (thick_inPlane hx h (List.mem_of_mem_getLast? hl) (List.mem_of_getElem? h0) (List.mem_of_getElem? h1) hD).normal
    (norm_cross hx)

end B3d.Planar
