import Verif.Props.PolygonObj
import Verif.Proofs.Tactics

/-! # Rectangles are accepted by the polygon constructor -/

namespace B3d.Polygon

open Triangles Spec Points

theorem normSq_unit {p : Vec3 ℝ} (h : 0 < Vec3.norm p) : Vec3.normSq ((1 / Vec3.norm p) • p) = 1 := by
  have := Vec3.norm_sq p
  simp only [Vec3.normSq_def, Vec3.smul_x, Vec3.smul_y, Vec3.smul_z] at this ⊢
  field_simp
  linarith

/-- Unit vectors which are close to each other have almost the largest product. -/
theorem dot_of_allClose {e f : Vec3 ℝ} (he : Vec3.normSq e = 1) (hf : Vec3.normSq f = 1)
    (h : allClose f e NP_RTOL GEOM_ATOL) : 1 - 1 / 10 ^ 9 ≤ Vec3.dot e f := by
  obtain ⟨h1, h2, h3⟩ := h
  simp only [isClose] at h1 h2 h3
  rw [Vec3.normSq_def] at he hf
  have bound : ∀ x y : ℝ, |y - x| ≤ GEOM_ATOL + NP_RTOL * |x| → x * x ≤ 1 → (y - x) * (y - x) ≤ 2 / 10 ^ 10 := by
    intro x y h hx
    have hx1 : |x| ≤ 1 := by
      rw [← abs_one]
      exact sq_le_sq.1 (by nlinarith)
    have h' : |y - x| ≤ 11 / 10 ^ 6 := by
      simp only [GEOM_ATOL, NP_RTOL] at h
      norm_num at h ⊢
      linarith
    rw [← abs_mul_abs_self (y - x)]
    have := abs_nonneg (y - x)
    have := mul_le_mul h' h' this (by norm_num)
    norm_num at this ⊢
    linarith
  have hx := bound e.x f.x h1 (by nlinarith [mul_self_nonneg e.y, mul_self_nonneg e.z])
  have hy := bound e.y f.y h2 (by nlinarith [mul_self_nonneg e.x, mul_self_nonneg e.z])
  have hz := bound e.z f.z h3 (by nlinarith [mul_self_nonneg e.x, mul_self_nonneg e.y])
  simp only [Vec3.dot]
  norm_num at hx hy hz ⊢
  nlinarith

theorem notCollinear {o p q : Vec3 ℝ} (hp : EPSILON < Vec3.norm (p - o)) (hq : EPSILON < Vec3.norm (q - o))
    (h : Vec3.dot (p - o) (q - o) ^ 2 ≤ (1 - 4 / 10 ^ 9) * (Vec3.normSq (p - o) * Vec3.normSq (q - o))) :
    arePointsCollinear [o, p, q] = .ok false := by
  have heps : (0 : ℝ) < EPSILON := by norm_num [EPSILON]
  obtain ⟨a, ha⟩ : ∃ a, a = Vec3.norm (p - o) := ⟨_, rfl⟩
  obtain ⟨b, hb⟩ : ∃ b, b = Vec3.norm (q - o) := ⟨_, rfl⟩
  have ha0 : 0 < Vec3.norm (p - o) := heps.trans hp
  have hb0 : 0 < Vec3.norm (q - o) := heps.trans hq
  have e1 := normSq_unit ha0
  have e2 := normSq_unit hb0
  have hd : Vec3.dot ((1 / Vec3.norm (p - o)) • (p - o)) ((1 / Vec3.norm (q - o)) • (q - o)) ^ 2 ≤
      1 - 4 / 10 ^ 9 := by
    rw [Vec3.dot_smul_left, Vec3.dot_smul_right]
    rw [← Vec3.norm_sq, ← Vec3.norm_sq] at h
    have : (1 / Vec3.norm (p - o) * (1 / Vec3.norm (q - o) * Vec3.dot (p - o) (q - o))) ^ 2 =
        Vec3.dot (p - o) (q - o) ^ 2 / (Vec3.norm (p - o) ^ 2 * Vec3.norm (q - o) ^ 2) := by
      field_simp
    rw [this, div_le_iff₀ (by positivity)]
    exact h
  simp only [arePointsCollinear, List.map_cons, List.map_nil, unitFrom]
  rw [if_pos hp, if_pos hq]
  congr 1
  simp only [collinearLoop]
  rw [if_neg]
  rintro (hc | hc)
  · have := dot_of_allClose e1 e2 hc
    norm_num at this hd
    nlinarith
  · have e3 : Vec3.normSq ((-1 : ℝ) • ((1 / Vec3.norm (p - o)) • (p - o))) = 1 := by
      have : ∀ x : Vec3 ℝ, Vec3.normSq ((-1 : ℝ) • x) = Vec3.normSq x := by
        intro x
        simp only [Vec3.normSq_def, Vec3.smul_x, Vec3.smul_y, Vec3.smul_z]
        ring
      rw [this, e1]
    have := dot_of_allClose e3 e2 hc
    rw [Vec3.dot_smul_left] at this
    norm_num at this hd
    nlinarith

/-- Two opposite unit vectors are not close to each other. -/
theorem not_allClose_neg {e : Vec3 ℝ} (he : Vec3.normSq e = 1) : ¬ allClose (-e) e NP_RTOL GEOM_ATOL := by
  intro h
  have h2 : Vec3.normSq (-e) = 1 := by rw [← he]; simp only [Vec3.normSq_def, Vec3.neg_x, Vec3.neg_y, Vec3.neg_z]; ring
  have := dot_of_allClose he h2 h
  rw [Vec3.dot_neg_right] at this
  have h3 : Vec3.dot e e = 1 := he
  rw [h3] at this
  norm_num at this

/-- Hypotheses on a rectangle with corner `a` and sides `u`, `w`: not too thin, not too small, and the
corners are different for `points_equal`. -/
structure GoodRect (a u w : Vec3 ℝ) : Prop where
  orth : Vec3.dot u w = 0
  small : 1 / 10 ^ 7 ≤ Vec3.norm u * Vec3.norm w
  uw : Vec3.normSq u ≤ 10 ^ 8 * Vec3.normSq w
  wu : Vec3.normSq w ≤ 10 ^ 8 * Vec3.normSq u
  u_size : 1 / 10 ^ 10 ≤ Vec3.norm u
  w_size : 1 / 10 ^ 10 ≤ Vec3.norm w
  cd : pointsEqual (a + u + w) (a + w) = false
  ca : pointsEqual (a + u + w) a = false
  cb : pointsEqual (a + u + w) (a + u) = false

variable {a u w : Vec3 ℝ}

theorem norm_cross_orth (h : Vec3.dot u w = 0) : Vec3.norm (Vec3.cross u w) = Vec3.norm u * Vec3.norm w := by
  unfold Vec3.norm
  rw [← Real.sqrt_mul (Vec3.normSq_nonneg u)]
  congr 1
  have : Vec3.normSq (Vec3.cross u w) = Vec3.normSq u * Vec3.normSq w - Vec3.dot u w ^ 2 := by
    simp only [Vec3.normSq_def, Vec3.dot, Vec3.cross_x, Vec3.cross_y, Vec3.cross_z]; ring
  rw [this, h]; ring

/-- The normal of the rectangle. -/
noncomputable def rectNormal (u w : Vec3 ℝ) : Vec3 ℝ := (1 / Vec3.norm (Vec3.cross u w)) • Vec3.cross u w

theorem GoodRect.cross_pos (h : GoodRect a u w) : 1 / 10 ^ 7 ≤ Vec3.norm (Vec3.cross u w) := by
  rw [norm_cross_orth h.orth]; exact h.small

theorem GoodRect.normSq_normal (h : GoodRect a u w) : Vec3.normSq (rectNormal u w) = 1 :=
  normSq_unit (lt_of_lt_of_le (by norm_num) h.cross_pos)

theorem GoodRect.norm_normal (h : GoodRect a u w) : Vec3.norm (rectNormal u w) = 1 := by
  unfold Vec3.norm; rw [h.normSq_normal, Real.sqrt_one]

theorem GoodRect.convex (h : GoodRect a u w) {p q r : Vec3 ℝ} (e : Vec3.cross (q - p) (r - q) = Vec3.cross u w) :
    isCornerConvex (rectNormal u w) p q r = .ok true := by
  unfold isCornerConvex
  rw [h.norm_normal, if_neg (by norm_num [GEOM_ATOL])]
  simp only [e]
  rw [if_neg (not_lt.2 (le_trans (by norm_num [GEOM_ATOL]) h.cross_pos))]
  congr 1
  rw [decide_eq_true_eq]
  exact allClose_self (by norm_num [GEOM_RTOL]) (by norm_num [NP_ATOL])

theorem normSq_add_orth (h : Vec3.dot u w = 0) : Vec3.normSq (u + w) = Vec3.normSq u + Vec3.normSq w := by
  have : Vec3.normSq (u + w) = Vec3.normSq u + Vec3.normSq w + 2 * Vec3.dot u w := by
    simp only [Vec3.normSq_def, Vec3.dot, Vec3.add_x, Vec3.add_y, Vec3.add_z]; ring
  rw [this, h]; ring

theorem normSq_sub_orth (h : Vec3.dot u w = 0) : Vec3.normSq (w - u) = Vec3.normSq u + Vec3.normSq w := by
  have : Vec3.normSq (w - u) = Vec3.normSq u + Vec3.normSq w - 2 * Vec3.dot u w := by
    simp only [Vec3.normSq_def, Vec3.dot, Vec3.sub_x, Vec3.sub_y, Vec3.sub_z]; ring
  rw [this, h]; ring

theorem GoodRect.inside (h : GoodRect a u w) : isPointInside (a + u + w) (a + w) a (a + u) = .ok false := by
  have heps : (EPSILON : ℝ) < 1 / 10 ^ 10 := by norm_num [EPSILON]
  have hU := Vec3.normSq_nonneg u
  have hW := Vec3.normSq_nonneg w
  have hue : EPSILON < Vec3.norm u := lt_of_lt_of_le heps h.u_size
  have hwe : EPSILON < Vec3.norm w := lt_of_lt_of_le heps h.w_size
  have hadd : EPSILON < Vec3.norm (u + w) :=
    lt_of_lt_of_le hue (Vec3.norm_le_norm (by rw [normSq_add_orth h.orth]; linarith))
  have hsub : EPSILON < Vec3.norm (w - u) :=
    lt_of_lt_of_le hue (Vec3.norm_le_norm (by rw [normSq_sub_orth h.orth]; linarith))
  have c1 : arePointsCollinear [a + w, a, a + u + w] = .ok false := by
    have e1 : a - (a + w) = -w := by abel
    have e2 : a + u + w - (a + w) = u := by abel
    apply notCollinear
    · rw [e1, Vec3.norm_neg]; exact hwe
    · rw [e2]; exact hue
    · rw [e1, e2, Vec3.dot_neg_left, Vec3.dot_comm, h.orth]
      have := Vec3.normSq_nonneg (-w)
      norm_num
      positivity
  have c2 : arePointsCollinear [a, a + u, a + u + w] = .ok false := by
    have e1 : a + u - a = u := by abel
    have e2 : a + u + w - a = u + w := by abel
    apply notCollinear
    · rw [e1]; exact hue
    · rw [e2]; exact hadd
    · rw [e1, e2, Vec3.dot_add_right, h.orth, add_zero, normSq_add_orth h.orth]
      show Vec3.normSq u ^ 2 ≤ _
      have := h.uw
      have hm := mul_le_mul_of_nonneg_left this hU
      norm_num at hm ⊢
      nlinarith
  have c3 : arePointsCollinear [a + u, a + w, a + u + w] = .ok false := by
    have e1 : a + w - (a + u) = w - u := by abel
    have e2 : a + u + w - (a + u) = w := by abel
    apply notCollinear
    · rw [e1]; exact hsub
    · rw [e2]; exact hwe
    · rw [e1, e2, Vec3.dot_sub_left, h.orth, sub_zero, normSq_sub_orth h.orth]
      show Vec3.normSq w ^ 2 ≤ _
      have := h.wu
      have hm := mul_le_mul_of_nonneg_left this hW
      norm_num at hm ⊢
      nlinarith
  have hn := h.cross_pos
  have hat : (GEOM_ATOL : ℝ) ≤ 1 / 10 ^ 7 := by norm_num [GEOM_ATOL]
  have side_ok : ∀ p q t r : Vec3 ℝ, Vec3.cross (q - p) (r - p) = Vec3.cross u w →
      ∃ s, isPointOnSameSide p q t r = .ok s := by
    intro p q t r e
    unfold isPointOnSameSide
    simp only [e]
    rw [if_neg (not_lt.2 (hat.trans hn))]
    split <;> exact ⟨_, rfl⟩
  obtain ⟨s1, hs1⟩ := side_ok (a + w) a (a + u + w) (a + u)
    (by ext <;> simp <;> ring)
  obtain ⟨s2, hs2⟩ := side_ok a (a + u) (a + u + w) (a + w)
    (by ext <;> simp)
  have hs3 : isPointOnSameSide (a + u) (a + w) (a + u + w) a = .ok false := by
    have e1 : Vec3.cross (a + w - (a + u)) (a - (a + u)) = Vec3.cross u w := by
      ext <;> simp <;> ring
    have e2 : Vec3.cross (a + w - (a + u)) (a + u + w - (a + u)) = -Vec3.cross u w := by
      ext <;> simp <;> ring
    unfold isPointOnSameSide
    simp only [e1, e2, Vec3.norm_neg]
    rw [if_neg (not_lt.2 (hat.trans hn)), if_neg (not_lt.2 (hat.trans hn))]
    congr 1
    rw [decide_eq_false_iff_not, smul_neg]
    exact not_allClose_neg h.normSq_normal
  obtain ⟨lo, hi, r, -, hr, -⟩ := Bboxes.C25_inside_bbox [a + w, a, a + u] (by simp) (a + u + w) (1 / 100 : ℝ)
  unfold isPointInside
  rw [hr]
  cases r
  · rfl
  · simp only [edgeTest, c1, c2, c3, h.cd, h.ca, h.cb, hs1, hs2, hs3]
    cases s1 <;> cases s2 <;> rfl

theorem GoodRect.triangles (h : GoodRect a u w) : triangulate 10 [a, a + u, a + u + w, a + w] (rectNormal u w) =
    some (.ok ([a, a + u, a + u + w, a + w], [(3, 0, 1), (3, 1, 2)])) := by
  apply triangulate_quad
  · rw [h.norm_normal]
    norm_num [isClose, NP_ATOL]
  · exact h.convex (by ext <;> simp <;> ring)
  · exact h.inside
  · exact h.convex (by ext <;> simp <;> ring)

theorem GoodRect.new_aux (h : GoodRect a u w) : ∃ P, polygonNew [a, a + u, a + u + w, a + w] none none = .ok P ∧
    P.pts = [a, a + u, a + u + w, a + w] ∧ P.vn = some (rectNormal u w) := by
  have hn := h.cross_pos
  have hne : Vec3.cross u w ≠ 0 := by
    intro e
    have : Vec3.norm (Vec3.cross u w) = 0 := Vec3.norm_eq_zero.2 e
    rw [this] at hn
    norm_num at hn
  apply polygonNew_quad
  · apply C36_coplanar_complete _ (Vec3.cross u w) (Vec3.dot (Vec3.cross u w) a) _ hne GEOM_ATOL_pos
    have hu : Vec3.dot (Vec3.cross u w) u = 0 := by rw [Vec3.dot_comm]; exact Vec3.dot_cross_self _ _
    have hw : Vec3.dot (Vec3.cross u w) w = 0 := by rw [Vec3.dot_comm]; exact Vec3.dot_cross_self' _ _
    intro p hp
    simp only [List.mem_cons, List.not_mem_nil, or_false] at hp
    rcases hp with rfl | rfl | rfl | rfl
    · rfl
    · rw [Vec3.dot_add_right, hu, add_zero]
    · rw [Vec3.dot_add_right, Vec3.dot_add_right, hu, hw, add_zero, add_zero]
    · rw [Vec3.dot_add_right, hw, add_zero]
  · have e : Vec3.cross (a - (a + w)) (a + u - (a + w)) = Vec3.cross u w := by
      ext <;> simp <;> ring
    simp only [chooseNormal, List.getLast?_cons_cons, List.getLast?_singleton, List.getElem?_cons_zero,
      List.getElem?_cons_succ, normal, e]
    rw [if_neg]
    · rfl
    · simp only [isClose, sub_zero, abs_zero, mul_zero, add_zero, NP_ATOL]
      rw [abs_of_nonneg (Vec3.norm_nonneg _)]
      norm_num at hn ⊢
      linarith
  · exact h.triangles

/-- A good rectangle is accepted, with its points in the given order. -/
theorem GoodRect.new (h : GoodRect a u w) : ∃ P, polygonNew [a, a + u, a + u + w, a + w] none none = .ok P ∧
    P.pts = [a, a + u, a + u + w, a + w] ∧ P.vn = some (rectNormal u w) ∧
    P.area = some (Vec3.norm u * Vec3.norm w) ∧ P.tri = [(3, 0, 1), (3, 1, 2)] := by
  obtain ⟨P, h1, h2, h3⟩ := h.new_aux
  obtain ⟨-, v, hv, -, ht, ha, -⟩ := polygonNew_ok h1
  rw [h3, Option.some.injEq] at hv
  subst hv
  have hl : P.tri = [(3, 0, 1), (3, 1, 2)] := by
    have ht' : triangulate 10 [a, a + u, a + u + w, a + w] (rectNormal u w) = some (.ok (P.pts, P.tri)) := ht
    rw [h.triangles] at ht'
    simp only [Option.some.injEq, Except.ok.injEq, Prod.mk.injEq] at ht'
    exact ht'.2.symm
  refine ⟨P, h1, h2, h3, ?_, hl⟩
  rw [ha, C23_polygon_area_spec, specArea, h2]
  have e : cycSum Vec3.cross [a, a + u, a + u + w, a + w] = (2 : ℝ) • Vec3.cross u w := by
    ext <;> simp [cycSum, pathSum] <;> ring
  have hn : Vec3.norm (Vec3.cross u w) ≠ 0 := by
    have := h.cross_pos
    intro e
    rw [e] at this
    norm_num at this
  rw [e, rectNormal, Vec3.dot_smul_left, Vec3.dot_smul_right]
  have e2 : Vec3.dot (Vec3.cross u w) (Vec3.cross u w) = Vec3.norm (Vec3.cross u w) ^ 2 := (Vec3.norm_sq _).symm
  rw [e2, ← norm_cross_orth h.orth]
  congr 1
  rw [show 2 * (1 / Vec3.norm (Vec3.cross u w) * Vec3.norm (Vec3.cross u w) ^ 2) =
    2 * Vec3.norm (Vec3.cross u w) by field_simp, abs_of_nonneg (by have := Vec3.norm_nonneg (Vec3.cross u w); positivity)]
  ring

end B3d.Polygon
