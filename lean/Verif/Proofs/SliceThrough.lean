import Verif.Props.SliceNamed

/-!
# Lines which extend beyond a convex polygon: where they cross it (helper lemmas for C115)
-/

namespace B3d.SliceConvex

open Spec Planar Points Slice Polygon Triangles ConvexEars PointExact

variable {o u w : Vec3 ℝ} {m : ℝ} {pts S : List (ℝ × ℝ)} {p q x y a b : ℝ × ℝ}

/-! ### Directions -/

theorem unit_normSq {d : Vec3 ℝ} (h : d ≠ 0) : Vec3.normSq (unit d) = 1 := by
  have hn : Vec3.norm d ≠ 0 := fun h' => h (Vec3.norm_eq_zero.1 h')
  have := Vec3.norm_sq d
  simp only [unit, Vec3.normSq_def, Vec3.smul_x, Vec3.smul_y, Vec3.smul_z] at this ⊢
  field_simp
  nlinarith

/-- Directions which span enough area are not taken for parallel. -/
theorem not_nearly {d1 d2 : Vec3 ℝ} (h1 : d1 ≠ 0) (h2 : d2 ≠ 0)
    (h : 1 / 10 ^ 8 * (Vec3.normSq d1 * Vec3.normSq d2) ≤ Vec3.normSq (Vec3.cross d1 d2)) : ¬ NearlyParallel d1 d2 := by
  have p1 := Vec3.normSq_pos h1
  have p2 := Vec3.normSq_pos h2
  have key : 1 / 10 ^ 8 ≤ Vec3.normSq (Vec3.cross (unit d1) (unit d2)) := by
    have n1 : Vec3.norm d1 ≠ 0 := fun h' => h1 (Vec3.norm_eq_zero.1 h')
    have n2 : Vec3.norm d2 ≠ 0 := fun h' => h2 (Vec3.norm_eq_zero.1 h')
    have e : Vec3.normSq (Vec3.cross (unit d1) (unit d2)) =
        Vec3.normSq (Vec3.cross d1 d2) / (Vec3.normSq d1 * Vec3.normSq d2) := by
      rw [← Vec3.norm_sq d1, ← Vec3.norm_sq d2]
      simp only [unit, Vec3.normSq_def, Vec3.cross, Vec3.smul_x, Vec3.smul_y, Vec3.smul_z]
      field_simp
    rw [e, le_div_iff₀ (by positivity)]
    exact h
  have u2 := unit_normSq h2
  unfold NearlyParallel
  generalize unit d1 = e at key ⊢
  generalize unit d2 = f at key u2 ⊢
  have bound : ∀ g : Vec3 ℝ, Vec3.normSq g = 1 → |g.x| ≤ 1 ∧ |g.y| ≤ 1 ∧ |g.z| ≤ 1 := by
    intro g hg
    rw [Vec3.normSq_def] at hg
    exact ⟨abs_le_of_sq_le_sq (by nlinarith) (by norm_num), abs_le_of_sq_le_sq (by nlinarith) (by norm_num),
      abs_le_of_sq_le_sq (by nlinarith) (by norm_num)⟩
  have sm : ∀ t : ℝ, |t| ≤ 2 / 10 ^ 5 → t ^ 2 ≤ (2 / 10 ^ 5) ^ 2 := fun t ht => by
    rw [← sq_abs]; gcongr
  have main : ∀ g : Vec3 ℝ, Vec3.normSq g = 1 → Vec3.normSq (Vec3.cross e g) = Vec3.normSq (Vec3.cross e f) →
      ¬ allClose e g NP_RTOL NP_ATOL := by
    intro g hg hcr hcl
    obtain ⟨b1, b2, b3⟩ := bound g hg
    obtain ⟨c1, c2, c3⟩ := hcl
    simp only [isClose, NP_RTOL, NP_ATOL] at c1 c2 c3
    have s1 := sm (e.x - g.x) (by norm_num at c1 ⊢; linarith)
    have s2 := sm (e.y - g.y) (by norm_num at c2 ⊢; linarith)
    have s3 := sm (e.z - g.z) (by norm_num at c3 ⊢; linarith)
    have L : Vec3.normSq (Vec3.cross e g) ≤ Vec3.normSq (e - g) * Vec3.normSq g := by
      have e1 : Vec3.cross e g = Vec3.cross (e - g) g := by ext <;> simp [Vec3.cross] <;> ring
      rw [e1, ← lagrange]
      have : Vec3.dot (e - g) (e - g) = Vec3.normSq (e - g) := rfl
      have h2 : Vec3.dot g g = Vec3.normSq g := rfl
      rw [this, h2]
      nlinarith [sq_nonneg (Vec3.dot (e - g) g)]
    rw [hg, mul_one, hcr, Vec3.normSq_def (e - g)] at L
    simp only [Vec3.sub_x, Vec3.sub_y, Vec3.sub_z] at L
    norm_num at key s1 s2 s3
    nlinarith
  rintro (hc | hc)
  · exact main f u2 rfl hc
  · refine main ((-1 : ℝ) • f) ?_ ?_ hc
    · refine Eq.trans ?_ u2
      simp only [Vec3.normSq_def, Vec3.smul_x, Vec3.smul_y, Vec3.smul_z]; ring
    · simp only [Vec3.normSq_def, Vec3.cross, Vec3.smul_x, Vec3.smul_y, Vec3.smul_z]; ring

theorem not_short (hx : Axes u w) (hc : Crisp m S) (ma : a ∈ S) (mb : b ∈ S) (hne : b ≠ a) :
    ¬ TooShort (inPlane o u w b - inPlane o u w a) := by
  intro h
  have hm := hc.pos
  have hs := hc.scale
  obtain ⟨h1, h2, h3⟩ := h
  simp only [isClose, NP_RTOL, NP_ATOL, Vec3.zero_x, Vec3.zero_y, Vec3.zero_z, abs_zero, mul_zero, sub_zero,
    Vec3.sub_x, Vec3.sub_y, Vec3.sub_z] at h1 h2 h3
  norm_num at hs h1 h2 h3
  rcases coord_of_far (o := o) hx hm (hc.far b mb a ma hne) with hd | hd | hd <;> linarith

theorem lerp_lerp (p q : ℝ × ℝ) (k l s : ℝ) : lerp (lerp p q k) (lerp p q l) s = lerp p q (k + s * (l - k)) := by
  unfold lerp; ext <;> simp <;> ring

/-! ### One side -/

theorem cross_corner (hxl : ∃ k, x = lerp p q k) (he : x = a ∨ x = b) :
    crossOf (inPlane o u w a, inPlane o u w b) (inPlane o u w p, inPlane o u w q) = none := by
  obtain ⟨k, hk⟩ := hxl
  rcases hc : crossOf (inPlane o u w a, inPlane o u w b) (inPlane o u w p, inPlane o u w q) with _ | z
  · rfl
  · exfalso
    obtain ⟨h1, h2, h3, -⟩ := crossOf_eq_some.1 hc
    rcases he with rfl | rfl
    · have := segment_exact (t := 0) (s := k) (by rw [← inPlane_between, ← inPlane_between, between_zero, hk]) h1
      rw [← inPlane_between, between_zero] at this
      rw [this, pointsEqual_refl] at h2
      cases h2
    · have := segment_exact (t := 1) (s := k) (by rw [← inPlane_between, ← inPlane_between, between_one, hk]) h1
      rw [← inPlane_between, between_one] at this
      rw [this, pointsEqual_refl] at h3
      cases h3

theorem cross_hit (hx : Axes u w) (hc : Crisp m S) (hr : ∀ p ∈ S, Reach m (inPlane o u w p)) (ma : a ∈ S) (mb : b ∈ S)
    (mp : p ∈ S) (mq : q ∈ S) (mx : x ∈ S) {t k : ℝ} (t0 : 0 < t) (t1 : t < 1) (ht : x = lerp a b t) (k0 : 0 < k) (k1 : k < 1)
    (hk : x = lerp p q k) (hp : signedArea a b p ≠ 0) :
    crossOf (inPlane o u w a, inPlane o u w b) (inPlane o u w p, inPlane o u w q) = some (inPlane o u w x) := by
  have hm := hc.pos
  have hab : b ≠ a := by rintro rfl; exact hp (area_same _ _).2.2
  have x0 : signedArea a b x = 0 := lerp_zero ht
  have hxp : p ≠ x := by rintro rfl; exact hp x0
  have hpq : q ≠ p := by rintro rfl; rw [between_self] at hk; exact hxp hk.symm
  have hA : signedArea a b q - signedArea a b p = -signedArea a b p / k := by
    rw [hk, area_between] at x0
    field_simp
    linarith
  have hxa : a ≠ x := by
    rintro rfl
    have := distSq_between a b t 0
    rw [← ht, between_zero] at this
    have z : distSq a a = 0 := by unfold distSq; ring
    rw [z, sub_zero] at this
    have := distSq_pos hab
    have : 0 < t ^ 2 * distSq b a := by positivity
    linarith
  have hxb : b ≠ x := by
    rintro rfl
    have := distSq_between a b t 1
    rw [← ht, between_one] at this
    have z : distSq b b = 0 := by unfold distSq; ring
    rw [z] at this
    have := distSq_pos hab
    have : 0 < (t - 1) ^ 2 := by nlinarith
    have : 0 < (t - 1) ^ 2 * distSq b a := by positivity
    linarith
  have hxq : q ≠ x := by
    rintro rfl
    have := distSq_between p q k 1
    rw [← hk, between_one] at this
    have z : distSq q q = 0 := by unfold distSq; ring
    rw [z] at this
    have := distSq_pos hpq
    have : 0 < (k - 1) ^ 2 := by nlinarith
    have : 0 < (k - 1) ^ 2 * distSq q p := by positivity
    linarith
  have inj : ∀ {p q : ℝ × ℝ}, p ∈ S → q ∈ S → p ≠ q → inPlane o u w p - inPlane o u w q ≠ 0 := by
    intro p q mp mq hne e
    have := not_equal hx hc hr mp mq hne
    rw [sub_eq_zero.1 e, pointsEqual_refl] at this
    cases this
  rw [crossOf_eq_some]
  refine ⟨?_, not_equal hx hc hr ma mx hxa, not_equal hx hc hr mb mx hxb, not_equal hx hc hr mp mx hxp,
    not_equal hx hc hr mq mx hxq⟩
  have := C37_complete_partial (pa1 := inPlane o u w a) (pb1 := inPlane o u w b) (pa2 := inPlane o u w p)
    (pb2 := inPlane o u w q) (t := t) (s := k) (not_short hx hc ma mb hab) (not_short hx hc mp mq hpq) ?_ ⟨t0.le, t1.le⟩
    ⟨k0.le, k1.le⟩ (by rw [← inPlane_between, ← inPlane_between, ← ht, ← hk])
  · rw [this, ← inPlane_between, ← ht]
  · refine not_nearly (inj mb ma hab) (inj mq mp hpq) ?_
    have ec : Vec3.cross (inPlane o u w b - inPlane o u w a) (inPlane o u w q - inPlane o u w p) =
        (signedArea a b q - signedArea a b p) • Vec3.cross u w := by
      rw [inPlane_sub, inPlane_sub]
      ext <;> simp [signedArea] <;> ring
    have en : Vec3.normSq (Vec3.cross u w) = 1 := by
      rw [← Vec3.norm_sq, norm_cross hx]; norm_num
    have e2 : Vec3.normSq ((signedArea a b q - signedArea a b p) • Vec3.cross u w) =
        (signedArea a b q - signedArea a b p) ^ 2 := by
      have : Vec3.normSq ((signedArea a b q - signedArea a b p) • Vec3.cross u w) =
        (signedArea a b q - signedArea a b p) ^ 2 * Vec3.normSq (Vec3.cross u w) := by
        simp only [Vec3.normSq_def, Vec3.smul_x, Vec3.smul_y, Vec3.smul_z]; ring
      rw [this, en, mul_one]
    rw [ec, e2, normSq_inPlane hx, normSq_inPlane hx, hA]
    have n1 := hc.near b mb a ma
    have n2 := hc.near q mq p mp
    have big := (hc.sides a ma b mb p mp).resolve_left hp
    have d1 : 0 ≤ distSq b a := by unfold distSq; positivity
    have d2 : 0 ≤ distSq q p := by unfold distSq; positivity
    have l1 : distSq b a * distSq q p ≤ (5000 * m ^ 2) * (5000 * m ^ 2) := by gcongr
    have l2 : (m ^ 2) ^ 2 ≤ signedArea a b p ^ 2 := by rw [← sq_abs (signedArea a b p)]; gcongr
    have l3 : signedArea a b p ^ 2 ≤ (-signedArea a b p / k) ^ 2 := by
      rw [div_pow, neg_sq, le_div_iff₀ (by positivity)]
      nlinarith [sq_nonneg (signedArea a b p), show k ^ 2 ≤ 1 by nlinarith]
    norm_num at l1 ⊢
    nlinarith

/-- A point beyond a line which has the side on its other side is not near the side. -/
theorem not_near_beyond (h : Crisp m S) {c d z : ℝ × ℝ} {r : ℝ} (ma : a ∈ S) (mb : b ∈ S) (hab : b ≠ a) (mc : c ∈ S) (md : d ∈ S)
    (a0 : 0 ≤ signedArea c d a) (b0 : 0 ≤ signedArea c d b) (neg : signedArea c d z ≤ -(1 / 5000 * m ^ 2)) (r0 : 0 ≤ r)
    (r1 : r ≤ 1) (n1 : distSq z (lerp a b r) * distSq b a ≤ 4 * GEOM_ATOL ^ 2) : False := by
  have hm := h.pos
  have hsc := h.scale
  have hm2 : 1 / 10 ^ 6 ≤ m ^ 2 := by norm_num at hsc ⊢; nlinarith
  have dab := h.far b mb a ma hab
  have k5 : 0 ≤ distSq z (lerp a b r) := by unfold distSq; positivity
  have k6 : distSq z (lerp a b r) * m ^ 2 ≤ 4 * GEOM_ATOL ^ 2 := le_trans (by gcongr) n1
  have k := area_diff c d (lerp a b r) z
  rw [area_between] at k
  have z0 : 0 ≤ (1 - r) * signedArea c d a + r * signedArea c d b := by
    have : 0 ≤ 1 - r := by linarith
    positivity
  have k2 : 1 / 5000 * m ^ 2 ≤ (1 - r) * signedArea c d a + r * signedArea c d b - signedArea c d z := by
    linarith
  have k3 : (1 / 5000 * m ^ 2) ^ 2 ≤ ((1 - r) * signedArea c d a + r * signedArea c d b - signedArea c d z) ^ 2 := by gcongr
  have k4 := h.near d md c mc
  have e : distSq (lerp a b r) z = distSq z (lerp a b r) := by unfold distSq; ring
  rw [e] at k
  have k7 : distSq d c * distSq z (lerp a b r) ≤ 5000 * (4 * GEOM_ATOL ^ 2) := by
    calc _ ≤ 5000 * m ^ 2 * distSq z (lerp a b r) := by gcongr
      _ = 5000 * (distSq z (lerp a b r) * m ^ 2) := by ring
      _ ≤ _ := by gcongr
  have k8 : (1 / 5000 * m ^ 2) ^ 2 ≤ 5000 * (4 * GEOM_ATOL ^ 2) := k3.trans (k.trans k7)
  have k9 : (1 / 5000 * (1 / 10 ^ 6) : ℝ) ^ 2 ≤ (1 / 5000 * m ^ 2) ^ 2 := by gcongr
  norm_num [GEOM_ATOL] at k8 k9
  linarith

/-- A point of a line does not count as equal to a corner off the line, if the coordinates are up to `100 m`. -/
theorem not_near_corner (hx : Axes u w) (h : Crisp m S) (hr : ∀ p ∈ S, Reach (m / 100) (inPlane o u w p)) {e z : ℝ × ℝ}
    (mp : p ∈ S) (mq : q ∈ S) (me : e ∈ S) (hon : signedArea p q e ≠ 0) (hz : signedArea p q z = 0)
    (heq : pointsEqual (inPlane o u w z) (inPlane o u w e) = true) : False := by
  have hm := h.pos
  have hsc := h.scale
  have big := (h.sides p mp q mq e me).resolve_left hon
  have k1 := area_diff p q z e
  rw [hz, zero_sub, neg_sq] at k1
  have k2 := h.near q mq p mp
  have hd : distSq z e ≤ 4 / 10 ^ 6 * m ^ 2 := by
    obtain ⟨q1, q2, q3⟩ := pointsEqual_coord heq (hr e me)
    rw [← normSq_inPlane (o := o) hx, Vec3.normSq_def]
    simp only [Vec3.sub_x, Vec3.sub_y, Vec3.sub_z]
    have sm : ∀ r : ℝ, |r| ≤ 1 / 10 ^ 13 + 1 / 10 * (m / 100) → r ^ 2 ≤ (11 / 10 ^ 4 * m) ^ 2 := by
      intro r hr
      rw [← sq_abs]
      have : |r| ≤ 11 / 10 ^ 4 * m := by norm_num at hr hsc ⊢; linarith
      gcongr
    have s1 := sm _ q1
    have s2 := sm _ q2
    have s3 := sm _ q3
    norm_num at s1 s2 s3 ⊢
    nlinarith
  have k3 : 0 ≤ distSq z e := by unfold distSq; positivity
  have k4 : (m ^ 2) ^ 2 ≤ signedArea p q e ^ 2 := by rw [← sq_abs (signedArea p q e)]; gcongr
  have k5 : distSq q p * distSq z e ≤ (5000 * m ^ 2) * (4 / 10 ^ 6 * m ^ 2) := by gcongr
  have : 0 < (m ^ 2) ^ 2 := by positivity
  norm_num at k5
  nlinarith

/-- A side which is met by neither end of the chord is not crossed. -/
theorem cross_miss (hx : Axes u w) (h : Crisp m S) (hr : ∀ p ∈ S, Reach (m / 100) (inPlane o u w p))
    {c d c' d' : ℝ × ℝ} (ma : a ∈ S) (mb : b ∈ S) (mp : p ∈ S) (mq : q ∈ S) (mx : x ∈ S) (my : y ∈ S) (mc : c ∈ S) (md : d ∈ S)
    (mc' : c' ∈ S) (md' : d' ∈ S) (hxa : 0 < signedArea a b x) (hya : 0 < signedArea a b y)
    (x0 : signedArea c d x = 0) (y0 : 0 < signedArea c d y) (a0 : 0 ≤ signedArea c d a) (b0 : 0 ≤ signedArea c d b)
    (y0' : signedArea c' d' y = 0) (x0' : 0 < signedArea c' d' x) (a0' : 0 ≤ signedArea c' d' a)
    (b0' : 0 ≤ signedArea c' d' b) {k l : ℝ} (kl : k < l) (hk : x = lerp p q k) (hl : y = lerp p q l) :
    crossOf (inPlane o u w a, inPlane o u w b) (inPlane o u w p, inPlane o u w q) = none := by
  rcases hc : crossOf (inPlane o u w a, inPlane o u w b) (inPlane o u w p, inPlane o u w q) with _ | z
  · rfl
  exfalso
  have hm := h.pos
  have hsc := h.scale
  have hxy : x ≠ y := by rintro rfl; linarith
  have hpq : q ≠ p := by rintro rfl; rw [between_self] at hk hl; exact hxy (hk.trans hl.symm)
  obtain ⟨h1, -⟩ := crossOf_eq_some.1 hc
  simp only at h1
  obtain ⟨-, -, n1, -, hpar⟩ := C37_sound_partial h1
  have hab : b ≠ a := by rintro rfl; rw [(area_same _ _).2.2] at hxa; exact lt_irrefl _ hxa
  have hA : signedArea a b x ≠ signedArea a b y := by
    intro he
    apply hpar
    have e1 : signedArea a b x - signedArea a b y = (l - k) * (signedArea a b p - signedArea a b q) := by
      rw [hk, hl, area_between, area_between]; ring
    rw [he, sub_self] at e1
    have e2 : signedArea a b q - signedArea a b p = 0 := by
      rcases mul_eq_zero.1 e1.symm with e | e
      · linarith
      · linarith
    have : Vec3.cross (inPlane o u w b - inPlane o u w a) (inPlane o u w q - inPlane o u w p) =
        (signedArea a b q - signedArea a b p) • Vec3.cross u w := by
      rw [inPlane_sub, inPlane_sub]
      ext <;> simp [signedArea] <;> ring
    rw [this, e2, zero_smul]
  have hA' : signedArea a b x - signedArea a b y ≠ 0 := sub_ne_zero.2 hA
  obtain ⟨s, hs⟩ : ∃ s, s = signedArea a b x / (signedArea a b x - signedArea a b y) := ⟨_, rfl⟩
  have hq : signedArea a b (lerp x y s) = 0 := by
    rw [area_between, hs]
    field_simp
    ring
  obtain ⟨t, ht⟩ := on_side_line hab hq
  have hlp : lerp x y s = lerp p q (k + s * (l - k)) := by rw [hk, hl, lerp_lerp]
  have hz := segment_exact (t := t) (s := k + s * (l - k))
    (by rw [← inPlane_between, ← inPlane_between, ← hlp, ← ht]) h1
  rw [← inPlane_between, ← ht] at hz
  rw [hz] at n1
  have b1 := area_big h ma mb mx hxa
  have b2 := area_big h ma mb my hya
  have l1 := area_le h ma mb mx
  have l2 := area_le h ma mb my
  have hm2 : 1 / 10 ^ 6 ≤ m ^ 2 := by norm_num at hsc ⊢; nlinarith
  -- the corners of the side are not on the line
  have off : ∀ e, e ∈ S → signedArea a b e = 0 → 0 ≤ signedArea c d e → 0 ≤ signedArea c' d' e →
      pointsEqual (inPlane o u w (lerp x y s)) (inPlane o u w e) = true → False := by
    intro e me ea e1 e2 heq
    have hon : signedArea p q e ≠ 0 := by
      intro h0
      obtain ⟨r, hre⟩ := on_side_line hpq h0
      obtain ⟨v, hv⟩ : ∃ v, e = lerp x y v := by
        refine ⟨(r - k) / (l - k), ?_⟩
        rw [hk, hl, lerp_lerp, hre]
        congr 1
        have : l - k ≠ 0 := by linarith
        field_simp
        ring
      rw [hv, area_between, x0] at e1
      rw [hv, area_between, y0'] at e2
      rw [hv, area_between] at ea
      have v0 : 0 ≤ v := by
        by_contra hneg
        push Not at hneg
        nlinarith
      have v1 : v ≤ 1 := by
        by_contra hneg
        push Not at hneg
        nlinarith
      nlinarith
    exact not_near_corner hx h hr mp mq me hon (by rw [hlp]; exact area_between_self ..) heq
  rcases n1 with n1 | n1 | ⟨r, r0, r1, n1⟩
  · exact off a ma (area_same _ _).1 a0 a0' n1
  · exact off b mb (area_same _ _).2.1 b0 b0' n1
  · rw [← inPlane_between, normSq_inPlane hx, normSq_inPlane hx] at n1
    rcases lt_or_gt_of_ne hA with hlt | hgt
    · refine not_near_beyond h ma mb hab mc md a0 b0 ?_ r0 r1 n1
      rw [area_between, x0]
      have k1 := area_big h mc md my y0
      have : s ≤ -(1 / 5000) := by
        rw [hs, div_le_iff_of_neg (by linarith)]
        nlinarith
      nlinarith
    · refine not_near_beyond h ma mb hab mc' md' a0' b0' ?_ r0 r1 n1
      rw [area_between, y0']
      have k1 := area_big h mc' md' mx x0'
      have : 1 - s ≤ -(1 / 5000) := by
        have : 1 - s = -(signedArea a b y / (signedArea a b x - signedArea a b y)) := by
          rw [hs]; field_simp; ring
        rw [this, neg_le_neg_iff, le_div_iff₀ (by linarith)]
        nlinarith
      nlinarith

/-! ### All sides -/

theorem filterMap_one {α β : Type} {f : α → Option β} {X : β} : ∀ {l : List α} {i : Nat}, i < l.length →
    (∀ (n : Nat) e, l[n]? = some e → f e = if n = i then some X else none) → l.filterMap f = [X]
  | e :: l, 0, _, h => by
    have h0 := h 0 e rfl
    rw [if_pos rfl] at h0
    rw [List.filterMap_cons, h0]
    simp only [List.cons.injEq, true_and]
    rw [List.filterMap_eq_nil_iff]
    intro e' he'
    obtain ⟨n, hn⟩ := List.mem_iff_getElem?.1 he'
    have := h (n + 1) e' (by simpa using hn)
    simpa using this
  | e :: l, i + 1, hi, h => by
    have h0 := h 0 e rfl
    rw [if_neg (by omega)] at h0
    rw [List.filterMap_cons, h0]
    refine filterMap_one (i := i) (by simpa using hi) ?_
    intro n e' hn
    have := h (n + 1) e' (by simpa using hn)
    simpa using this

theorem filterMap_two {α β : Type} {f : α → Option β} {X Y : β} : ∀ {l : List α} {i j : Nat}, i < j → j < l.length →
    (∀ (n : Nat) e, l[n]? = some e → f e = if n = i then some X else if n = j then some Y else none) → l.filterMap f = [X, Y]
  | e :: l, 0, j + 1, _, hj, h => by
    have h0 := h 0 e rfl
    rw [if_pos rfl] at h0
    rw [List.filterMap_cons, h0]
    simp only [List.cons.injEq, true_and]
    refine filterMap_one (i := j) (by simpa using hj) ?_
    intro n e' hn
    have := h (n + 1) e' (by simpa using hn)
    simpa using this
  | e :: l, i + 1, j + 1, hi, hj, h => by
    have h0 := h 0 e rfl
    rw [if_neg (by omega), if_neg (by omega)] at h0
    rw [List.filterMap_cons, h0]
    refine filterMap_two (i := i) (j := j) (by omega) (by simpa using hj) ?_
    intro n e' hn
    have := h (n + 1) e' (by simpa using hn)
    simpa using this

theorem reach_mono {z : Vec3 ℝ} (hm : 0 < m) (h : Reach (m / 100) z) : Reach m z := by
  obtain ⟨h1, h2, h3⟩ := h
  norm_num at h1 h2 h3
  exact ⟨by norm_num; linarith, by norm_num; linarith, by norm_num; linarith⟩

theorem side_unique {n : Nat} {c d : ℝ × ℝ} (h1 : Side pts n a b) (h2 : Side pts n c d) : a = c ∧ b = d :=
  ⟨Option.some.inj (h1.1.symm.trans h2.1), Option.some.inj (h1.2.symm.trans h2.2)⟩

theorem found_edge {n : Nat} (h : Found pts x (.edge, n)) (hs : Side pts n a b) : ∃ t, 0 < t ∧ t < 1 ∧ x = lerp a b t := by
  cases h with
  | edge hs' h0 h1 he =>
    obtain ⟨rfl, rfl⟩ := side_unique hs hs'
    exact ⟨_, h0, h1, he⟩

theorem found_zero (hn : 3 ≤ pts.length) (hp : Pos pts) {n : Nat} {lx : Loc} (h : Found pts x lx) (hs : Side pts n a b)
    (h0 : signedArea a b x = 0) : lx = (.edge, n) ∨ (lx.1 = .vertex ∧ (x = a ∨ x = b)) := by
  cases h with
  | vertex hv =>
    rename_i v
    refine .inr ⟨rfl, ?_⟩
    have := (hp.side hs hv).2
    by_contra hne
    rw [not_or] at hne
    have n1 : v ≠ n := by
      rintro rfl
      exact hne.1 (Option.some.inj (hv.symm.trans hs.1))
    have n2 : v ≠ (n + 1) % pts.length := by
      rintro rfl
      exact hne.2 (Option.some.inj (hv.symm.trans hs.2))
    exact (this n1 n2).ne' h0
  | edge hs' t0 t1 he =>
    rename_i i c d t
    left
    by_contra hne
    have hni : n ≠ i := by
      rintro rfl
      exact hne rfl
    have := other_side hn hp hs' hs hni t0 t1
    rw [← he] at this
    exact this.ne' h0

section

variable (hx : Axes u w) (hc : Crisp m S) (hr : ∀ p ∈ S, Reach (m / 100) (inPlane o u w p)) (hS : ∀ p ∈ pts, p ∈ S)
  (mp : p ∈ S) (mq : q ∈ S) (mx : x ∈ S) (my : y ∈ S) (hn : 3 ≤ pts.length) (hp : Pos pts)

include hx hc hr hS mp mq mx my hn hp in
theorem cross_side {k l : ℝ} {lx ly : Loc} (h : Chord pts x y) (k0 : 0 ≤ k) (kl : k < l) (l1 : l ≤ 1) (hk : x = lerp p q k)
    (hl : y = lerp p q l) (fx : Found pts x lx) (fy : Found pts y ly) {n : Nat} (hs : Side pts n a b) :
    crossOf (inPlane o u w a, inPlane o u w b) (inPlane o u w p, inPlane o u w q) =
      if lx = (.edge, n) ∧ x ≠ p then some (inPlane o u w x) else
      if ly = (.edge, n) ∧ y ≠ q then some (inPlane o u w y) else none := by
  have hr' : ∀ p ∈ S, Reach m (inPlane o u w p) := fun p hp => reach_mono hc.pos (hr p hp)
  have ma := hS a (List.mem_of_getElem? hs.1)
  have mb := hS b (List.mem_of_getElem? hs.2)
  have hne := side_ne hn hp hs
  have zx : lx = (.edge, n) → signedArea a b x = 0 := by
    rintro rfl
    obtain ⟨t, -, -, ht⟩ := found_edge fx hs
    exact lerp_zero ht
  have zy : ly = (.edge, n) → signedArea a b y = 0 := by
    rintro rfl
    obtain ⟨t, -, -, ht⟩ := found_edge fy hs
    exact lerp_zero ht
  have ax : signedArea a b x = (1 - k) * signedArea a b p + k * signedArea a b q := by rw [hk, area_between]
  have ay : signedArea a b y = (1 - l) * signedArea a b p + l * signedArea a b q := by rw [hl, area_between]
  by_cases hx0 : signedArea a b x = 0
  · have hy0 : signedArea a b y ≠ 0 := (h.across _ _ _ hs).resolve_left fun k => k hx0
    rw [if_neg (c := ly = (.edge, n) ∧ y ≠ q) (fun e => hy0 (zy e.1))]
    rcases found_zero hn hp fx hs hx0 with e | ⟨e, hab⟩
    · subst e
      obtain ⟨t, t0, t1, ht⟩ := found_edge fx hs
      by_cases hxp : x = p
      · rw [if_neg (by tauto)]
        subst hxp
        exact (crossOf_touch ht).1
      · rw [if_pos ⟨rfl, hxp⟩]
        have kp : 0 < k := by
          rcases k0.lt_or_eq with h | h
          · exact h
          · exfalso; apply hxp; rw [hk, ← h, between_zero]
        refine cross_hit hx hc hr' ma mb mp mq mx t0 t1 ht kp (by linarith) hk ?_
        intro hz
        rw [hz, mul_zero, zero_add] at ax ay
        rw [hx0] at ax
        rcases mul_eq_zero.1 ax.symm with e | e
        · linarith
        · rw [e, mul_zero] at ay
          exact hy0 ay
    · rw [if_neg (by rintro ⟨e', -⟩; rw [e'] at e; cases e)]
      exact cross_corner ⟨k, hk⟩ hab
  rw [if_neg (c := lx = (.edge, n) ∧ x ≠ p) (fun e => hx0 (zx e.1))]
  by_cases hy0 : signedArea a b y = 0
  · rcases found_zero hn hp fy hs hy0 with e | ⟨e, hab⟩
    · subst e
      obtain ⟨t, t0, t1, ht⟩ := found_edge fy hs
      by_cases hyq : y = q
      · rw [if_neg (by tauto)]
        subst hyq
        exact (crossOf_touch ht).2
      · rw [if_pos ⟨rfl, hyq⟩]
        have lq : l < 1 := by
          rcases l1.lt_or_eq with h | h
          · exact h
          · exfalso; apply hyq; rw [hl, h, between_one]
        refine cross_hit hx hc hr' ma mb mp mq my t0 t1 ht (by linarith) lq hl ?_
        intro hz
        rw [hz, mul_zero, zero_add] at ax ay
        rw [hy0] at ay
        rcases mul_eq_zero.1 ay.symm with e | e
        · linarith
        · rw [e, mul_zero] at ax
          exact hx0 ax
    · rw [if_neg (by rintro ⟨e', -⟩; rw [e'] at e; cases e)]
      exact cross_corner ⟨l, hl⟩ hab
  rw [if_neg (fun e => hy0 (zy e.1))]
  have nx := lt_of_le_of_ne (outline_nonneg hp h.start hs) (Ne.symm hx0)
  have ny := lt_of_le_of_ne (outline_nonneg hp h.finish hs) (Ne.symm hy0)
  obtain ⟨j, c, d, hj, x0⟩ := side_through h.start
  obtain ⟨j', c', d', hj', y0'⟩ := side_through h.finish
  have y0 := lt_of_le_of_ne (outline_nonneg hp h.finish hj) (Ne.symm ((h.across j c d hj).resolve_left (fun k => k x0)))
  have x0' := lt_of_le_of_ne (outline_nonneg hp h.start hj') (Ne.symm ((h.across j' c' d' hj').resolve_right (fun k => k y0')))
  have mem : ∀ {n : Nat} {e : ℝ × ℝ}, pts[n]? = some e → e ∈ S := fun h => hS _ (List.mem_of_getElem? h)
  exact cross_miss hx hc hr ma mb mp mq mx my (mem hj.1) (mem hj.2) (mem hj'.1) (mem hj'.2) nx ny x0 y0
    (hp.side hj hs.1).1 (hp.side hj hs.2).1 y0' x0' (hp.side hj' hs.1).1 (hp.side hj' hs.2).1 kl hk hl

/-- The points where the line is found to cross the sides, in the order of the sides. -/
noncomputable def crossings (o u w : Vec3 ℝ) (pts : List (ℝ × ℝ)) (p q : ℝ × ℝ) : List (Vec3 ℝ) :=
  (cycEdges (pts.map (inPlane o u w))).filterMap fun e => crossOf e (inPlane o u w p, inPlane o u w q)

theorem added (hn : 3 ≤ pts.length) : ∃ r, addIntersectionPoints (pts.map (inPlane o u w)) [inPlane o u w p, inPlane o u w q] =
    .ok (r, inPlane o u w p :: crossings o u w pts p q ++ inPlane o u w q :: crossings o u w pts q p) := by
  have hne : pts.map (inPlane o u w) ≠ [] := by
    intro e
    rw [List.map_eq_nil_iff] at e
    rw [e] at hn
    simp at hn
  have e : cycEdges [inPlane o u w p, inPlane o u w q] =
      [(inPlane o u w p, inPlane o u w q), (inPlane o u w q, inPlane o u w p)] := rfl
  rw [C75_points hne (by simp), e]
  exact ⟨_, congrArg Except.ok (Prod.ext rfl (by simp [crossings]))⟩

include hn in
theorem side_of_edge {n : Nat} {e : Vec3 ℝ × Vec3 ℝ} (he : (cycEdges (pts.map (inPlane o u w)))[n]? = some e) :
    ∃ a b, Side pts n a b ∧ e = (inPlane o u w a, inPlane o u w b) := by
  have hil : n < pts.length := by
    have := (List.getElem?_eq_some_iff.1 he).1
    rwa [length_cycEdges, List.length_map] at this
  rw [Solids.cycEdges_map, List.getElem?_map, cycEdges_getElem? pts n hil] at he
  refine ⟨_, _, ⟨List.getElem?_eq_getElem hil, List.getElem?_eq_getElem (Nat.mod_lt _ (by omega))⟩, ?_⟩
  exact (Option.some.inj he).symm

include hx hc hr hS mp mq mx my hn hp in
/-- Where the line crosses the sides. -/
theorem crossings_eq {lx ly : Loc} (h : Through pts p q x y) (fx : Found pts x lx) (fy : Found pts y ly) :
    (∀ i j, lx = (.edge, i) → ly = (.edge, j) → x ≠ p → y ≠ q → i < j →
      crossings o u w pts p q = [inPlane o u w x, inPlane o u w y] ∧
      crossings o u w pts q p = [inPlane o u w x, inPlane o u w y]) ∧
    (∀ i, lx = (.edge, i) → x ≠ p → (y = q ∨ ly.1 = .vertex) →
      crossings o u w pts p q = [inPlane o u w x] ∧ crossings o u w pts q p = [inPlane o u w x]) ∧
    ((x = p ∨ lx.1 = .vertex) → (y = q ∨ ly.1 = .vertex) →
      crossings o u w pts p q = [] ∧ crossings o u w pts q p = []) := by
  obtain ⟨h, k, l, k0, kl, l1, hk, hl⟩ := h
  have len : (cycEdges (pts.map (inPlane o u w))).length = pts.length := by rw [length_cycEdges, List.length_map]
  have f1 : ∀ (n : Nat) e, (cycEdges (pts.map (inPlane o u w)))[n]? = some e →
      crossOf e (inPlane o u w p, inPlane o u w q) =
      if lx = (.edge, n) ∧ x ≠ p then some (inPlane o u w x) else
      if ly = (.edge, n) ∧ y ≠ q then some (inPlane o u w y) else none := by
    intro n e he
    obtain ⟨a, b, hs, rfl⟩ := side_of_edge hn he
    exact cross_side hx hc hr hS mp mq mx my hn hp h k0 kl l1 hk hl fx fy hs
  have f2 : ∀ (n : Nat) e, (cycEdges (pts.map (inPlane o u w)))[n]? = some e →
      crossOf e (inPlane o u w q, inPlane o u w p) =
      if ly = (.edge, n) ∧ y ≠ q then some (inPlane o u w y) else
      if lx = (.edge, n) ∧ x ≠ p then some (inPlane o u w x) else none := by
    intro n e he
    obtain ⟨a, b, hs, rfl⟩ := side_of_edge hn he
    refine cross_side hx hc hr hS mq mp my mx hn hp (chord_symm h) (k := 1 - l) (l := 1 - k) (by linarith) (by linarith)
      (by linarith) ?_ ?_ fy fx hs
    · rw [between_symm]; exact hl
    · rw [between_symm]; exact hk
  have lt : ∀ {z : ℝ × ℝ} {i : Nat}, Found pts z (.edge, i) → i < pts.length := by
    intro z i hf
    cases hf with
    | edge hs _ _ _ => exact side_lt hs
  refine ⟨?_, ?_, ?_⟩
  · rintro i j rfl rfl hxp hyq hij
    have hj := lt fy
    constructor
    · refine filterMap_two hij (by rw [len]; exact hj) ?_
      intro n e he
      rw [f1 n e he]
      simp only [Prod.mk.injEq, true_and, hxp, hyq, ne_eq, not_false_eq_true, and_true, eq_comm (a := i), eq_comm (a := j)]
    · refine filterMap_two hij (by rw [len]; exact hj) ?_
      intro n e he
      rw [f2 n e he]
      simp only [Prod.mk.injEq, true_and, hxp, hyq, ne_eq, not_false_eq_true, and_true, eq_comm (a := i), eq_comm (a := j)]
      by_cases h1 : n = i
      · rw [if_neg (by omega)]
        simp [h1]
      · simp [h1]
  · rintro i rfl hxp hy
    have hyn : ∀ n, ¬ (ly = (.edge, n) ∧ y ≠ q) := by
      rintro n ⟨rfl, hyq⟩
      rcases hy with hy | hy
      · exact hyq hy
      · cases hy
    have hi := lt fx
    constructor
    · refine filterMap_one (i := i) (by rw [len]; exact hi) ?_
      intro n e he
      rw [f1 n e he, if_neg (hyn n)]
      simp only [Prod.mk.injEq, true_and, hxp, ne_eq, not_false_eq_true, and_true, eq_comm (a := i)]
    · refine filterMap_one (i := i) (by rw [len]; exact hi) ?_
      intro n e he
      rw [f2 n e he, if_neg (hyn n)]
      simp only [Prod.mk.injEq, true_and, hxp, ne_eq, not_false_eq_true, and_true, eq_comm (a := i)]
  · intro hx' hy
    have hyn : ∀ n, ¬ (ly = (.edge, n) ∧ y ≠ q) := by
      rintro n ⟨rfl, hyq⟩
      rcases hy with hy | hy
      · exact hyq hy
      · cases hy
    have hxn : ∀ n, ¬ (lx = (.edge, n) ∧ x ≠ p) := by
      rintro n ⟨rfl, hxp⟩
      rcases hx' with hx' | hx'
      · exact hxp hx'
      · cases hx'
    constructor <;> refine List.filterMap_eq_nil_iff.2 fun e he => ?_ <;> obtain ⟨n, hn'⟩ := List.mem_iff_getElem?.1 he
    · rw [f1 n e hn', if_neg (hxn n), if_neg (hyn n)]
    · rw [f2 n e hn', if_neg (hyn n), if_neg (hxn n)]

end

end B3d.SliceConvex
