import Verif.Proofs.SliceConvex

/-!
# Slicing convex polygons: exact tests

For outlines without doubtful cases the tests for intersections and locations are exact.
-/

namespace B3d.SliceConvex

open Spec Planar Points Slice Polygon

variable {o u w : Vec3 ℝ} {m : ℝ} {S : List (ℝ × ℝ)}

theorem inPlane_between (a b : ℝ × ℝ) (k : ℝ) :
    inPlane o u w (lerp a b k) = inPlane o u w a + k • (inPlane o u w b - inPlane o u w a) := by
  unfold inPlane lerp
  ext <;> simp <;> ring

theorem between_self (x : ℝ × ℝ) (k : ℝ) : lerp x x k = x := by
  unfold lerp; ext <;> simp

theorem between_zero (x y : ℝ × ℝ) : lerp x y 0 = x := by
  unfold lerp; ext <;> simp

theorem between_one (x y : ℝ × ℝ) : lerp x y 1 = y := by
  unfold lerp; ext <;> simp

theorem between_symm (x y : ℝ × ℝ) (k : ℝ) : lerp y x (1 - k) = lerp x y k := by
  unfold lerp; ext <;> simp <;> ring

/-- What an intersection of segments whose lines meet can be. -/
theorem segment_exact {a b x y p : Vec3 ℝ} {t s : ℝ} (he : a + t • (b - a) = x + s • (y - x))
    (h : lineSegmentIntersection a b x y = some p) : p = a + t • (b - a) := by
  simp only [lineSegmentIntersection] at h
  cases hl : lineIntersection a (b - a) x (y - x) with
  | none => rw [hl] at h; cases h
  | some c =>
    rw [hl] at h
    simp only at h
    split at h
    · rw [Option.some.injEq] at h
      subst h
      have hl' := hl
      simp only [lineIntersection] at hl'
      split at hl'
      · cases hl'
      rename_i h1
      split at hl'
      · cases hl'
      rename_i h2
      split at hl'
      · cases hl'
      rename_i h3
      rw [not_or] at h1
      rw [C37_lines t s h1.1 h1.2 (by unfold NearlyParallel; tauto) he, Option.some.injEq] at hl
      exact hl.symm
    · cases h

theorem crossOf_touch {a b x y : ℝ × ℝ} {k : ℝ} (hx : x = lerp a b k) :
    crossOf (inPlane o u w a, inPlane o u w b) (inPlane o u w x, inPlane o u w y) = none ∧
    crossOf (inPlane o u w a, inPlane o u w b) (inPlane o u w y, inPlane o u w x) = none := by
  constructor
  · rcases hc : crossOf (inPlane o u w a, inPlane o u w b) (inPlane o u w x, inPlane o u w y) with _ | p
    · rfl
    · exfalso
      obtain ⟨h1, -, -, h2, -⟩ := crossOf_eq_some.1 hc
      have := segment_exact (t := k) (s := 0) (by rw [← inPlane_between, ← hx]; simp) h1
      rw [← inPlane_between, ← hx] at this
      rw [this, pointsEqual_refl] at h2
      cases h2
  · rcases hc : crossOf (inPlane o u w a, inPlane o u w b) (inPlane o u w y, inPlane o u w x) with _ | p
    · rfl
    · exfalso
      obtain ⟨h1, -, -, -, h2⟩ := crossOf_eq_some.1 hc
      have := segment_exact (t := k) (s := 1) (by rw [← inPlane_between, ← hx]; simp) h1
      rw [← inPlane_between, ← hx] at this
      rw [this, pointsEqual_refl] at h2
      cases h2

theorem nearSegment_symm {p a b : Vec3 ℝ} (h : NearSegment p a b) : NearSegment p b a := by
  rcases h with h | h | ⟨t, t0, t1, h⟩
  · exact .inr (.inl h)
  · exact .inl h
  · refine .inr (.inr ⟨1 - t, by linarith, by linarith, ?_⟩)
    have e : b + (1 - t) • (a - b) = a + t • (b - a) := by ext <;> simp <;> ring
    have e2 : Vec3.normSq (a - b) = Vec3.normSq (b - a) := by simp only [Vec3.normSq_def, Vec3.sub_x, Vec3.sub_y, Vec3.sub_z]; ring
    rw [e, e2]
    exact h

theorem distSq_between (x y : ℝ × ℝ) (s t : ℝ) : distSq (lerp x y s) (lerp x y t) = (s - t) ^ 2 * distSq y x := by
  unfold distSq lerp; ring

/-- Lagrange: the difference of two areas over the same base. -/
theorem area_diff (c d z q : ℝ × ℝ) :
    (signedArea c d z - signedArea c d q) ^ 2 ≤ distSq d c * distSq z q := by
  unfold signedArea distSq
  nlinarith [sq_nonneg ((d.1 - c.1) * (z.1 - q.1) + (d.2 - c.2) * (z.2 - q.2))]

theorem area_le (h : Crisp m S) {a b c : ℝ × ℝ} (ha : a ∈ S) (hb : b ∈ S) (hc : c ∈ S) :
    signedArea a b c ≤ 5000 * m ^ 2 := by
  have h1 := area_diff a b c a
  rw [(area_same a b).1, sub_zero] at h1
  have h2 := h.near b hb a ha
  have h3 := h.near c hc a ha
  have h4 : 0 ≤ distSq c a := by unfold distSq; positivity
  have h5 : (0 : ℝ) ≤ 5000 * m ^ 2 := by positivity
  have h6 : signedArea a b c ^ 2 ≤ (5000 * m ^ 2) ^ 2 := by
    calc _ ≤ distSq b a * distSq c a := h1
      _ ≤ (5000 * m ^ 2) * (5000 * m ^ 2) := by gcongr
      _ = _ := by ring
  exact (le_abs_self _).trans (abs_le_of_sq_le_sq h6 h5)

theorem area_big (h : Crisp m S) {a b c : ℝ × ℝ} (ha : a ∈ S) (hb : b ∈ S) (hc : c ∈ S) (hp : 0 < signedArea a b c) :
    m ^ 2 ≤ signedArea a b c := by
  rcases h.sides a ha b hb c hc with h | h
  · linarith
  · rwa [abs_of_pos hp] at h

theorem pointsEqual_coord {p q : Vec3 ℝ} (h : pointsEqual p q = true) (hr : Reach m q) :
    |p.x - q.x| ≤ 1 / 10 ^ 13 + 1 / 10 * m ∧ |p.y - q.y| ≤ 1 / 10 ^ 13 + 1 / 10 * m ∧
      |p.z - q.z| ≤ 1 / 10 ^ 13 + 1 / 10 * m := by
  rw [pointsEqual, decide_eq_true_eq] at h
  obtain ⟨h1, h2, h3⟩ := h
  obtain ⟨r1, r2, r3⟩ := hr
  simp only [isClose, NP_RTOL, GEOM_ATOL] at h1 h2 h3
  norm_num at h1 h2 h3 r1 r2 r3 ⊢
  exact ⟨by linarith, by linarith, by linarith⟩

theorem not_between_close (hx : Axes u w) (h : Crisp m S) {x a : ℝ × ℝ} (mx : x ∈ S) (ma : a ∈ S) (hne : x ≠ a)
    {p : Vec3 ℝ} (h1 : pointsEqual p (inPlane o u w x) = true) (h2 : pointsEqual p (inPlane o u w a) = true)
    (r1 : Reach m (inPlane o u w x)) (r2 : Reach m (inPlane o u w a)) : False := by
  have hs := h.scale
  norm_num at hs
  obtain ⟨a1, a2, a3⟩ := pointsEqual_coord h1 r1
  obtain ⟨b1, b2, b3⟩ := pointsEqual_coord h2 r2
  norm_num at a1 a2 a3 b1 b2 b3
  rcases coord_of_far (o := o) hx h.pos (h.far x mx a ma hne) with hd | hd | hd
  · have := abs_sub_le (inPlane o u w x).x p.x (inPlane o u w a).x
    rw [abs_sub_comm (inPlane o u w x).x p.x] at this
    linarith
  · have := abs_sub_le (inPlane o u w x).y p.y (inPlane o u w a).y
    rw [abs_sub_comm (inPlane o u w x).y p.y] at this
    linarith
  · have := abs_sub_le (inPlane o u w x).z p.z (inPlane o u w a).z
    rw [abs_sub_comm (inPlane o u w x).z p.z] at this
    linarith

theorem miss_aux (hx : Axes u w) (h : Crisp m S) (hr : ∀ p ∈ S, Reach m (inPlane o u w p)) {a b x y c d : ℝ × ℝ}
    (ma : a ∈ S) (mb : b ∈ S) (mx : x ∈ S) (my : y ∈ S) (mc : c ∈ S) (md : d ∈ S) (hxa : 0 < signedArea a b x)
    (x0 : signedArea c d x = 0) (y0 : 0 < signedArea c d y)
    (a0 : 0 ≤ signedArea c d a) (b0 : 0 ≤ signedArea c d b) {s : ℝ} (hs : s ≤ -(1 / 5000))
    (n1 : NearSegment (inPlane o u w (lerp x y s)) (inPlane o u w a) (inPlane o u w b))
    (n2 : NearSegment (inPlane o u w (lerp x y s)) (inPlane o u w x) (inPlane o u w y)) : False := by
  have hm := h.pos
  have hsc := h.scale
  have hm2 : 1 / 10 ^ 6 ≤ m ^ 2 := by norm_num at hsc ⊢; nlinarith
  have hxy : y ≠ x := by rintro rfl; linarith
  have hax : x ≠ a := by rintro rfl; rw [(area_same _ _).1] at hxa; exact lt_irrefl _ hxa
  have hbx : x ≠ b := by rintro rfl; rw [(area_same _ _).2.1] at hxa; exact lt_irrefl _ hxa
  have hab : b ≠ a := by rintro rfl; rw [(area_same _ _).2.2] at hxa; exact lt_irrefl _ hxa
  have dxy := h.far y my x mx hxy
  have dab := h.far b mb a ma hab
  have hs2 : (1 / 5000 : ℝ) ^ 2 ≤ s ^ 2 := by nlinarith
  have near_x : pointsEqual (inPlane o u w (lerp x y s)) (inPlane o u w x) = true := by
    rcases n2 with n2 | n2 | ⟨t, t0, t1, n2⟩
    · exact n2
    · exfalso
      have k := pointsEqual_coord n2 (hr y my)
      have e : distSq (lerp x y s) y = (s - 1) ^ 2 * distSq y x := by
        conv_lhs => rw [← between_one x y]
        rw [between_one x y, ← distSq_between, between_one]
      have hd : m ^ 2 ≤ distSq (lerp x y s) y := by
        rw [e]; nlinarith [show (1 : ℝ) ≤ (s - 1) ^ 2 by nlinarith]
      norm_num at k hsc
      rcases coord_of_far (o := o) hx hm hd with hd | hd | hd <;> linarith [k.1, k.2.1, k.2.2]
    · exfalso
      rw [← inPlane_between, normSq_inPlane hx, normSq_inPlane hx, distSq_between] at n2
      have k : (1 / 5000 : ℝ) ^ 2 ≤ (s - t) ^ 2 := by nlinarith
      have k0 : 0 ≤ distSq y x := by unfold distSq; positivity
      have k2 : (1 / 5000 : ℝ) ^ 2 * m ^ 2 * m ^ 2 ≤ (s - t) ^ 2 * distSq y x * distSq y x := by gcongr
      have k3 : (1 / 10 ^ 6 : ℝ) * (1 / 10 ^ 6) ≤ m ^ 2 * m ^ 2 := by gcongr
      norm_num [GEOM_ATOL] at n2
      norm_num at k2 k3
      nlinarith
  rcases n1 with n1 | n1 | ⟨t, t0, t1, n1⟩
  · exact not_between_close hx h mx ma hax near_x n1 (hr x mx) (hr a ma)
  · exact not_between_close hx h mx mb hbx near_x n1 (hr x mx) (hr b mb)
  · rw [← inPlane_between, normSq_inPlane hx, normSq_inPlane hx] at n1
    have k := area_diff c d (lerp a b t) (lerp x y s)
    rw [area_between, area_between, x0] at k
    have k1 := area_big h mc md my y0
    have z0 : 0 ≤ (1 - t) * signedArea c d a + t * signedArea c d b := by
      have : 0 ≤ 1 - t := by linarith
      positivity
    have k2 : 1 / 5000 * m ^ 2 ≤ (1 - t) * signedArea c d a + t * signedArea c d b -
        ((1 - s) * 0 + s * signedArea c d y) := by nlinarith
    have k3 : (1 / 5000 * m ^ 2) ^ 2 ≤ ((1 - t) * signedArea c d a + t * signedArea c d b -
        ((1 - s) * 0 + s * signedArea c d y)) ^ 2 := by gcongr
    have k4 := h.near d md c mc
    have e : distSq (lerp a b t) (lerp x y s) = distSq (lerp x y s) (lerp a b t) := by unfold distSq; ring
    rw [e] at k
    have k5 : 0 ≤ distSq (lerp x y s) (lerp a b t) := by unfold distSq; positivity
    have k6 : distSq (lerp x y s) (lerp a b t) * m ^ 2 ≤ 4 * GEOM_ATOL ^ 2 := le_trans (by gcongr) n1
    have k7 : distSq d c * distSq (lerp x y s) (lerp a b t) ≤ 5000 * (4 * GEOM_ATOL ^ 2) := by
      calc _ ≤ 5000 * m ^ 2 * distSq (lerp x y s) (lerp a b t) := by gcongr
        _ = 5000 * (distSq (lerp x y s) (lerp a b t) * m ^ 2) := by ring
        _ ≤ _ := by gcongr
    have k8 : (1 / 5000 * m ^ 2) ^ 2 ≤ 5000 * (4 * GEOM_ATOL ^ 2) := k3.trans (k.trans k7)
    have k9 : (1 / 5000 * (1 / 10 ^ 6) : ℝ) ^ 2 ≤ (1 / 5000 * m ^ 2) ^ 2 := by gcongr
    norm_num [GEOM_ATOL] at k8 k9
    linarith

theorem crossOf_miss (hx : Axes u w) (h : Crisp m S) (hr : ∀ p ∈ S, Reach m (inPlane o u w p))
    {a b x y c d c' d' : ℝ × ℝ} (ma : a ∈ S) (mb : b ∈ S) (mx : x ∈ S) (my : y ∈ S) (mc : c ∈ S) (md : d ∈ S)
    (mc' : c' ∈ S) (md' : d' ∈ S) (hxa : 0 < signedArea a b x) (hya : 0 < signedArea a b y)
    (x0 : signedArea c d x = 0) (y0 : 0 < signedArea c d y) (a0 : 0 ≤ signedArea c d a) (b0 : 0 ≤ signedArea c d b)
    (y0' : signedArea c' d' y = 0) (x0' : 0 < signedArea c' d' x) (a0' : 0 ≤ signedArea c' d' a)
    (b0' : 0 ≤ signedArea c' d' b) :
    crossOf (inPlane o u w a, inPlane o u w b) (inPlane o u w x, inPlane o u w y) = none := by
  rcases hc : crossOf (inPlane o u w a, inPlane o u w b) (inPlane o u w x, inPlane o u w y) with _ | p
  · rfl
  exfalso
  obtain ⟨h1, -⟩ := crossOf_eq_some.1 hc
  simp only at h1
  obtain ⟨-, -, n1, n2, hpar⟩ := C37_sound_partial h1
  have hab : b ≠ a := by rintro rfl; rw [(area_same _ _).2.2] at hxa; exact lt_irrefl _ hxa
  have hA : signedArea a b x ≠ signedArea a b y := by
    intro he
    apply hpar
    have : Vec3.cross (inPlane o u w b - inPlane o u w a) (inPlane o u w y - inPlane o u w x) =
        (signedArea a b y - signedArea a b x) • Vec3.cross u w := by
      rw [inPlane_sub, inPlane_sub]
      ext <;> simp [signedArea] <;> ring
    rw [this, he, sub_self, zero_smul]
  have hA' : signedArea a b x - signedArea a b y ≠ 0 := sub_ne_zero.2 hA
  obtain ⟨s, hs⟩ : ∃ s, s = signedArea a b x / (signedArea a b x - signedArea a b y) := ⟨_, rfl⟩
  have hq : signedArea a b (lerp x y s) = 0 := by
    rw [area_between, hs]
    field_simp
    ring
  obtain ⟨t, e1, e2⟩ := on_line (distSq_pos hab) hq
  have hq' : lerp x y s = lerp a b t := by
    refine Prod.ext ?_ ?_
    · show _ = a.1 + _
      linarith
    · show _ = a.2 + _
      linarith
  have hp := segment_exact (t := t) (s := s) (by rw [← inPlane_between, ← inPlane_between, hq']) h1
  rw [← inPlane_between, ← hq'] at hp
  rw [hp] at n1 n2
  have b1 := area_big h ma mb mx hxa
  have b2 := area_big h ma mb my hya
  have l1 := area_le h ma mb mx
  have l2 := area_le h ma mb my
  have hm := h.pos
  rcases lt_or_gt_of_ne hA with hlt | hgt
  · refine miss_aux hx h hr ma mb mx my mc md hxa x0 y0 a0 b0 (s := s) ?_ n1 n2
    rw [hs, div_le_iff_of_neg (by linarith)]
    nlinarith
  · rw [← between_symm] at n1 n2
    refine miss_aux hx h hr ma mb my mx mc' md' hya y0' x0' a0' b0' (s := 1 - s) ?_ n1 (nearSegment_symm n2)
    have : 1 - s = -(signedArea a b y / (signedArea a b x - signedArea a b y)) := by
      rw [hs]; field_simp; ring
    rw [this, neg_le_neg_iff, le_div_iff₀ (by linarith)]
    nlinarith

end B3d.SliceConvex
