import Verif.Proofs.RoundedPoints

/-!
# Points beside the plane in rounded arithmetic (helper lemmas for C119)
-/

namespace B3d.Rounded

open Spec Planar Polygon Triangles

variable (A : Arith) {o u w : Vec3 ℝ} {m : ℝ} {pts S : List (ℝ × ℝ)} {P : Poly} {z : ℝ × ℝ}

/-! ### Lines through the first point -/

theorem unitFrom_self (p : Vec3 ℝ) : unitFrom A p p = 0 := by
  have h : subv A p p = 0 := by ext <;> simp [subv]
  have hn : A.norm (0 : Vec3 ℝ) = 0 := by
    have := norm_rel A 0
    rw [Vec3.norm_eq_zero.2 rfl] at this
    exact this.zero
  unfold unitFrom
  simp only [h, hn]
  split
  · rename_i hc
    have := (lit_rel A EPSILON).pos (by norm_num) (by norm_num [EPSILON])
    exact (lt_asymm hc this).elim
  · rfl

theorem zero_not_close {v v' : Vec3 ℝ} (hv : Vec3.norm v = 1) (h : RelV (2 / 10 ^ 14) v' v) :
    ¬ allClose A 0 v' NP_RTOL GEOM_ATOL ∧ ¬ allClose A v' 0 NP_RTOL GEOM_ATOL := by
  have big : ∀ x y : ℝ, Rel (2 / 10 ^ 14) y x → 1 / 2 ≤ |x| → 49 / 100 ≤ |y| := by
    intro x y hr hx
    have := ((hr.abs (by norm_num)).le (abs_nonneg x)).1
    norm_num at this ⊢
    linarith
  have k1 : ∀ y : ℝ, 49 / 100 ≤ |y| → ¬ isClose A 0 y NP_RTOL GEOM_ATOL := by
    intro y hy hcl
    have := le_of_isClose A (by norm_num [NP_RTOL]) (by norm_num [GEOM_ATOL]) hcl
    rw [zero_sub, abs_neg] at this
    norm_num [GEOM_ATOL, NP_RTOL] at this
    linarith
  have k2 : ∀ y : ℝ, 49 / 100 ≤ |y| → ¬ isClose A y 0 NP_RTOL GEOM_ATOL := by
    intro y hy hcl
    have := le_of_isClose A (by norm_num [NP_RTOL]) (by norm_num [GEOM_ATOL]) hcl
    rw [sub_zero] at this
    norm_num [GEOM_ATOL, NP_RTOL] at this
    linarith
  constructor
  · rintro ⟨c1, c2, c3⟩
    rcases abs_half hv with hh | hh | hh
    · exact k1 _ (big _ _ h.1 hh) c1
    · exact k1 _ (big _ _ h.2.1 hh) c2
    · exact k1 _ (big _ _ h.2.2 hh) c3
  · rintro ⟨c1, c2, c3⟩
    rcases abs_half hv with hh | hh | hh
    · exact k2 _ (big _ _ h.1 hh) c1
    · exact k2 _ (big _ _ h.2.1 hh) c2
    · exact k2 _ (big _ _ h.2.2 hh) c3

theorem loop_step {a b : Vec3 ℝ} {t : List (Vec3 ℝ)} (h : collinearLoop A (a :: b :: t) = true) :
    (allClose A b a NP_RTOL GEOM_ATOL ∨ allClose A b (-a) NP_RTOL GEOM_ATOL) ∧ collinearLoop A (b :: t) = true := by
  rw [collinearLoop] at h
  split at h
  · rename_i hc; exact ⟨hc, h⟩
  · cases h

theorem loop_append (x : Vec3 ℝ) : ∀ l : List (Vec3 ℝ), collinearLoop A (l ++ [x]) = true → collinearLoop A l = true
  | [], _ => by simp [collinearLoop]
  | [_], _ => by simp [collinearLoop]
  | a :: b :: t, h => by
    obtain ⟨h1, h2⟩ := loop_step A (t := t ++ [x]) h
    rw [collinearLoop, if_pos h1]
    exact loop_append x (b :: t) h2

/-- One step of the loop: both points are the first one, or neither is and the three are on a line. -/
theorem step_line (hx : Axes u w) (hc : Crisp m S) {a q r : ℝ × ℝ} (ha : a ∈ S) (hq : q ∈ S) (hr : r ∈ S)
    (h : allClose A (unitFrom A (inPlane o u w a) (inPlane o u w r)) (unitFrom A (inPlane o u w a) (inPlane o u w q)) NP_RTOL
        GEOM_ATOL ∨
      allClose A (unitFrom A (inPlane o u w a) (inPlane o u w r)) (-unitFrom A (inPlane o u w a) (inPlane o u w q)) NP_RTOL
        GEOM_ATOL) : (q = a ∧ r = a) ∨ (q ≠ a ∧ r ≠ a ∧ signedArea a q r = 0) := by
  have unit : ∀ p ∈ S, p ≠ a → Vec3.norm ((1 / Vec3.norm (inPlane o u w p - inPlane o u w a)) •
      (inPlane o u w p - inPlane o u w a)) = 1 := fun p hp hne => norm_unit (ne_inPlane hx hc hp ha hne)
  by_cases hqa : q = a
  · by_cases hra : r = a
    · exact .inl ⟨hqa, hra⟩
    · exfalso
      rw [hqa, unitFrom_self, neg_zero, or_self] at h
      exact (zero_not_close A (unit r hr hra) (unitFrom_rel A hx hc hr ha hra)).2 h
  · by_cases hra : r = a
    · exfalso
      rw [hra, unitFrom_self] at h
      rcases h with h | h
      · exact (zero_not_close A (unit q hq hqa) (unitFrom_rel A hx hc hq ha hqa)).1 h
      · refine (zero_not_close A (v := -_) (v' := -_) ?_ (unitFrom_rel A hx hc hq ha hqa).neg).1 h
        rw [Vec3.norm_neg]
        exact unit q hq hqa
    · refine .inr ⟨hqa, hra, ?_⟩
      by_contra h0
      have := collinear_off A (o := o) hx hc ha hq hr h0
      simp only [arePointsCollinear, List.map_cons, List.map_nil, collinearLoop, if_pos h] at this
      cases this

theorem area_chain {a q r p : ℝ × ℝ} (hra : r ≠ a) (h1 : signedArea a q r = 0) (h2 : signedArea a r p = 0) :
    signedArea a q p = 0 := by
  obtain ⟨k, e1, e2⟩ := on_line (distSq_pos hra) h2
  unfold signedArea at *
  rw [e1, e2]
  linear_combination k * h1

/-- The points the loop accepts are all the first one, or on a line through it. -/
theorem loop_line (hx : Axes u w) (hc : Crisp m S) {a : ℝ × ℝ} (ha : a ∈ S) : ∀ (t : List (ℝ × ℝ)) (q : ℝ × ℝ), q ∈ S →
    (∀ p ∈ t, p ∈ S) → collinearLoop A ((q :: t).map fun p => unitFrom A (inPlane o u w a) (inPlane o u w p)) = true →
    (q = a → ∀ p ∈ t, p = a) ∧ (q ≠ a → ∀ p ∈ t, signedArea a q p = 0)
  | [], q, _, _, _ => ⟨by simp, by simp⟩
  | r :: t, q, hq, ht, h => by
    obtain ⟨h1, h2⟩ := loop_step A h
    have hr := ht r List.mem_cons_self
    obtain ⟨i1, i2⟩ := loop_line hx hc ha t r hr (fun p hp => ht p (List.mem_cons_of_mem _ hp)) h2
    rcases step_line A hx hc ha hq hr h1 with ⟨e1, e2⟩ | ⟨e1, e2, e3⟩
    · refine ⟨fun _ p hp => ?_, fun hne => (hne e1).elim⟩
      rcases List.mem_cons.1 hp with rfl | hp
      · exact e2
      · exact i1 e2 p hp
    · refine ⟨fun he => (e1 he).elim, fun _ p hp => ?_⟩
      rcases List.mem_cons.1 hp with rfl | hp
      · exact e3
      · exact area_chain e2 e3 (i2 e2 p hp)

theorem all_on_line {a q : ℝ × ℝ} (hqa : q ≠ a) {L : List (ℝ × ℝ)} (h : ∀ p ∈ L, signedArea a q p = 0) :
    ∀ x ∈ L, ∀ y ∈ L, ∀ z ∈ L, signedArea x y z = 0 := by
  intro x hx y hy z hz
  obtain ⟨k1, e1, f1⟩ := on_line (distSq_pos hqa) (h x hx)
  obtain ⟨k2, e2, f2⟩ := on_line (distSq_pos hqa) (h y hy)
  obtain ⟨k3, e3, f3⟩ := on_line (distSq_pos hqa) (h z hz)
  have g1 : x.1 = a.1 + k1 * (q.1 - a.1) := by linarith
  have g2 : x.2 = a.2 + k1 * (q.2 - a.2) := by linarith
  have g3 : y.1 = a.1 + k2 * (q.1 - a.1) := by linarith
  have g4 : y.2 = a.2 + k2 * (q.2 - a.2) := by linarith
  have g5 : z.1 = a.1 + k3 * (q.1 - a.1) := by linarith
  have g6 : z.2 = a.2 + k3 * (q.2 - a.2) := by linarith
  unfold signedArea
  rw [g1, g2, g3, g4, g5, g6]
  ring

/-- Not all points are on a line. -/
def Spread (L : List (ℝ × ℝ)) : Prop := ∃ x ∈ L, ∃ y ∈ L, ∃ z ∈ L, signedArea x y z ≠ 0

theorem not_collinear (hx : Axes u w) (hc : Crisp m S) {L : List (ℝ × ℝ)} (hL : ∀ p ∈ L, p ∈ S) (hsp : Spread L)
    (x : Vec3 ℝ) : arePointsCollinear A (L.map (inPlane o u w) ++ [x]) ≠ .ok true := by
  intro h
  obtain ⟨p1, m1, p2, m2, p3, m3, h0⟩ := hsp
  match L, hL, h, m1, m2, m3 with
  | [], _, _, m1, _, _ => simp at m1
  | [a], _, _, m1, m2, m3 =>
    rw [List.mem_singleton] at m1 m2
    rw [m1, m2] at h0
    apply h0; unfold signedArea; ring
  | a :: q :: t, hL, h, m1, m2, m3 =>
    have hloop : collinearLoop A ((q :: t).map fun p => unitFrom A (inPlane o u w a) (inPlane o u w p)) = true := by
      apply loop_append A (unitFrom A (inPlane o u w a) x)
      cases t with
      | nil =>
        simpa [arePointsCollinear] using h
      | cons r t =>
        simpa [arePointsCollinear, Function.comp_def] using h
    have ha := hL a List.mem_cons_self
    obtain ⟨h1, h2⟩ := loop_line A hx hc ha t q (hL q (by simp)) (fun p hp => hL p (by simp [hp])) hloop
    by_cases hqa : q = a
    · have hall : ∀ p ∈ a :: q :: t, p = a := by
        intro p hp
        simp only [List.mem_cons] at hp
        rcases hp with rfl | rfl | hp
        · rfl
        · exact hqa
        · exact h1 hqa p hp
      apply h0
      rw [hall _ m1, hall _ m2]
      unfold signedArea; ring
    · have hall : ∀ p ∈ a :: q :: t, signedArea a q p = 0 := by
        intro p hp
        simp only [List.mem_cons] at hp
        rcases hp with rfl | rfl | hp
        · unfold signedArea; ring
        · unfold signedArea; ring
        · exact h2 hqa p hp
      exact h0 (all_on_line hqa hall _ m1 _ m2 _ m3)

/-! ### The first normal -/

/-- Consecutive corners are different. -/
def Steps (L : List (ℝ × ℝ)) : Prop := L.IsChain (fun a b => b ≠ a)

theorem chain_line : ∀ (t : List (ℝ × ℝ)) (a q : ℝ × ℝ), Steps (a :: q :: t) →
    (∀ (k : Nat) (x y z : ℝ × ℝ), (a :: q :: t)[k]? = some x → (a :: q :: t)[k + 1]? = some y →
      (a :: q :: t)[k + 2]? = some z → signedArea x y z = 0) → ∀ p ∈ t, signedArea a q p = 0
  | [], _, _, _, _ => by simp
  | r :: t, a, q, hs, h => by
    have h0 : signedArea a q r = 0 := h 0 a q r rfl rfl rfl
    have hs' : Steps (q :: r :: t) := by
      unfold Steps at hs ⊢
      exact (List.isChain_cons_cons.1 hs).2
    have hne : r ≠ q := (List.isChain_cons_cons.1 hs').1
    have ih := chain_line t q r hs' (fun k x y z hx hy hz => h (k + 1) x y z hx hy hz)
    intro p hp
    rcases List.mem_cons.1 hp with rfl | hp
    · exact h0
    · obtain ⟨k, e1, e2⟩ := on_line (distSq_pos hne) (ih p hp)
      have g1 : p.1 = q.1 + k * (r.1 - q.1) := by linarith
      have g2 : p.2 = q.2 + k * (r.2 - q.2) := by linarith
      unfold signedArea at *
      rw [g1, g2]
      linear_combination k * h0

/-- Some three consecutive corners are not on a line. -/
theorem consecutive {L : List (ℝ × ℝ)} (hs : Steps L) (hsp : Spread L) :
    ∃ (k : Nat) (x y z : ℝ × ℝ), L[k]? = some x ∧ L[k + 1]? = some y ∧ L[k + 2]? = some z ∧ signedArea x y z ≠ 0 := by
  by_contra hcon
  push Not at hcon
  obtain ⟨p1, m1, p2, m2, p3, m3, h0⟩ := hsp
  match L, hs, hcon, m1, m2, m3 with
  | [], _, _, m1, _, _ => simp at m1
  | [a], _, _, m1, m2, m3 =>
    rw [List.mem_singleton] at m1 m2
    rw [m1, m2] at h0
    apply h0; unfold signedArea; ring
  | a :: q :: t, hs, hcon, m1, m2, m3 =>
    have h2 := chain_line t a q hs hcon
    have hqa : q ≠ a := (List.isChain_cons_cons.1 hs).1
    refine h0 (all_on_line hqa (L := a :: q :: t) ?_ _ m1 _ m2 _ m3)
    intro p hp
    simp only [List.mem_cons] at hp
    rcases hp with rfl | rfl | hp
    · unfold signedArea; ring
    · unfold signedArea; ring
    · exact h2 p hp

/-- A unit vector along one coordinate axis, up to rounding. -/
def Along (n v : Vec3 ℝ) : Prop :=
  (n.y = 0 ∧ n.z = 0 ∧ v.y = 0 ∧ v.z = 0 ∧ |(|v.x| - 1)| ≤ 2 / 10 ^ 14) ∨
    (n.x = 0 ∧ n.z = 0 ∧ v.x = 0 ∧ v.z = 0 ∧ |(|v.y| - 1)| ≤ 2 / 10 ^ 14) ∨
    (n.x = 0 ∧ n.y = 0 ∧ v.x = 0 ∧ v.y = 0 ∧ |(|v.z| - 1)| ≤ 2 / 10 ^ 14)

theorem normal_along (hx : Axes u w) (hf : AxisPlane u w) {a b c : ℝ × ℝ} {v : Vec3 ℝ}
    (hv : normal A (inPlane o u w a) (inPlane o u w b) (inPlane o u w c) = some v) : Along (Vec3.cross u w) v := by
  obtain ⟨e, c1, -⟩ := cross_flat A hx hf a b a c (cross_inPlane (o := o) a b c)
  unfold normal at hv
  simp only [c1] at hv
  split at hv
  · cases hv
  · rename_i hne
    have he : e ≠ 0 := by
      rintro rfl
      apply hne
      rw [c1, zero_smul]
      have := norm_rel A 0
      rw [Vec3.norm_eq_zero.2 rfl] at this
      rw [this.zero]
      refine isClose_of A (by norm_num [NP_RTOL]) (by norm_num [NP_ATOL]) ?_
      norm_num [NP_ATOL]
    simp only [Option.some.injEq] at hv
    subst hv
    have hn1 := norm_cross hx
    have hne0 : e • Vec3.cross u w ≠ 0 := by
      intro h
      have := congrArg Vec3.norm h
      rw [Vec3.norm_smul, hn1, mul_one, Vec3.norm_eq_zero.2 rfl, abs_eq_zero] at this
      exact he this
    have hrel := unit_rel A (RelV.refl (by norm_num) (e • Vec3.cross u w)) hne0
    have hnorm : Vec3.norm ((1 / Vec3.norm (e • Vec3.cross u w)) • (e • Vec3.cross u w)) = 1 := norm_unit hne0
    generalize hV : divv A (e • Vec3.cross u w) (A.norm (e • Vec3.cross u w)) = V at hrel ⊢
    have hsq := ConvexEars.normSq_eq_one hnorm
    have one : ∀ t v : ℝ, t * t = 1 → Rel (2 / 10 ^ 14) v t → |(|v| - 1)| ≤ 2 / 10 ^ 14 := by
      intro t v ht hr
      have ht1 : |t| = 1 := by
        have : |t| * |t| = 1 := by rw [abs_mul_abs_self]; exact ht
        nlinarith [abs_nonneg t]
      have := (hr.abs (by norm_num)).err
      rwa [ht1, abs_one, mul_one] at this
    obtain ⟨r1, r2, r3⟩ := hrel
    rcases hf with ⟨f1, f2⟩ | ⟨f1, f2⟩ | ⟨f1, f2⟩
    · have y0 : (Vec3.cross u w).y = 0 := by simp [f1, f2]
      have z0 : (Vec3.cross u w).z = 0 := by simp [f1, f2]
      simp only [Vec3.smul_x, Vec3.smul_y, Vec3.smul_z, y0, z0, mul_zero] at r1 r2 r3
      rw [Vec3.normSq_def] at hsq
      simp only [Vec3.smul_x, Vec3.smul_y, Vec3.smul_z, y0, z0, mul_zero] at hsq
      refine .inl ⟨y0, z0, r2.zero, r3.zero, one _ _ (by linarith) r1⟩
    · have y0 : (Vec3.cross u w).x = 0 := by simp [f1, f2]
      have z0 : (Vec3.cross u w).z = 0 := by simp [f1, f2]
      simp only [Vec3.smul_x, Vec3.smul_y, Vec3.smul_z, y0, z0, mul_zero] at r1 r2 r3
      rw [Vec3.normSq_def] at hsq
      simp only [Vec3.smul_x, Vec3.smul_y, Vec3.smul_z, y0, z0, mul_zero] at hsq
      refine .inr (.inl ⟨y0, z0, r1.zero, r3.zero, one _ _ (by linarith) r2⟩)
    · have y0 : (Vec3.cross u w).x = 0 := by simp [f1, f2]
      have z0 : (Vec3.cross u w).y = 0 := by simp [f1, f2]
      simp only [Vec3.smul_x, Vec3.smul_y, Vec3.smul_z, y0, z0, mul_zero] at r1 r2 r3
      rw [Vec3.normSq_def] at hsq
      simp only [Vec3.smul_x, Vec3.smul_y, Vec3.smul_z, y0, z0, mul_zero] at hsq
      refine .inr (.inr ⟨y0, z0, r1.zero, r2.zero, one _ _ (by linarith) r3⟩)

theorem normal_exists (hx : Axes u w) (hf : AxisPlane u w) (hc : Crisp m S) {a b c : ℝ × ℝ} (ha : a ∈ S) (hb : b ∈ S)
    (hc' : c ∈ S) (h0 : signedArea a b c ≠ 0) :
    ∃ v, normal A (inPlane o u w a) (inPlane o u w b) (inPlane o u w c) = some v := by
  obtain ⟨e, c1, d1⟩ := cross_crisp A hx hf hc ha hb ha hc' (cross_inPlane (o := o) a b c)
  have hbig := hc.big ha hb hc' h0
  obtain ⟨h7, -⟩ := unit_along A hx hc.scale hbig d1
  unfold normal
  simp only [c1]
  rw [if_neg]
  · exact ⟨_, rfl⟩
  · intro hcl
    rw [c1] at hcl
    have := le_of_isClose A (by norm_num [NP_RTOL]) (by norm_num [NP_ATOL]) hcl
    rw [sub_zero] at this
    have h8 := le_abs_self (A.norm (e • Vec3.cross u w))
    norm_num [NP_ATOL] at this h7
    linarith

theorem firstNormal_along (hx : Axes u w) (hf : AxisPlane u w) (hc : Crisp m S) (x : Vec3 ℝ) :
    ∀ (L : List (ℝ × ℝ)) (k : Nat) (a b c : ℝ × ℝ), (∀ p ∈ L, p ∈ S) → L[k]? = some a → L[k + 1]? = some b →
      L[k + 2]? = some c → signedArea a b c ≠ 0 →
      ∃ v, firstNormal A (L.map (inPlane o u w) ++ [x]) = some v ∧ Along (Vec3.cross u w) v
  | [], k, a, b, c, _, ha, _, _, _ => by simp at ha
  | [_], k, a, b, c, _, _, hb, _, _ => by simp at hb
  | [_, _], k, a, b, c, _, _, _, hc', _ => by simp at hc'
  | p :: q :: r :: t, k, a, b, c, hL, ha, hb, hc', h0 => by
    simp only [List.map_cons, List.cons_append, firstNormal]
    split
    · rename_i v hv
      exact ⟨v, rfl, normal_along A hx hf hv⟩
    · rename_i hn
      cases k with
      | zero =>
        exfalso
        simp at ha hb hc'
        subst ha hb hc'
        obtain ⟨v, hv⟩ := normal_exists A (o := o) hx hf hc (hL p (by simp)) (hL q (by simp)) (hL r (by simp)) h0
        rw [hv] at hn
        cases hn
      | succ k =>
        have := firstNormal_along hx hf hc x (q :: r :: t) k a b c (fun p hp => hL p (List.mem_cons_of_mem _ hp))
          (by simpa using ha) (by simpa using hb) (by simpa using hc') h0
        simpa using this

/-- The distance from the plane is noticed. -/
theorem noticed {n v c h : ℝ} (hs : 1 / 10 ^ 3 ≤ m) (hn : |n| = 1) (hv : |(|v| - 1)| ≤ 2 / 10 ^ 14) (hc : |c| ≤ 10 ^ 4 * m)
    (hh : m / 10 ^ 9 ≤ |h|) : ¬ |A.add (-A.mul v c) (A.mul v (c + h * n))| < A.lit GEOM_ATOL := by
  have hat := atol_bounds A
  have e1 := A.mul_err v c
  have e2 := A.mul_err v (c + h * n)
  have e3 := ((add_rel A (-A.mul v c) (A.mul v (c + h * n))).abs (by norm_num)).le (abs_nonneg _)
  have hv1 := abs_le.1 hv
  have hch : |c + h * n| ≤ 10 ^ 4 * m + |h| := by
    refine (abs_add_le _ _).trans ?_
    rw [abs_mul, hn, mul_one]
    linarith
  have m1 : |v * c| ≤ 2 * (10 ^ 4 * m) := by
    rw [abs_mul]
    have : |v| ≤ 2 := by norm_num at hv1; linarith [hv1.2]
    gcongr
  have m2 : |v * (c + h * n)| ≤ 2 * (10 ^ 4 * m + |h|) := by
    rw [abs_mul]
    have : |v| ≤ 2 := by norm_num at hv1; linarith [hv1.2]
    gcongr
  have hd : |v * (c + h * n) - v * c| = |v| * |h| := by
    rw [← mul_sub, add_sub_cancel_left, abs_mul, abs_mul, hn, mul_one]
  have hvh : 99 / 100 * |h| ≤ |v| * |h| := by
    have : 99 / 100 ≤ |v| := by norm_num at hv1; linarith [hv1.1]
    gcongr
  have tri : |v * (c + h * n) - v * c| ≤ |-A.mul v c + A.mul v (c + h * n)| + |A.mul v c - v * c| +
      |A.mul v (c + h * n) - v * (c + h * n)| := by
    have : v * (c + h * n) - v * c = (-A.mul v c + A.mul v (c + h * n)) + (A.mul v c - v * c) -
        (A.mul v (c + h * n) - v * (c + h * n)) := by ring
    rw [this]
    exact (abs_sub _ _).trans (add_le_add_left (abs_add_le _ _) _)
  generalize |A.add (-A.mul v c) (A.mul v (c + h * n))| = T at *
  generalize |-A.mul v c + A.mul v (c + h * n)| = T' at *
  generalize |A.mul v c - v * c| = E1 at *
  generalize |A.mul v (c + h * n) - v * (c + h * n)| = E2 at *
  rw [hd] at tri
  generalize |v| * |h| = D at *
  generalize |v * c| = M1 at *
  generalize |v * (c + h * n)| = M2 at *
  generalize |h| = H at *
  norm_num at *
  linarith

/-- A point beside the plane is not coplanar with the corners. -/
theorem not_coplanar (hx : Axes u w) (hf : AxisPlane u w) (hc : Crisp m S) (hr : ∀ p ∈ S, Reach m (inPlane o u w p))
    {L : List (ℝ × ℝ)} (hL : ∀ p ∈ L, p ∈ S) (hst : Steps L) (hsp : Spread L) {h : ℝ} (hh : m / 10 ^ 9 ≤ |h|) :
    arePointsCoplanar A (L.map (inPlane o u w) ++ [inPlane o u w z + h • Vec3.cross u w]) = false := by
  obtain ⟨k, a, b, c, ea, eb, ec, h0⟩ := consecutive hst hsp
  obtain ⟨v, hv, hal⟩ := firstNormal_along A (o := o) hx hf hc (inPlane o u w z + h • Vec3.cross u w) L k a b c hL ea eb ec h0
  have hcol := not_collinear A (o := o) hx hc hL hsp (inPlane o u w z + h • Vec3.cross u w)
  have hlen : ¬ (L.length ≤ 2) := by
    have := (List.getElem?_eq_some_iff.1 ec).1
    omega
  match L, hL, hv, hcol, hlen with
  | [], _, _, _, hlen => simp at hlen
  | p :: t, hL, hv, hcol, hlen =>
    have hlen' : ¬ (t.length + 1 ≤ 2) := hlen
    have hn := ConvexEars.normSq_eq_one (norm_cross hx)
    rw [Vec3.normSq_def] at hn
    have same : ∀ z p : ℝ × ℝ, Vec3.dot (Vec3.cross u w) (inPlane o u w z) = Vec3.dot (Vec3.cross u w) (inPlane o u w p) := by
      intro z p
      have h1 := plane_inPlane (u := u) (w := w) o [z] (inPlane o u w z) (by simp)
      have h2 := plane_inPlane (u := u) (w := w) o [p] (inPlane o u w p) (by simp)
      rw [h1, h2]
    have one : ∀ t : ℝ, t * t = 1 → |t| = 1 := by
      intro t ht
      have : |t| * |t| = 1 := by rw [abs_mul_abs_self]; exact ht
      nlinarith [abs_nonneg t]
    obtain ⟨q1, q2, q3⟩ := hr p (hL p (by simp))
    rw [List.map_cons, List.cons_append] at hv hcol ⊢
    simp only [arePointsCoplanar, hv]
    rw [if_neg (by simp; omega)]
    have hbad : ¬ |A.add (-A.dot v (inPlane o u w p)) (A.dot v (inPlane o u w z + h • Vec3.cross u w))| <
        A.lit GEOM_ATOL := by
      rcases hal with ⟨n1, n2, v1, v2, v3⟩ | ⟨n1, n2, v1, v2, v3⟩ | ⟨n1, n2, v1, v2, v3⟩
      · have ev : v = ⟨v.x, 0, 0⟩ := by ext <;> simp [v1, v2]
        have ep : (inPlane o u w z).x = (inPlane o u w p).x := by
          have hpl := same z p
          simp only [Vec3.dot, n1, n2, zero_mul, add_zero] at hpl
          exact mul_left_cancel₀ (fun h0 => by rw [n1, n2, h0] at hn; norm_num at hn) hpl
        rw [ev, A.dot_x, A.dot_x, Vec3.add_x, Vec3.smul_x, ep]
        exact noticed A hc.scale (one _ (by rw [n1, n2] at hn; linarith)) v3 q1 hh
      · have ev : v = ⟨0, v.y, 0⟩ := by ext <;> simp [v1, v2]
        have ep : (inPlane o u w z).y = (inPlane o u w p).y := by
          have hpl := same z p
          simp only [Vec3.dot, n1, n2, zero_mul, add_zero, zero_add] at hpl
          exact mul_left_cancel₀ (fun h0 => by rw [n1, n2, h0] at hn; norm_num at hn) hpl
        rw [ev, A.dot_y, A.dot_y, Vec3.add_y, Vec3.smul_y, ep]
        exact noticed A hc.scale (one _ (by rw [n1, n2] at hn; linarith)) v3 q2 hh
      · have ev : v = ⟨0, 0, v.z⟩ := by ext <;> simp [v1, v2]
        have ep : (inPlane o u w z).z = (inPlane o u w p).z := by
          have hpl := same z p
          simp only [Vec3.dot, n1, n2, zero_mul, add_zero, zero_add] at hpl
          exact mul_left_cancel₀ (fun h0 => by rw [n1, n2, h0] at hn; norm_num at hn) hpl
        rw [ev, A.dot_z, A.dot_z, Vec3.add_z, Vec3.smul_z, ep]
        exact noticed A hc.scale (one _ (by rw [n1, n2] at hn; linarith)) v3 q3 hh
    match hm : arePointsCollinear A (inPlane o u w p :: (List.map (inPlane o u w) t ++
        [inPlane o u w z + h • Vec3.cross u w])) with
    | .ok true => exact (hcol hm).elim
    | .ok false =>
      rw [List.all_eq_false]
      exact ⟨inPlane o u w z + h • Vec3.cross u w, by simp, by simpa using hbad⟩
    | .error e =>
      rw [List.all_eq_false]
      exact ⟨inPlane o u w z + h • Vec3.cross u w, by simp, by simpa using hbad⟩

/-! ### Polygons made with exact numbers -/

/-- The normal of a polygon made without a given normal is one of the normals of the plane. -/
theorem normal_of_new (hx : Axes u w) (hc : Crisp m pts) (hr : ∀ p ∈ pts, Reach m (inPlane o u w p))
    (h : Polygon.polygonNew (pts.map (inPlane o u w)) none none = .ok P) : PairsExact.Normal u w P := by
  have hn : 3 ≤ pts.length := by
    obtain ⟨hn, -⟩ := polygonNew_ok h
    simpa using hn
  obtain ⟨l, hl⟩ : ∃ l, pts.getLast? = some l := by
    cases hp : pts with
    | nil => rw [hp] at hn; simp at hn
    | cons a t => exact ⟨_, List.getLast?_eq_some_getLast (by simp)⟩
  have h0 : pts[0]? = some pts[0] := List.getElem?_eq_getElem _
  have h1 : pts[1]? = some pts[1] := List.getElem?_eq_getElem _
  rcases lt_trichotomy (signedArea l pts[0] pts[1]) 0 with hlt | hz | hgt
  · right
    have := Polygon.polygonNew_inPlane (o := o) (PairsExact.axes_swap hx) (PairsExact.crisp_swapped hc)
      (by
        simp only [List.forall_mem_map]
        intro p hp
        rw [PairsExact.inPlane_swap]; exact hr p hp)
      (by simpa using hn) (l := l.swap) (p0 := pts[0].swap) (p1 := pts[1].swap) (by rw [List.getLast?_map, hl]; rfl)
      (by rw [List.getElem?_map, h0]; rfl) (by rw [List.getElem?_map, h1]; rfl)
      (by rw [PairsExact.area_swapped]; linarith)
    rw [PairsExact.map_swap, h] at this
    split at this
    · cases this
    · cases this
    · obtain ⟨Q, e, -, e2, -⟩ := this
      cases e
      rw [e2, PairsExact.cross_swapped]
  · exfalso
    have nE : Polygon.normal (inPlane o u w l) (inPlane o u w pts[0]) (inPlane o u w pts[1]) = none := by
      unfold Polygon.normal
      simp only [cross_inPlane, hz, zero_smul]
      rw [Vec3.norm_eq_zero.2 rfl, if_pos (by norm_num [B3d.isClose, NP_ATOL])]
    simp only [Polygon.polygonNew, coplanar_inPlane (o := o) hx pts, Bool.true_eq_false, if_false, List.length_map,
      if_neg (not_not.2 hn), Polygon.chooseNormal, List.getLast?_map, List.getElem?_map, hl, h0, h1, Option.map_some, nE,
      Polygon.chooseTriangles] at h
    cases h
  · left
    have := Polygon.polygonNew_inPlane hx hc hr hn hl h0 h1 hgt
    rw [h] at this
    split at this
    · cases this
    · cases this
    · obtain ⟨Q, e, -, e2, -⟩ := this
      cases e
      exact e2

/-- The polygon made with rounded numbers is the one made with exact numbers. -/
theorem exact_of_rounded (hx : Axes u w) (hf : AxisPlane u w) (hc : Crisp m pts) (hm : m ≤ 10 ^ 6)
    (hs : StraightOnAxes o u w pts) (hr : ∀ p ∈ pts, Reach m (inPlane o u w p)) {q : List (Vec3 ℝ)} {v : Vec3 ℝ}
    {tri : List Tri} (h : polygonNew A (pts.map (inPlane o u w)) = .ok (q, v, tri)) :
    ∃ P, Polygon.polygonNew (pts.map (inPlane o u w)) none none = .ok P ∧ P.pts = q ∧ P.tri = tri := by
  have := C109_axis_planes_partial A hx hf hc hm hs hr
  rw [h] at this
  match hp : Polygon.polygonNew (pts.map (inPlane o u w)) none none with
  | .error e => rw [hp] at this; cases this
  | .ok P =>
    rw [hp] at this
    obtain ⟨n, v', -, e, -⟩ := this
    cases e
    exact ⟨P, rfl, rfl, rfl⟩

theorem steps_of (hx : Axes u w) (h : Polygon.polygonNew (pts.map (inPlane o u w)) none none = .ok P)
    {L : List (ℝ × ℝ)} (hL : P.pts = L.map (inPlane o u w)) : Steps L := by
  unfold Steps
  rw [List.isChain_iff_getElem]
  intro i hi
  have hl : i < (P.pts).length := by rw [hL, List.length_map]; omega
  have he := List.mem_of_getElem? (cycEdges_getElem? P.pts i hl)
  obtain ⟨a, -, b, -, e, hne⟩ := PointExact.edges_in h he
  simp only [hL, List.getElem_map, Prod.mk.injEq] at e
  have e2 := SliceConvex.inPlane_injective hx e.2
  simp only [List.length_map, Nat.mod_eq_of_lt hi] at e2
  rw [SliceConvex.inPlane_injective hx e.1, e2]
  exact hne

theorem spread_of (hx : Axes u w) (hc : Crisp m pts) (h : Polygon.polygonNew (pts.map (inPlane o u w)) none none = .ok P)
    (hv : P.vn = some (Vec3.cross u w)) : Spread pts := by
  have hst := polygonNew_sturdy h
  obtain ⟨p, hp⟩ := List.exists_mem_of_ne_nil _ hst.1
  obtain ⟨t, ht, -⟩ := polygonNew_vertex h hp
  obtain ⟨a, ma, b, mb, c, mc, -, -, -, hD⟩ := PointExact.triangles_in hx hc h hv ht
  exact ⟨a, ma, b, mb, c, mc, hD.ne'⟩

end B3d.Rounded
