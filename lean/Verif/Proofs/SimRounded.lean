import Verif.Model.SimRounded
import Verif.Proofs.Rounded
import Verif.Props.VoxelGrid

/-! # Lemmas about the simulation loop in rounded arithmetic -/

namespace B3d.SimRounded

open Sim Rounded

variable (A : Arith) (P : Params ℝ)

/-! ### Vectors -/

theorem RelV.dist {e : ℝ} {a b : Vec3 ℝ} (h : RelV e a b) : Vec3.norm (a - b) ≤ e * Vec3.norm b := by
  obtain ⟨⟨d1, h1, e1⟩, ⟨d2, h2, e2⟩, ⟨d3, h3, e3⟩⟩ := h
  have he0 : 0 ≤ e := le_trans (abs_nonneg d1) h1
  have key : ∀ x d : ℝ, |d| ≤ e → (x * (1 + d) - x) * (x * (1 + d) - x) ≤ e ^ 2 * (x * x) := by
    intro x d hd
    have h4 : d ^ 2 ≤ e ^ 2 := sq_le_sq' (by linarith [(abs_le.1 hd).1]) (abs_le.1 hd).2
    calc (x * (1 + d) - x) * (x * (1 + d) - x) = d ^ 2 * (x * x) := by ring
      _ ≤ _ := mul_le_mul_of_nonneg_right h4 (mul_self_nonneg x)
  refine Vec3.norm_le_of_sq (mul_nonneg he0 (Vec3.norm_nonneg b)) ?_
  rw [mul_pow, Vec3.norm_sq, Vec3.normSq_def, Vec3.normSq_def]
  simp only [Vec3.sub_x, Vec3.sub_y, Vec3.sub_z]
  rw [e1, e2, e3]
  linarith [key b.x d1 h1, key b.y d2 h2, key b.z d3 h3]

theorem sum_abs_le (n v : Vec3 ℝ) : |n.x * v.x| + |n.y * v.y| + |n.z * v.z| ≤ Vec3.norm n * Vec3.norm v := by
  have h := Vec3.abs_dot_le ⟨|n.x|, |n.y|, |n.z|⟩ ⟨|v.x|, |v.y|, |v.z|⟩
  have e : ∀ a : Vec3 ℝ, Vec3.norm ⟨|a.x|, |a.y|, |a.z|⟩ = Vec3.norm a := by
    intro a
    apply le_antisymm <;> apply Vec3.norm_le_of_coords <;> simp
  rw [e, e] at h
  refine le_trans ?_ h
  rw [abs_mul, abs_mul, abs_mul]
  exact le_abs_self _

theorem mulv_rel (s : ℝ) (v : Vec3 ℝ) : RelV (1 / 10 ^ 15) (mulv A s v) (s • v) :=
  ⟨mul_rel _ _ _, mul_rel _ _ _, mul_rel _ _ _⟩

theorem subv_rel (p q : Vec3 ℝ) : RelV (1 / 10 ^ 15) (subv A p q) (p - q) :=
  ⟨sub_rel _ _ _, sub_rel _ _ _, sub_rel _ _ _⟩

theorem addv_rel (p q : Vec3 ℝ) : RelV (1 / 10 ^ 15) (addv A p q) (p + q) :=
  ⟨add_rel _ _ _, add_rel _ _ _, add_rel _ _ _⟩

/-- The exact mirror image at a plane whose normal is not exactly a unit vector. -/
theorem mirror_rel {n v : Vec3 ℝ} (hn : |Vec3.norm n - 1| ≤ 2 / 10 ^ 14) :
    |Vec3.norm (mirror n v) - Vec3.norm v| ≤ 17 / 10 ^ 14 * Vec3.norm v := by
  obtain ⟨N, hN⟩ : ∃ N, N = Vec3.norm n := ⟨_, rfl⟩
  obtain ⟨V, hV⟩ : ∃ V, V = Vec3.norm v := ⟨_, rfl⟩
  obtain ⟨M, hM⟩ : ∃ M, M = Vec3.norm (mirror n v) := ⟨_, rfl⟩
  have hV0 : 0 ≤ V := by rw [hV]; exact Vec3.norm_nonneg _
  have hM0 : 0 ≤ M := by rw [hM]; exact Vec3.norm_nonneg _
  have hd := Vec3.abs_dot_le n v
  rw [← hN] at hn
  rw [← hN, ← hV] at hd
  rw [← hM, ← hV]
  have e1 : M ^ 2 - V ^ 2 = 4 * Vec3.dot n v ^ 2 * (N ^ 2 - 1) := by
    rw [hM, hV, hN, Vec3.norm_sq, Vec3.norm_sq, Vec3.norm_sq]
    simp only [mirror, Vec3.normSq_def, Vec3.dot, Vec3.sub_x, Vec3.sub_y, Vec3.sub_z, Vec3.smul_x, Vec3.smul_y, Vec3.smul_z]
    ring
  have hn' := abs_le.1 hn
  have hN2 : |N ^ 2 - 1| ≤ 41 / 10 ^ 15 := by
    rw [abs_le]
    constructor <;> norm_num at hn' ⊢ <;> nlinarith [hn'.1, hn'.2]
  have hN3 : N ^ 2 ≤ 1 + 41 / 10 ^ 15 := by linarith [(abs_le.1 hN2).2]
  have hd2 : Vec3.dot n v ^ 2 ≤ N ^ 2 * V ^ 2 := by
    rw [← mul_pow, ← sq_abs]
    exact pow_le_pow_left₀ (abs_nonneg _) hd 2
  have hd3 : Vec3.dot n v ^ 2 ≤ (1 + 41 / 10 ^ 15) * V ^ 2 :=
    hd2.trans (mul_le_mul_of_nonneg_right hN3 (sq_nonneg _))
  have h1 : |M ^ 2 - V ^ 2| ≤ 17 / 10 ^ 14 * V ^ 2 := by
    rw [e1, abs_mul, abs_of_nonneg (by positivity : 0 ≤ 4 * Vec3.dot n v ^ 2)]
    calc 4 * Vec3.dot n v ^ 2 * |N ^ 2 - 1| ≤ 4 * ((1 + 41 / 10 ^ 15) * V ^ 2) * (41 / 10 ^ 15) := by
          apply mul_le_mul _ hN2 (abs_nonneg _) (by positivity)
          linarith
      _ ≤ 17 / 10 ^ 14 * V ^ 2 := by
          norm_num
          nlinarith [sq_nonneg V]
  rcases eq_or_lt_of_le hV0 with h0 | h0
  · rw [← h0] at h1 ⊢
    have : M ^ 2 = 0 := by
      have h2 : |M ^ 2 - 0 ^ 2| ≤ 0 := by simpa using h1
      have := abs_eq_zero.1 (le_antisymm h2 (abs_nonneg _))
      linarith
    have := pow_eq_zero_iff (two_ne_zero) |>.1 this
    rw [this]
    simp
  · have h2 : |M - V| * V ≤ 17 / 10 ^ 14 * V * V := by
      calc |M - V| * V ≤ |M - V| * (M + V) := mul_le_mul_of_nonneg_left (by linarith) (abs_nonneg _)
        _ = |M ^ 2 - V ^ 2| := by
          rw [← abs_of_nonneg (by linarith : 0 ≤ M + V), ← abs_mul]
          congr 1
          ring
        _ ≤ 17 / 10 ^ 14 * V ^ 2 := h1
        _ = _ := by ring
    exact le_of_mul_le_mul_right h2 h0

/-- A reflection changes the speed by less than two parts in `10 ^ 13`. -/
theorem reflect_rel {n : Vec3 ℝ} (v : Vec3 ℝ) (hn : |Vec3.norm n - 1| ≤ 2 / 10 ^ 14) :
    Rel (2 / 10 ^ 13) (Vec3.norm (subv A v (mulv A (A.mul 2 (A.dot n v)) n))) (Vec3.norm v) ∧
      Vec3.norm (subv A v (mulv A (A.mul 2 (A.dot n v)) n) - mirror n v) ≤ 2 / 10 ^ 14 * Vec3.norm v := by
  obtain ⟨d', hd'⟩ : ∃ d', d' = A.dot n v := ⟨_, rfl⟩
  obtain ⟨t', ht'⟩ : ∃ t', t' = A.mul 2 d' := ⟨_, rfl⟩
  obtain ⟨w', hw'⟩ : ∃ w', w' = mulv A t' n := ⟨_, rfl⟩
  rw [← hd', ← ht', ← hw']
  have hm := mirror_rel (v := v) hn
  obtain ⟨V, hV⟩ : ∃ V, V = Vec3.norm v := ⟨_, rfl⟩
  obtain ⟨N, hN⟩ : ∃ N, N = Vec3.norm n := ⟨_, rfl⟩
  have hV0 : 0 ≤ V := by rw [hV]; exact Vec3.norm_nonneg _
  have h1 : |d' - Vec3.dot n v| ≤ 4 / 10 ^ 15 * (N * V) := by
    rw [hd', hN, hV]
    exact (A.dot_err n v).trans (mul_le_mul_of_nonneg_left (sum_abs_le n v) (by norm_num))
  have h2 := Vec3.abs_dot_le n v
  have h3 : |t' - 2 * d'| ≤ 1 / 10 ^ 15 * |2 * d'| := by rw [ht']; exact A.mul_err 2 d'
  have h4 : Vec3.norm (w' - t' • n) ≤ 1 / 10 ^ 15 * Vec3.norm (t' • n) := by rw [hw']; exact RelV.dist (mulv_rel A t' n)
  rw [Vec3.norm_smul] at h4
  rw [← hV] at hm
  rw [← hN, ← hV] at h2
  rw [← hN] at h4 hn
  have hNV : N * V ≤ (1 + 2 / 10 ^ 14) * V := mul_le_mul_of_nonneg_right (by linarith [(abs_le.1 hn).2]) hV0
  have hN1 : N ≤ 1 + 2 / 10 ^ 14 := by linarith [(abs_le.1 hn).2]
  have hN0 : 0 ≤ N := by rw [hN]; exact Vec3.norm_nonneg _
  have a1 : |d' - Vec3.dot n v| ≤ 41 / 10 ^ 16 * V := by
    refine h1.trans ?_
    norm_num at hNV ⊢
    linarith
  have a2 : |d'| ≤ (1 + 1 / 10 ^ 13) * V := by
    have := abs_add_le (d' - Vec3.dot n v) (Vec3.dot n v)
    rw [sub_add_cancel] at this
    norm_num at hNV a1 ⊢
    linarith
  have a3 : |t' - 2 * d'| ≤ 21 / 10 ^ 16 * V := by
    refine h3.trans ?_
    rw [abs_mul, abs_of_pos (by norm_num : (0 : ℝ) < 2)]
    norm_num at a2 ⊢
    linarith
  have a4 : |t'| ≤ (2 + 1 / 10 ^ 12) * V := by
    have := abs_add_le (t' - 2 * d') (2 * d')
    rw [sub_add_cancel, abs_mul, abs_of_pos (by norm_num : (0 : ℝ) < 2)] at this
    norm_num at a2 a3 ⊢
    linarith
  have a5 : |t' - 2 * Vec3.dot n v| ≤ 104 / 10 ^ 16 * V := by
    have := abs_add_le (t' - 2 * d') (2 * d' - 2 * Vec3.dot n v)
    rw [sub_add_sub_cancel, ← mul_sub, abs_mul 2, abs_of_pos (by norm_num : (0 : ℝ) < 2)] at this
    norm_num at a1 a3 ⊢
    linarith
  have a6 : |t'| * N ≤ (2 + 1 / 10 ^ 11) * V := by
    calc |t'| * N ≤ ((2 + 1 / 10 ^ 12) * V) * (1 + 2 / 10 ^ 14) := mul_le_mul a4 hN1 hN0 (by positivity)
      _ ≤ _ := by norm_num; linarith
  have a7 : |t' - 2 * Vec3.dot n v| * N ≤ 105 / 10 ^ 16 * V := by
    calc |t' - 2 * Vec3.dot n v| * N ≤ (104 / 10 ^ 16 * V) * (1 + 2 / 10 ^ 14) := mul_le_mul a5 hN1 hN0 (by positivity)
      _ ≤ _ := by norm_num; linarith
  have a8 : Vec3.norm (w' - (2 * Vec3.dot n v) • n) ≤ 13 / 10 ^ 15 * V := by
    have e := Vec3.norm_sub_le_sub w' (t' • n) ((2 * Vec3.dot n v) • n)
    have e2 : t' • n - (2 * Vec3.dot n v) • n = (t' - 2 * Vec3.dot n v) • n := by ext <;> simp <;> ring
    rw [e2, Vec3.norm_smul, ← hN] at e
    norm_num at h4 a6 a7 ⊢
    linarith
  have a9 : |Vec3.norm (v - w') - Vec3.norm (mirror n v)| ≤ 13 / 10 ^ 15 * V := by
    have b1 := Vec3.norm_add_le (mirror n v) ((2 * Vec3.dot n v) • n - w')
    have b2 := Vec3.norm_add_le (v - w') (w' - (2 * Vec3.dot n v) • n)
    have c1 : mirror n v + ((2 * Vec3.dot n v) • n - w') = v - w' := by unfold mirror; ext <;> simp
    have c2 : v - w' + (w' - (2 * Vec3.dot n v) • n) = mirror n v := by unfold mirror; ext <;> simp
    rw [c1, Vec3.norm_sub_comm ((2 * Vec3.dot n v) • n) w'] at b1
    rw [c2] at b2
    rw [abs_le]
    constructor <;> linarith
  have a10 : Rel (19 / 10 ^ 14) (Vec3.norm (v - w')) V := by
    refine rel_of_err (by norm_num) ?_
    rw [abs_of_nonneg hV0]
    have := abs_add_le (Vec3.norm (v - w') - Vec3.norm (mirror n v)) (Vec3.norm (mirror n v) - V)
    rw [sub_add_sub_cancel] at this
    norm_num at a9 hm ⊢
    linarith
  have a11 := (subv_rel A v w').norm (by norm_num)
  rw [← hV]
  refine ⟨a11.trans a10 (by norm_num), ?_⟩
  have a12 := RelV.dist (subv_rel A v w')
  have a13 := (a10.le hV0).2
  have a14 := Vec3.norm_sub_le_sub (subv A v w') (v - w') (mirror n v)
  have c3 : v - w' - mirror n v = -(w' - (2 * Vec3.dot n v) • n) := by unfold mirror; ext <;> simp
  rw [c3, Vec3.norm_neg] at a14
  norm_num at a8 a12 a13 ⊢
  linarith

/-- A calculated normal has a length of nearly one. -/
theorem normal_unit {p0 p1 p2 n : Vec3 ℝ} (h : Rounded.normal A.toArith p0 p1 p2 = some n) :
    |Vec3.norm n - 1| ≤ 2 / 10 ^ 14 := by
  unfold Rounded.normal at h
  obtain ⟨v, hv⟩ : ∃ v, v = Rounded.cross A.toArith (Rounded.subv A.toArith p1 p0) (Rounded.subv A.toArith p2 p0) := ⟨_, rfl⟩
  simp only [← hv] at h
  split_ifs at h with hc
  simp only [Option.some.injEq] at h
  have hv0 : v ≠ 0 := by
    intro e
    apply hc
    rw [← hv, e, Rounded.norm_zero']
    exact isClose_of _ (by unfold NP_RTOL; norm_num) (by unfold NP_ATOL; norm_num) (by unfold NP_RTOL NP_ATOL; norm_num)
  have hr := (unit_rel A.toArith (RelV.refl (by norm_num) v) hv0).norm (by norm_num)
  rw [h, Rounded.norm_unit hv0] at hr
  have := hr.err
  simpa using this

/-! ### The loop -/

variable {A P}

theorem absorbLoop_energy (sq : ℝ) (pos : Vec3 ℝ) : ∀ (as : List (Vec3 ℝ)) (hs : List ℝ) (e : ℝ),
    (absorbLoop A sq pos as hs e).2 = e ∨ (absorbLoop A sq pos as hs e).2 = 0 := by
  intro as
  induction as with
  | nil => intro hs e; exact Or.inl (by simp [absorbLoop])
  | cons a as ih =>
    intro hs e
    cases hs with
    | nil => exact Or.inl (by simp [absorbLoop])
    | cons h hs =>
      rw [absorbLoop]
      split_ifs
      · rcases ih hs 0 with h1 | h1 <;> exact Or.inr h1
      · exact ih hs e

theorem absorbRay_cases (hs : List ℝ) (r : Ray ℝ) :
    (absorbRay A P hs r).2 = r ∨ P.eps < r.energy ∧ (absorbRay A P hs r).2 = r.withEnergy 0 := by
  unfold absorbRay
  split_ifs with h
  · exact Or.inl rfl
  · rcases absorbLoop_energy (A := A) (A.mul P.absorberRadius P.absorberRadius) r.pos P.absorbers hs r.energy with h1 | h1
    · left
      simp only [h1]
      rfl
    · exact Or.inr ⟨not_le.1 h, by simp only [h1]⟩

theorem absorbAll_cases : ∀ (hs : List ℝ) (rs : List (Ray ℝ)),
    List.Forall₂ (fun r r' => r' = r ∨ P.eps < r.energy ∧ r' = r.withEnergy 0) rs (absorbAll A P hs rs).2 := by
  intro hs rs
  induction rs generalizing hs with
  | nil => exact .nil
  | cons r rs ih =>
    rw [absorbAll]
    exact .cons (absorbRay_cases hs r) (ih _)

/-- What every reflection keeps, the whole reflection loop keeps. -/
theorem reflectLoop_ind {Q : Ray ℝ → Prop} (hd : ∀ r, Q r → Q (r.withEnergy 0))
    (hr : ∀ r pn, Q r → P.eps < r.energy → P.eps < A.sub r.energy (P.absorption pn) →
      Q (reflect A P pn (A.sub r.energy (P.absorption pn)) r)) (c : Cell) :
    ∀ (fuel : Nat) (r r' : Ray ℝ) (t t' : Option Nat), Q r → reflectLoop A P c fuel r t = some (r', t') → Q r' := by
  intro fuel
  induction fuel with
  | zero => intro r r' t t' _ h; simp [reflectLoop] at h
  | succ fuel ih =>
    intro r r' t t' hq h
    cases t with
    | none =>
      rw [reflectLoop] at h
      simp only [Option.some.injEq, Prod.mk.injEq] at h
      rwa [← h.1]
    | some pn =>
      rw [reflectLoop] at h
      split_ifs at h with h1 h2
      · simp only [Option.some.injEq, Prod.mk.injEq] at h
        rw [← h.1]
        exact hd r hq
      · exact ih _ _ _ _ (hr r pn hq h1.2 (not_le.1 h2)) h
      · simp only [Option.some.injEq, Prod.mk.injEq] at h
        rwa [← h.1]

/-- At the end of the loop the target is that of the current velocity. -/
theorem reflectLoop_target (heps : 0 ≤ P.eps) (c : Cell) :
    ∀ (fuel : Nat) (r r' : Ray ℝ) (t' : Option Nat), reflectLoop A P c fuel r (target P c r) = some (r', t') →
      P.eps < r'.energy → t' = target P c r' := by
  intro fuel
  induction fuel with
  | zero => intro r r' t' h; simp [reflectLoop] at h
  | succ fuel ih =>
    intro r r' t' h he
    cases ht : target P c r with
    | none =>
      rw [ht, reflectLoop] at h
      simp only [Option.some.injEq, Prod.mk.injEq] at h
      rw [← h.1, ← h.2, ht]
    | some pn =>
      rw [ht, reflectLoop] at h
      split_ifs at h with h1 h2
      · simp only [Option.some.injEq, Prod.mk.injEq] at h
        rw [← h.1] at he
        simp only [Ray.withEnergy] at he
        linarith
      · exact ih _ _ _ h he
      · simp only [Option.some.injEq, Prod.mk.injEq] at h
        rw [← h.1, ← h.2, ht]

/-- What a step of one ray does. -/
structure Moved (A : Arith) (P : Params ℝ) (r r' : Ray ℝ) : Prop where
  pos : r'.pos = addv A r.pos r'.delta
  energy : P.eps < r'.energy
  inside : leftBox A P r.pos = false
  far : farEnough A P r.pos (target P (cellOf A r.pos P.gridStep) ⟨r.pos, r'.vel, r'.delta, r'.energy⟩) = true

theorem moveRay_ind {Q : Ray ℝ → Prop} (hd : ∀ r, Q r → Q (r.withEnergy 0))
    (hr : ∀ r pn, Q r → P.eps < r.energy → P.eps < A.sub r.energy (P.absorption pn) →
      Q (reflect A P pn (A.sub r.energy (P.absorption pn)) r))
    (hm : ∀ r, Q r → Q ⟨addv A r.pos r.delta, r.vel, r.delta, r.energy⟩)
    {fuel : Nat} {r r' : Ray ℝ} (hq : Q r) (h : moveRay A P fuel r = some r') : Q r' := by
  unfold moveRay at h
  split_ifs at h with h1
  · simp only [Option.some.injEq] at h
    rwa [← h]
  · simp only at h
    split at h
    · simp at h
    · rename_i r2 t h2
      simp only [Option.some.injEq] at h
      have hq1 : Q (checkLeft A P r) := by
        unfold checkLeft
        split_ifs
        · exact hd r hq
        · exact hq
      have hq2 := reflectLoop_ind hd hr _ _ _ _ _ _ hq1 h2
      rw [← h]
      unfold advance
      split_ifs
      · exact hm r2 hq2
      · exact hq2

theorem moveRay_pos (heps : 0 ≤ P.eps) (ha : ∀ k, 0 ≤ P.absorption k) {fuel : Nat} {r r' : Ray ℝ} (hrep : A.rep r.energy)
    (h : moveRay A P fuel r = some r') : r'.pos = r.pos ∨ Moved A P r r' := by
  unfold moveRay at h
  split_ifs at h with h1
  · simp only [Option.some.injEq] at h
    exact Or.inl (by rw [← h])
  · simp only at h
    split at h
    · simp at h
    · rename_i r2 t h2
      simp only [Option.some.injEq] at h
      have hp1 : (checkLeft A P r).pos = r.pos := by unfold checkLeft; split_ifs <;> rfl
      have hrep1 : A.rep (checkLeft A P r).energy := by
        unfold checkLeft
        split_ifs
        · exact A.rep_zero
        · exact hrep
      have hle1 : (checkLeft A P r).energy ≤ P.eps ∨ leftBox A P r.pos = false := by
        unfold checkLeft
        split_ifs with hc
        · exact Or.inl heps
        · right
          have h0 : 0 < r.energy := lt_of_le_of_lt heps (not_le.1 h1)
          simpa [h0] using hc
      have hq2 := reflectLoop_ind (A := A) (P := P) (Q := fun x => x.pos = r.pos ∧ A.rep x.energy ∧
          (P.eps < x.energy → x.energy ≤ (checkLeft A P r).energy))
        (fun x hx => ⟨hx.1, A.rep_zero, fun hc => by
          simp only [Ray.withEnergy] at hc
          linarith⟩)
        (fun x pn hx h1 h2 => ⟨hx.1, A.rep_sub _ _, fun _ => (A.sub_le _ _ hx.2.1 (ha pn)).trans (hx.2.2 h1)⟩)
        _ _ _ _ _ _ ⟨hp1, hrep1, fun _ => le_refl _⟩ h2
      rw [← h]
      unfold advance
      split_ifs with hc
      · right
        simp only [Bool.and_eq_true, decide_eq_true_eq] at hc
        have hb : leftBox A P r.pos = false := by
          rcases hle1 with h3 | h3
          · exact absurd (hc.1.trans_le (hq2.2.2 hc.1)) (not_lt.2 h3)
          · exact h3
        refine ⟨by simp only [hq2.1], hc.1, hb, ?_⟩
        have ht := reflectLoop_target heps _ _ _ _ _ h2 hc.1
        have hc2 := hc.2
        rw [ht, hp1, hq2.1] at hc2
        have er : (⟨r.pos, r2.vel, r2.delta, r2.energy⟩ : Ray ℝ) = r2 := by rw [← hq2.1]
        simp only
        rw [er]
        exact hc2
      · exact Or.inl hq2.1

theorem moveAll_forall {fuel : Nat} : ∀ {rs rs' : List (Ray ℝ)}, moveAll A P fuel rs = some rs' →
    List.Forall₂ (fun r r' => moveRay A P fuel r = some r') rs rs' := by
  intro rs
  induction rs with
  | nil =>
    intro rs' h
    simp only [moveAll, Option.some.injEq] at h
    rw [← h]
    exact .nil
  | cons r rs ih =>
    intro rs' h
    rw [moveAll] at h
    split at h
    · simp at h
    · rename_i r1 h1
      split at h
      · simp at h
      · rename_i l h2
        simp only [Option.some.injEq] at h
        rw [← h]
        exact .cons h1 (ih h2)

/-- One step for each ray: the absorbers may take its energy, then it moves. -/
theorem step_rays {fuel : Nat} {s s' : St ℝ} (h : step A P fuel s = some s') :
    List.Forall₂ (fun r r' => ∃ r1, (r1 = r ∨ P.eps < r.energy ∧ r1 = r.withEnergy 0) ∧ moveRay A P fuel r1 = some r')
      s.rays s'.rays := by
  unfold step at h
  simp only at h
  split at h
  · simp at h
  · rename_i rs h1
    simp only [Option.some.injEq] at h
    rw [← h]
    have a := absorbAll_cases (A := A) (P := P) (s.hits.map fun _ => 0) s.rays
    have b := moveAll_forall h1
    rw [List.forall₂_iff_get] at a b ⊢
    refine ⟨a.1.trans b.1, fun i hi hi' => ?_⟩
    exact ⟨_, a.2 i hi (a.1 ▸ hi), b.2 i (a.1 ▸ hi) hi'⟩

theorem steps_chain {fuel : Nat} : ∀ {n : Nat} {s : St ℝ} {l : List (St ℝ)}, steps A P fuel n s = some l →
    l.length = n + 1 ∧ l[0]? = some s ∧
      ∀ i a b, l[i]? = some a → l[i + 1]? = some b → step A P fuel a = some b := by
  intro n
  induction n with
  | zero =>
    intro s l h
    simp only [steps, Option.some.injEq] at h
    subst h
    refine ⟨rfl, rfl, fun i a b h1 h2 => ?_⟩
    simp at h2
  | succ n ih =>
    intro s l h
    rw [steps] at h
    split at h
    · simp at h
    · rename_i s' h1
      split at h
      · simp at h
      · rename_i l' h2
        simp only [Option.some.injEq] at h
        subst h
        obtain ⟨e1, e2, e3⟩ := ih h2
        refine ⟨by simp [e1], rfl, fun i a b ha hb => ?_⟩
        cases i with
        | zero =>
          simp only [List.getElem?_cons_zero, Option.some.injEq] at ha
          simp only [Nat.zero_add, List.getElem?_cons_succ] at hb
          rw [e2, Option.some.injEq] at hb
          rw [← ha, ← hb]
          exact h1
        | succ i => exact e3 i a b (by simpa using ha) (by simpa using hb)

/-- An invariant of all rays. -/
theorem steps_rays {fuel n : Nat} {s : St ℝ} {l : List (St ℝ)} (h : steps A P fuel n s = some l) {Q : Ray ℝ → Prop}
    (h0 : ∀ r ∈ s.rays, Q r) (hd : ∀ r, Q r → Q (r.withEnergy 0))
    (hr : ∀ r pn, Q r → P.eps < r.energy → P.eps < A.sub r.energy (P.absorption pn) →
      Q (reflect A P pn (A.sub r.energy (P.absorption pn)) r))
    (hm : ∀ r, Q r → Q ⟨addv A r.pos r.delta, r.vel, r.delta, r.energy⟩) :
    ∀ (i : Nat) (a : St ℝ), l[i]? = some a → ∀ r ∈ a.rays, Q r := by
  obtain ⟨e1, e2, e3⟩ := steps_chain h
  intro i
  induction i with
  | zero =>
    intro a ha
    rw [e2, Option.some.injEq] at ha
    rw [← ha]
    exact h0
  | succ i ih =>
    intro b hb r' hr'
    have hi : i < l.length := by
      have := (List.getElem?_eq_some_iff.1 hb).1
      omega
    obtain ⟨a, ha⟩ : ∃ a, l[i]? = some a := ⟨_, List.getElem?_eq_getElem hi⟩
    have hst := step_rays (e3 i a b ha hb)
    rw [List.forall₂_iff_get] at hst
    obtain ⟨j, hj, rfl⟩ := List.getElem_of_mem hr'
    obtain ⟨r1, h1, h2⟩ := hst.2 j (by rw [hst.1]; exact hj) hj
    have hq : Q (a.rays.get ⟨j, by rw [hst.1]; exact hj⟩) := ih a ha _ (List.get_mem _ _)
    refine moveRay_ind hd hr hm ?_ h2
    rcases h1 with h1 | ⟨_, h1⟩
    · rw [h1]; exact hq
    · rw [h1]; exact hd _ hq

/-! ### Speed -/

/-- Powers of the factor of one reflection. -/
theorem pow_bounds {k : ℕ} (hk : (k : ℝ) ≤ 2 * 10 ^ 6) :
    1 - 1 / 10 ^ 6 / 2 ≤ (1 - 2 / 10 ^ 13 : ℝ) ^ k ∧ (1 + 2 / 10 ^ 13 : ℝ) ^ k ≤ 1 + 1 / 10 ^ 6 / 2 := by
  have h1 := one_add_mul_le_pow (a := (-(2 / 10 ^ 13) : ℝ)) (by norm_num) k
  rw [← sub_eq_add_neg] at h1
  have h2 : 1 - 4 / 10 ^ 7 ≤ (1 - 2 / 10 ^ 13 : ℝ) ^ k := by
    have hk' : (k : ℝ) ≤ 2000000 := hk.trans (by norm_num)
    norm_num at h1 ⊢
    linarith
  refine ⟨by norm_num at h2 ⊢; linarith, ?_⟩
  have h3 : (1 + 2 / 10 ^ 13 : ℝ) ^ k * (1 - 2 / 10 ^ 13 : ℝ) ^ k ≤ 1 := by
    rw [← mul_pow]
    exact pow_le_one₀ (by norm_num) (by norm_num)
  have h4 : 0 ≤ (1 + 2 / 10 ^ 13 : ℝ) ^ k := by positivity
  by_contra hc
  push Not at hc
  have : (1 + 1 / 10 ^ 6 / 2) * (1 - 4 / 10 ^ 7) < (1 + 2 / 10 ^ 13 : ℝ) ^ k * (1 - 2 / 10 ^ 13 : ℝ) ^ k :=
    mul_lt_mul hc h2 (by norm_num) h4
  norm_num at this h3
  linarith

/-- A ray with `k` reflections behind it. -/
structure Inv (A : Arith) (P : Params ℝ) (r : Ray ℝ) : Prop where
  rep : A.rep r.energy
  nonneg : 0 ≤ r.energy
  delta : r.delta = mulv A P.timeStep r.vel
  speed : ∃ k : ℕ, k * (5 / 10 ^ 7) + r.energy ≤ 1 ∧
    (1 - 2 / 10 ^ 13) ^ k * ((1 - 1 / 10 ^ 6) * P.raySpeed) ≤ Vec3.norm r.vel ∧
    Vec3.norm r.vel ≤ (1 + 2 / 10 ^ 13) ^ k * ((1 + 1 / 10 ^ 6) * P.raySpeed)

theorem sub_energy {e a : ℝ} (he : e ≤ 1) (ha : 1 / 10 ^ 6 ≤ a) (hs : 0 < A.sub e a) :
    A.sub e a + 5 / 10 ^ 7 ≤ e := by
  have h := abs_le.1 (A.sub_err e a)
  rcases le_total 0 (e - a) with h0 | h0
  · rw [abs_of_nonneg h0] at h
    norm_num at h ha ⊢
    linarith [h.2]
  · rw [abs_of_nonpos h0] at h
    norm_num at h
    linarith [h.2]

theorem Inv.energy_le {r : Ray ℝ} (h : Inv A P r) : r.energy ≤ 1 := by
  obtain ⟨k, h1, _⟩ := h.speed
  have : (0 : ℝ) ≤ k * (5 / 10 ^ 7) := by positivity
  linarith

theorem Inv.dead {r : Ray ℝ} (h : Inv A P r) : Inv A P (r.withEnergy 0) := by
  obtain ⟨k, h1, h2⟩ := h.speed
  exact ⟨A.rep_zero, le_refl _, h.delta, k, by have := h.nonneg; simp only [Ray.withEnergy]; linarith, h2⟩

theorem Inv.reflect (heps : 0 ≤ P.eps) (ha : ∀ k, 1 / 10 ^ 6 ≤ P.absorption k)
    (hn : ∀ k, |Vec3.norm (P.geo.vn k) - 1| ≤ 2 / 10 ^ 14) {r : Ray ℝ} {pn : Nat} (h : Inv A P r)
    (h2 : P.eps < A.sub r.energy (P.absorption pn)) :
    Inv A P (reflect A P pn (A.sub r.energy (P.absorption pn)) r) := by
  obtain ⟨k, k1, k2, k3⟩ := h.speed
  have hr := ((reflect_rel A r.vel (hn pn)).1.le (Vec3.norm_nonneg _))
  refine ⟨A.rep_sub _ _, (lt_of_le_of_lt heps h2).le, rfl, k + 1, ?_, ?_, ?_⟩
  · have := sub_energy h.energy_le (ha pn) (lt_of_le_of_lt heps h2)
    simp only [SimRounded.reflect]
    push_cast
    linarith
  · refine le_trans ?_ hr.1
    rw [pow_succ (1 - 2 / 10 ^ 13 : ℝ) k, mul_right_comm, mul_comm _ (1 - 2 / 10 ^ 13 : ℝ)]
    exact mul_le_mul_of_nonneg_left k2 (by norm_num)
  · refine le_trans hr.2 ?_
    rw [pow_succ (1 + 2 / 10 ^ 13 : ℝ) k, mul_right_comm, mul_comm _ (1 + 2 / 10 ^ 13 : ℝ)]
    exact mul_le_mul_of_nonneg_left k3 (by norm_num)

theorem Inv.near {r : Ray ℝ} (hs : 0 ≤ P.raySpeed) (h : Inv A P r) :
    |Vec3.norm r.vel - P.raySpeed| ≤ 2 / 10 ^ 6 * P.raySpeed := by
  obtain ⟨k, k1, k2, k3⟩ := h.speed
  have hk : (k : ℝ) ≤ 2 * 10 ^ 6 := by
    have := h.nonneg
    linarith
  obtain ⟨b1, b2⟩ := pow_bounds hk
  have c1 := mul_le_mul_of_nonneg_right b1 (by positivity : 0 ≤ (1 - 1 / 10 ^ 6) * P.raySpeed)
  have c2 := mul_le_mul_of_nonneg_right b2 (by positivity : 0 ≤ (1 + 1 / 10 ^ 6) * P.raySpeed)
  rw [abs_le]
  norm_num at c1 c2 k2 k3 ⊢
  constructor <;> linarith

/-! ### Steps -/

theorem inBox {B : ℝ} (hlo : |P.lo.x| ≤ B ∧ |P.lo.y| ≤ B ∧ |P.lo.z| ≤ B) (hhi : |P.hi.x| ≤ B ∧ |P.hi.y| ≤ B ∧ |P.hi.z| ≤ B)
    (heps : 0 ≤ P.eps) (hB : P.eps ≤ B) {p : Vec3 ℝ} (h : leftBox A P p = false) : Vec3.norm p ≤ 6 * B := by
  have hB0 : 0 ≤ B := heps.trans hB
  have key : ∀ l u x : ℝ, |l| ≤ B → |u| ≤ B → A.sub l P.eps ≤ x → x ≤ A.add u P.eps → |x| ≤ 3 * B := by
    intro l u x hl hu h1 h2
    have a1 := (abs_le.1 (A.sub_err l P.eps)).1
    have a2 := (abs_le.1 (A.add_err u P.eps)).2
    have b1 : |l - P.eps| ≤ 2 * B := by
      have := abs_sub l P.eps
      rw [abs_of_nonneg heps] at this
      linarith
    have b2 : |u + P.eps| ≤ 2 * B := by
      have := abs_add_le u P.eps
      rw [abs_of_nonneg heps] at this
      linarith
    have c1 := (abs_le.1 hl).1
    have c2 := (abs_le.1 hu).2
    rw [abs_le]
    norm_num at a1 a2
    constructor <;> linarith
  simp only [leftBox, Bool.or_eq_false_iff, decide_eq_false_iff_not, not_lt] at h
  obtain ⟨⟨⟨⟨⟨h1, h2⟩, h3⟩, h4⟩, h5⟩, h6⟩ := h
  have := Vec3.norm_le_two (key _ _ _ hlo.1 hhi.1 h1 h4) (key _ _ _ hlo.2.1 hhi.2.1 h2 h5)
    (key _ _ _ hlo.2.2 hhi.2.2 h3 h6)
  linarith

theorem moved_dist {B : ℝ} (hs : 0 ≤ P.raySpeed) (ht : 0 ≤ P.timeStep)
    (hlo : |P.lo.x| ≤ B ∧ |P.lo.y| ≤ B ∧ |P.lo.z| ≤ B) (hhi : |P.hi.x| ≤ B ∧ |P.hi.y| ≤ B ∧ |P.hi.z| ≤ B)
    (heps : 0 ≤ P.eps) (hB : P.eps ≤ B) (hBs : B ≤ 10 ^ 9 * (P.raySpeed * P.timeStep)) {r r' : Ray ℝ}
    (hi : Inv A P r') (hm : Moved A P r r') :
    |Vec3.norm (r'.pos - r.pos) - P.raySpeed * P.timeStep| ≤ 1 / 10 ^ 5 * (P.raySpeed * P.timeStep) := by
  have h1 := inBox hlo hhi heps hB hm.inside
  have h2 := ((mulv_rel A P.timeStep r'.vel).norm (by norm_num)).le (Vec3.norm_nonneg _)
  rw [← hi.delta, Vec3.norm_smul, abs_of_nonneg ht] at h2
  have h3 := abs_le.1 (hi.near hs)
  have h4 := RelV.dist (addv_rel A r.pos r'.delta)
  rw [← hm.pos] at h4
  have h5 := Vec3.norm_add_le r.pos r'.delta
  have e1 : r'.pos - r.pos = r'.delta + (r'.pos - (r.pos + r'.delta)) := by ext <;> simp <;> ring
  have h6 := Vec3.norm_add_le r'.delta (r'.pos - (r.pos + r'.delta))
  rw [← e1] at h6
  have e2 : r'.delta = (r'.pos - r.pos) - (r'.pos - (r.pos + r'.delta)) := by ext <;> simp
  have h7 := Vec3.norm_sub_le (r'.pos - r.pos) (r'.pos - (r.pos + r'.delta))
  rw [← e2] at h7
  obtain ⟨D, hD⟩ : ∃ D, D = P.raySpeed * P.timeStep := ⟨_, rfl⟩
  have t1 : P.timeStep * Vec3.norm r'.vel ≤ (1 + 2 / 10 ^ 6) * D := by
    rw [hD]
    have := mul_le_mul_of_nonneg_left (by linarith [h3.2] : Vec3.norm r'.vel ≤ (1 + 2 / 10 ^ 6) * P.raySpeed) ht
    linarith
  have t2 : (1 - 2 / 10 ^ 6) * D ≤ P.timeStep * Vec3.norm r'.vel := by
    rw [hD]
    have := mul_le_mul_of_nonneg_left (by linarith [h3.1] : (1 - 2 / 10 ^ 6) * P.raySpeed ≤ Vec3.norm r'.vel) ht
    linarith
  have hD0 : 0 ≤ D := by rw [hD]; positivity
  rw [← hD] at hBs ⊢
  have hd0 := Vec3.norm_nonneg r'.delta
  rw [abs_le]
  norm_num at t1 t2 h2 h4 hBs ⊢
  constructor <;> linarith [h2.1, h2.2]

theorem reflDist_ge (hs : 0 ≤ P.raySpeed) (ht : 0 ≤ P.timeStep) :
    1009 / 1000 * (P.raySpeed * P.timeStep) ≤ reflDist A P := by
  unfold reflDist
  have h1 := ((mul_rel A.toArith P.raySpeed P.timeStep).le (by positivity)).1
  have h2 := ((lit_rel A.toArith (101 / 100)).le (by norm_num)).1
  obtain ⟨D, hD⟩ : ∃ D, D = P.raySpeed * P.timeStep := ⟨_, rfl⟩
  have hD0 : 0 ≤ D := by rw [hD]; positivity
  rw [← hD] at h1 ⊢
  have h3 : (1 - 1 / 10 ^ 15) * D * ((1 - 1 / 10 ^ 15) * (101 / 100)) ≤ A.mul P.raySpeed P.timeStep * A.lit (101 / 100) := by
    refine mul_le_mul h1 h2 (by norm_num) ?_
    refine le_trans ?_ h1
    exact mul_nonneg (by norm_num) hD0
  have h0 : 0 ≤ A.mul P.raySpeed P.timeStep * A.lit (101 / 100) := by
    refine le_trans ?_ h3
    exact mul_nonneg (mul_nonneg (by norm_num) hD0) (by norm_num)
  have h4 := ((mul_rel A.toArith (A.mul P.raySpeed P.timeStep) (A.lit (101 / 100))).le h0).1
  norm_num at h3 h4 ⊢
  linarith

/-! ### Termination -/

theorem reflectLoop_some (heps : 0 ≤ P.eps) (ha : ∀ k, 1 / 10 ^ 6 ≤ P.absorption k) (c : Cell) :
    ∀ (k : ℕ) (r : Ray ℝ) (t : Option Nat), r.energy ≤ 1 → r.energy ≤ k * (5 / 10 ^ 7) →
      ∃ x, reflectLoop A P c (k + 1) r t = some x := by
  intro k
  induction k with
  | zero =>
    intro r t h1 h2
    cases t with
    | none => exact ⟨_, by rw [reflectLoop]⟩
    | some pn =>
      rw [reflectLoop, if_neg]
      · exact ⟨_, rfl⟩
      · rintro ⟨_, h⟩
        simp at h2
        linarith
  | succ k ih =>
    intro r t h1 h2
    cases t with
    | none => exact ⟨_, by rw [reflectLoop]⟩
    | some pn =>
      rw [reflectLoop]
      split_ifs with h3 h4
      · exact ⟨_, rfl⟩
      · have h5 := sub_energy (A := A) h1 (ha pn) (lt_of_le_of_lt heps (not_le.1 h4))
        refine ih _ _ ?_ ?_
        · simp only [reflect]
          linarith
        · simp only [reflect]
          push_cast at h2
          linarith
      · exact ⟨_, rfl⟩

theorem moveRay_some (heps : 0 ≤ P.eps) (ha : ∀ k, 1 / 10 ^ 6 ≤ P.absorption k) {r : Ray ℝ} (h1 : r.energy ≤ 1) :
    ∃ r', moveRay A P (2 * 10 ^ 6 + 1) r = some r' := by
  unfold moveRay
  split_ifs
  · exact ⟨_, rfl⟩
  · have hc : (checkLeft A P r).energy ≤ 1 := by
      unfold checkLeft
      split_ifs
      · simp [Ray.withEnergy]
      · exact h1
    obtain ⟨x, hx⟩ := reflectLoop_some (A := A) heps ha (cellOf A (checkLeft A P r).pos P.gridStep) (2 * 10 ^ 6)
      (checkLeft A P r) (target P (cellOf A (checkLeft A P r).pos P.gridStep) (checkLeft A P r)) hc
      (hc.trans (by norm_num))
    simp only [hx]
    exact ⟨_, rfl⟩

theorem moveAll_some (heps : 0 ≤ P.eps) (ha : ∀ k, 1 / 10 ^ 6 ≤ P.absorption k) : ∀ {rs : List (Ray ℝ)},
    (∀ r ∈ rs, r.energy ≤ 1) → ∃ rs', moveAll A P (2 * 10 ^ 6 + 1) rs = some rs' := by
  intro rs
  induction rs with
  | nil => intro _; exact ⟨_, rfl⟩
  | cons r rs ih =>
    intro h
    obtain ⟨r', h1⟩ := moveRay_some (A := A) heps ha (h r (List.mem_cons_self ..))
    obtain ⟨rs', h2⟩ := ih (fun x hx => h x (List.mem_cons_of_mem _ hx))
    exact ⟨_, by rw [moveAll, h1, h2]⟩

theorem step_some (heps : 0 ≤ P.eps) (ha : ∀ k, 1 / 10 ^ 6 ≤ P.absorption k) {s : St ℝ}
    (h : ∀ r ∈ s.rays, r.energy ≤ 1) : ∃ s', step A P (2 * 10 ^ 6 + 1) s = some s' := by
  unfold step
  have h1 : ∀ r ∈ (absorbAll A P (s.hits.map fun _ => 0) s.rays).2, r.energy ≤ 1 := by
    have a := absorbAll_cases (A := A) (P := P) (s.hits.map fun _ => 0) s.rays
    rw [List.forall₂_iff_get] at a
    intro r hr
    obtain ⟨i, hi, rfl⟩ := List.getElem_of_mem hr
    have hb := h _ (List.get_mem s.rays ⟨i, by rw [a.1]; exact hi⟩)
    rcases a.2 i (by rw [a.1]; exact hi) hi with h2 | ⟨_, h2⟩
    · simp only [List.get_eq_getElem] at h2 hb
      rw [h2]
      exact hb
    · simp only [List.get_eq_getElem] at h2
      rw [h2]
      simp [Ray.withEnergy]
  obtain ⟨rs, h2⟩ := moveAll_some (A := A) heps ha h1
  simp only [h2]
  exact ⟨_, rfl⟩

end B3d.SimRounded
