import Verif.Props.SimRoundedRun

/-!
# Property C131: what the absorbers record, with rounded arithmetic

The energies that an absorber records are added up one after the other, with one rounding for every ray.
-/

namespace B3d.SimRounded

open Sim Rounded Spec

variable {A : Arith} {P : Params ℝ}

/-- One rounded addition of numbers that are not negative. -/
theorem add_bounds {x y : ℝ} (hx : 0 ≤ x) (hy : 0 ≤ y) :
    (1 - 1 / 10 ^ 15) * (x + y) ≤ A.add x y ∧ A.add x y ≤ (1 + 1 / 10 ^ 15) * (x + y) :=
  (add_rel A.toArith x y).le (add_nonneg hx hy)

theorem add_nonneg' {x y : ℝ} (hx : 0 ≤ x) (hy : 0 ≤ y) : 0 ≤ A.add x y :=
  le_trans (mul_nonneg (by norm_num) (add_nonneg hx hy)) (add_bounds hx hy).1

/-! ### Sums -/

/-- One ray: nothing that is recorded is negative, and the sum of the records grows by what the ray hands over. -/
theorem absorbLoop_sum (sq : ℝ) (pos : Vec3 ℝ) : ∀ (as : List (Vec3 ℝ)) (hs : List ℝ) (e : ℝ), (∀ x ∈ hs, 0 ≤ x) → 0 ≤ e →
    (∀ x ∈ (absorbLoop A sq pos as hs e).1, 0 ≤ x) ∧
    (absorbLoop A sq pos as hs e).1.sum ≤ (1 + 1 / 10 ^ 15) * (hs.sum + (e - (absorbLoop A sq pos as hs e).2)) := by
  intro as
  induction as with
  | nil =>
    intro hs e h he
    have := List.sum_nonneg h
    simp only [absorbLoop, sub_self, add_zero]
    exact ⟨h, by linarith⟩
  | cons a as ih =>
    intro hs e h he
    cases hs with
    | nil => simp [absorbLoop]
    | cons x hs =>
      have hx := h x (List.mem_cons_self ..)
      have hh : ∀ y ∈ hs, 0 ≤ y := fun y hy => h y (List.mem_cons_of_mem _ hy)
      rw [absorbLoop]
      split_ifs
      · obtain ⟨i1, i2⟩ := ih hs 0 hh le_rfl
        refine ⟨?_, ?_⟩
        · intro y hy
          rcases List.mem_cons.1 hy with rfl | hy
          · exact add_nonneg' hx he
          · exact i1 y hy
        · have := (add_bounds (A := A) hx he).2
          simp only [List.sum_cons]
          linarith
      · obtain ⟨i1, i2⟩ := ih hs e hh he
        refine ⟨?_, ?_⟩
        · intro y hy
          rcases List.mem_cons.1 hy with rfl | hy
          · exact hx
          · exact i1 y hy
        · simp only [List.sum_cons]
          linarith

theorem absorbAll_sum : ∀ (rs : List (Ray ℝ)) (hs : List ℝ), (∀ x ∈ hs, 0 ≤ x) → (∀ r ∈ rs, 0 ≤ r.energy) →
    (∀ x ∈ (absorbAll A P hs rs).1, 0 ≤ x) ∧
    ((absorbAll A P hs rs).2.map Ray.energy).sum ≤ (rs.map Ray.energy).sum ∧
    (absorbAll A P hs rs).1.sum ≤ (1 + 1 / 10 ^ 15) ^ rs.length *
      (hs.sum + ((rs.map Ray.energy).sum - ((absorbAll A P hs rs).2.map Ray.energy).sum)) := by
  intro rs
  induction rs with
  | nil => intro hs h _; simpa [absorbAll] using h
  | cons r rs ih =>
    intro hs h hr
    have he := hr r (List.mem_cons_self ..)
    have one : (∀ x ∈ (absorbRay A P hs r).1, 0 ≤ x) ∧ (absorbRay A P hs r).2.energy ≤ r.energy ∧
        (absorbRay A P hs r).1.sum ≤ (1 + 1 / 10 ^ 15) * (hs.sum + (r.energy - (absorbRay A P hs r).2.energy)) := by
      have hle : (absorbRay A P hs r).2.energy ≤ r.energy := by
        rcases absorbRay_cases (A := A) (P := P) hs r with h1 | ⟨-, h1⟩ <;> rw [h1]
        exact he
      unfold absorbRay at hle ⊢
      split_ifs at hle ⊢
      · have := List.sum_nonneg h
        exact ⟨h, le_rfl, by simp only [sub_self, add_zero]; linarith⟩
      · obtain ⟨i1, i2⟩ := absorbLoop_sum (A := A) (A.mul P.absorberRadius P.absorberRadius) r.pos P.absorbers hs r.energy h he
        exact ⟨i1, hle, i2⟩
    obtain ⟨o1, o2, o3⟩ := one
    obtain ⟨i1, i2, i3⟩ := ih (absorbRay A P hs r).1 o1 (fun x hx => hr x (List.mem_cons_of_mem _ hx))
    rw [absorbAll]
    simp only [List.map_cons, List.sum_cons, List.length_cons]
    refine ⟨i1, by linarith, i3.trans ?_⟩
    rw [pow_succ (1 + 1 / 10 ^ 15 : ℝ) rs.length, mul_assoc]
    refine mul_le_mul_of_nonneg_left ?_ (by positivity)
    linarith

theorem forall₂_sum_le {l l' : List (Ray ℝ)} (h : List.Forall₂ (fun r r' : Ray ℝ => r'.energy ≤ r.energy) l l') :
    (l'.map Ray.energy).sum ≤ (l.map Ray.energy).sum := by
  induction h with
  | nil => simp
  | cons h1 _ ih => simp only [List.map_cons, List.sum_cons]; linarith

/-- One step: what is recorded, and what is left after it. -/
theorem step_sum (heps : 0 ≤ P.eps) (ha : ∀ k, 0 ≤ P.absorption k) {fuel : Nat} {s s' : St ℝ}
    (hr : ∀ r ∈ s.rays, A.rep r.energy ∧ 0 ≤ r.energy) (h : step A P fuel s = some s') :
    (∀ x ∈ s'.hits, 0 ≤ x) ∧
    s'.hits.sum + (1 + 1 / 10 ^ 15) ^ s.rays.length * (s'.rays.map Ray.energy).sum ≤
      (1 + 1 / 10 ^ 15) ^ s.rays.length * (s.rays.map Ray.energy).sum := by
  unfold step at h
  simp only at h
  split at h
  · simp at h
  · rename_i rs h1
    simp only [Option.some.injEq] at h
    rw [← h]
    obtain ⟨i1, i2, i3⟩ := absorbAll_sum (A := A) (P := P) s.rays (s.hits.map fun _ => 0)
      (by intro x hx; simp only [List.mem_map] at hx; obtain ⟨_, _, rfl⟩ := hx; exact le_rfl) (fun r hx => (hr r hx).2)
    refine ⟨i1, ?_⟩
    have hz : (s.hits.map fun _ => (0 : ℝ)).sum = 0 := by simp
    rw [hz, zero_add] at i3
    have hmem : ∀ r ∈ (absorbAll A P (s.hits.map fun _ => 0) s.rays).2, A.rep r.energy ∧ 0 ≤ r.energy := by
      have hc := absorbAll_cases (A := A) (P := P) (s.hits.map fun _ => 0) s.rays
      intro r hx
      obtain ⟨k, hk⟩ := List.getElem?_of_mem hx
      have hk' := (List.getElem?_eq_some_iff.1 hk).1
      have hy : s.rays[k]? = some (s.rays[k]'(by rw [hc.length_eq]; exact hk')) := List.getElem?_eq_getElem _
      have hq := hr _ (List.mem_of_getElem? hy)
      rcases forall₂_getElem? hc hy hk with h2 | ⟨-, h2⟩ <;> rw [h2]
      · exact hq
      · exact ⟨A.rep_zero, le_rfl⟩
    have hmove := moveAll_forall h1
    have hle : (rs.map Ray.energy).sum ≤ ((absorbAll A P (s.hits.map fun _ => 0) s.rays).2.map Ray.energy).sum := by
      refine forall₂_sum_le ?_
      rw [List.forall₂_iff_get] at hmove ⊢
      refine ⟨hmove.1, fun i hi hi' => ?_⟩
      obtain ⟨q1, q2⟩ := hmem _ (List.get_mem _ ⟨i, hi⟩)
      exact (energy_step heps ha q1 q2 ⟨_, .inl rfl, hmove.2 i hi hi'⟩).2.2
    have hp : (0 : ℝ) ≤ (1 + 1 / 10 ^ 15) ^ s.rays.length := by positivity
    have := mul_le_mul_of_nonneg_left hle hp
    simp only
    linarith

/-- **C131, the balance.**  With rounded arithmetic, all that the absorbers record in the steps up to any step, together with
what the rays have left there, is not more than one for each of the `N` rays, up to the factor `(1 + 1e-15) ^ N` (for a million
rays that is one part in 10^9); and no record is negative. -/
theorem C131_total (hP : Ordinary P) (hs : 0 < P.raySpeed) (ht : 0 < P.timeStep) {B b : Nat} (hB : 0 < B) (hb : 0 < b)
    (hsize : SizeForBatches P b) {source : Vec3 ℝ} (hsrc : RepV A source) {raw : List (Vec3 ℝ)} (hraw : ∀ d ∈ raw, d ≠ 0)
    {ws : List (Nat × Row ℝ)} (h : simulationRun A P (2 * 10 ^ 6 + 1) B b source raw = some ws) :
    ∀ (m : Nat) (r : Row ℝ), fileOf ws m = some r → (∀ x ∈ r.hits, 0 ≤ x) ∧
      ((List.range (m + 1)).map fun n => ((fileOf ws n).map fun q => q.hits.sum).getD 0).sum + r.energy.sum ≤
        (1 + 1 / 10 ^ 15) ^ raw.length * raw.length := by
  obtain ⟨L, ws', hlo, hhi, hL, hLs, hrun, f0, f2, f1⟩ := run_files (A := A) hP hs ht hB hb hsize hsrc hraw
  obtain rfl : ws = ws' := Option.some.inj (h.symm.trans hrun)
  have hE := C131_energy hP hs ht hB hb hsize hsrc hraw h
  have hC1 : (1 : ℝ) ≤ (1 + 1 / 10 ^ 15) ^ raw.length := one_le_pow₀ (by norm_num)
  obtain ⟨C, hC⟩ : ∃ C : ℝ, C = (1 + 1 / 10 ^ 15) ^ raw.length := ⟨_, rfl⟩
  rw [← hC] at hC1 ⊢
  have key : ∀ (m : Nat) (r : Row ℝ), fileOf ws m = some r → (∀ x ∈ r.hits, 0 ≤ x) ∧
      ((List.range (m + 1)).map fun n => ((fileOf ws n).map fun q => q.hits.sum).getD 0).sum + C * r.energy.sum ≤
        C * raw.length := by
    intro m
    induction m with
    | zero =>
      intro r hr
      rw [f0, Option.some.injEq] at hr
      subst hr
      refine ⟨by simp, ?_⟩
      simp [f0]
    | succ m ih =>
      intro r hr
      have hnb : m < b * B := by
        by_contra hcc
        rw [f2 (m + 1) (by omega)] at hr
        cases hr
      obtain ⟨u, a0, l, j, s, s', hu0, hu, g0, hl, h1, h2, k1, k2⟩ := f1 m hnb
      obtain rfl := Option.some.inj (hr.symm.trans k2)
      have hinv := invB_states hP g0 hl j s h1
      have ha : ∀ k, 0 ≤ P.absorption k := fun k => le_trans (by norm_num) (hP.absorption k)
      obtain ⟨q1, q2⟩ := step_sum hP.eps ha (fun x hx => ⟨(hinv x hx).rep, (hinv x hx).nonneg⟩)
        ((steps_chain hl).2.2 j s s' h1 h2)
      rw [(states_shape g0 hl j s h1).1, ← hC] at q2
      have i2 := (ih _ k1).2
      refine ⟨q1, ?_⟩
      rw [List.range_succ, List.map_append, List.sum_append]
      simp only [List.map_cons, List.map_nil, List.sum_cons, List.sum_nil, k2, Option.map_some, Option.getD_some, add_zero]
      simp only [rowOf] at i2 ⊢
      linarith
  intro m r hr
  obtain ⟨k1, k2⟩ := key m r hr
  have h0 : 0 ≤ r.energy.sum := List.sum_nonneg fun e he => (hE m r hr e he).1
  exact ⟨k1, by nlinarith⟩

/-! ### Every absorber -/

/-- The test whether an absorber contains a position, with rounded arithmetic. -/
def InAbsorber (A : Arith) (P : Params ℝ) (c p : Vec3 ℝ) : Prop := sqDist A p c < A.mul P.absorberRadius P.absorberRadius

open Classical in
/-- One ray and one absorber. -/
theorem absorbLoop_one (sq : ℝ) (pos : Vec3 ℝ) : ∀ (m : Nat) (as : List (Vec3 ℝ)) (hs : List ℝ) (e x : ℝ),
    as.length = hs.length → hs[m]? = some x → 0 ≤ x → 0 ≤ e →
    ∃ y, (absorbLoop A sq pos as hs e).1[m]? = some y ∧
      (1 - 1 / 10 ^ 15) * (x + if as.findIdx? (fun c => sqDist A pos c < sq) = some m then e else 0) ≤ y ∧
      y ≤ (1 + 1 / 10 ^ 15) * (x + if as.findIdx? (fun c => sqDist A pos c < sq) = some m then e else 0) := by
  intro m as
  induction as generalizing m with
  | nil =>
    intro hs e x hl hx
    rw [List.length_nil, eq_comm, List.length_eq_zero_iff] at hl
    subst hl
    simp at hx
  | cons a as ih =>
    intro hs e x hl hx h0 he
    cases hs with
    | nil => simp at hx
    | cons z hs =>
      have hl' : as.length = hs.length := by simpa using hl
      rw [absorbLoop, List.findIdx?_cons]
      by_cases hin : sqDist A pos a < sq
      · rw [if_pos hin]
        simp only [hin, decide_true, if_true, Option.some.injEq]
        cases m with
        | zero =>
          simp only [List.getElem?_cons_zero, Option.some.injEq] at hx
          subst hx
          exact ⟨_, rfl, by simpa using add_bounds (A := A) h0 he⟩
        | succ m =>
          obtain ⟨y, y1, y2, y3⟩ := ih m hs 0 x hl' (by simpa using hx) h0 le_rfl
          simp only [ite_self] at y2 y3
          exact ⟨y, by simpa using y1, by simpa using y2, by simpa using y3⟩
      · rw [if_neg hin]
        simp only [hin, decide_false, Bool.false_eq_true, if_false, Option.map_eq_some_iff]
        cases m with
        | zero =>
          simp only [List.getElem?_cons_zero, Option.some.injEq] at hx
          subst hx
          refine ⟨z, rfl, ?_⟩
          rw [if_neg (by rintro ⟨a, -, h⟩; omega)]
          constructor <;> linarith
        | succ m =>
          obtain ⟨y, y1, y2, y3⟩ := ih m hs e x hl' (by simpa using hx) h0 he
          refine ⟨y, by simpa using y1, ?_⟩
          have e1 : (∃ i, as.findIdx? (fun c => sqDist A pos c < sq) = some i ∧ i + 1 = m + 1) ↔
              as.findIdx? (fun c => sqDist A pos c < sq) = some m := by
            constructor
            · rintro ⟨i, h1, h2⟩
              obtain rfl : i = m := by omega
              exact h1
            · intro h1; exact ⟨m, h1, rfl⟩
          simp only [e1]
          exact ⟨y2, y3⟩

open Classical in
/-- All rays and one absorber. -/
theorem absorbAll_one (m : Nat) : ∀ (rs : List (Ray ℝ)) (hs : List ℝ) (x : ℝ),
    P.absorbers.length = hs.length → hs[m]? = some x → 0 ≤ x → (∀ r ∈ rs, 0 ≤ r.energy) →
    ∃ y, (absorbAll A P hs rs).1[m]? = some y ∧
      (1 - 1 / 10 ^ 15) ^ rs.length * (x + (rs.map fun r => if P.eps < r.energy ∧
        P.absorbers.findIdx? (fun c => InAbsorber A P c r.pos) = some m then r.energy else 0).sum) ≤ y ∧
      y ≤ (1 + 1 / 10 ^ 15) ^ rs.length * (x + (rs.map fun r => if P.eps < r.energy ∧
        P.absorbers.findIdx? (fun c => InAbsorber A P c r.pos) = some m then r.energy else 0).sum) := by
  intro rs
  induction rs with
  | nil => intro hs x _ hx _ _; exact ⟨x, by simpa [absorbAll] using hx, by simp, by simp⟩
  | cons r rs ih =>
    intro hs x hl hx h0 hr
    have he := hr r (List.mem_cons_self ..)
    have one : ∃ z, (absorbRay A P hs r).1[m]? = some z ∧
        (1 - 1 / 10 ^ 15) * (x + if P.eps < r.energy ∧ P.absorbers.findIdx? (fun c => InAbsorber A P c r.pos) = some m
          then r.energy else 0) ≤ z ∧
        z ≤ (1 + 1 / 10 ^ 15) * (x + if P.eps < r.energy ∧ P.absorbers.findIdx? (fun c => InAbsorber A P c r.pos) = some m
          then r.energy else 0) := by
      unfold absorbRay
      by_cases hd : r.energy ≤ P.eps
      · rw [if_pos hd, if_neg (fun hh => absurd hh.1 (not_lt.2 hd))]
        exact ⟨x, hx, by linarith, by linarith⟩
      · rw [if_neg hd]
        obtain ⟨y, y1, y2, y3⟩ := absorbLoop_one (A := A) (A.mul P.absorberRadius P.absorberRadius) r.pos m P.absorbers hs r.energy x
          hl hx h0 he
        refine ⟨y, y1, ?_⟩
        simp only [not_le.1 hd, true_and]
        exact ⟨y2, y3⟩
    obtain ⟨z, z1, z2, z3⟩ := one
    obtain ⟨S, hS⟩ : ∃ S, S = if P.eps < r.energy ∧ P.absorbers.findIdx? (fun c => InAbsorber A P c r.pos) = some m
      then r.energy else 0 := ⟨_, rfl⟩
    have hS0 : 0 ≤ S := by rw [hS]; split_ifs <;> [exact he; exact le_rfl]
    rw [← hS] at z2 z3
    have hz0 : 0 ≤ z := le_trans (mul_nonneg (by norm_num) (by linarith)) z2
    obtain ⟨y, y1, y2, y3⟩ := ih (absorbRay A P hs r).1 z (by
      rw [hl]
      unfold absorbRay
      split_ifs
      · rfl
      · exact (absorbLoop_length _ _ _ _ _).symm) z1 hz0 (fun q hq => hr q (List.mem_cons_of_mem _ hq))
    refine ⟨y, by rw [absorbAll]; exact y1, ?_⟩
    simp only [List.map_cons, List.sum_cons, List.length_cons, ← hS]
    have hT : 0 ≤ (rs.map fun r => if P.eps < r.energy ∧
        P.absorbers.findIdx? (fun c => InAbsorber A P c r.pos) = some m then r.energy else 0).sum := by
      refine List.sum_nonneg fun q hq => ?_
      simp only [List.mem_map] at hq
      obtain ⟨w, hw, rfl⟩ := hq
      split_ifs
      · exact hr w (List.mem_cons_of_mem _ hw)
      · exact le_rfl
    generalize (rs.map fun r => if P.eps < r.energy ∧
        P.absorbers.findIdx? (fun c => InAbsorber A P c r.pos) = some m then r.energy else 0).sum = T at *
    constructor
    · refine le_trans ?_ y2
      rw [pow_succ, mul_assoc]
      refine mul_le_mul_of_nonneg_left ?_ (pow_nonneg (by norm_num) _)
      linarith
    · refine y3.trans ?_
      rw [pow_succ (1 + 1 / 10 ^ 15 : ℝ) rs.length, mul_assoc]
      refine mul_le_mul_of_nonneg_left ?_ (by positivity)
      linarith

open Classical in
/-- **C131, what an absorber records.**  With rounded arithmetic, every absorber records in a step what the rays that it is the
first absorber of had one step before, up to one rounding for each ray. -/
theorem C131_hits (hP : Ordinary P) (hs : 0 < P.raySpeed) (ht : 0 < P.timeStep) {B b : Nat} (hB : 0 < B) (hb : 0 < b)
    (hsize : SizeForBatches P b) {source : Vec3 ℝ} (hsrc : RepV A source) {raw : List (Vec3 ℝ)} (hraw : ∀ d ∈ raw, d ≠ 0)
    {ws : List (Nat × Row ℝ)} (h : simulationRun A P (2 * 10 ^ 6 + 1) B b source raw = some ws) {n : Nat} {r r' : Row ℝ}
    (hr : fileOf ws n = some r) (hr' : fileOf ws (n + 1) = some r') {sn : Nat} (hsn : sn < P.absorbers.length) :
    ∃ y, r'.hits[sn]? = some y ∧
      (1 - 1 / 10 ^ 15) ^ raw.length * handedOver P (InAbsorber A P) r sn ≤ y ∧
      y ≤ (1 + 1 / 10 ^ 15) ^ raw.length * handedOver P (InAbsorber A P) r sn := by
  obtain ⟨L, ws', hlo, hhi, hL, hLs, hrun, f0, f2, f1⟩ := run_files (A := A) hP hs ht hB hb hsize hsrc hraw
  obtain rfl : ws = ws' := Option.some.inj (h.symm.trans hrun)
  have hnb : n < b * B := by
    by_contra hcc
    rw [f2 (n + 1) (by omega)] at hr'
    cases hr'
  obtain ⟨u, a0, l, j, s, s', hu0, hu, g0, hl, h1, h2, k1, k2⟩ := f1 n hnb
  obtain rfl := Option.some.inj (hr.symm.trans k1)
  obtain rfl := Option.some.inj (hr'.symm.trans k2)
  have hinv := invB_states hP g0 hl j s h1
  obtain ⟨t1, t2⟩ := states_shape g0 hl j s h1
  have hst := (steps_chain hl).2.2 j s s' h1 h2
  unfold step at hst
  simp only at hst
  split at hst
  · simp at hst
  · simp only [Option.some.injEq] at hst
    obtain ⟨y, y1, y2, y3⟩ := absorbAll_one (A := A) (P := P) sn s.rays (s.hits.map fun _ => 0) 0 (by simp [t2])
      (by simp [t2, hsn]) le_rfl (fun x hx => (hinv x hx).nonneg)
    rw [t1, zero_add] at y2 y3
    have e : handedOver P (InAbsorber A P) (rowOf s) sn = (s.rays.map fun r => if P.eps < r.energy ∧
        P.absorbers.findIdx? (fun c => InAbsorber A P c r.pos) = some sn then r.energy else 0).sum := by
      simp only [handedOver, rowOf, List.zip_map', List.map_map, Function.comp_def]
    rw [e, ← hst]
    exact ⟨y, y1, y2, y3⟩

/-- A ray in an absorber has nothing left. -/
theorem absorbLoop_zero {sq : ℝ} {pos c : Vec3 ℝ} (hin : sqDist A pos c < sq) : ∀ (as : List (Vec3 ℝ)) (hs : List ℝ) (e : ℝ),
    as.length = hs.length → c ∈ as ∨ e = 0 → (absorbLoop A sq pos as hs e).2 = 0 := by
  intro as
  induction as with
  | nil =>
    intro hs e _ h
    rcases h with h | h
    · simp at h
    · simpa [absorbLoop] using h
  | cons a as ih =>
    intro hs e hl h
    cases hs with
    | nil => simp at hl
    | cons x hs =>
      have hl' : as.length = hs.length := by simpa using hl
      rw [absorbLoop]
      split_ifs with h1
      · exact ih hs 0 hl' (.inr rfl)
      · refine ih hs e hl' ?_
        rcases h with h | h
        · rcases List.mem_cons.1 h with rfl | h
          · exact absurd hin h1
          · exact .inl h
        · exact .inr h

theorem absorbAll_zero {c : Vec3 ℝ} (hc : c ∈ P.absorbers) : ∀ (rs : List (Ray ℝ)) (hs : List ℝ) (k : Nat) (r : Ray ℝ),
    P.absorbers.length = hs.length → rs[k]? = some r → P.eps < r.energy → InAbsorber A P c r.pos →
    ∃ r', (absorbAll A P hs rs).2[k]? = some r' ∧ r'.energy = 0 := by
  intro rs
  induction rs with
  | nil => intro hs k r _ h; simp at h
  | cons x rs ih =>
    intro hs k r hl hk he hin
    have hlen : P.absorbers.length = (absorbRay A P hs x).1.length := by
      rw [hl]
      unfold absorbRay
      split_ifs
      · rfl
      · exact (absorbLoop_length _ _ _ _ _).symm
    rw [absorbAll]
    cases k with
    | zero =>
      simp only [List.getElem?_cons_zero, Option.some.injEq] at hk
      subst hk
      refine ⟨_, rfl, ?_⟩
      unfold absorbRay
      rw [if_neg (not_le.2 he)]
      exact absorbLoop_zero hin _ _ _ hl (.inl hc)
    | succ k =>
      simp only [List.getElem?_cons_succ] at hk ⊢
      exact ih _ k r hlen hk he hin

/-- **C131, caught rays.**  With rounded arithmetic, a ray that is in an absorber has no energy in the next step. -/
theorem C131_caught (hP : Ordinary P) (hs : 0 < P.raySpeed) (ht : 0 < P.timeStep) {B b : Nat} (hB : 0 < B) (hb : 0 < b)
    (hsize : SizeForBatches P b) {source : Vec3 ℝ} (hsrc : RepV A source) {raw : List (Vec3 ℝ)} (hraw : ∀ d ∈ raw, d ≠ 0)
    {ws : List (Nat × Row ℝ)} (h : simulationRun A P (2 * 10 ^ 6 + 1) B b source raw = some ws) {n : Nat} {r r' : Row ℝ}
    (hr : fileOf ws n = some r) (hr' : fileOf ws (n + 1) = some r') {k : Nat} {p c : Vec3 ℝ} {e : ℝ}
    (hp : r.pos[k]? = some p) (he : r.energy[k]? = some e) (halive : P.eps < e) (hc : c ∈ P.absorbers)
    (hin : InAbsorber A P c p) : r'.energy[k]? = some 0 ∧ r'.pos[k]? = some p := by
  obtain ⟨L, ws', hlo, hhi, hL, hLs, hrun, f0, f2, f1⟩ := run_files (A := A) hP hs ht hB hb hsize hsrc hraw
  obtain rfl : ws = ws' := Option.some.inj (h.symm.trans hrun)
  have hnb : n < b * B := by
    by_contra hcc
    rw [f2 (n + 1) (by omega)] at hr'
    cases hr'
  obtain ⟨u, a0, l, j, s, s', hu0, hu, g0, hl, h1, h2, k1, k2⟩ := f1 n hnb
  obtain rfl := Option.some.inj (hr.symm.trans k1)
  obtain rfl := Option.some.inj (hr'.symm.trans k2)
  obtain ⟨t1, t2⟩ := states_shape g0 hl j s h1
  simp only [rowOf, List.getElem?_map, Option.map_eq_some_iff] at hp he ⊢
  obtain ⟨x, hx, rfl⟩ := hp
  obtain ⟨x', hx', rfl⟩ := he
  obtain rfl : x = x' := Option.some.inj (hx.symm.trans hx')
  have hst := (steps_chain hl).2.2 j s s' h1 h2
  unfold step at hst
  simp only at hst
  split at hst
  · simp at hst
  · rename_i rs hm
    simp only [Option.some.injEq] at hst
    obtain ⟨y, y1, y2⟩ := absorbAll_zero (A := A) hc s.rays (s.hits.map fun _ => 0) k x (by simp [t2]) hx halive hin
    have hpos : y.pos = x.pos := by
      rcases forall₂_getElem? (absorbAll_cases (A := A) (P := P) (s.hits.map fun _ => 0) s.rays) hx y1 with h3 | ⟨-, h3⟩
      · rw [h3]
      · rw [h3]; rfl
    have hf := moveAll_forall hm
    have hk := (List.getElem?_eq_some_iff.1 y1).1
    have hz : rs[k]? = some (rs[k]'(by rw [← hf.length_eq]; exact hk)) := List.getElem?_eq_getElem _
    have hmv := forall₂_getElem? hf y1 hz
    rw [moveRay, if_pos (by rw [y2]; exact hP.eps), Option.some.injEq] at hmv
    rw [← hst]
    exact ⟨⟨_, hz, by rw [← hmv, y2]⟩, ⟨_, hz, by rw [← hmv, hpos]⟩⟩

/-! ### The hypotheses can be met -/

theorem zeros : binary64.mul 0 0 = 0 ∧ binary64.add 0 0 = 0 := by
  have h1 := mul_rel binary64.toArith 0 0
  have h2 := add_rel binary64.toArith 0 0
  rw [mul_zero] at h1
  rw [add_zero] at h2
  exact ⟨h1.zero, h2.zero⟩

/-- Two rays from a source in the absorber of the hall: it records both in the first step, and never more than that. -/
example : ∃ ws r y, simulationRun binary64 hall (2 * 10 ^ 6 + 1) 100 5000 ⟨10, 1, 1⟩ [⟨-3, 4, 0⟩, ⟨1, 0, 0⟩] = some ws ∧
    fileOf ws 1 = some r ∧ r.hits[0]? = some y ∧ (1 - 1 / 10 ^ 15) ^ 2 * 2 ≤ y ∧ y ≤ (1 + 1 / 10 ^ 15) ^ 2 * 2 ∧
    r.energy[1]? = some 0 ∧ ∀ m q, fileOf ws m = some q → ((List.range (m + 1)).map fun n => ((fileOf ws n).map fun q => q.hits.sum).getD 0).sum +
      q.energy.sum ≤ (1 + 1 / 10 ^ 15) ^ 2 * (2 : ℕ) := by
  have f10 : fl 10 = 10 := by dyadic (-49) 5629499534213120
  have f1 : fl 1 = 1 := binary64.rep_one
  have hs : 0 < hall.raySpeed := by norm_num [hall]
  have ht : 0 < hall.timeStep := by norm_num [hall]
  have hz : SizeForBatches hall 5000 :=
    ⟨20, by norm_num [hall], by norm_num [hall], by norm_num [hall], by norm_num [hall]⟩
  have hsrc : RepV binary64 ⟨10, 1, 1⟩ := ⟨f10, f1, f1⟩
  have hraw : ∀ d ∈ [(⟨-3, 4, 0⟩ : Vec3 ℝ), ⟨1, 0, 0⟩], d ≠ 0 := by
    intro d hd
    simp only [List.mem_cons, List.not_mem_nil, or_false] at hd
    rcases hd with rfl | rfl <;> simp [Vec3.ext_iff]
  obtain ⟨ws, h1, h2, h3, -, -⟩ := C131_run (A := binary64) (B := 100) hall_ordinary hs ht (by norm_num) (by norm_num) hz
    hsrc hraw
  obtain ⟨r, hr, -⟩ := h3 1 (by norm_num)
  obtain ⟨y, y1, y2, y3⟩ := C131_hits (A := binary64) hall_ordinary hs ht (by norm_num) (by norm_num) hz hsrc hraw h1 h2 hr
    (sn := 0) (by simp [hall])
  have hin : InAbsorber binary64 hall ⟨10, 1, 1⟩ ⟨10, 1, 1⟩ := by
    unfold InAbsorber sqDist
    rw [subv_self']
    simp only [Vec3.zero_x, Vec3.zero_y, Vec3.zero_z, zeros.1, zeros.2]
    refine lt_of_lt_of_le ?_ ((mul_rel binary64.toArith hall.absorberRadius hall.absorberRadius).le (mul_self_nonneg _)).1
    norm_num [hall]
  have e : handedOver hall (InAbsorber binary64 hall) ⟨[⟨10, 1, 1⟩, ⟨10, 1, 1⟩], [1, 1], [0]⟩ 0 = 2 := by
    have : hall.absorbers = [⟨10, 1, 1⟩] := rfl
    have he : hall.eps < 1 := by norm_num [hall]
    simp [handedOver, this, hin, he, List.findIdx?_cons]
    norm_num
  refine ⟨ws, r, y, h1, hr, y1, ?_, ?_, ?_, fun m q hq => ?_⟩
  · have := y2
    simp only [List.map_cons, List.map_nil, List.length_cons, List.length_nil] at this
    rw [show (hall.absorbers.map fun _ => (0 : ℝ)) = [0] from rfl, e] at this
    exact this
  · have := y3
    simp only [List.map_cons, List.map_nil, List.length_cons, List.length_nil] at this
    rw [show (hall.absorbers.map fun _ => (0 : ℝ)) = [0] from rfl, e] at this
    exact this
  · exact (C131_caught (A := binary64) hall_ordinary hs ht (by norm_num) (by norm_num) hz hsrc hraw h1 h2 hr (k := 1) rfl rfl
      (by norm_num [hall]) (c := ⟨10, 1, 1⟩) (List.mem_singleton.2 rfl) hin).1
  · exact (C131_total (A := binary64) hall_ordinary hs ht (by norm_num) (by norm_num) hz hsrc hraw h1 m q hq).2

end B3d.SimRounded
