import Verif.Proofs.SimLoop
import Verif.Props.SimLoop

/-! # Property C52: running in batches -/

set_option linter.unusedSectionVars false

namespace B3d.Sim

variable {K : Type} [Field K] [LinearOrder K] [IsStrictOrderedRing K] [FloorRing K]
variable {P : Params K}

/-! ### Rays that cannot move -/

/-- No target in direction zero. -/
theorem findTarget_none (geo : Geo K) (trans : List Int) (check : List Nat) (pos dir : Vec3 K)
    (h : ∀ pn, geo.hit pos dir pn = false) : findTarget geo trans check pos dir = none := by
  unfold findTarget
  have : ∀ best, check.foldl (targetStep geo trans pos dir) best = best := by
    induction check with
    | nil => intro best; rfl
    | cons a l ih =>
      intro best
      rw [List.foldl_cons, ih]
      unfold targetStep
      simp [h]
  rw [this]
  rfl

/-- A ray which stands exactly at the reflection distance from its target. -/
structure Stuck (P : Params K) (r : Ray K) : Prop where
  absorber : firstAbsorber P.absorberRadius P.absorbers r.pos = none
  inside : leftBox P r.pos = false
  target : ∃ pn, target P (cellOf r.pos P.gridStep) r = some pn ∧ P.geo.dist r.pos pn = P.reflDist

/-- A ray at rest that hits nothing. -/
structure Rest (P : Params K) (r : Ray K) : Prop where
  vel : r.vel = 0
  delta : r.delta = 0
  free : ∀ pn, P.geo.hit r.pos 0 pn = false

/-- A ray of the single batch and its counterpart in the run with batches. -/
structure Twin (P : Params K) (r r' : Ray K) : Prop where
  pos : r'.pos = r.pos
  energy : r'.energy = r.energy
  same : r = r' ∨ r.energy ≤ P.eps ∨ (Stuck P r ∧ Rest P r')

theorem twin_refl (r : Ray K) : Twin P r r := ⟨rfl, rfl, Or.inl rfl⟩

theorem twin_trans {r s t : Ray K} (h1 : Twin P r s) (h2 : Twin P s t) : Twin P r t := by
  refine ⟨h2.pos.trans h1.pos, h2.energy.trans h1.energy, ?_⟩
  rcases h1.same with rfl | h | ⟨h, hr⟩
  · exact h2.same
  · exact Or.inr (Or.inl h)
  · rcases h2.same with rfl | h' | ⟨h', _⟩
    · exact Or.inr (Or.inr ⟨h, hr⟩)
    · rw [h1.energy] at h'
      exact Or.inr (Or.inl h')
    · exfalso
      obtain ⟨pn, ht, _⟩ := h'.target
      rw [target_eq, hr.vel, findTarget_none _ _ _ _ _ hr.free] at ht
      cases ht

theorem afterAbsorb_none {r : Ray K} (h : firstAbsorber P.absorberRadius P.absorbers r.pos = none) :
    afterAbsorb P r = r := by
  unfold afterAbsorb
  rw [h]
  simp

theorem checkLeft_inside {r : Ray K} (h : leftBox P r.pos = false) : checkLeft P r = r := by
  unfold checkLeft
  rw [h]
  simp

theorem moveRay_stuck {fuel : Nat} {r r' : Ray K} (h : Stuck P r) (he : P.eps < r.energy)
    (hm : moveRay P fuel r = some r') : r' = r ∧ 0 < fuel := by
  obtain ⟨pn, ht, hd⟩ := h.target
  unfold moveRay at hm
  rw [if_neg (not_le.2 he), checkLeft_inside h.inside] at hm
  simp only [] at hm
  rw [ht] at hm
  cases fuel with
  | zero => simp [reflectLoop] at hm
  | succ fuel =>
    rw [reflectLoop, if_neg (by rw [hd]; exact fun h => lt_irrefl _ h.1)] at hm
    simp only [Option.some.injEq] at hm
    refine ⟨?_, Nat.succ_pos _⟩
    rw [← hm]
    unfold advance
    rw [if_neg]
    simp [farEnough, hd]

theorem moveRay_rest {fuel : Nat} {r : Ray K} (h : Rest P r) (hin : leftBox P r.pos = false)
    (hf : 0 < fuel) : moveRay P fuel r = some r := by
  unfold moveRay
  split
  · rfl
  · rename_i he
    rw [checkLeft_inside hin]
    simp only []
    rw [target_eq, h.vel, findTarget_none _ _ _ _ _ h.free]
    cases fuel with
    | zero => omega
    | succ fuel =>
      rw [reflectLoop]
      simp only [Option.some.injEq]
      unfold advance
      split
      · obtain ⟨p, v, d, e⟩ := r
        have hd := h.delta
        simp only at hd
        subst hd
        simp only [Ray.mk.injEq, and_true]
        ext <;> simp
      · rfl

/-- One step keeps twins. -/
theorem twin_step {fuel : Nat} {r r' s : Ray K} (h : Twin P r r') (hs : RayStep P fuel r s) :
    ∃ s', RayStep P fuel r' s' ∧ Twin P s s' := by
  rcases h.same with rfl | hd | ⟨hst, hrest⟩
  · exact ⟨s, hs, twin_refl s⟩
  · have := rayStep_dead hs hd
    subst this
    have hd' : r'.energy ≤ P.eps := by rw [h.energy]; exact hd
    refine ⟨r', ?_, h⟩
    unfold RayStep
    have : afterAbsorb P r' = r' := by
      unfold afterAbsorb
      rw [if_pos hd']
    rw [this, moveRay_dead _ _ hd']
  · by_cases hd : r.energy ≤ P.eps
    · have := rayStep_dead hs hd
      subst this
      have hd' : r'.energy ≤ P.eps := by rw [h.energy]; exact hd
      refine ⟨r', ?_, h⟩
      unfold RayStep
      have : afterAbsorb P r' = r' := by
        unfold afterAbsorb
        rw [if_pos hd']
      rw [this, moveRay_dead _ _ hd']
    · unfold RayStep at hs
      rw [afterAbsorb_none hst.absorber] at hs
      obtain ⟨rfl, hf⟩ := moveRay_stuck hst (not_le.1 hd) hs
      refine ⟨r', ?_, h⟩
      unfold RayStep
      rw [afterAbsorb_none (by rw [h.pos]; exact hst.absorber)]
      exact moveRay_rest hrest (by rw [h.pos]; exact hst.inside) hf

/-- A ray which lives after a step that has not moved it. -/
theorem stuck_of_still {fuel : Nat} (heps : 0 ≤ P.eps) (ha : ∀ k, 0 ≤ P.absorption k) {r r' : Ray K}
    (h : RayStep P fuel r r') (hpos : r'.pos = r.pos) (he : P.eps < r'.energy)
    (hne : r'.pos ≠ r.pos + r'.delta) : Stuck P r' := by
  unfold RayStep at h
  have hlive : afterAbsorb P r = r ∧ P.eps < r.energy := by
    rcases afterAbsorb_cases (P := P) r with hc | ⟨hc, _⟩
    · refine ⟨hc, ?_⟩
      by_contra hn
      rw [hc, moveRay_dead _ _ (not_lt.1 hn)] at h
      simp only [Option.some.injEq] at h
      rw [h] at hn
      exact hn he
    · exfalso
      rw [hc, moveRay_dead _ _ (show (r.withEnergy 0).energy ≤ P.eps from heps)] at h
      simp only [Option.some.injEq] at h
      rw [← h] at he
      exact absurd he (not_lt.2 heps)
  have hnoabs : firstAbsorber P.absorberRadius P.absorbers r.pos = none := by
    have := hlive.1
    unfold afterAbsorb at this
    rw [if_neg (not_le.2 hlive.2)] at this
    by_contra hs
    rw [← ne_eq, Option.ne_none_iff_isSome] at hs
    rw [if_pos hs] at this
    have h2 := congrArg Ray.energy this
    have h3 := hlive.2
    rw [← h2] at h3
    exact absurd h3 (not_lt.2 heps)
  rw [hlive.1] at h
  obtain ⟨r2, t, ho, rfl⟩ := moveRay_live hlive.2 h
  have he2 : P.eps < r2.energy := by rwa [(advance_vel r2 t).2.1] at he
  have hbox : leftBox P r.pos = false := by
    by_contra hb
    rw [Bool.not_eq_false] at hb
    have hcl : checkLeft P r = r.withEnergy 0 := by
      unfold checkLeft
      rw [if_pos]
      rw [Bool.and_eq_true, decide_eq_true_eq]
      exact ⟨lt_of_le_of_lt heps hlive.2, hb⟩
    rw [hcl] at ho
    have := (outcome_energy ho heps ha (le_refl _)).2
    exact absurd he2 (not_lt.2 (this.trans heps))
  rw [checkLeft_inside hbox] at ho
  have hp2 : r2.pos = r.pos := by cases ho <;> rfl
  refine ⟨by rw [hpos]; exact hnoabs, by rw [hpos]; exact hbox, ?_⟩
  rcases advance_cases (P := P) r2 t with ⟨ha1, hd⟩ | ⟨ha1, ha2, ha3⟩
  · obtain ⟨pn, rfl, hle⟩ := hd he2
    rw [ha1]
    refine ⟨pn, ?_, le_antisymm hle ?_⟩
    · rw [hp2]
      cases ho with
      | flies ks d _ chain alive hd ht stop => rw [ht]; rfl
      | dies ks k d chain alive dead hd => exact absurd he2 (not_lt.2 heps)
    · by_contra hlt
      cases ho with
      | flies ks d _ chain alive hd ht stop => exact stop pn rfl ⟨not_le.1 hlt, he2⟩
      | dies ks k d chain alive dead hd => exact absurd he2 (not_lt.2 heps)
  · exfalso
    apply hne
    rw [ha1]
    show r2.pos + r2.delta = r.pos + r2.delta
    rw [hp2]

/-- The ray with which the next batch starts. -/
def restart (P : Params K) (prev last : Ray K) : Ray K :=
  ⟨last.pos, (1 / P.timeStep) • (last.pos - prev.pos),
    P.timeStep • ((1 / P.timeStep) • (last.pos - prev.pos)), last.energy⟩

theorem twin_restart {fuel : Nat} (heps : 0 ≤ P.eps) (ha : ∀ k, 0 ≤ P.absorption k)
    (hdt : P.timeStep ≠ 0) {r r' : Ray K} (h : RayStep P fuel r r')
    (hd : r'.delta = P.timeStep • r'.vel)
    (hm : P.eps < r'.energy → r'.pos ≠ r.pos ∨ ∀ pn, P.geo.hit r'.pos 0 pn = false) :
    Twin P r' (restart P r r') := by
  refine ⟨rfl, rfl, ?_⟩
  by_cases he : r'.energy ≤ P.eps
  · exact Or.inr (Or.inl he)
  rw [not_le] at he
  by_cases hmv : r'.pos = r.pos + r'.delta
  · left
    have hv : (1 / P.timeStep) • (r'.pos - r.pos) = r'.vel := by
      have h1 : r'.pos - r.pos = P.timeStep • r'.vel := by
        rw [← hd]
        conv_lhs => rw [hmv]
        ext <;> simp
      rw [h1]
      ext <;> simp <;> field_simp
    obtain ⟨p, v, d, e⟩ := r'
    unfold restart
    simp only [Ray.mk.injEq, true_and, and_true]
    simp only at hv hd
    exact ⟨hv.symm, by rw [hv]; exact hd⟩
  · rcases rayStep_pos h with hp | ⟨hp, _⟩
    · right; right
      refine ⟨stuck_of_still heps ha h hp he hmv, ?_⟩
      have h0 : (1 / P.timeStep) • (r'.pos - r.pos) = (0 : Vec3 K) := by
        rw [hp]
        ext <;> simp
      refine ⟨h0, ?_, ?_⟩
      · show P.timeStep • ((1 / P.timeStep) • (r'.pos - r.pos)) = (0 : Vec3 K)
        rw [h0]
        ext <;> simp
      · rcases hm he with hm | hm
        · exact absurd hp hm
        · exact hm
    · exact absurd hp hmv

/-! ### States -/

/-- Corresponding states. -/
structure TwinSt (P : Params K) (s s' : St K) : Prop where
  rays : List.Forall₂ (Twin P) s.rays s'.rays
  hits : s'.hits = s.hits

theorem map_eq_of_forall₂ {α β γ : Type} {R : α → β → Prop} {f : α → γ} {g : β → γ} {l : List α}
    {m : List β} (h : List.Forall₂ R l m) (hf : ∀ x y, R x y → g y = f x) : m.map g = l.map f := by
  induction h with
  | nil => rfl
  | cons a _ ih => rw [List.map_cons, List.map_cons, hf _ _ a, ih]

theorem rowOf_twin {s s' : St K} (h : TwinSt P s s') : rowOf s' = rowOf s := by
  unfold rowOf
  rw [h.hits, map_eq_of_forall₂ h.rays (f := Ray.pos) (g := Ray.pos) fun _ _ h => h.pos,
    map_eq_of_forall₂ h.rays (f := Ray.energy) (g := Ray.energy) fun _ _ h => h.energy]

theorem twinSt_refl (s : St K) : TwinSt P s s := ⟨forall₂_refl_of fun r _ => twin_refl r, rfl⟩

theorem twinSt_trans {s t u : St K} (h1 : TwinSt P s t) (h2 : TwinSt P t u) : TwinSt P s u :=
  ⟨forall₂_trans_of (R := Twin P) (S := Twin P) (fun _ _ _ => twin_trans) h1.rays h2.rays, h2.hits.trans h1.hits⟩

theorem step_twin {fuel : Nat} {s s' t : St K} (h : TwinSt P s s')
    (hl : s.hits.length = P.absorbers.length) (hst : step P fuel s = some t) :
    ∃ t', step P fuel s' = some t' ∧ TwinSt P t t' := by
  obtain ⟨h1, h2⟩ := (step_iff hl).1 hst
  have : ∃ rs, List.Forall₂ (RayStep P fuel) s'.rays rs ∧ List.Forall₂ (Twin P) t.rays rs := by
    have h3 := h.rays
    generalize s'.rays = ss at h3
    generalize s.rays = rr at h1 h3
    generalize t.rays = tt at h1
    clear h2
    induction h1 generalizing ss with
    | nil => cases h3; exact ⟨[], .nil, .nil⟩
    | cons a _ ih =>
      cases h3 with
      | cons b h3 =>
        obtain ⟨x, hx, hx'⟩ := twin_step b a
        obtain ⟨xs, hxs, hxs'⟩ := ih _ h3
        exact ⟨x :: xs, .cons hx hxs, .cons hx' hxs'⟩
  obtain ⟨rs, hrs, htw⟩ := this
  refine ⟨⟨rs, t.hits⟩, ?_, ⟨htw, rfl⟩⟩
  rw [step_iff (by rw [h.hits, hl])]
  refine ⟨hrs, ?_⟩
  show t.hits = _
  rw [h2, h.hits]
  apply List.ext_getElem?
  intro i
  rw [absorbAll_hit _ (by simpa using hl), absorbAll_hit _ (by simpa using hl)]
  rw [map_eq_of_forall₂ h.rays (f := given P i) (g := given P i)]
  intro x y hxy
  unfold given
  rw [hxy.pos, hxy.energy]

theorem steps_twin {fuel n : Nat} {s s' : St K} {l : List (St K)} (h : TwinSt P s s')
    (hl : s.hits.length = P.absorbers.length) (hst : steps P fuel n s = some l) :
    ∃ l', steps P fuel n s' = some l' ∧ List.Forall₂ (TwinSt P) l l' := by
  induction n generalizing s s' l with
  | zero =>
    simp only [steps, Option.some.injEq] at hst
    subst hst
    exact ⟨[s'], rfl, .cons h .nil⟩
  | succ n ih =>
    rw [steps] at hst
    split at hst
    · cases hst
    · rename_i t ht
      split at hst
      · cases hst
      · rename_i l1 hl1
        simp only [Option.some.injEq] at hst
        subst hst
        obtain ⟨t', ht', htt⟩ := step_twin h hl ht
        obtain ⟨l', hl', hll⟩ := ih htt (by rw [step_hits_length ht, hl]) hl1
        refine ⟨s' :: l', ?_, .cons h hll⟩
        rw [steps, ht']
        simp only [hl']

/-- Splitting a run. -/
theorem steps_add {fuel m n : Nat} {s : St K} {l : List (St K)}
    (h : steps P fuel (m + n) s = some l) :
    ∃ l1 x l2, steps P fuel m s = some l1 ∧ l1[m]? = some x ∧ steps P fuel n x = some l2 ∧
      (∀ i, i ≤ m → l[i]? = l1[i]?) ∧ ∀ i, l[m + i]? = l2[i]? := by
  induction m generalizing s l with
  | zero =>
    rw [Nat.zero_add] at h
    refine ⟨[s], s, l, rfl, rfl, h, ?_, fun i => by rw [Nat.zero_add]⟩
    intro i hi
    have : i = 0 := by omega
    subst this
    rw [steps_head h]
    rfl
  | succ m ih =>
    rw [show m + 1 + n = (m + n) + 1 by omega, steps] at h
    split at h
    · cases h
    · rename_i t ht
      split at h
      · cases h
      · rename_i l0 hl0
        simp only [Option.some.injEq] at h
        subst h
        obtain ⟨l1, x, l2, h1, h2, h3, h4, h5⟩ := ih hl0
        refine ⟨s :: l1, x, l2, ?_, by simpa using h2, h3, ?_, ?_⟩
        · rw [steps, ht]
          simp only [h1]
        · intro i hi
          cases i with
          | zero => rfl
          | succ i =>
            rw [List.getElem?_cons_succ, List.getElem?_cons_succ]
            exact h4 i (by omega)
        · intro i
          rw [show m + 1 + i = (m + i) + 1 by omega, List.getElem?_cons_succ]
          exact h5 i

/-- The arrays of the next batch. -/
theorem nextArrays_eq {n : Nat} {l : List (St K)} {y x : St K} (hlen : l.length = n + 2)
    (hy : l[n]? = some y) (hx : l[n + 1]? = some x) (hr : y.rays.length = x.rays.length) :
    ∃ a, nextArrays P (l.map rowOf) = some a ∧
      start P a = ⟨List.zipWith (restart P) y.rays x.rays, x.hits⟩ := by
  have hl : l = l.take n ++ [y, x] := by
    apply List.ext_getElem?
    intro i
    rw [List.getElem?_append, List.length_take, hlen, Nat.min_eq_left (by omega)]
    split
    · rename_i hi
      rw [List.getElem?_take_of_lt hi]
    · rename_i hi
      obtain ⟨k, rfl⟩ := Nat.exists_eq_add_of_le (not_lt.1 hi)
      rw [Nat.add_sub_cancel_left]
      match k with
      | 0 => simpa using hy
      | 1 => simpa using hx
      | k + 2 =>
        rw [List.getElem?_eq_none (by omega)]
        rfl
  rw [hl, List.map_append]
  unfold nextArrays
  simp only [List.map_cons, List.map_nil, List.reverse_append, List.reverse_cons, List.reverse_nil,
    List.nil_append, List.cons_append]
  refine ⟨_, rfl, ?_⟩
  unfold start rowOf restart
  simp only [List.map_map, St.mk.injEq, and_true]
  apply List.ext_getElem?
  intro i
  rw [List.getElem?_map]
  by_cases hi : i < x.rays.length
  · rw [List.getElem?_zip_eq_some.2 ⟨?_, List.getElem?_zip_eq_some.2 ⟨?_, ?_⟩⟩]
    rotate_left
    · exact (x.rays[i].pos, y.rays[i].pos, x.rays[i].energy)
    · simp [hi]
    · simp [hr, hi]
    · simp [hi]
    simp [hi, hr]
  · rw [List.getElem?_eq_none (by simp; omega), List.getElem?_eq_none (by simp; omega)]
    rfl

/-! ### Files -/

/-- Writes that agree with a sequence of rows. -/
theorem fileOf_eq {α : Type} (ws : List (Nat × α)) (k : Nat) (row : α)
    (hall : ∀ w ∈ ws, w.1 = k → w.2 = row) (hex : ∃ w ∈ ws, w.1 = k) : fileOf ws k = some row := by
  unfold fileOf
  have key : ∀ (ws : List (Nat × α)) (f : Option α), (∀ w ∈ ws, w.1 = k → w.2 = row) →
      (f = some row ∨ ∃ w ∈ ws, w.1 = k) →
      ws.foldl (fun f w => if w.1 = k then some w.2 else f) f = some row := by
    intro ws
    induction ws with
    | nil =>
      intro f _ h
      rcases h with h | ⟨w, hw, _⟩
      · exact h
      · simp at hw
    | cons w ws ih =>
      intro f hall h
      rw [List.foldl_cons]
      apply ih _ fun w hw => hall w (by simp [hw])
      by_cases hk : w.1 = k
      · left
        rw [if_pos hk, hall w (by simp) hk]
      · rw [if_neg hk]
        rcases h with h | ⟨w', hw', hk'⟩
        · exact Or.inl h
        · rcases List.mem_cons.1 hw' with rfl | hw'
          · exact absurd hk' hk
          · exact Or.inr ⟨w', hw', hk'⟩
  exact key ws none hall (Or.inr hex)

theorem fileOf_none {α : Type} (ws : List (Nat × α)) (k : Nat) (hall : ∀ w ∈ ws, w.1 ≠ k) :
    fileOf ws k = none := by
  unfold fileOf
  induction ws with
  | nil => rfl
  | cons w ws ih =>
    rw [List.foldl_cons, if_neg (hall w (by simp))]
    exact ih fun w hw => hall w (by simp [hw])

theorem mem_dumpBuffers {n : Nat} {rows : List (Row K)} {w : Nat × Row K} :
    w ∈ dumpBuffers n rows ↔ ∃ i, w.1 = n + i ∧ rows[i]? = some w.2 := by
  unfold dumpBuffers
  rw [List.mem_map]
  constructor
  · rintro ⟨⟨i, row⟩, hm, rfl⟩
    obtain ⟨j, hj⟩ := List.getElem?_of_mem hm
    rw [List.getElem?_zip_eq_some] at hj
    obtain ⟨h1, h2⟩ := hj
    rw [List.getElem?_range (List.getElem?_eq_some_iff.1 h2).1] at h1
    simp only [Option.some.injEq] at h1
    subst h1
    exact ⟨j, by simp [Nat.add_comm], h2⟩
  · rintro ⟨i, h1, h2⟩
    refine ⟨(i, w.2), ?_, ?_⟩
    · apply List.mem_of_getElem? (i := i)
      rw [List.getElem?_zip_eq_some]
      exact ⟨List.getElem?_range (List.getElem?_eq_some_iff.1 h2).1, h2⟩
    · obtain ⟨a, b⟩ := w
      simp only at h1
      subst h1
      simp [Nat.add_comm]

theorem forall₂_zipWith_right {α : Type} {f : α → α → α} {R S : α → α → Prop} {l m : List α}
    (h : List.Forall₂ R l m) (hS : ∀ (k : Nat) x y, l[k]? = some x → m[k]? = some y → R x y →
      S y (f x y)) : List.Forall₂ S m (List.zipWith f l m) := by
  induction h with
  | nil => exact .nil
  | cons a _ ih =>
    exact .cons (hS 0 _ _ rfl rfl a) (ih fun k x y hx hy => hS (k + 1) x y (by simpa using hx)
      (by simpa using hy))

/-- The batches write what the single run has. -/
theorem runBatches_writes {fuel B : Nat} (hB : 0 < B) (heps : 0 ≤ P.eps)
    (ha : ∀ k, 0 ≤ P.absorption k) (hdt : P.timeStep ≠ 0) :
    ∀ (b stepNo : Nat) (s : St K) (a : Arrays K) (l : List (St K)),
      TwinSt P s (start P a) → s.hits.length = P.absorbers.length →
      steps P fuel (b * B) s = some l →
      (∀ (m i : Nat) (ri rj : St K), 0 < m → m < b → i + 1 = m * B → l[i]? = some ri →
        l[i + 1]? = some rj → MovedOrFree P.geo P.eps (rowOf ri) (rowOf rj)) →
      ∃ ws, runBatches P fuel B b stepNo a = some ws ∧
        (∀ w ∈ ws, ∃ i, w.1 = stepNo + i ∧ (l.map rowOf)[i]? = some w.2) ∧
        (0 < b → ∀ i ≤ b * B, ∃ w ∈ ws, w.1 = stepNo + i) := by
  intro b
  induction b with
  | zero =>
    intro stepNo s a l _ _ _ _
    exact ⟨[], rfl, by simp, by simp⟩
  | succ b ih =>
    intro stepNo s a l htw hl hst hmf
    rw [show (b + 1) * B = B + b * B by ring] at hst
    obtain ⟨l1, x, l2, h1, hx, h2, e1, e2⟩ := steps_add hst
    obtain ⟨l1', h1', hll⟩ := steps_twin htw hl h1
    have hrows : l1'.map rowOf = l1.map rowOf :=
      map_eq_of_forall₂ hll fun _ _ h => rowOf_twin h
    obtain ⟨n, rfl⟩ : ∃ n, B = n + 1 := ⟨B - 1, by omega⟩
    have hlen1 : l1.length = n + 2 := steps_length h1
    have hlen1' : l1'.length = n + 2 := steps_length h1'
    obtain ⟨y, hy⟩ : ∃ y, l1[n]? = some y := ⟨_, List.getElem?_eq_getElem (by omega)⟩
    obtain ⟨y', hy'⟩ : ∃ y, l1'[n]? = some y := ⟨_, List.getElem?_eq_getElem (by omega)⟩
    obtain ⟨x', hx'⟩ : ∃ y, l1'[n + 1]? = some y := ⟨_, List.getElem?_eq_getElem (by omega)⟩
    have hinv := steps_invariant h1' (fun s => s.hits.length = P.absorbers.length ∧
        ∀ r ∈ s.rays, r.delta = P.timeStep • r.vel)
      ⟨by rw [htw.hits, hl], by
        intro r hr
        simp only [start, List.mem_map] at hr
        obtain ⟨x, hx, rfl⟩ := hr
        rfl⟩
      (fun a b hg hst => ⟨by rw [step_hits_length hst, hg.1],
        forall₂_right ((step_iff hg.1).1 hst).1 fun x hx y hy => rayStep_delta hy (hg.2 x hx)⟩)
    have hstep' := ((step_iff (hinv n y' hy').1).1 (steps_succ h1' n y' x' hy' hx')).1
    obtain ⟨a', hna, hsa⟩ := nextArrays_eq (P := P) hlen1' hy' hx' hstep'.length_eq
    have hxx : TwinSt P x x' := forall₂_getElem? hll hx hx'
    have hyy : TwinSt P y y' := forall₂_getElem? hll hy hy'
    have hxl : x.hits.length = P.absorbers.length := by
      rw [← hxx.hits]; exact (hinv (n + 1) x' hx').1
    have hdump : ∀ w ∈ dumpBuffers stepNo (l1'.map rowOf),
        ∃ i, w.1 = stepNo + i ∧ (l.map rowOf)[i]? = some w.2 := by
      intro w hw
      obtain ⟨i, hi1, hi2⟩ := mem_dumpBuffers.1 hw
      refine ⟨i, hi1, ?_⟩
      rw [hrows] at hi2
      have hi : i ≤ n + 1 := by
        have := (List.getElem?_eq_some_iff.1 hi2).1
        rw [List.length_map, hlen1] at this
        omega
      rw [List.getElem?_map, e1 i hi, ← List.getElem?_map]
      exact hi2
    have hcov : ∀ i ≤ n + 1, ∃ w ∈ dumpBuffers stepNo (l1'.map rowOf), w.1 = stepNo + i := by
      intro i hi
      have hlt : i < (l1'.map rowOf).length := by rw [List.length_map, hlen1']; omega
      exact ⟨(stepNo + i, (l1'.map rowOf)[i]), mem_dumpBuffers.2 ⟨i, rfl, by
        rw [List.getElem?_eq_getElem hlt]⟩, rfl⟩
    have hloop : simulationLoop P fuel (n + 1) a = some (l1'.map rowOf) := by
      unfold simulationLoop
      rw [h1']
      rfl
    by_cases hb : b = 0
    · subst hb
      refine ⟨dumpBuffers stepNo (l1'.map rowOf) ++ [], ?_, ?_, ?_⟩
      · rw [runBatches, hloop]
        simp only [hna]
        rfl
      · rw [List.append_nil]; exact hdump
      · intro _ i hi
        rw [List.append_nil]
        exact hcov i (by omega)
    · have hmov : MovedOrFree P.geo P.eps (rowOf y') (rowOf x') := by
        rw [rowOf_twin hxx, rowOf_twin hyy]
        refine hmf 1 n y x Nat.one_pos (by omega) (by omega) ?_ ?_
        · rw [e1 n (by omega)]; exact hy
        · rw [e1 (n + 1) (le_refl _)]; exact hx
      have htw' : TwinSt P x (start P a') := by
        refine twinSt_trans hxx ?_
        rw [hsa]
        refine ⟨?_, rfl⟩
        refine forall₂_zipWith_right hstep' ?_
        intro k r r' hr hr' hrr
        refine twin_restart heps ha hdt hrr ((hinv (n + 1) x' hx').2 r' (List.mem_of_getElem? hr')) ?_
        intro he
        exact hmov k r.pos r'.pos r'.energy (by simp [rowOf, hr]) (by simp [rowOf, hr'])
          (by simp [rowOf, hr']) he
      obtain ⟨ws, hws, hw1, hw2⟩ := ih (stepNo + (n + 1)) x a' l2 htw' hxl h2 (by
        intro m i ri rj hm hmb him hri hrj
        refine hmf (m + 1) (n + 1 + i) ri rj (by omega) (by omega) (by rw [Nat.add_mul]; omega) ?_ ?_
        · rw [e2 i]; exact hri
        · rw [show n + 1 + i + 1 = n + 1 + (i + 1) by omega, e2]; exact hrj)
      refine ⟨dumpBuffers stepNo (l1'.map rowOf) ++ ws, ?_, ?_, ?_⟩
      · rw [runBatches, hloop]
        simp only [hna, hws]
      · intro w hw
        rcases List.mem_append.1 hw with hw | hw
        · exact hdump w hw
        · obtain ⟨i, hi1, hi2⟩ := hw1 w hw
          refine ⟨n + 1 + i, by omega, ?_⟩
          rw [List.getElem?_map, e2, ← List.getElem?_map]
          exact hi2
      · intro _ i hi
        by_cases hin : i ≤ n + 1
        · obtain ⟨w, hw, hwi⟩ := hcov i hin
          exact ⟨w, List.mem_append_left _ hw, hwi⟩
        · have hi' : i - (n + 1) ≤ b * (n + 1) := by
            rw [Nat.add_mul] at hi
            omega
          obtain ⟨w, hw, hwi⟩ := hw2 (by omega) (i - (n + 1)) hi'
          exact ⟨w, List.mem_append_right _ hw, by omega⟩

/-! ## C52 -/

/-- C52: after a run in batches the files of every step hold the positions, energies and hits of the
run in a single batch, and there are no files of other steps; provided that at the end of each batch
but the last every ray with energy has moved in the last step, or is not at a polygon when tested with
direction zero.

What is missing: without the proviso the statement is false, see `C52_differs`. -/
theorem C52_batches_partial (fuel batchSize batches : Nat) (a : Arrays K) (rows : List (Row K))
    (hB : 0 < batchSize) (hb : 0 < batches) (heps : 0 ≤ P.eps) (ha : ∀ k, 0 ≤ P.absorption k)
    (hdt : P.timeStep ≠ 0) (hl : a.hits.length = P.absorbers.length)
    (h : simulationLoop P fuel (batches * batchSize) a = some rows)
    (hm : ∀ (m i : Nat) (ri rj : Row K), 0 < m → m < batches → i + 1 = m * batchSize →
      rows[i]? = some ri → rows[i + 1]? = some rj → MovedOrFree P.geo P.eps ri rj) :
    ∃ ws, runBatches P fuel batchSize batches 0 a = some ws ∧
      ∀ step, fileOf ws step = rows[step]? := by
  obtain ⟨l, hst, rfl⟩ := simulationLoop_states h
  obtain ⟨ws, hws, h1, h2⟩ := runBatches_writes hB heps ha hdt batches 0 (start P a) a l
    (twinSt_refl _) hl hst (by
      intro m i ri rj hm0 hmb him hri hrj
      exact hm m i _ _ hm0 hmb him (by rw [List.getElem?_map, hri]; rfl)
        (by rw [List.getElem?_map, hrj]; rfl))
  refine ⟨ws, hws, ?_⟩
  intro step
  by_cases hs : step ≤ batches * batchSize
  · have hlt : step < (l.map rowOf).length := by
      rw [List.length_map, steps_length hst]
      omega
    rw [List.getElem?_eq_getElem hlt]
    apply fileOf_eq
    · intro w hw hk
      obtain ⟨i, hi1, hi2⟩ := h1 w hw
      have : i = step := by omega
      subst this
      rw [List.getElem?_eq_getElem hlt] at hi2
      simpa using hi2.symm
    · obtain ⟨w, hw, hk⟩ := h2 hb step hs
      exact ⟨w, hw, by omega⟩
  · have hlen : (l.map rowOf).length = batches * batchSize + 1 := by
      rw [List.length_map, steps_length hst]
    rw [List.getElem?_eq_none (by omega)]
    apply fileOf_none
    intro w hw hk
    obtain ⟨i, hi1, hi2⟩ := h1 w hw
    have := (List.getElem?_eq_some_iff.1 hi2).1
    omega

/-- C52 for `Simulation.run`: two batch sizes which divide the number of steps give the same files. -/
theorem C52_run_partial (fuel B1 b1 B2 b2 : Nat) (source : Vec3 K) (dirs : List (Vec3 K))
    (rows : List (Row K)) (hB1 : 0 < B1) (hb1 : 0 < b1) (hB2 : 0 < B2) (hb2 : 0 < b2)
    (heq : b1 * B1 = b2 * B2) (heps : 0 ≤ P.eps) (ha : ∀ k, 0 ≤ P.absorption k)
    (hdt : P.timeStep ≠ 0)
    (h : simulationLoop P fuel (b1 * B1) (initArrays P source dirs) = some rows)
    (hm : ∀ (i : Nat) (ri rj : Row K), rows[i]? = some ri → rows[i + 1]? = some rj →
      MovedOrFree P.geo P.eps ri rj) :
    ∃ ws1 ws2, simulationRun P fuel B1 b1 source dirs = some ws1 ∧
      simulationRun P fuel B2 b2 source dirs = some ws2 ∧
      ∀ step, fileOf ws1 step = fileOf ws2 step := by
  obtain ⟨ws1, e1, f1⟩ := C52_batches_partial fuel B1 b1 (initArrays P source dirs) rows hB1 hb1 heps
    ha hdt (by simp [initArrays]) h fun m i ri rj _ _ _ => hm i ri rj
  obtain ⟨ws2, e2, f2⟩ := C52_batches_partial fuel B2 b2 (initArrays P source dirs) rows hB2 hb2 heps
    ha hdt (by simp [initArrays]) (by rw [← heq]; exact h) fun m i ri rj _ _ _ => hm i ri rj
  exact ⟨ws1, ws2, e1, e2, fun step => by rw [f1, f2]⟩

/-- A room between the walls x = 0 (polygon 0) and x = `w` (polygon 1).  `hit` is what
`is_point_inside_projection` computes for a point between them: for a direction parallel to the
walls, the zero direction included, whether the point is within the tolerance of the wall. -/
def slab (w : ℚ) : Params ℚ where
  raySpeed := 100
  timeStep := 1 / 100
  gridStep := 2
  grid := [((0, 0, 0), [0, 1])]
  absorbers := []
  absorberRadius := 1 / 10
  lo := ⟨0, 0, 0⟩
  hi := ⟨w, 2, 2⟩
  transparent := [-1]
  absorption _ := 1 / 5
  eps := 1 / 1000000
  geo :=
    { hit := fun p v pn =>
        let d := (if pn = 0 then 0 else w) - p.x
        if v.x = 0 then |d| ≤ 1 / 1000 else 0 ≤ d / v.x
      dist := fun p pn => |(if pn = 0 then 0 else w) - p.x|
      vn := fun pn => if pn = 0 then ⟨-1, 0, 0⟩ else ⟨1, 0, 0⟩ }
  setIter := List.dedup

/-- Without the proviso C52 fails: a ray that starts half a millimetre from one wall towards the other,
which is exactly at the reflection distance, neither is reflected nor moves.  It is handed to the
second batch with velocity zero, then hits the wall behind it and loses its energy; in a single batch
it keeps it. -/
theorem C52_differs :
    (simulationRun (slab (2021 / 2000)) 10 2 1 ⟨1 / 2000, 1, 1⟩ [⟨1, 0, 0⟩]).map (fun ws => (fileOf ws 2).map
      Row.energy) = some (some [1]) ∧
    (simulationRun (slab (2021 / 2000)) 10 1 2 ⟨1 / 2000, 1, 1⟩ [⟨1, 0, 0⟩]).map (fun ws => (fileOf ws 2).map
      Row.energy) = some (some [0]) := by
  decide +kernel

/-- The hypotheses are met: a ray in a wider room, with a reflection, in two batches of two steps. -/
example : ∃ rows, simulationLoop (slab 10) 10 (2 * 2)
      (initArrays (slab 10) ⟨5 / 2, 1, 1⟩ [⟨-1, 0, 0⟩]) = some rows ∧
    rows.map Row.energy = [[1], [1], [1], [4 / 5], [4 / 5]] ∧
    (∀ (i : Nat) (ri rj : Row ℚ), rows[i]? = some ri → rows[i + 1]? = some rj →
      MovedOrFree (slab 10).geo (slab 10).eps ri rj) := by
  have h : simulationLoop (slab 10) 10 (2 * 2) (initArrays (slab 10) ⟨5 / 2, 1, 1⟩ [⟨-1, 0, 0⟩])
      = some [⟨[⟨5 / 2, 1, 1⟩], [1], []⟩, ⟨[⟨3 / 2, 1, 1⟩], [1], []⟩, ⟨[⟨1 / 2, 1, 1⟩], [1], []⟩,
        ⟨[⟨3 / 2, 1, 1⟩], [4 / 5], []⟩, ⟨[⟨5 / 2, 1, 1⟩], [4 / 5], []⟩] := by
    decide +kernel
  refine ⟨_, h, rfl, ?_⟩
  intro i ri rj h1 h2 k p q e hp hq he hlt
  left
  intro hc
  have hk : k = 0 := by
    by_contra hk
    obtain ⟨k, rfl⟩ := Nat.exists_eq_succ_of_ne_zero hk
    match i with
    | 0 | 1 | 2 | 3 =>
      simp only [List.getElem?_cons_zero, List.getElem?_cons_succ, Option.some.injEq] at h1
      subst h1
      simp at hp
    | i + 4 => simp at h2
  subst hk
  match i with
  | 0 | 1 | 2 | 3 =>
    simp only [List.getElem?_cons_zero, List.getElem?_cons_succ, Option.some.injEq,
      zero_add, Nat.reduceAdd] at h1 h2
    subst h1; subst h2
    simp only [List.getElem?_cons_zero, Option.some.injEq] at hp hq
    subst hp; subst hq
    have := congrArg Vec3.x hc
    norm_num at this
  | i + 4 => simp at h2

end B3d.Sim
