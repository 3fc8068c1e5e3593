import Verif.Proofs.SimLoop

/-! # Properties C46-C51: the simulation loop -/

set_option linter.unusedSectionVars false

namespace B3d.Sim

variable {K : Type} [Field K] [LinearOrder K] [IsStrictOrderedRing K] [FloorRing K]

/-! ### Lifting facts about single steps -/

theorem forall₂_refl_of {α : Type} {R : α → α → Prop} {l : List α} (h : ∀ x ∈ l, R x x) :
    List.Forall₂ R l l := by
  induction l with
  | nil => exact .nil
  | cons a l ih => exact .cons (h a (by simp)) (ih fun x hx => h x (by simp [hx]))

theorem forall₂_trans_of {α : Type} {R S T : α → α → Prop} (hT : ∀ x y z, R x y → S y z → T x z)
    {l m n : List α} (h1 : List.Forall₂ R l m) (h2 : List.Forall₂ S m n) : List.Forall₂ T l n := by
  induction h1 generalizing n with
  | nil => cases h2; exact .nil
  | cons a _ ih =>
    cases h2 with
    | cons b h2 => exact .cons (hT _ _ _ a b) (ih h2)

theorem forall₂_imp_mem {α β : Type} {R S : α → β → Prop} {l : List α} {m : List β}
    (h : List.Forall₂ R l m) (hi : ∀ x ∈ l, ∀ y ∈ m, R x y → S x y) : List.Forall₂ S l m := by
  induction h with
  | nil => exact .nil
  | cons a _ ih =>
    exact .cons (hi _ (by simp) _ (by simp) a)
      (ih fun x hx y hy => hi x (by simp [hx]) y (by simp [hy]))

theorem forall₂_right {α β : Type} {R : α → β → Prop} {l : List α} {m : List β} {q : β → Prop}
    (h : List.Forall₂ R l m) (hi : ∀ x ∈ l, ∀ y, R x y → q y) : ∀ y ∈ m, q y := by
  induction h with
  | nil => simp
  | cons a _ ih =>
    intro y hy
    rcases List.mem_cons.1 hy with rfl | hy
    · exact hi _ (by simp) _ a
    · exact ih (fun x hx => hi x (by simp [hx])) y hy

variable {P : Params K}

/-- States of rows. -/
theorem row_state {l : List (St K)} {i : Nat} {ri : Row K} (h : (l.map rowOf)[i]? = some ri) :
    ∃ a, l[i]? = some a ∧ ri = rowOf a := by
  rw [List.getElem?_map, Option.map_eq_some_iff] at h
  obtain ⟨a, h1, h2⟩ := h
  exact ⟨a, h1, h2.symm⟩

/-- The invariant of all states: hits of the right length, energies not negative, displacement
consistent with the velocity. -/
structure Good (P : Params K) (s : St K) : Prop where
  hits : s.hits.length = P.absorbers.length
  energy : ∀ r ∈ s.rays, 0 ≤ r.energy

theorem good_step {fuel : Nat} (heps : 0 ≤ P.eps) (ha : ∀ k, 0 ≤ P.absorption k) {a b : St K}
    (hg : Good P a) (h : step P fuel a = some b) : Good P b := by
  refine ⟨by rw [step_hits_length h, hg.hits], ?_⟩
  obtain ⟨h1, _⟩ := (step_iff hg.hits).1 h
  exact forall₂_right h1 fun x hx y hy => (rayStep_energy hy heps ha (hg.energy x hx)).1

theorem good_start {a : Arrays K} (hl : a.hits.length = P.absorbers.length)
    (h0 : ∀ r ∈ a.rays, 0 ≤ r.2.2) : Good P (start P a) := by
  refine ⟨hl, ?_⟩
  intro r hr
  simp only [start, List.mem_map] at hr
  obtain ⟨x, hx, rfl⟩ := hr
  exact h0 x hx

theorem start_rows {fuel n : Nat} {a : Arrays K} {rows : List (Row K)}
    (h : simulationLoop P fuel n a = some rows) :
    rows.length = n + 1 ∧ rows[0]? =
      some ⟨a.rays.map (fun r => r.1), a.rays.map (fun r => r.2.2), a.hits⟩ := by
  obtain ⟨l, hl, rfl⟩ := simulationLoop_states h
  refine ⟨by simp [steps_length hl], ?_⟩
  rw [List.getElem?_map, steps_head hl]
  simp [rowOf, start, Function.comp_def]

/-! ## C46 -/

/-- C46: the buffers have one row for the initial state and one for every step; the first row holds
the initial energies; and from any row to any later one no ray gains energy or gets negative energy
(so a ray without energy stays without). -/
theorem C46_energy (fuel n : Nat) (a : Arrays K) (rows : List (Row K)) (heps : 0 ≤ P.eps)
    (ha : ∀ k, 0 ≤ P.absorption k) (hl : a.hits.length = P.absorbers.length)
    (h0 : ∀ r ∈ a.rays, 0 ≤ r.2.2) (h : simulationLoop P fuel n a = some rows) :
    rows.length = n + 1 ∧
    (∃ row0, rows[0]? = some row0 ∧ row0.energy = a.rays.map fun r => r.2.2) ∧
    ∀ (i j : Nat) (ri rj : Row K), i ≤ j → rows[i]? = some ri → rows[j]? = some rj →
      List.Forall₂ (fun ei ej => 0 ≤ ej ∧ ej ≤ ei) ri.energy rj.energy := by
  obtain ⟨e1, e2⟩ := start_rows h
  refine ⟨e1, ⟨_, e2, rfl⟩, ?_⟩
  obtain ⟨l, hs, rfl⟩ := simulationLoop_states h
  intro i j ri rj hij hi hj
  obtain ⟨a', h1, rfl⟩ := row_state hi
  obtain ⟨b', h2, rfl⟩ := row_state hj
  have := steps_relation hs (Good P) (good_start hl h0) (fun _ _ => good_step heps ha)
    (fun s s' => List.Forall₂ (fun r r' : Ray K => 0 ≤ r'.energy ∧ r'.energy ≤ r.energy)
      s.rays s'.rays)
    (fun s hg => forall₂_refl_of fun r hr => ⟨hg.energy r hr, le_refl _⟩)
    (fun _ _ _ => forall₂_trans_of fun x y z h1 h2 => ⟨h2.1, h2.2.trans h1.2⟩)
    (fun s s' hg hst => forall₂_imp_mem ((step_iff hg.hits).1 hst).1 fun x hx y _ hxy =>
      ⟨(rayStep_energy hxy heps ha (hg.energy x hx)).1,
        ((rayStep_energy hxy heps ha (hg.energy x hx)).2.1).trans
          (rayStep_energy hxy heps ha (hg.energy x hx)).2.2⟩) i j a' b' hij h1 h2
  simp only [rowOf]
  rw [List.forall₂_map_left_iff, List.forall₂_map_right_iff]
  exact this

/-- C46: started with energy one, as `Simulation.run` does, all energies stay within [0, 1]. -/
theorem C46_unit_interval (fuel n : Nat) (source : Vec3 K) (dirs : List (Vec3 K))
    (rows : List (Row K)) (heps : 0 ≤ P.eps) (ha : ∀ k, 0 ≤ P.absorption k)
    (h : simulationLoop P fuel n (initArrays P source dirs) = some rows) :
    ∀ row ∈ rows, row.energy.length = dirs.length ∧ ∀ e ∈ row.energy, 0 ≤ e ∧ e ≤ 1 := by
  obtain ⟨h1, ⟨row0, h2, h3⟩, h4⟩ := C46_energy fuel n _ rows heps ha
    (by simp [initArrays]) (by simp [initArrays]) h
  intro row hrow
  obtain ⟨i, hi, rfl⟩ := List.getElem_of_mem hrow
  have := h4 0 i row0 rows[i] (Nat.zero_le _) h2 (List.getElem?_eq_getElem hi)
  refine ⟨by rw [← this.length_eq, h3]; simp [initArrays], ?_⟩
  refine forall₂_right this ?_
  intro x hx y hy
  rw [h3] at hx
  simp only [initArrays, List.map_map, List.mem_map, Function.comp_apply] at hx
  obtain ⟨_, _, rfl⟩ := hx
  exact hy

/-- C46: what a step takes from a ray that is still alive after it: the absorption of each surface the
ray bounced off; these surfaces are, one after another, the nearest opaque surfaces in the direction
of the ray, and closer than the reflection distance. -/
theorem C46_surface_loss (fuel : Nat) (s s' : St K) (hl : s.hits.length = P.absorbers.length)
    (heps : 0 ≤ P.eps) (h : step P fuel s = some s') (i : Nat) (r r' : Ray K)
    (hr : s.rays[i]? = some r) (hr' : s'.rays[i]? = some r') (he : P.eps < r'.energy) :
    ∃ ks, Chain P.geo P.trans (findNearby P.setIter (cellOf r.pos P.gridStep) P.grid) P.reflDist
        r.pos r.vel ks ∧
      r'.vel = bounced P.geo r.vel ks ∧ r'.energy = r.energy - (ks.map P.absorption).sum := by
  have hst := forall₂_getElem? ((step_iff hl).1 h).1 hr hr'
  unfold RayStep at hst
  have hlive : afterAbsorb P r = r ∧ P.eps < r.energy := by
    rcases afterAbsorb_cases (P := P) r with hc | ⟨hc, _⟩
    · refine ⟨hc, ?_⟩
      by_contra hn
      rw [hc, moveRay_dead _ _ (not_lt.1 hn)] at hst
      simp only [Option.some.injEq] at hst
      rw [hst] at hn
      exact hn he
    · exfalso
      rw [hc, moveRay_dead _ _ (show (r.withEnergy 0).energy ≤ P.eps from heps)] at hst
      simp only [Option.some.injEq] at hst
      rw [← hst] at he
      exact absurd he (not_lt.2 heps)
  rw [hlive.1] at hst
  obtain ⟨r2, t, ho, rfl⟩ := moveRay_live hlive.2 hst
  rw [(advance_vel r2 t).2.1] at he
  rw [(advance_vel r2 t).1, (advance_vel r2 t).2.1]
  rcases checkLeft_cases (P := P) r with hc | hc
  · rw [hc] at ho
    cases ho with
    | flies ks d t chain alive hd ht stop => exact ⟨ks, chain, rfl, rfl⟩
    | dies ks k d chain alive dead hd => exact absurd he (not_lt.2 heps)
  · rw [hc] at ho
    exfalso
    cases ho with
    | flies ks d t chain alive hd ht stop =>
      by_cases hk : ks = []
      · subst hk
        simp only [Ray.withEnergy, List.map_nil, List.sum_nil, sub_zero] at he
        exact absurd he (not_lt.2 heps)
      · have hne := hk
        cases ks with
        | nil => exact hk rfl
        | cons k ks =>
          -- the loop is not entered without energy
          unfold moveRay at hst
          rw [if_neg (not_le.2 hlive.2), hc] at hst
          simp only [] at hst
          cases fuel with
          | zero => simp [reflectLoop] at hst
          | succ fuel =>
            have hz : (r.withEnergy 0).energy = 0 := rfl
            have hz' : ¬ (P.eps < (r.withEnergy 0).energy) := by rw [hz]; exact not_lt.2 heps
            have hno : ∀ t, reflectLoop P (cellOf (r.withEnergy 0).pos P.gridStep) (fuel + 1)
                (r.withEnergy 0) t = some (r.withEnergy 0, t) := by
              intro t
              cases t with
              | none => rfl
              | some pn => rw [reflectLoop, if_neg (fun h => hz' h.2)]
            rw [hno] at hst
            simp only [Option.some.injEq] at hst
            have e1 := congrArg Ray.energy hst
            rw [(advance_vel _ _).2.1, (advance_vel _ _).2.1] at e1
            rw [← e1] at he
            exact hz' he
    | dies ks k d chain alive dead hd => exact absurd he (not_lt.2 heps)

/-! ## C47 -/

/-- C47: a ray without energy (at most `eps`) keeps its position and energy in all later rows. -/
theorem C47_dead_rays_stay (fuel n : Nat) (a : Arrays K) (rows : List (Row K))
    (hl : a.hits.length = P.absorbers.length) (h : simulationLoop P fuel n a = some rows)
    (i j : Nat) (ri rj : Row K) (hij : i ≤ j) (hi : rows[i]? = some ri) (hj : rows[j]? = some rj)
    (k : Nat) (e : K) (hk : ri.energy[k]? = some e) (hdead : e ≤ P.eps) :
    rj.energy[k]? = some e ∧ rj.pos[k]? = ri.pos[k]? := by
  obtain ⟨l, hs, rfl⟩ := simulationLoop_states h
  obtain ⟨s, h1, rfl⟩ := row_state hi
  obtain ⟨s', h2, rfl⟩ := row_state hj
  have := steps_relation hs (fun s => s.hits.length = P.absorbers.length) hl
    (fun _ _ hg hst => by rw [step_hits_length hst, hg])
    (fun s s' => List.Forall₂ (fun r r' : Ray K => r.energy ≤ P.eps → r' = r) s.rays s'.rays)
    (fun s _ => forall₂_refl_of fun r _ _ => rfl)
    (fun _ _ _ => forall₂_trans_of fun x y z h1 h2 hx => by
      have := h1 hx; subst this; exact h2 hx)
    (fun s s' hg hst => forall₂_imp_mem ((step_iff hg).1 hst).1 fun x _ y _ hxy hx =>
      rayStep_dead hxy hx) i j s s' hij h1 h2
  simp only [rowOf, List.getElem?_map, Option.map_eq_some_iff] at hk ⊢
  obtain ⟨r, hr, rfl⟩ := hk
  have hlt : k < s'.rays.length := by
    rw [← this.length_eq]
    exact (List.getElem?_eq_some_iff.1 hr).1
  obtain ⟨r', hr'⟩ : ∃ r', s'.rays[k]? = some r' := ⟨_, List.getElem?_eq_getElem hlt⟩
  have e := forall₂_getElem? this hr hr' hdead
  subst e
  exact ⟨⟨_, hr', rfl⟩, by rw [hr, hr']⟩

/-- C47: within the loop such a ray does not change at all (velocity included). -/
theorem C47_dead_rays_unchanged (fuel n : Nat) (a : Arrays K) (l : List (St K))
    (hl : a.hits.length = P.absorbers.length) (h : steps P fuel n (start P a) = some l)
    (i j : Nat) (s s' : St K) (hij : i ≤ j) (hi : l[i]? = some s) (hj : l[j]? = some s')
    (k : Nat) (r : Ray K) (hk : s.rays[k]? = some r) (hdead : r.energy ≤ P.eps) :
    s'.rays[k]? = some r := by
  have := steps_relation h (fun s => s.hits.length = P.absorbers.length) hl
    (fun _ _ hg hst => by rw [step_hits_length hst, hg])
    (fun s s' => List.Forall₂ (fun r r' : Ray K => r.energy ≤ P.eps → r' = r) s.rays s'.rays)
    (fun s _ => forall₂_refl_of fun r _ _ => rfl)
    (fun _ _ _ => forall₂_trans_of fun x y z h1 h2 hx => by
      have := h1 hx; subst this; exact h2 hx)
    (fun s s' hg hst => forall₂_imp_mem ((step_iff hg).1 hst).1 fun x _ y _ hxy hx =>
      rayStep_dead hxy hx) i j s s' hij hi hj
  have hlt : k < s'.rays.length := by
    rw [← this.length_eq]
    exact (List.getElem?_eq_some_iff.1 hk).1
  rw [List.getElem?_eq_getElem hlt]
  rw [forall₂_getElem? this hk (List.getElem?_eq_getElem hlt) hdead]

/-! ## C48 -/

/-- Energy that the row's rays hand to absorber `sn`: that of the rays with energy whose first
absorber is `sn`. -/
def handedTo (P : Params K) (row : Row K) (sn : Nat) : K :=
  ((row.pos.zip row.energy).map fun r =>
    if P.eps < r.2 ∧ firstAbsorber P.absorberRadius P.absorbers r.1 = some sn then r.2 else 0).sum

theorem handedTo_rowOf (s : St K) (sn : Nat) :
    handedTo P (rowOf s) sn = (s.rays.map (given P sn)).sum := by
  unfold handedTo rowOf given
  simp only [List.zip_map', List.map_map]
  rfl

/-- C48: the hits of a row are, for each absorber, the energies which the rays of the row before had
and whose first absorber it is; each of these rays has no energy in the new row. -/
theorem C48_hits (fuel n : Nat) (a : Arrays K) (rows : List (Row K)) (heps : 0 ≤ P.eps)
    (hl : a.hits.length = P.absorbers.length) (h : simulationLoop P fuel n a = some rows)
    (i : Nat) (ri rj : Row K) (hi : rows[i]? = some ri) (hj : rows[i + 1]? = some rj) :
    (rj.hits.length = P.absorbers.length ∧
      ∀ sn < P.absorbers.length, rj.hits[sn]? = some (handedTo P ri sn)) ∧
    ∀ (k : Nat) (p : Vec3 K) (e : K), ri.pos[k]? = some p → ri.energy[k]? = some e → P.eps < e →
      (firstAbsorber P.absorberRadius P.absorbers p).isSome → rj.energy[k]? = some 0 := by
  obtain ⟨l, hs, rfl⟩ := simulationLoop_states h
  obtain ⟨s, h1, rfl⟩ := row_state hi
  obtain ⟨s', h2, rfl⟩ := row_state hj
  have hlen := steps_invariant hs (fun s => s.hits.length = P.absorbers.length) hl
    (fun _ _ hg hst => by rw [step_hits_length hst, hg])
  have hst := steps_succ hs i s s' h1 h2
  obtain ⟨k1, k2⟩ := (step_iff (hlen i s h1)).1 hst
  refine ⟨⟨hlen (i + 1) s' h2, ?_⟩, ?_⟩
  · intro sn hsn
    rw [handedTo_rowOf]
    simp only [rowOf]
    rw [k2, absorbAll_hit _ (by simpa using hlen i s h1)]
    rw [List.getElem?_map, List.getElem?_eq_getElem (by rw [hlen i s h1]; exact hsn)]
    simp
  · intro k p e hp he hlt hf
    simp only [rowOf, List.getElem?_map, Option.map_eq_some_iff] at hp he ⊢
    obtain ⟨r, hr, rfl⟩ := hp
    obtain ⟨r2, hr2, rfl⟩ := he
    rw [hr] at hr2
    simp only [Option.some.injEq] at hr2
    subst hr2
    have hlt' : k < s'.rays.length := by
      rw [← k1.length_eq]
      exact (List.getElem?_eq_some_iff.1 hr).1
    refine ⟨_, List.getElem?_eq_getElem hlt', ?_⟩
    have hray := forall₂_getElem? k1 hr (List.getElem?_eq_getElem hlt')
    unfold RayStep at hray
    have : afterAbsorb P r = r.withEnergy 0 := by
      unfold afterAbsorb
      rw [if_neg (not_le.2 hlt), if_pos hf]
    rw [this, moveRay_dead _ _ (show (r.withEnergy 0).energy ≤ P.eps from heps)] at hray
    simp only [Option.some.injEq] at hray
    rw [← hray]
    rfl

theorem sum_le_of_forall₂ {l m : List (Ray K)}
    (h : List.Forall₂ (fun r r' : Ray K => r'.energy ≤ r.energy) l m) :
    (m.map Ray.energy).sum ≤ (l.map Ray.energy).sum := by
  induction h with
  | nil => simp
  | cons a _ ih => simp only [List.map_cons, List.sum_cons]; exact add_le_add a ih

theorem step_sum {fuel : Nat} (heps : 0 ≤ P.eps) (ha : ∀ k, 0 ≤ P.absorption k) {s s' : St K}
    (hg : Good P s) (h : step P fuel s = some s') :
    s'.hits.sum + (s'.rays.map Ray.energy).sum ≤ (s.rays.map Ray.energy).sum := by
  obtain ⟨k1, k2⟩ := (step_iff hg.hits).1 h
  have h1 := absorbAll_sum (P := P) (s.hits.map fun _ => 0) (by simpa using hg.hits) s.rays
  rw [← k2] at h1
  have h2 : (s'.rays.map Ray.energy).sum ≤ ((s.rays.map (afterAbsorb P)).map Ray.energy).sum := by
    apply sum_le_of_forall₂
    rw [List.forall₂_map_left_iff]
    exact forall₂_imp_mem k1 fun x hx y _ hxy => (rayStep_energy hxy heps ha (hg.energy x hx)).2.1
  have h3 : (s.hits.map fun _ => (0 : K)).sum = 0 := by
    apply List.sum_eq_zero
    intro x hx
    obtain ⟨_, _, rfl⟩ := List.mem_map.1 hx
    rfl
  linarith

/-- C48: everything recorded by the absorbers in the steps of the run, together with the energy left
in the rays, is at most the initial energy. -/
theorem C48_total (fuel n : Nat) (a : Arrays K) (rows : List (Row K)) (heps : 0 ≤ P.eps)
    (ha : ∀ k, 0 ≤ P.absorption k) (hl : a.hits.length = P.absorbers.length)
    (h0 : ∀ r ∈ a.rays, 0 ≤ r.2.2) (h : simulationLoop P fuel n a = some rows) (last : Row K)
    (hlast : rows.getLast? = some last) :
    (rows.tail.map fun r => r.hits.sum).sum + last.energy.sum ≤ (a.rays.map fun r => r.2.2).sum := by
  have key : ∀ (n : Nat) (s : St K) (l : List (St K)), Good P s → steps P fuel n s = some l →
      ∀ x, l.getLast? = some x →
      (l.tail.map fun r => r.hits.sum).sum + (x.rays.map Ray.energy).sum
        ≤ (s.rays.map Ray.energy).sum := by
    intro n
    induction n with
    | zero =>
      intro s l _ hs x hx
      simp only [steps, Option.some.injEq] at hs
      subst hs
      simp only [List.getLast?_singleton, Option.some.injEq] at hx
      subst hx
      simp
    | succ n ih =>
      intro s l hg hs x hx
      rw [steps] at hs
      split at hs
      · cases hs
      · rename_i s' hst
        split at hs
        · cases hs
        · rename_i l' hl'
          simp only [Option.some.injEq] at hs
          subst hs
          have hg' := good_step heps ha hg hst
          have hh := steps_head hl'
          cases l' with
          | nil => simp at hh
          | cons y ys =>
            simp only [List.getElem?_cons_zero, Option.some.injEq] at hh
            subst hh
            rw [List.getLast?_cons_cons] at hx
            have h1 := ih _ _ hg' hl' x hx
            have h2 := step_sum heps ha hg hst
            simp only [List.tail_cons, List.map_cons, List.sum_cons] at h1 ⊢
            linarith
  obtain ⟨l, hs, rfl⟩ := simulationLoop_states h
  rw [List.getLast?_map, Option.map_eq_some_iff] at hlast
  obtain ⟨x, hx, rfl⟩ := hlast
  have := key n _ l (good_start hl h0) hs x hx
  simp only [start, List.map_map] at this
  rw [← List.map_tail, List.map_map]
  exact this

/-! ## C49 -/

/-- C49: the law of reflection: for a unit normal the mirrored velocity has the opposite normal
component, the same tangential component and the same speed. -/
theorem C49_reflection_law (n v : Vec3 K) (hn : Vec3.normSq n = 1) :
    Vec3.dot n (mirror n v) = -Vec3.dot n v ∧
    mirror n v - Vec3.dot n (mirror n v) • n = v - Vec3.dot n v • n ∧
    Vec3.normSq (mirror n v) = Vec3.normSq v := by
  have h1 : Vec3.dot n (mirror n v) = -Vec3.dot n v := by
    unfold mirror
    unfold Vec3.normSq at hn
    rw [Vec3.dot_sub_right, Vec3.dot_smul_right, hn]
    ring
  refine ⟨h1, ?_, normSq_mirror hn⟩
  rw [h1]
  unfold mirror
  ext <;> simp <;> ring

/-- C49: in every step each ray moves by nothing or by exactly the distance of one time step at the
ray speed. -/
theorem C49_speed (fuel n : Nat) (a : Arrays K) (rows : List (Row K))
    (hn : ∀ k, Vec3.normSq (P.geo.vn k) = 1) (hl : a.hits.length = P.absorbers.length)
    (hv : ∀ r ∈ a.rays, Vec3.normSq r.2.1 = P.raySpeed ^ 2)
    (h : simulationLoop P fuel n a = some rows) (i : Nat) (ri rj : Row K)
    (hi : rows[i]? = some ri) (hj : rows[i + 1]? = some rj) :
    List.Forall₂ (fun p q => q = p ∨ Vec3.normSq (q - p) = (P.raySpeed * P.timeStep) ^ 2)
      ri.pos rj.pos := by
  obtain ⟨l, hs, rfl⟩ := simulationLoop_states h
  obtain ⟨s, h1, rfl⟩ := row_state hi
  obtain ⟨s', h2, rfl⟩ := row_state hj
  have hinv := steps_invariant hs (fun s => s.hits.length = P.absorbers.length ∧
      ∀ r ∈ s.rays, r.delta = P.timeStep • r.vel ∧ Vec3.normSq r.vel = P.raySpeed ^ 2)
    ⟨hl, by
      intro r hr
      simp only [start, List.mem_map] at hr
      obtain ⟨x, hx, rfl⟩ := hr
      exact ⟨rfl, hv x hx⟩⟩
    (fun a b hg hst => ⟨by rw [step_hits_length hst, hg.1],
      forall₂_right ((step_iff hg.1).1 hst).1 fun x hx y hy =>
        ⟨rayStep_delta hy (hg.2 x hx).1, by rw [rayStep_vel hy hn, (hg.2 x hx).2]⟩⟩)
  have hst := steps_succ hs i s s' h1 h2
  have hf := ((step_iff (hinv i s h1).1).1 hst).1
  simp only [rowOf]
  rw [List.forall₂_map_left_iff, List.forall₂_map_right_iff]
  refine forall₂_imp_mem hf ?_
  intro r hr r' hr' hrr
  rcases rayStep_pos hrr with h | ⟨h, _⟩
  · left; exact h
  · right
    obtain ⟨d1, d2⟩ := (hinv (i + 1) s' h2).2 r' hr'
    have : r'.pos - r.pos = P.timeStep • r'.vel := by
      rw [h, d1]
      ext <;> simp
    rw [this]
    unfold Vec3.normSq at d2 ⊢
    rw [Vec3.dot_smul_left, Vec3.dot_smul_right, d2]
    ring

/-! ## C51 -/

theorem reflectLoop_some (c : Cell) (amin : K) (ha : ∀ k, amin ≤ P.absorption k) :
    ∀ (n : Nat) (r : Ray K) (t : Option Nat), r.energy ≤ P.eps + (n : K) * amin →
      ∀ fuel, n < fuel → ∃ res, reflectLoop P c fuel r t = some res := by
  intro n
  induction n with
  | zero =>
    intro r t he fuel hf
    cases fuel with
    | zero => omega
    | succ fuel =>
      cases t with
      | none => exact ⟨_, rfl⟩
      | some pn =>
        rw [reflectLoop, if_neg]
        · exact ⟨_, rfl⟩
        · rintro ⟨_, h⟩
          simp only [Nat.cast_zero, zero_mul, add_zero] at he
          exact absurd h (not_lt.2 he)
  | succ n ih =>
    intro r t he fuel hf
    cases fuel with
    | zero => omega
    | succ fuel =>
      cases t with
      | none => exact ⟨_, rfl⟩
      | some pn =>
        rw [reflectLoop]
        split
        · split
          · exact ⟨_, rfl⟩
          · apply ih _ _ _ _ (by omega)
            show r.energy - P.absorption pn ≤ _
            have := ha pn
            push_cast at he
            linarith
        · exact ⟨_, rfl⟩

theorem moveRay_some (amin : K) (ha : ∀ k, amin ≤ P.absorption k) (hpos : 0 ≤ amin)
    (heps : 0 ≤ P.eps) (n : Nat) (r : Ray K) (he : r.energy ≤ P.eps + (n : K) * amin) (fuel : Nat)
    (hf : n < fuel) : ∃ r', moveRay P fuel r = some r' := by
  unfold moveRay
  split
  · exact ⟨_, rfl⟩
  · have he' : (checkLeft P r).energy ≤ P.eps + (n : K) * amin := by
      rcases checkLeft_cases (P := P) r with h | h <;> rw [h]
      · exact he
      · have : 0 ≤ (n : K) * amin := mul_nonneg (Nat.cast_nonneg n) hpos
        exact add_nonneg heps this
    obtain ⟨⟨r2, t⟩, h⟩ := reflectLoop_some (P := P) (cellOf (checkLeft P r).pos P.gridStep) amin ha n
      (checkLeft P r) (target P (cellOf (checkLeft P r).pos P.gridStep) (checkLeft P r)) he' fuel hf
    exact ⟨advance P r2 t, by simp only [h]⟩

/-- C51: when every absorption is at least `amin > 0`, a ray needs at most `ceil(energy / amin)`
reflections in a step: the loop condition is evaluated at most once more than that. -/
theorem C51_bound (amin : K) (hpos : 0 < amin) (ha : ∀ k, amin ≤ P.absorption k) (heps : 0 ≤ P.eps)
    (r : Ray K) : ∃ r', moveRay P (⌈r.energy / amin⌉.toNat + 1) r = some r' := by
  refine moveRay_some amin ha hpos.le heps ⌈r.energy / amin⌉.toNat r ?_ _ (Nat.lt_succ_self _)
  have h1 : r.energy / amin ≤ (⌈r.energy / amin⌉.toNat : K) := by
    have h2 : r.energy / amin ≤ (⌈r.energy / amin⌉ : K) := Int.le_ceil _
    refine h2.trans ?_
    rw [← Int.cast_natCast (R := K), Int.cast_le]
    exact Int.self_le_toNat _
  rw [div_le_iff₀ hpos] at h1
  linarith

/-- C51: with positive absorption every simulation of any length finishes, with one bound on the
number of reflections for all steps and rays. -/
theorem C51_terminates (amin emax : K) (hpos : 0 < amin) (ha : ∀ k, amin ≤ P.absorption k)
    (heps : 0 ≤ P.eps) (n : Nat) (a : Arrays K) (hl : a.hits.length = P.absorbers.length)
    (h0 : ∀ r ∈ a.rays, 0 ≤ r.2.2 ∧ r.2.2 ≤ emax) :
    ∃ rows, simulationLoop P (⌈emax / amin⌉.toNat + 1) n a = some rows := by
  have hb : emax ≤ P.eps + (⌈emax / amin⌉.toNat : K) * amin := by
    have h1 : emax / amin ≤ (⌈emax / amin⌉.toNat : K) := by
      have h2 : emax / amin ≤ (⌈emax / amin⌉ : K) := Int.le_ceil _
      refine h2.trans ?_
      rw [← Int.cast_natCast (R := K), Int.cast_le]
      exact Int.self_le_toNat _
    rw [div_le_iff₀ hpos] at h1
    linarith
  obtain ⟨fuel, hfuel⟩ : ∃ fuel, fuel = ⌈emax / amin⌉.toNat + 1 := ⟨_, rfl⟩
  have ha0 : ∀ k, 0 ≤ P.absorption k := fun k => hpos.le.trans (ha k)
  have hstep : ∀ s, (Good P s ∧ ∀ r ∈ s.rays, r.energy ≤ emax) →
      ∃ s', step P fuel s = some s' := by
    rintro s ⟨hg, he⟩
    have : ∃ rs, List.Forall₂ (RayStep P fuel) s.rays rs := by
      have hall : ∀ r ∈ s.rays, ∃ r', RayStep P fuel r r' := by
        intro r hr
        refine moveRay_some amin ha hpos.le heps ⌈emax / amin⌉.toNat (afterAbsorb P r) ?_ fuel
          (by omega)
        rcases afterAbsorb_cases (P := P) r with hc | ⟨hc, _⟩ <;> rw [hc]
        · exact (he r hr).trans hb
        · exact (hg.energy r hr).trans ((he r hr).trans hb)
      generalize s.rays = rs at hall
      induction rs with
      | nil => exact ⟨[], .nil⟩
      | cons r rs ih =>
        obtain ⟨r', hr'⟩ := hall r (by simp)
        obtain ⟨rs', hrs'⟩ := ih fun x hx => hall x (by simp [hx])
        exact ⟨r' :: rs', .cons hr' hrs'⟩
    obtain ⟨rs, hrs⟩ := this
    exact ⟨⟨rs, _⟩, (step_iff hg.hits).2 ⟨hrs, rfl⟩⟩
  have hall : ∀ (n : Nat) (s : St K), (Good P s ∧ ∀ r ∈ s.rays, r.energy ≤ emax) →
      ∃ l, steps P fuel n s = some l := by
    intro n
    induction n with
    | zero => intro s _; exact ⟨_, rfl⟩
    | succ n ih =>
      intro s hs
      obtain ⟨s', hs'⟩ := hstep s hs
      have hg' : Good P s' ∧ ∀ r ∈ s'.rays, r.energy ≤ emax := by
        refine ⟨good_step heps ha0 hs.1 hs', ?_⟩
        refine forall₂_right ((step_iff hs.1.hits).1 hs').1 ?_
        intro x hx y hy
        have := rayStep_energy hy heps ha0 (hs.1.energy x hx)
        exact this.2.1.trans (this.2.2.trans (hs.2 x hx))
      obtain ⟨l, hl⟩ := ih s' hg'
      rw [steps, hs']
      simp only []
      rw [hl]
      exact ⟨_, rfl⟩
  obtain ⟨l, hl'⟩ := hall n (start P a) ⟨good_start hl fun r hr => (h0 r hr).1, by
    intro r hr
    simp only [start, List.mem_map] at hr
    obtain ⟨x, hx, rfl⟩ := hr
    exact (h0 x hx).2⟩
  unfold simulationLoop
  rw [← hfuel, hl']
  exact ⟨_, rfl⟩

theorem reflectLoop_mono (c : Cell) : ∀ (fuel : Nat) (r : Ray K) (t : Option Nat)
    (res : Ray K × Option Nat), reflectLoop P c fuel r t = some res →
    ∀ fuel', fuel ≤ fuel' → reflectLoop P c fuel' r t = some res := by
  intro fuel
  induction fuel with
  | zero => intro r t res h; simp [reflectLoop] at h
  | succ fuel ih =>
    intro r t res h fuel' hf
    cases fuel' with
    | zero => omega
    | succ fuel' =>
      cases t with
      | none => exact h
      | some pn =>
        rw [reflectLoop] at h ⊢
        split at h
        · rename_i h1
          rw [if_pos h1]
          split at h
          · rename_i h2
            rw [if_pos h2]
            exact h
          · rename_i h2
            rw [if_neg h2]
            exact ih _ _ _ h _ (by omega)
        · rename_i h1
          rw [if_neg h1]
          exact h

/-- Allowing more reflections does not change the outcome of a loop that has ended: the bound in the
model has no effect on results. -/
theorem C51_fuel_irrelevant (fuel fuel' : Nat) (r r' r'' : Ray K) (h : moveRay P fuel r = some r')
    (h' : moveRay P fuel' r = some r'') : r' = r'' := by
  have key : ∀ f f' (r1 r2 : Ray K), f ≤ f' → moveRay P f r = some r1 → moveRay P f' r = some r2 →
      r1 = r2 := by
    intro f f' r1 r2 hf h1 h2
    unfold moveRay at h1 h2
    split at h1
    · rename_i he
      rw [if_pos he] at h2
      rw [Option.some.injEq] at h1 h2
      rw [← h1, ← h2]
    · rename_i he
      rw [if_neg he] at h2
      simp only [] at h1 h2
      cases hl : reflectLoop P (cellOf (checkLeft P r).pos P.gridStep) f (checkLeft P r)
          (target P (cellOf (checkLeft P r).pos P.gridStep) (checkLeft P r)) with
      | none => rw [hl] at h1; cases h1
      | some res =>
        rw [hl] at h1
        rw [reflectLoop_mono _ _ _ _ _ hl _ hf] at h2
        simp only [Option.some.injEq] at h1 h2
        rw [← h1, ← h2]
  rcases Nat.le_total fuel fuel' with hf | hf
  · exact key _ _ _ _ hf h h'
  · exact (key _ _ _ _ hf h' h).symm

/-- Two parallel plates x = 0 and x = 1/100, closer to each other than the reflection distance. -/
def plates (absorption : ℚ) : Params ℚ where
  raySpeed := 343
  timeStep := 1 / 1000
  gridStep := 1
  grid := [((0, 0, 0), [0, 1])]
  absorbers := [⟨0, 10, 0⟩]
  absorberRadius := 1 / 10
  lo := ⟨0, 0, 0⟩
  hi := ⟨1 / 100, 1, 1⟩
  transparent := [-1]
  absorption _ := absorption
  eps := 1 / 1000000
  geo :=
    { hit := fun p v pn => if pn = 0 then 0 ≤ p.x && v.x < 0 else p.x ≤ 1 / 100 && 0 < v.x
      dist := fun p pn => if pn = 0 then |p.x| else |p.x - 1 / 100|
      vn := fun pn => if pn = 0 then ⟨-1, 0, 0⟩ else ⟨1, 0, 0⟩ }
  setIter := List.dedup

/-- A ray between the plates. -/
def between2 (v e : ℚ) : Ray ℚ := ⟨⟨1 / 200, 1 / 2, 1 / 2⟩, ⟨v, 0, 0⟩, ⟨v / 1000, 0, 0⟩, e⟩

theorem cell_plates : cellOf (⟨1 / 200, 1 / 2, 1 / 2⟩ : Vec3 ℚ) 1 = (0, 0, 0) := by
  decide +kernel

theorem near_plates : findNearby List.dedup (0, 0, 0) [((0, 0, 0), [0, 1])] = [0, 1] := by
  decide +kernel

theorem target_plates (v : ℚ) (hv : v = 343 ∨ v = -343) (a e : ℚ) (d : Vec3 ℚ) :
    target (plates a) (0, 0, 0) ⟨⟨1 / 200, 1 / 2, 1 / 2⟩, ⟨v, 0, 0⟩, d, e⟩
      = some (if v = 343 then 1 else 0) := by
  unfold target
  have hn : findNearby (plates a).setIter (0, 0, 0) (plates a).grid = [0, 1] := near_plates
  rw [hn]
  have ht : (plates a).trans = [-1] := by
    simp [Params.trans, plates]
  rw [ht]
  rcases hv with rfl | rfl
  · simp [findTarget, targetStep, plates]
    norm_num
  · simp [findTarget, targetStep, plates]
    norm_num

/-- Without the assumption on absorption C51 fails: with perfectly reflecting surfaces a ray between
two plates that are closer to each other than the reflection distance is reflected forever, and the
step never ends. -/
theorem C51_zero_absorption_hangs (fuel : Nat) : moveRay (plates 0) fuel (between2 343 1) = none := by
  have hloop : ∀ fuel (v : ℚ) (d : Vec3 ℚ), (v = 343 ∨ v = -343) →
      reflectLoop (plates 0) (0, 0, 0) fuel ⟨⟨1 / 200, 1 / 2, 1 / 2⟩, ⟨v, 0, 0⟩, d, 1⟩
        (some (if v = 343 then 1 else 0)) = none := by
    intro fuel
    induction fuel with
    | zero => intros; rfl
    | succ fuel ih =>
      intro v d hv
      rw [reflectLoop, if_pos]
      · rw [if_neg]
        · have hr : reflect (plates 0) (if v = 343 then 1 else 0) (1 - (plates 0).absorption
              (if v = 343 then 1 else 0)) ⟨⟨1 / 200, 1 / 2, 1 / 2⟩, ⟨v, 0, 0⟩, d, 1⟩
              = ⟨⟨1 / 200, 1 / 2, 1 / 2⟩, ⟨-v, 0, 0⟩, (1 / 1000 : ℚ) • ⟨-v, 0, 0⟩, 1⟩ := by
            have hvel : ∀ w : Vec3 ℚ, w = ⟨-v, 0, 0⟩ → (⟨⟨1 / 200, 1 / 2, 1 / 2⟩, w,
                (1 / 1000 : ℚ) • w, 1⟩ : Ray ℚ) = ⟨⟨1 / 200, 1 / 2, 1 / 2⟩, ⟨-v, 0, 0⟩,
                (1 / 1000 : ℚ) • ⟨-v, 0, 0⟩, 1⟩ := by rintro _ rfl; rfl
            have h1 : (1 : ℚ) - (plates 0).absorption (if v = 343 then 1 else 0) = 1 := by
              simp [plates]
            unfold reflect
            rw [h1]
            apply hvel
            rcases hv with rfl | rfl
            · simp [plates, Vec3.dot]
              ext <;> simp
              norm_num
            · norm_num [plates, Vec3.dot]
              ext <;> simp
              norm_num
          simp only [hr]
          rw [target_plates (-v) (by rcases hv with rfl | rfl <;> norm_num)]
          exact ih (-v) _ (by rcases hv with rfl | rfl <;> norm_num)
        · simp [plates]
          norm_num
      · rcases hv with rfl | rfl
        · norm_num [plates, Params.reflDist]
        · norm_num [plates, Params.reflDist]
  have hcl : checkLeft (plates 0) (between2 343 1) = between2 343 1 := by
    unfold checkLeft
    rw [if_neg]
    simp only [leftBox, between2, plates]
    norm_num
  unfold moveRay
  rw [if_neg (by norm_num [between2, plates]), hcl]
  have hcell : cellOf (between2 343 1).pos (plates 0).gridStep = (0, 0, 0) := cell_plates
  simp only [hcell]
  have ht := target_plates 343 (Or.inl rfl) 0 1 ⟨343 / 1000, 0, 0⟩
  have hb : between2 343 1 = ⟨⟨1 / 200, 1 / 2, 1 / 2⟩, ⟨343, 0, 0⟩, ⟨343 / 1000, 0, 0⟩, 1⟩ := rfl
  rw [hb, ht, hloop _ _ _ (Or.inl rfl)]

/-- The hypotheses of C46 - C51 hold for the plates with absorption 1/5. -/
example : (0 : ℚ) < 1 / 5 ∧ (∀ k, (1 / 5 : ℚ) ≤ (plates (1 / 5)).absorption k) ∧
    0 ≤ (plates (1 / 5)).eps ∧ (∀ k, Vec3.normSq ((plates (1 / 5)).geo.vn k) = 1) ∧
    IteratesSet (plates (1 / 5)).setIter ∧
    (initArrays (plates (1 / 5)) ⟨1 / 200, 1 / 2, 1 / 2⟩ [⟨1, 0, 0⟩]).hits.length
      = (plates (1 / 5)).absorbers.length ∧
    ∃ rows, simulationLoop (plates (1 / 5)) 6 3
      (initArrays (plates (1 / 5)) ⟨1 / 200, 1 / 2, 1 / 2⟩ [⟨1, 0, 0⟩]) = some rows := by
  refine ⟨by norm_num, fun k => le_refl _, by norm_num [plates], ?_, dedup_iteratesSet, rfl, ?_⟩
  · intro k
    simp only [plates]
    split <;> norm_num [Vec3.normSq, Vec3.dot]
  · have h := C51_terminates (P := plates (1 / 5)) (1 / 5) 1 (by norm_num) (fun k => le_refl _)
      (by norm_num [plates]) 3 (initArrays (plates (1 / 5)) ⟨1 / 200, 1 / 2, 1 / 2⟩ [⟨1, 0, 0⟩]) rfl
      (by
        intro r hr
        simp only [initArrays, List.map_cons, List.map_nil, List.mem_singleton] at hr
        subst hr
        norm_num)
    have e : ⌈(1 : ℚ) / (1 / 5)⌉.toNat + 1 = 6 := by decide +kernel
    rw [e] at h
    exact h

end B3d.Sim
