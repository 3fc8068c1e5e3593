import Verif.Model.SimPar
import Verif.Proofs.SimLoop
import Verif.Props.SimLoop

/-! # Property C50: the parallel loop over rays -/

set_option linter.unusedSectionVars false

namespace B3d.Sim

variable {K : Type} [Field K] [LinearOrder K] [IsStrictOrderedRing K] [FloorRing K]
variable {P : Params K}

/-- The thread has ended. -/
def IsDone (s : Ray K × Pc) : Prop := s.2 = .done

theorem runSchedule_get (schedule : List Nat) (s : List (Ray K × Pc)) (i : Nat) :
    (runSchedule P schedule s)[i]? = s[i]?.map ((micro P)^[schedule.count i]) := by
  unfold runSchedule
  induction schedule generalizing s with
  | nil => simp
  | cons j js ih =>
    rw [List.foldl_cons, ih, List.getElem?_modify, List.count_cons]
    by_cases h : j = i
    · subst h
      simp only [if_true, beq_self_eq_true, Option.map_eq_map, Option.map_map]
      rfl
    · have hb : (j == i) = false := by simpa using h
      simp only [h, if_false, hb, Bool.false_eq_true, add_zero]
      simp

theorem micro_done {s : Ray K × Pc} (h : IsDone s) : micro P s = s := by
  obtain ⟨r, pc⟩ := s
  unfold IsDone at h
  simp only at h
  subst h
  rfl

theorem iterate_done {s : Ray K × Pc} (n m : Nat) (hnm : n ≤ m) (h : IsDone ((micro P)^[n] s)) :
    (micro P)^[m] s = (micro P)^[n] s := by
  obtain ⟨k, rfl⟩ := Nat.exists_eq_add_of_le hnm
  rw [Nat.add_comm, Function.iterate_add_apply]
  exact Function.iterate_fixed (micro_done h) k

theorem iterate_unique {s : Ray K × Pc} (n m : Nat) (h : IsDone ((micro P)^[n] s))
    (h' : IsDone ((micro P)^[m] s)) : (micro P)^[n] s = (micro P)^[m] s := by
  rcases Nat.le_total n m with hnm | hnm
  · exact (iterate_done n m hnm h).symm
  · exact iterate_done m n hnm h'

theorem runSchedule_length (schedule : List Nat) (s : List (Ray K × Pc)) :
    (runSchedule P schedule s).length = s.length := by
  unfold runSchedule
  induction schedule generalizing s with
  | nil => rfl
  | cons j js ih => rw [List.foldl_cons, ih, List.length_modify]

/-- The reflection loop as a thread. -/
theorem loop_micro (c : Cell) : ∀ (fuel : Nat) (r : Ray K) (t : Option Nat)
    (res : Ray K × Option Nat), reflectLoop P c fuel r t = some res →
    ∃ n, n ≤ 6 * fuel ∧ (micro P)^[n] (r, .loop c t) = (advance P res.1 res.2, .done) := by
  intro fuel
  induction fuel with
  | zero => intro r t res h; simp [reflectLoop] at h
  | succ fuel ih =>
    intro r t res h
    cases t with
    | none =>
      simp only [reflectLoop, Option.some.injEq] at h
      subst h
      exact ⟨2, by omega, rfl⟩
    | some pn =>
      rw [reflectLoop] at h
      split at h
      · rename_i h1
        have e1 : micro P (r, .loop c (some pn)) = (r, .absorb c pn) := by
          show (if _ then _ else _) = _
          rw [if_pos h1]
        split at h
        · rename_i h2
          simp only [Option.some.injEq] at h
          subst h
          refine ⟨4, by omega, ?_⟩
          rw [Function.iterate_succ_apply, e1]
          show (micro P)^[1] (micro P (r.withEnergy (r.energy - P.absorption pn), .check c pn)) = _
          have e2 : micro P (r.withEnergy (r.energy - P.absorption pn), .check c pn)
              = (r.withEnergy 0, .move (some pn)) := by
            show (if _ then _ else _) = _
            rw [if_pos]
            · rfl
            · exact h2
          rw [e2]
          rfl
        · rename_i h2
          obtain ⟨n, hn, he⟩ := ih _ _ _ h
          refine ⟨n + 6, by omega, ?_⟩
          rw [Function.iterate_add_apply]
          have e2 : micro P (r.withEnergy (r.energy - P.absorption pn), .check c pn)
              = (r.withEnergy (r.energy - P.absorption pn), .reflect c pn) := by
            show (if _ then _ else _) = _
            rw [if_neg]
            exact h2
          have : (micro P)^[6] (r, .loop c (some pn)) =
              (reflect P pn (r.energy - P.absorption pn) r,
                .loop c (target P c (reflect P pn (r.energy - P.absorption pn) r))) := by
            rw [Function.iterate_succ_apply, e1]
            show (micro P)^[3] (micro P (r.withEnergy (r.energy - P.absorption pn), .check c pn)) = _
            rw [e2]
            rfl
          rw [this, he]
      · rename_i h1
        simp only [Option.some.injEq] at h
        subst h
        refine ⟨2, by omega, ?_⟩
        have e1 : micro P (r, .loop c (some pn)) = (r, .move (some pn)) := by
          show (if _ then _ else _) = _
          rw [if_neg h1]
        rw [Function.iterate_succ_apply, e1]
        rfl

/-- A thread executes `moveRay`. -/
theorem moveRay_micro (fuel : Nat) (r r' : Ray K) (h : moveRay P fuel r = some r') :
    ∃ n, n ≤ 6 * fuel + 3 ∧ (micro P)^[n] (r, .begin) = (r', .done) := by
  unfold moveRay at h
  split at h
  · rename_i he
    simp only [Option.some.injEq] at h
    subst h
    refine ⟨1, by omega, ?_⟩
    show (if _ then _ else _) = _
    rw [if_pos he]
  · rename_i he
    simp only [] at h
    cases hl : reflectLoop P (cellOf (checkLeft P r).pos P.gridStep) fuel (checkLeft P r)
        (target P (cellOf (checkLeft P r).pos P.gridStep) (checkLeft P r)) with
    | none => rw [hl] at h; cases h
    | some res =>
      rw [hl] at h
      simp only [Option.some.injEq] at h
      obtain ⟨n, hn, hm⟩ := loop_micro _ _ _ _ _ hl
      refine ⟨n + 3, by omega, ?_⟩
      rw [Function.iterate_add_apply]
      have e1 : micro P (r, .begin) = (r, .box) := by
        show (if _ then _ else _) = _
        rw [if_neg he]
      have e2 : micro P (r, .box) = (checkLeft P r, .look) := by
        show (if _ then _ else _) = _
        unfold checkLeft
        split <;> rfl
      have e3 : (micro P)^[3] (r, .begin) = (checkLeft P r,
          .loop (cellOf (checkLeft P r).pos P.gridStep)
            (target P (cellOf (checkLeft P r).pos P.gridStep) (checkLeft P r))) := by
        rw [Function.iterate_succ_apply, e1, Function.iterate_succ_apply, e2]
        rfl
      rw [e3, hm, ← h]

/-- A loop that ends as a thread ends in the sequential model. -/
theorem micro_loop (c : Cell) : ∀ (n : Nat) (r : Ray K) (t : Option Nat),
    IsDone ((micro P)^[n] (r, .loop c t)) → ∃ res, reflectLoop P c (n + 1) r t = some res := by
  intro n
  induction n using Nat.strong_induction_on with
  | _ n ih =>
    intro r t h
    cases t with
    | none => exact ⟨_, rfl⟩
    | some pn =>
      rw [reflectLoop]
      split
      · rename_i h1
        split
        · exact ⟨_, rfl⟩
        · rename_i h2
          have e1 : micro P (r, .loop c (some pn)) = (r, .absorb c pn) := by
            show (if _ then _ else _) = _
            rw [if_pos h1]
          have e2 : micro P (r.withEnergy (r.energy - P.absorption pn), .check c pn)
              = (r.withEnergy (r.energy - P.absorption pn), .reflect c pn) := by
            show (if _ then _ else _) = _
            rw [if_neg]
            exact h2
          have e6 : (micro P)^[6] (r, .loop c (some pn)) =
              (reflect P pn (r.energy - P.absorption pn) r,
                .loop c (target P c (reflect P pn (r.energy - P.absorption pn) r))) := by
            rw [Function.iterate_succ_apply, e1]
            show (micro P)^[3] (micro P (r.withEnergy (r.energy - P.absorption pn), .check c pn)) = _
            rw [e2]
            rfl
          by_cases hn : 6 ≤ n
          · obtain ⟨k, rfl⟩ := Nat.exists_eq_add_of_le hn
            rw [Nat.add_comm, Function.iterate_add_apply, e6] at h
            obtain ⟨res, hres⟩ := ih k (by omega) _ _ h
            exact ⟨res, reflectLoop_mono c _ _ _ _ hres _ (by omega)⟩
          · exfalso
            have := iterate_done (P := P) (s := (r, .loop c (some pn))) n 6 (by omega) h
            rw [e6] at this
            rw [← this] at h
            simp [IsDone] at h
      · exact ⟨_, rfl⟩

theorem micro_moveRay (n : Nat) (r : Ray K) (h : IsDone ((micro P)^[n] (r, .begin))) :
    ∃ r', moveRay P (n + 1) r = some r' := by
  unfold moveRay
  split
  · exact ⟨_, rfl⟩
  · rename_i he
    have e1 : micro P (r, .begin) = (r, .box) := by
      show (if _ then _ else _) = _
      rw [if_neg he]
    have e2 : micro P (r, .box) = (checkLeft P r, .look) := by
      show (if _ then _ else _) = _
      unfold checkLeft
      split <;> rfl
    have e3 : (micro P)^[3] (r, .begin) = (checkLeft P r,
        .loop (cellOf (checkLeft P r).pos P.gridStep)
          (target P (cellOf (checkLeft P r).pos P.gridStep) (checkLeft P r))) := by
      rw [Function.iterate_succ_apply, e1, Function.iterate_succ_apply, e2]
      rfl
    by_cases hn : 3 ≤ n
    · obtain ⟨k, rfl⟩ := Nat.exists_eq_add_of_le hn
      rw [Nat.add_comm, Function.iterate_add_apply, e3] at h
      obtain ⟨res, hres⟩ := micro_loop _ _ _ _ h
      have := reflectLoop_mono _ _ _ _ _ hres (3 + k + 1) (by omega)
      exact ⟨advance P res.1 res.2, by simp only [this]⟩
    · exfalso
      have := iterate_done (P := P) (s := (r, .begin)) n 3 (by omega) h
      rw [e3] at this
      rw [← this] at h
      simp [IsDone] at h

/-! ## C50 -/

/-- C50: whatever the interleaving of the threads, down to single statements: any two schedules after
which all iterations have ended leave the same positions, velocities and energies. -/
theorem C50_schedule_independent (rays : List (Ray K)) (sched1 sched2 : List Nat)
    (h1 : ∀ s ∈ runSchedule P sched1 (threads rays), IsDone s)
    (h2 : ∀ s ∈ runSchedule P sched2 (threads rays), IsDone s) :
    runSchedule P sched1 (threads rays) = runSchedule P sched2 (threads rays) := by
  apply List.ext_getElem?
  intro i
  rw [runSchedule_get, runSchedule_get]
  cases hs : (threads rays)[i]? with
  | none => rfl
  | some s =>
    simp only [Option.map_some, Option.some.injEq]
    apply iterate_unique
    · refine h1 _ (List.mem_of_getElem? (i := i) ?_)
      rw [runSchedule_get, hs]; rfl
    · refine h2 _ (List.mem_of_getElem? (i := i) ?_)
      rw [runSchedule_get, hs]; rfl

theorem moveAll_eq_some {fuel : Nat} {rays rs : List (Ray K)} :
    moveAll P fuel rays = some rs ↔ List.Forall₂ (fun r r' => moveRay P fuel r = some r') rays rs :=
  moveAll_forall

/-- C50: the common result is that of the sequential loop: it is reached by every schedule that gives
each ray enough turns ... -/
theorem C50_complete (fuel : Nat) (rays rs : List (Ray K)) (h : moveAll P fuel rays = some rs)
    (schedule : List Nat) (hs : ∀ i < rays.length, 6 * fuel + 3 ≤ schedule.count i) :
    runSchedule P schedule (threads rays) = rs.map fun r => (r, .done) := by
  rw [moveAll_eq_some] at h
  apply List.ext_getElem?
  intro i
  rw [runSchedule_get]
  unfold threads
  rw [List.getElem?_map, List.getElem?_map]
  by_cases hi : i < rays.length
  · have hi' : i < rs.length := by rw [← h.length_eq]; exact hi
    have hr := forall₂_getElem? h (List.getElem?_eq_getElem hi) (List.getElem?_eq_getElem hi')
    obtain ⟨n, hn, hm⟩ := moveRay_micro _ _ _ hr
    rw [List.getElem?_eq_getElem hi, List.getElem?_eq_getElem hi']
    simp only [Option.map_some, Option.some.injEq]
    rw [iterate_done n _ (hn.trans (hs i hi)) (by rw [hm]; rfl), hm]
  · have hi' : ¬ i < rs.length := by rw [← h.length_eq]; exact hi
    rw [List.getElem?_eq_none (not_lt.1 hi), List.getElem?_eq_none (not_lt.1 hi')]
    rfl

/-- C50: ... and every schedule after which all iterations have ended reaches it. -/
theorem C50_sequential (rays : List (Ray K)) (schedule : List Nat)
    (h : ∀ s ∈ runSchedule P schedule (threads rays), IsDone s) :
    ∃ fuel rs, moveAll P fuel rays = some rs ∧
      runSchedule P schedule (threads rays) = rs.map fun r => (r, .done) := by
  have hall : ∀ r ∈ rays, ∃ r', moveRay P (schedule.length + 1) r = some r' := by
    intro r hr
    obtain ⟨i, hi⟩ := List.getElem?_of_mem hr
    have hd : IsDone ((micro P)^[schedule.count i] (r, .begin)) := by
      refine h _ (List.mem_of_getElem? (i := i) ?_)
      rw [runSchedule_get]
      unfold threads
      rw [List.getElem?_map, hi]
      rfl
    refine micro_moveRay _ r ?_
    rw [iterate_done (schedule.count i) schedule.length List.count_le_length hd]
    exact hd
  have : ∃ rs, moveAll P (schedule.length + 1) rays = some rs := by
    simp only [moveAll_eq_some]
    clear h
    induction rays with
    | nil => exact ⟨[], .nil⟩
    | cons r rays ih =>
      obtain ⟨r', hr'⟩ := hall r (by simp)
      obtain ⟨rs, hrs⟩ := ih fun x hx => hall x (by simp [hx])
      exact ⟨r' :: rs, .cons hr' hrs⟩
  obtain ⟨rs, hrs⟩ := this
  refine ⟨_, rs, hrs, ?_⟩
  -- extend the schedule with enough turns for everybody; nothing changes after the end
  obtain ⟨more, hmore⟩ : ∃ more : List Nat, ∀ i < rays.length,
      6 * (schedule.length + 1) + 3 ≤ more.count i := by
    refine ⟨(List.range rays.length).flatMap
      fun i => List.replicate (6 * (schedule.length + 1) + 3) i, ?_⟩
    intro i hi
    have hsub : (List.replicate (6 * (schedule.length + 1) + 3) i).Sublist
        ((List.range rays.length).flatMap
          fun i => List.replicate (6 * (schedule.length + 1) + 3) i) :=
      List.sublist_flatten_of_mem (List.mem_map.2 ⟨i, List.mem_range.2 hi, rfl⟩)
    have := hsub.count_le i
    rwa [List.count_replicate_self] at this
  have hfull := C50_complete _ _ _ hrs more hmore
  rw [← hfull]
  refine C50_schedule_independent rays schedule more h ?_
  rw [hfull]
  intro s hs
  obtain ⟨_, _, rfl⟩ := List.mem_map.1 hs
  rfl

/-- Three rays between the plates, one of them without energy, executed backwards or round robin. -/
example : (∀ s ∈ runSchedule (plates (1 / 5))
      ((List.replicate 40 2) ++ (List.replicate 40 1) ++ (List.replicate 40 0))
      (threads [between2 343 1, between2 343 0, between2 (-343) (1 / 2)]), s.2 matches .done) ∧
    (∀ s ∈ runSchedule (plates (1 / 5)) ((List.replicate 40 [0, 1, 2]).flatten)
      (threads [between2 343 1, between2 343 0, between2 (-343) (1 / 2)]), s.2 matches .done) := by
  decide +kernel

end B3d.Sim
