import Verif.Proofs.SimRounded
import Verif.Proofs.Binary
import Verif.Spec.SimRounded

/-! # Property C117: the simulation with rounded arithmetic -/

namespace B3d.SimRounded

open Sim Rounded Spec

variable {A : Arith} {P : Params ℝ}

/-- C117: the normals which the simulation calculates are unit vectors up to two parts in `10 ^ 14`. -/
theorem C117_normal {p0 p1 p2 n : Vec3 ℝ} (h : Rounded.normal A.toArith p0 p1 p2 = some n) :
    |Vec3.norm n - 1| ≤ 2 / 10 ^ 14 := normal_unit A h

/-- C117: a reflection gives the mirror image of the velocity up to two parts in `10 ^ 14`, and keeps the speed up to two
parts in `10 ^ 13`. -/
theorem C117_reflection (pn : Nat) (e : ℝ) (r : Ray ℝ) (hn : |Vec3.norm (P.geo.vn pn) - 1| ≤ 2 / 10 ^ 14) :
    Vec3.norm ((reflect A P pn e r).vel - mirror (P.geo.vn pn) r.vel) ≤ 2 / 10 ^ 14 * Vec3.norm r.vel ∧
    |Vec3.norm (reflect A P pn e r).vel - Vec3.norm r.vel| ≤ 2 / 10 ^ 13 * Vec3.norm r.vel ∧
    (reflect A P pn e r).pos = r.pos := by
  have h := reflect_rel A r.vel hn
  have h1 := h.1.err
  rw [abs_of_nonneg (Vec3.norm_nonneg _)] at h1
  exact ⟨h.2, h1, rfl⟩

theorem simulationLoop_states {fuel n : Nat} {a : Arrays ℝ} {rows : List (Row ℝ)}
    (h : simulationLoop A P fuel n a = some rows) :
    ∃ l, steps A P fuel n (start A P a) = some l ∧ rows = l.map rowOf := by
  unfold simulationLoop at h
  rw [Option.map_eq_some_iff] at h
  obtain ⟨l, h1, h2⟩ := h
  exact ⟨l, h1, h2.symm⟩

theorem row_state {l : List (St ℝ)} {i : Nat} {row : Row ℝ} (h : (l.map rowOf)[i]? = some row) :
    ∃ s, l[i]? = some s ∧ row = rowOf s := by
  rw [List.getElem?_map, Option.map_eq_some_iff] at h
  obtain ⟨s, h1, h2⟩ := h
  exact ⟨s, h1, h2.symm⟩

theorem energy_step (heps : 0 ≤ P.eps) (ha : ∀ k, 0 ≤ P.absorption k) {fuel : Nat} {r r' : Ray ℝ} (hr : A.rep r.energy)
    (h0 : 0 ≤ r.energy)
    (h : ∃ r1, (r1 = r ∨ P.eps < r.energy ∧ r1 = r.withEnergy 0) ∧ moveRay A P fuel r1 = some r') :
    A.rep r'.energy ∧ 0 ≤ r'.energy ∧ r'.energy ≤ r.energy := by
  obtain ⟨r1, h1, h2⟩ := h
  refine moveRay_ind (A := A) (P := P) (Q := fun x => A.rep x.energy ∧ 0 ≤ x.energy ∧ x.energy ≤ r.energy)
    (fun x hx => ⟨A.rep_zero, le_refl _, h0⟩)
    (fun x pn hx k1 k2 => ⟨A.rep_sub _ _, heps.trans k2.le, (A.sub_le _ _ hx.1 (ha pn)).trans hx.2.2⟩)
    (fun x hx => hx) ?_ h2
  rcases h1 with rfl | ⟨_, rfl⟩
  · exact ⟨hr, h0, le_refl _⟩
  · exact ⟨A.rep_zero, le_refl _, h0⟩

/-- C117: with rounded arithmetic the energies never become negative and never grow. -/
theorem C117_energy (fuel n : Nat) (a : Arrays ℝ) (rows : List (Row ℝ)) (heps : 0 ≤ P.eps)
    (ha : ∀ k, 0 ≤ P.absorption k) (h0 : ∀ r ∈ a.rays, A.rep r.2.2 ∧ 0 ≤ r.2.2)
    (h : simulationLoop A P fuel n a = some rows) :
    rows.length = n + 1 ∧
    (∃ row0, rows[0]? = some row0 ∧ row0.energy = a.rays.map fun r => r.2.2) ∧
    ∀ (i j : Nat) (ri rj : Row ℝ), i ≤ j → rows[i]? = some ri → rows[j]? = some rj →
      List.Forall₂ (fun ei ej => 0 ≤ ej ∧ ej ≤ ei) ri.energy rj.energy := by
  obtain ⟨l, hl, rfl⟩ := simulationLoop_states h
  obtain ⟨e1, e2, e3⟩ := steps_chain hl
  refine ⟨by simpa using e1, ⟨rowOf (start A P a), by rw [List.getElem?_map, e2]; rfl, by simp [rowOf, start]⟩, ?_⟩
  have hinv : ∀ (i : Nat) (s : St ℝ), l[i]? = some s → ∀ r ∈ s.rays, A.rep r.energy ∧ 0 ≤ r.energy := by
    refine steps_rays hl (Q := fun r => A.rep r.energy ∧ 0 ≤ r.energy) ?_ (fun r _ => ⟨A.rep_zero, le_refl _⟩)
      (fun r pn _ _ h2 => ⟨A.rep_sub _ _, heps.trans h2.le⟩) (fun r hr => hr)
    intro r hr
    simp only [start, List.mem_map] at hr
    obtain ⟨x, hx, rfl⟩ := hr
    exact h0 x hx
  intro i j ri rj hij hi hj
  obtain ⟨s, h1, rfl⟩ := row_state hi
  obtain ⟨s', h2, rfl⟩ := row_state hj
  suffices hk : ∀ (d : Nat) (s' : St ℝ), l[i + d]? = some s' →
      List.Forall₂ (fun r r' : Ray ℝ => 0 ≤ r'.energy ∧ r'.energy ≤ r.energy) s.rays s'.rays by
    have := hk (j - i) s' (by rw [Nat.add_sub_cancel' hij]; exact h2)
    simp only [rowOf]
    rw [List.forall₂_map_left_iff, List.forall₂_map_right_iff]
    exact this
  intro d
  induction d with
  | zero =>
    intro s'' hs
    rw [Nat.add_zero, h1, Option.some.injEq] at hs
    rw [← hs, List.forall₂_iff_get]
    exact ⟨rfl, fun k hk _ => ⟨(hinv i s h1 _ (List.get_mem _ _)).2, le_refl _⟩⟩
  | succ d ih =>
    intro s'' hs
    have hlt : i + d < l.length := by
      have := (List.getElem?_eq_some_iff.1 hs).1
      omega
    have hm := ih _ (List.getElem?_eq_getElem hlt)
    have hst := step_rays (e3 (i + d) _ s'' (List.getElem?_eq_getElem hlt) hs)
    rw [List.forall₂_iff_get] at hm hst ⊢
    refine ⟨hm.1.trans hst.1, fun k hk hk' => ?_⟩
    have hk2 : k < (l[i + d]).rays.length := by rw [hst.1]; exact hk'
    have c := hinv (i + d) _ (List.getElem?_eq_getElem hlt) _ (List.get_mem (l[i + d]).rays ⟨k, hk2⟩)
    have e := energy_step heps ha c.1 c.2 (hst.2 k hk2 hk')
    exact ⟨e.2.1, e.2.2.trans (hm.2 k hk hk2).2⟩

/-- The rays at the start of a loop: energies between 0 and 1, velocities of the given speed up to a millionth. -/
def Started (A : Arith) (P : Params ℝ) (a : Arrays ℝ) : Prop :=
  ∀ r ∈ a.rays, A.rep r.2.2 ∧ 0 ≤ r.2.2 ∧ r.2.2 ≤ 1 ∧ |Vec3.norm r.2.1 - P.raySpeed| ≤ 1 / 10 ^ 6 * P.raySpeed

theorem inv_states {fuel n : Nat} {a : Arrays ℝ} {l : List (St ℝ)} (hP : Ordinary P) (h0 : Started A P a)
    (h : steps A P fuel n (start A P a) = some l) :
    ∀ (i : Nat) (s : St ℝ), l[i]? = some s → ∀ r ∈ s.rays, Inv A P r := by
  refine steps_rays h (Q := Inv A P) ?_ (fun r hr => hr.dead)
    (fun r pn hr _ h2 => hr.reflect hP.eps hP.absorption hP.normals h2) (fun r hr => ⟨hr.rep, hr.nonneg, hr.delta, hr.speed⟩)
  intro r hr
  simp only [start, List.mem_map] at hr
  obtain ⟨x, hx, rfl⟩ := hr
  obtain ⟨k1, k2, k3, k4⟩ := h0 x hx
  have k5 := abs_le.1 k4
  exact ⟨k1, k2, rfl, 0, by simpa using k3, by simp only [pow_zero]; linarith [k5.1], by simp only [pow_zero]; linarith [k5.2]⟩

theorem step_cases {fuel : Nat} {r r' : Ray ℝ} (hP : Ordinary P) (hi : Inv A P r)
    (h : ∃ r1, (r1 = r ∨ P.eps < r.energy ∧ r1 = r.withEnergy 0) ∧ moveRay A P fuel r1 = some r') :
    r'.pos = r.pos ∨ Moved A P r r' := by
  obtain ⟨r1, h1, h2⟩ := h
  have ha : ∀ k, 0 ≤ P.absorption k := fun k => le_trans (by norm_num) (hP.absorption k)
  rcases h1 with rfl | ⟨_, rfl⟩
  · exact moveRay_pos hP.eps ha hi.rep h2
  · left
    rw [moveRay, if_pos (by simpa [Ray.withEnergy] using hP.eps), Option.some.injEq] at h2
    rw [← h2]
    rfl

/-- C117: with rounded arithmetic every ray, in every step of a simulation of any length, stays where it is or moves by
the distance of one step, up to one part in `10 ^ 5`; its speed never differs from the given one by more than two parts in
`10 ^ 6`, whatever it has been reflected from. -/
theorem C117_speed (fuel n : Nat) (a : Arrays ℝ) (l : List (St ℝ)) (hP : Ordinary P) (h0 : Started A P a)
    (h : steps A P fuel n (start A P a) = some l) :
    (∀ s ∈ l, ∀ r ∈ s.rays, |Vec3.norm r.vel - P.raySpeed| ≤ 2 / 10 ^ 6 * P.raySpeed) ∧
    ∀ (i : Nat) (s s' : St ℝ), l[i]? = some s → l[i + 1]? = some s' →
      List.Forall₂ (fun r r' : Ray ℝ => r'.pos = r.pos ∨ OneStep P r.pos r'.pos) s.rays s'.rays := by
  have hinv := inv_states hP h0 h
  constructor
  · intro s hs r hr
    obtain ⟨i, hi, rfl⟩ := List.getElem_of_mem hs
    exact (hinv i _ (List.getElem?_eq_getElem hi) r hr).near hP.speed
  · intro i s s' h1 h2
    have hst := step_rays ((steps_chain h).2.2 i s s' h1 h2)
    rw [List.forall₂_iff_get] at hst ⊢
    refine ⟨hst.1, fun k hk hk' => ?_⟩
    rcases step_cases hP (hinv i s h1 _ (List.get_mem _ _)) (hst.2 k hk hk') with h3 | h3
    · exact Or.inl h3
    · obtain ⟨B, b1, b2, b3, b4⟩ := hP.size
      exact Or.inr (moved_dist hP.speed hP.time b1 b2 hP.eps b3 b4 (hinv (i + 1) s' h2 _ (List.get_mem _ _)) h3)

/-- A ray that moves is further away from every opaque surface ahead than it moves, with a margin of eight parts in 1000. -/
theorem stops_short_margin (fuel n : Nat) (a : Arrays ℝ) (l : List (St ℝ)) (hP : Ordinary P) (h0 : Started A P a)
    (hs : 0 < P.raySpeed) (ht : 0 < P.timeStep)
    (h : steps A P fuel n (start A P a) = some l) (i : Nat) (s s' : St ℝ) (h1 : l[i]? = some s) (h2 : l[i + 1]? = some s')
    (k : Nat) (r r' : Ray ℝ) (hr : s.rays[k]? = some r) (hr' : s'.rays[k]? = some r') (hm : r'.pos ≠ r.pos)
    (pn : Nat) (hpn : pn ∈ findNearby P.setIter (cellOf A r.pos P.gridStep) P.grid)
    (hop : OpaqueHit P.geo P.trans r.pos r'.vel pn) : 1008 / 1000 * Vec3.norm (r'.pos - r.pos) < P.geo.dist r.pos pn := by
  have hinv := inv_states hP h0 h
  have hst := step_rays ((steps_chain h).2.2 i s s' h1 h2)
  rw [List.forall₂_iff_get] at hst
  obtain ⟨hk, rfl⟩ := List.getElem?_eq_some_iff.1 hr
  obtain ⟨hk', rfl⟩ := List.getElem?_eq_some_iff.1 hr'
  have hi := hinv i s h1 _ (List.getElem_mem hk)
  have hi' := hinv (i + 1) s' h2 _ (List.getElem_mem hk')
  rcases step_cases hP hi (hst.2 k hk hk') with h3 | h3
  · exact absurd h3 hm
  · obtain ⟨B, b1, b2, b3, b4⟩ := hP.size
    have hd := (abs_le.1 (moved_dist hP.speed hP.time b1 b2 hP.eps b3 b4 hi' h3)).2
    have hg := reflDist_ge (A := A) hP.speed hP.time
    have hD : 0 < P.raySpeed * P.timeStep := mul_pos hs ht
    have hf := h3.far
    simp only [List.get_eq_getElem] at hf hd
    cases hc : target P (cellOf A s.rays[k].pos P.gridStep)
        ⟨s.rays[k].pos, s'.rays[k].vel, s'.rays[k].delta, s'.rays[k].energy⟩ with
    | none => exact absurd hop ((C45_found_iff _ _ _ _ _).1 hc pn hpn)
    | some m =>
      rw [hc] at hf
      simp only [farEnough, decide_eq_true_eq] at hf
      have hle := (C45_nearest _ _ _ _ _ _ hc).2.2 pn hpn hop
      simp only at hle
      linarith

/-- C117: with rounded arithmetic a ray never moves as far as any opaque surface ahead that is near it: when it moves, the
calculated distance to every such surface is larger than the distance it moves, so it cannot pass through a surface
because of rounding errors of its velocity, however often it has been reflected. -/
theorem C117_stops_short (fuel n : Nat) (a : Arrays ℝ) (l : List (St ℝ)) (hP : Ordinary P) (h0 : Started A P a)
    (hs : 0 < P.raySpeed) (ht : 0 < P.timeStep)
    (h : steps A P fuel n (start A P a) = some l) (i : Nat) (s s' : St ℝ) (h1 : l[i]? = some s) (h2 : l[i + 1]? = some s')
    (k : Nat) (r r' : Ray ℝ) (hr : s.rays[k]? = some r) (hr' : s'.rays[k]? = some r') (hm : r'.pos ≠ r.pos)
    (pn : Nat) (hpn : pn ∈ findNearby P.setIter (cellOf A r.pos P.gridStep) P.grid)
    (hop : OpaqueHit P.geo P.trans r.pos r'.vel pn) : Vec3.norm (r'.pos - r.pos) < P.geo.dist r.pos pn := by
  have := stops_short_margin fuel n a l hP h0 hs ht h i s s' h1 h2 k r r' hr hr' hm pn hpn hop
  have h0 := Vec3.norm_nonneg (r'.pos - r.pos)
  linarith

/-- C117: with rounded arithmetic a simulation of any length ends, with at most `2 * 10 ^ 6` reflections of a ray in a
step, when every surface absorbs at least a millionth. -/
theorem C117_terminates (heps : 0 ≤ P.eps) (ha : ∀ k, 1 / 10 ^ 6 ≤ P.absorption k) (n : Nat) (a : Arrays ℝ)
    (h0 : ∀ r ∈ a.rays, A.rep r.2.2 ∧ 0 ≤ r.2.2 ∧ r.2.2 ≤ 1) :
    ∃ rows, simulationLoop A P (2 * 10 ^ 6 + 1) n a = some rows := by
  have ha0 : ∀ k, 0 ≤ P.absorption k := fun k => le_trans (by norm_num) (ha k)
  suffices hk : ∀ (n : Nat) (s : St ℝ), (∀ r ∈ s.rays, A.rep r.energy ∧ 0 ≤ r.energy ∧ r.energy ≤ 1) →
      ∃ l, steps A P (2 * 10 ^ 6 + 1) n s = some l by
    obtain ⟨l, hl⟩ := hk n (start A P a) (by
      intro r hr
      simp only [start, List.mem_map] at hr
      obtain ⟨x, hx, rfl⟩ := hr
      exact h0 x hx)
    exact ⟨_, by rw [simulationLoop, hl]; rfl⟩
  intro n
  induction n with
  | zero => intro s _; exact ⟨_, rfl⟩
  | succ n ih =>
    intro s hs
    obtain ⟨s', h1⟩ := step_some (A := A) heps ha (fun r hr => (hs r hr).2.2)
    have hst := step_rays h1
    rw [List.forall₂_iff_get] at hst
    obtain ⟨l, hl⟩ := ih s' (by
      intro r' hr'
      obtain ⟨j, hj, rfl⟩ := List.getElem_of_mem hr'
      have hj' : j < s.rays.length := by rw [hst.1]; exact hj
      obtain ⟨k1, k2, k3⟩ := hs _ (List.get_mem s.rays ⟨j, hj'⟩)
      have e := energy_step heps ha0 k1 k2 (hst.2 j hj' hj)
      exact ⟨e.1, e.2.1, e.2.2.trans k3⟩)
    exact ⟨_, by rw [steps, h1]; simp only [hl]; rfl⟩

/-- The velocities at the beginning have the given speed. -/
theorem started_init (hs : 0 ≤ P.raySpeed) (source : Vec3 ℝ) (raw : List (Vec3 ℝ)) (hraw : ∀ d ∈ raw, d ≠ 0) :
    Started A P (initArrays A P source raw) := by
  intro r hr
  simp only [initArrays, List.mem_map] at hr
  obtain ⟨d, hd, rfl⟩ := hr
  refine ⟨A.rep_one, zero_le_one, le_refl _, ?_⟩
  have h1 := (unit_rel A.toArith (RelV.refl (by norm_num) d) (hraw d hd)).norm (by norm_num)
  rw [Rounded.norm_unit (hraw d hd)] at h1
  have h2 := (h1.le zero_le_one)
  have h3 := ((mulv_rel A P.raySpeed (divv A.toArith d (A.norm d))).norm (by norm_num)).le (Vec3.norm_nonneg _)
  rw [Vec3.norm_smul, abs_of_nonneg hs] at h3
  have h4 := mul_le_mul_of_nonneg_left h2.1 hs
  have h5 := mul_le_mul_of_nonneg_left h2.2 hs
  rw [abs_le]
  norm_num at h3 h4 h5 ⊢
  constructor <;> linarith [h3.1, h3.2]

/-- C117: a simulation in rounded arithmetic as `Simulation.run` starts it, from any source with any random directions
other than zero: it ends, all energies are between 0 and 1 and never grow, and in every step every ray stays or moves by
the distance of one step up to one part in `10 ^ 5`. -/
theorem C117_run (hP : Ordinary P) (n : Nat) (source : Vec3 ℝ) (raw : List (Vec3 ℝ)) (hraw : ∀ d ∈ raw, d ≠ 0) :
    ∃ rows, simulationLoop A P (2 * 10 ^ 6 + 1) n (initArrays A P source raw) = some rows ∧ rows.length = n + 1 ∧
      (∀ row ∈ rows, row.energy.length = raw.length ∧ ∀ e ∈ row.energy, 0 ≤ e ∧ e ≤ 1) ∧
      ∀ (i : Nat) (ri rj : Row ℝ), rows[i]? = some ri → rows[i + 1]? = some rj →
        List.Forall₂ (fun ei ej => ej ≤ ei) ri.energy rj.energy ∧
        List.Forall₂ (fun p q => q = p ∨ OneStep P p q) ri.pos rj.pos := by
  have h0 := started_init (A := A) hP.speed source raw hraw
  have ha : ∀ k, 0 ≤ P.absorption k := fun k => le_trans (by norm_num) (hP.absorption k)
  obtain ⟨rows, h⟩ := C117_terminates (A := A) hP.eps hP.absorption n (initArrays A P source raw)
    (fun r hr => ⟨(h0 r hr).1, (h0 r hr).2.1, (h0 r hr).2.2.1⟩)
  obtain ⟨e1, ⟨row0, e2, e3⟩, e4⟩ := C117_energy _ n _ rows hP.eps ha (fun r hr => ⟨(h0 r hr).1, (h0 r hr).2.1⟩) h
  refine ⟨rows, h, e1, ?_, ?_⟩
  · intro row hrow
    obtain ⟨i, hi, rfl⟩ := List.getElem_of_mem hrow
    have hf := e4 0 i row0 rows[i] (Nat.zero_le _) e2 (List.getElem?_eq_getElem hi)
    rw [List.forall₂_iff_get] at hf
    have hlen : row0.energy.length = raw.length := by rw [e3]; simp [initArrays]
    refine ⟨hf.1.symm.trans hlen, fun e he => ?_⟩
    obtain ⟨j, hj, rfl⟩ := List.getElem_of_mem he
    have hj' : j < row0.energy.length := by rw [hf.1]; exact hj
    have hx := hf.2 j hj' hj
    have h1 : row0.energy.get ⟨j, hj'⟩ = 1 := by
      have hmem := List.get_mem row0.energy ⟨j, hj'⟩
      generalize row0.energy.get ⟨j, hj'⟩ = x at hmem
      rw [e3] at hmem
      simp only [initArrays, List.map_map, List.mem_map, Function.comp_apply] at hmem
      obtain ⟨_, _, rfl⟩ := hmem
      rfl
    rw [h1] at hx
    exact hx
  · intro i ri rj hi hj
    refine ⟨(e4 i (i + 1) ri rj (Nat.le_succ i) hi hj).imp fun _ _ h => h.2, ?_⟩
    obtain ⟨l, hl, rfl⟩ := simulationLoop_states h
    obtain ⟨s, h1, rfl⟩ := row_state hi
    obtain ⟨s', h2, rfl⟩ := row_state hj
    have := (C117_speed _ n _ l hP h0 hl).2 i s s' h1 h2
    simp only [rowOf]
    rw [List.forall₂_map_left_iff, List.forall₂_map_right_iff]
    exact this

/-! ### The hypotheses can be met -/

/-- 53 binary digits. -/
noncomputable def binary64 : Arith where
  toArith := Rounded.binary
  rep x := fl x = x
  rep_zero := fl_zero
  rep_one := by
    have h := flp_int (k := 2 ^ 52) (e := -52) (by norm_num) (by norm_num)
    have e : (((2 ^ 52 : ℤ) : ℝ) * 2 ^ (-52 : ℤ)) = 1 := by norm_num
    rw [e] at h
    rw [fl_of_pos one_pos, h]
  rep_sub x y := fl_fl _
  sub_le x y hx hy := by
    change fl (x - y) ≤ x
    conv_rhs => rw [← hx]
    exact fl_mono (by linarith)
  rep_add x y := fl_fl _
  rep_mul x y := fl_fl _
  rep_div x y := fl_fl _
  add_zero x hx := by
    change fl (x + 0) = x
    rw [add_zero, hx]

/-- A hall with two reflecting walls at `x = 0` and `x = 20`. -/
noncomputable def hall : Params ℝ where
  raySpeed := 343
  timeStep := 1 / 20000
  gridStep := 1
  grid := [((0, 1, 1), [0]), ((19, 1, 1), [1])]
  absorbers := [⟨10, 1, 1⟩]
  absorberRadius := 1 / 5
  lo := 0
  hi := ⟨20, 3, 3⟩
  transparent := [-1]
  absorption := fun _ => 1 / 10
  eps := 1 / 10 ^ 6
  geo := ⟨fun _ d pn => (pn = 0 ∧ d.x < 0) ∨ (pn = 1 ∧ 0 < d.x), fun p pn => if pn = 0 then |p.x| else |20 - p.x|,
    fun pn => if pn = 0 then ⟨-1, 0, 0⟩ else ⟨1, 0, 0⟩⟩
  setIter := List.dedup

theorem hall_ordinary : Ordinary hall where
  speed := by norm_num [hall]
  time := by norm_num [hall]
  eps := by norm_num [hall]
  absorption := fun k => by norm_num [hall]
  normals := fun k => by
    have h1 : Vec3.norm (⟨-1, 0, 0⟩ : Vec3 ℝ) = 1 := by rw [Vec3.norm, Vec3.normSq_def]; norm_num
    have h2 : Vec3.norm (⟨1, 0, 0⟩ : Vec3 ℝ) = 1 := by rw [Vec3.norm, Vec3.normSq_def]; norm_num
    unfold hall
    simp only
    split_ifs
    · rw [h1]; norm_num
    · rw [h2]; norm_num
  size := ⟨20, by norm_num [hall], by norm_num [hall], by norm_num [hall], by norm_num [hall]⟩

/-- Two rays in the hall, a thousand steps. -/
example : ∃ rows, simulationLoop binary64 hall (2 * 10 ^ 6 + 1) 1000
      (initArrays binary64 hall ⟨5, 1, 1⟩ [⟨-3, 4, 0⟩, ⟨1, 0, 0⟩]) = some rows ∧ rows.length = 1001 ∧
    (∀ row ∈ rows, row.energy.length = 2 ∧ ∀ e ∈ row.energy, 0 ≤ e ∧ e ≤ 1) := by
  obtain ⟨rows, h1, h2, h3, _⟩ := C117_run (A := binary64) hall_ordinary 1000 ⟨5, 1, 1⟩ [⟨-3, 4, 0⟩, ⟨1, 0, 0⟩] (by
    intro d hd
    simp only [List.mem_cons, List.not_mem_nil, or_false] at hd
    rcases hd with rfl | rfl <;> simp [Vec3.ext_iff])
  exact ⟨rows, h1, h2, h3⟩

/-- The normal of a wall, calculated with 53 digits. -/
example (n : Vec3 ℝ) (h : Rounded.normal binary64.toArith ⟨0, 0, 0⟩ ⟨1 / 3, 0, 0⟩ ⟨0, 2 / 7, 0⟩ = some n) :
    |Vec3.norm n - 1| ≤ 2 / 10 ^ 14 := C117_normal (A := binary64) h

/-- Arithmetic without rounding errors is a special case. -/
noncomputable def exactArith : Arith where
  add x y := x + y
  sub x y := x - y
  mul x y := x * y
  div x y := x / y
  norm := Vec3.norm
  dot := Vec3.dot
  lit x := x
  round8 x := x
  add_err x y := by simp
  sub_err x y := by simp
  mul_err x y := by simp; positivity
  div_err x y _ := by simp
  norm_err v := by simp; exact Vec3.norm_nonneg v
  dot_err v w := by simp; positivity
  lit_err x := by simp
  round8_err x := by simp; positivity
  round8_mono _ _ h := h
  add_grow x y h := by linarith
  sub_shrink x y h := by linarith
  sub_swap x y := by ring
  mul_neg x y := by ring
  mul_comm x y := by ring
  dot_x a w := by simp [Vec3.dot]
  dot_y a w := by simp [Vec3.dot]
  dot_z a w := by simp [Vec3.dot]
  rep _ := True
  rep_zero := trivial
  rep_one := trivial
  rep_sub _ _ := trivial
  sub_le x y _ h := by linarith
  rep_add _ _ := trivial
  rep_mul _ _ := trivial
  rep_div _ _ := trivial
  add_zero x _ := by simp

theorem hall_cell : cellOf exactArith ⟨39 / 2, 1, 1⟩ hall.gridStep = (19, 1, 1) := by
  have h : ⌊(39 / 2 : ℝ)⌋ = 19 := by norm_num [Int.floor_eq_iff]
  simp [cellOf, exactArith, hall, h]

theorem hall_near : findNearby hall.setIter (19, 1, 1) hall.grid = [1] := by
  simp only [hall]
  decide +kernel

/-- A ray half a metre in front of a wall of the hall: the wall is near and ahead, and the ray moves. -/
example : ∃ l s s' r r', steps exactArith hall 2 1 (start exactArith hall ⟨[(⟨39 / 2, 1, 1⟩, ⟨343, 0, 0⟩, 1)], [0]⟩) = some l ∧
    l[0]? = some s ∧ l[1]? = some s' ∧ s.rays[0]? = some r ∧ s'.rays[0]? = some r' ∧ r'.pos ≠ r.pos ∧
    1 ∈ findNearby hall.setIter (cellOf exactArith r.pos hall.gridStep) hall.grid ∧
    OpaqueHit hall.geo hall.trans r.pos r'.vel 1 := by
  have ht : target hall (19, 1, 1) ⟨⟨39 / 2, 1, 1⟩, ⟨343, 0, 0⟩, ⟨1 / 20000 * 343, 0, 0⟩, 1⟩ = some 1 := by
    unfold target
    rw [hall_near]
    norm_num [findTarget, targetStep, hall, Params.trans]
  have hm : moveRay exactArith hall 2 ⟨⟨39 / 2, 1, 1⟩, ⟨343, 0, 0⟩, ⟨1 / 20000 * 343, 0, 0⟩, 1⟩ =
      some ⟨⟨39 / 2 + 1 / 20000 * 343, 1, 1⟩, ⟨343, 0, 0⟩, ⟨1 / 20000 * 343, 0, 0⟩, 1⟩ := by
    have hc : checkLeft exactArith hall ⟨⟨39 / 2, 1, 1⟩, ⟨343, 0, 0⟩, ⟨1 / 20000 * 343, 0, 0⟩, 1⟩ =
        ⟨⟨39 / 2, 1, 1⟩, ⟨343, 0, 0⟩, ⟨1 / 20000 * 343, 0, 0⟩, 1⟩ := by
      rw [checkLeft, if_neg]
      norm_num [leftBox, hall, exactArith]
    rw [moveRay, if_neg (by norm_num [hall])]
    simp only [hc, hall_cell, ht]
    rw [reflectLoop, if_neg (by norm_num [reflDist, hall, exactArith])]
    norm_num [advance, farEnough, reflDist, hall, exactArith, addv]
  have hs : step exactArith hall 2 (start exactArith hall ⟨[(⟨39 / 2, 1, 1⟩, ⟨343, 0, 0⟩, 1)], [0]⟩) =
      some ⟨[⟨⟨39 / 2 + 1 / 20000 * 343, 1, 1⟩, ⟨343, 0, 0⟩, ⟨1 / 20000 * 343, 0, 0⟩, 1⟩], [0]⟩ := by
    have hst : start exactArith hall ⟨[(⟨39 / 2, 1, 1⟩, ⟨343, 0, 0⟩, 1)], [0]⟩ =
        ⟨[⟨⟨39 / 2, 1, 1⟩, ⟨343, 0, 0⟩, ⟨1 / 20000 * 343, 0, 0⟩, 1⟩], [0]⟩ := by
      simp [start, mulv, hall, exactArith]
    have ha : absorbAll exactArith hall [0] [⟨⟨39 / 2, 1, 1⟩, ⟨343, 0, 0⟩, ⟨1 / 20000 * 343, 0, 0⟩, 1⟩] =
        ([0], [⟨⟨39 / 2, 1, 1⟩, ⟨343, 0, 0⟩, ⟨1 / 20000 * 343, 0, 0⟩, 1⟩]) := by
      norm_num [absorbAll, absorbRay, absorbLoop, sqDist, subv, hall, exactArith, Ray.withEnergy]
    rw [hst, step]
    simp only [List.map_cons, List.map_nil, ha, moveAll, hm]
  refine ⟨_, _, _, _, _, by rw [steps, hs]; rfl, rfl, rfl, rfl, rfl, ?_, ?_, ?_⟩
  · intro h
    have := congrArg Vec3.x h
    norm_num at this
  · simp only []
    rw [hall_cell, hall_near]
    simp
  · norm_num [OpaqueHit, hall, Params.trans]

end B3d.SimRounded
