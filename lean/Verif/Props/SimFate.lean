import Verif.Props.SimLoop

/-! # Property C67: what can happen to a ray in one step -/

set_option linter.unusedSectionVars false

namespace B3d.Sim

variable {K : Type} [Field K] [LinearOrder K] [IsStrictOrderedRing K] [FloorRing K]

/-- More than `eps` outside of the box. -/
def Outside (lo hi : Vec3 K) (eps : K) (p : Vec3 K) : Prop :=
  p.x < lo.x - eps ∨ p.y < lo.y - eps ∨ p.z < lo.z - eps ∨
  hi.x + eps < p.x ∨ hi.y + eps < p.y ∨ hi.z + eps < p.z

/-- Polygons in the cell of a position and the cells around. -/
def polygonsAround (P : Params K) (p : Vec3 K) : List Nat :=
  findNearby P.setIter (cellOf p P.gridStep) P.grid

/-- What can happen to a ray in one step. -/
inductive Fate (P : Params K) (r r' : Ray K) : Prop where
  /-- a ray without energy rests -/
  | rests (h0 : r.energy ≤ P.eps) (h : r' = r)
  /-- a ray within an absorber gives all of its energy to it -/
  | absorbed (h0 : P.eps < r.energy)
      (ha : (firstAbsorber P.absorberRadius P.absorbers r.pos).isSome)
      (hp : r'.pos = r.pos) (hv : r'.vel = r.vel) (he : r'.energy = 0)
  /-- a ray outside of the building loses its energy -/
  | lost (h0 : P.eps < r.energy) (ha : firstAbsorber P.absorberRadius P.absorbers r.pos = none)
      (ho : Outside P.lo P.hi P.eps r.pos) (hp : r'.pos = r.pos) (hv : r'.vel = r.vel)
      (he : r'.energy = 0)
  /-- the last of the surfaces the ray bounces off takes the rest of its energy -/
  | spent (ks : List Nat) (k : Nat) (h0 : P.eps < r.energy)
      (ha : firstAbsorber P.absorberRadius P.absorbers r.pos = none)
      (hi : ¬ Outside P.lo P.hi P.eps r.pos)
      (chain : Chain P.geo P.trans (polygonsAround P r.pos) P.reflDist r.pos r.vel (ks ++ [k]))
      (before : P.eps < r.energy - (ks.map P.absorption).sum)
      (after : r.energy - ((ks ++ [k]).map P.absorption).sum ≤ P.eps)
      (hp : r'.pos = r.pos) (hv : r'.vel = bounced P.geo r.vel ks) (he : r'.energy = 0)
  /-- after the last bounce no opaque surface ahead is within the reflection distance, and the ray
  moves -/
  | moves (ks : List Nat) (h0 : P.eps < r.energy)
      (ha : firstAbsorber P.absorberRadius P.absorbers r.pos = none)
      (hi : ¬ Outside P.lo P.hi P.eps r.pos)
      (chain : Chain P.geo P.trans (polygonsAround P r.pos) P.reflDist r.pos r.vel ks)
      (left : P.eps < r.energy - (ks.map P.absorption).sum)
      (free : ∀ k ∈ polygonsAround P r.pos, OpaqueHit P.geo P.trans r.pos (bounced P.geo r.vel ks) k →
        P.reflDist < P.geo.dist r.pos k)
      (hv : r'.vel = bounced P.geo r.vel ks) (hp : r'.pos = r.pos + P.timeStep • r'.vel)
      (he : r'.energy = r.energy - (ks.map P.absorption).sum)
  /-- after the last bounce the nearest opaque surface ahead is at the reflection distance exactly, and
  the ray stays where it is -/
  | waits (ks : List Nat) (k : Nat) (h0 : P.eps < r.energy)
      (ha : firstAbsorber P.absorberRadius P.absorbers r.pos = none)
      (hi : ¬ Outside P.lo P.hi P.eps r.pos)
      (chain : Chain P.geo P.trans (polygonsAround P r.pos) P.reflDist r.pos r.vel ks)
      (left : P.eps < r.energy - (ks.map P.absorption).sum)
      (near : IsNearest P.geo P.trans (polygonsAround P r.pos) r.pos (bounced P.geo r.vel ks) k)
      (dist : P.geo.dist r.pos k = P.reflDist)
      (hv : r'.vel = bounced P.geo r.vel ks) (hp : r'.pos = r.pos)
      (he : r'.energy = r.energy - (ks.map P.absorption).sum)

variable {P : Params K}

theorem leftBox_iff (p : Vec3 K) : leftBox P p = true ↔ Outside P.lo P.hi P.eps p := by
  unfold leftBox Outside
  simp only [Bool.or_eq_true, decide_eq_true_eq, or_assoc]

theorem moveRay_lost {fuel : Nat} {r r' : Ray K} (heps : 0 ≤ P.eps) (h0 : P.eps < r.energy)
    (ho : Outside P.lo P.hi P.eps r.pos) (h : moveRay P fuel r = some r') : r' = r.withEnergy 0 := by
  have hc : checkLeft P r = r.withEnergy 0 := by
    unfold checkLeft
    rw [if_pos]
    rw [Bool.and_eq_true, decide_eq_true_iff, leftBox_iff]
    exact ⟨lt_of_le_of_lt heps h0, ho⟩
  have hz : ¬ (P.eps < (r.withEnergy 0).energy) := not_lt.2 heps
  unfold moveRay at h
  rw [if_neg (not_le.2 h0), hc] at h
  simp only [] at h
  cases fuel with
  | zero => simp [reflectLoop] at h
  | succ fuel =>
    have hno : ∀ t, reflectLoop P (cellOf (r.withEnergy 0).pos P.gridStep) (fuel + 1)
        (r.withEnergy 0) t = some (r.withEnergy 0, t) := by
      intro t
      cases t with
      | none => rfl
      | some pn => rw [reflectLoop, if_neg (fun h => hz h.2)]
    rw [hno] at h
    simp only [Option.some.injEq] at h
    rw [← h]
    rcases advance_cases (P := P) (r.withEnergy 0)
      (target P (cellOf (r.withEnergy 0).pos P.gridStep) (r.withEnergy 0)) with ⟨h, _⟩ | ⟨_, h, _⟩
    · exact h
    · exact absurd h hz

theorem fate_of_rayStep {fuel : Nat} {r r' : Ray K} (heps : 0 ≤ P.eps)
    (hd : r.delta = P.timeStep • r.vel) (h : RayStep P fuel r r') : Fate P r r' := by
  by_cases h0 : r.energy ≤ P.eps
  · exact .rests h0 (rayStep_dead h h0)
  · have h0' := not_le.1 h0
    unfold RayStep at h
    by_cases ha : (firstAbsorber P.absorberRadius P.absorbers r.pos).isSome
    · have hc : afterAbsorb P r = r.withEnergy 0 := by
        unfold afterAbsorb
        rw [if_neg h0, if_pos ha]
      rw [hc, moveRay_dead _ _ (show (r.withEnergy 0).energy ≤ P.eps from heps)] at h
      simp only [Option.some.injEq] at h
      subst h
      exact .absorbed h0' ha rfl rfl rfl
    · have hc : afterAbsorb P r = r := by
        unfold afterAbsorb
        rw [if_neg h0, if_neg ha]
      have ha' : firstAbsorber P.absorberRadius P.absorbers r.pos = none := by
        simpa using ha
      rw [hc] at h
      by_cases ho : Outside P.lo P.hi P.eps r.pos
      · rw [moveRay_lost heps h0' ho h]
        exact .lost h0' ha' ho rfl rfl rfl
      · have hcl : checkLeft P r = r := by
          unfold checkLeft
          rw [if_neg]
          rw [Bool.and_eq_true, leftBox_iff]
          exact fun h => ho h.2
        obtain ⟨r2, t, hout, rfl⟩ := moveRay_live h0' h
        rw [hcl] at hout
        obtain ⟨av, ae, _⟩ := advance_vel (P := P) r2 t
        have hdelta := outcome_delta hout hd
        cases hout with
        | dies ks k d chain alive dead hd' =>
          refine .spent ks k h0' ha' ho chain alive dead ?_ av ae
          rcases advance_cases (P := P) ⟨r.pos, bounced P.geo r.vel ks, d, 0⟩ (some k)
            with ⟨h, _⟩ | ⟨_, h, _⟩
          · rw [h]
          · exact absurd h (not_lt.2 heps)
        | flies ks d _ chain alive hd' ht stop =>
          have hleft : P.eps < r.energy - (ks.map P.absorption).sum := by
            by_cases hk : ks = []
            · subst hk; simpa using h0'
            · exact alive hk
          rcases advance_cases (P := P) ⟨r.pos, bounced P.geo r.vel ks, d,
              r.energy - (ks.map P.absorption).sum⟩ t with ⟨h, hstay⟩ | ⟨h, _, hfar⟩
          · obtain ⟨pn, hpn, hle⟩ := hstay hleft
            subst hpn
            have hge : ¬ (P.geo.dist r.pos pn < P.reflDist) := fun hlt => stop pn rfl ⟨hlt, hleft⟩
            exact .waits ks pn h0' ha' ho chain hleft (C45_nearest _ _ _ _ _ _ ht.symm)
              (le_antisymm hle (not_lt.1 hge)) av (by rw [h]) ae
          · refine .moves ks h0' ha' ho chain hleft ?_ av ?_ ae
            · intro k hk hopq
              cases ht' : t with
              | none =>
                rw [ht'] at ht
                exact absurd hopq ((C45_found_iff _ _ _ _ _).1 ht.symm k hk)
              | some pn =>
                rw [ht'] at ht
                obtain ⟨_, _, hmin⟩ := C45_nearest _ _ _ _ _ _ ht.symm
                exact lt_of_lt_of_le (hfar pn ht') (hmin k hk hopq)
            · rw [av, h]
              simp only [] at hdelta ⊢
              rw [hdelta]

/-- C67: in every step of every simulation, each ray rests (no energy left), is absorbed by an absorber
it is in, loses its energy outside of the building, spends it on a surface, waits, or moves by one time
step, exactly as described by `Fate`; nothing else happens to it. -/
theorem C67_fate (fuel n : Nat) (a : Arrays K) (l : List (St K)) (heps : 0 ≤ P.eps)
    (hl : a.hits.length = P.absorbers.length) (h : steps P fuel n (start P a) = some l) (i : Nat)
    (s s' : St K) (hs : l[i]? = some s) (hs' : l[i + 1]? = some s') :
    List.Forall₂ (Fate P) s.rays s'.rays := by
  have hinv := steps_invariant h (fun s => s.hits.length = P.absorbers.length ∧
      ∀ r ∈ s.rays, r.delta = P.timeStep • r.vel)
    ⟨hl, by
      intro r hr
      simp only [start, List.mem_map] at hr
      obtain ⟨x, hx, rfl⟩ := hr
      rfl⟩
    (fun a b hg hst => ⟨by rw [step_hits_length hst, hg.1],
      forall₂_right ((step_iff hg.1).1 hst).1 fun x hx y hy => rayStep_delta hy (hg.2 x hx)⟩)
  have hst := steps_succ h i s s' hs hs'
  exact forall₂_imp_mem ((step_iff (hinv i s hs).1).1 hst).1
    fun r hr r' _ hrr => fate_of_rayStep heps ((hinv i s hs).2 r hr) hrr

/-- C67 for the buffers: a ray with energy that is outside of the building by more than `eps`, or in an
absorber, has no energy in the next row and the same position; a ray that loses its last energy does not
move. -/
theorem C67_outside (fuel n : Nat) (a : Arrays K) (rows : List (Row K)) (heps : 0 ≤ P.eps)
    (hl : a.hits.length = P.absorbers.length) (h : simulationLoop P fuel n a = some rows) (i k : Nat)
    (row row' : Row K) (hi : rows[i]? = some row) (hi' : rows[i + 1]? = some row') (p p' : Vec3 K)
    (e e' : K) (hp : row.pos[k]? = some p) (hp' : row'.pos[k]? = some p')
    (he : row.energy[k]? = some e) (he' : row'.energy[k]? = some e') (hlive : P.eps < e) :
    (Outside P.lo P.hi P.eps p → e' = 0) ∧
    ((firstAbsorber P.absorberRadius P.absorbers p).isSome → e' = 0) ∧
    (e' ≤ P.eps → e' = 0 ∧ p' = p) := by
  obtain ⟨l, hs, rfl⟩ := simulationLoop_states h
  obtain ⟨s, h1, rfl⟩ := row_state hi
  obtain ⟨s', h2, rfl⟩ := row_state hi'
  simp only [rowOf, List.getElem?_map, Option.map_eq_some_iff] at hp hp' he he'
  obtain ⟨r, hr, rfl⟩ := hp
  obtain ⟨r1, hr1, rfl⟩ := he
  obtain ⟨r', hr', rfl⟩ := hp'
  obtain ⟨r1', hr1', rfl⟩ := he'
  rw [hr] at hr1
  cases hr1
  rw [hr'] at hr1'
  cases hr1'
  have hf := forall₂_getElem? (C67_fate fuel n a l heps hl hs i s s' h1 h2) hr hr'
  cases hf with
  | rests h0 _ => exact absurd hlive (not_lt.2 h0)
  | absorbed h0 ha hp hv he => exact ⟨fun _ => he, fun _ => he, fun _ => ⟨he, hp⟩⟩
  | lost h0 ha ho hp hv he => exact ⟨fun _ => he, fun _ => he, fun _ => ⟨he, hp⟩⟩
  | spent ks k h0 ha hi _ _ _ hp hv he => exact ⟨fun _ => he, fun _ => he, fun _ => ⟨he, hp⟩⟩
  | moves ks h0 ha hi _ left _ hv hp he =>
    refine ⟨fun ho => absurd ho hi, fun h => absurd h (by simp [ha]), fun hle => ?_⟩
    rw [he] at hle
    exact absurd left (not_lt.2 hle)
  | waits ks k h0 ha hi _ left _ _ hv hp he =>
    refine ⟨fun ho => absurd ho hi, fun h => absurd h (by simp [ha]), fun hle => ?_⟩
    rw [he] at hle
    exact absurd left (not_lt.2 hle)

/-- A ray that is outside of the plates. -/
example : moveRay (plates (1 / 5)) 6 ⟨⟨2, 1 / 2, 1 / 2⟩, ⟨343, 0, 0⟩, ⟨343 / 1000, 0, 0⟩, 1⟩
      = some ⟨⟨2, 1 / 2, 1 / 2⟩, ⟨343, 0, 0⟩, ⟨343 / 1000, 0, 0⟩, 0⟩ ∧
    Outside (plates (1 / 5)).lo (plates (1 / 5)).hi (plates (1 / 5)).eps ⟨2, 1 / 2, 1 / 2⟩ := by
  constructor
  · decide +kernel
  · unfold Outside
    right; right; right; left
    norm_num [plates]

/-- A ray that spends its energy between the plates, and one that moves along them. -/
example : moveRay (plates (1 / 5)) 6 ⟨⟨1 / 200, 1 / 2, 1 / 2⟩, ⟨343, 0, 0⟩, ⟨343 / 1000, 0, 0⟩, 1⟩
      = some ⟨⟨1 / 200, 1 / 2, 1 / 2⟩, ⟨343, 0, 0⟩, ⟨343 / 1000, 0, 0⟩, 0⟩ ∧
    moveRay (plates (1 / 5)) 6 ⟨⟨1 / 200, 1 / 2, 1 / 2⟩, ⟨0, 343, 0⟩, ⟨0, 343 / 1000, 0⟩, 1⟩
      = some ⟨⟨1 / 200, 1 / 2 + 343 / 1000, 1 / 2⟩, ⟨0, 343, 0⟩, ⟨0, 343 / 1000, 0⟩, 1⟩ := by
  constructor <;> decide +kernel

end B3d.Sim
