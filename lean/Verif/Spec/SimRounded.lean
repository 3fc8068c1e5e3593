import Verif.Model.Sim

/-! # Specification vocabulary for the simulation in rounded arithmetic -/

namespace B3d.Spec

/-- A configuration of ordinary size: every surface absorbs at least a millionth of the initial energy, normals are unit
vectors up to rounding, and no corner of the building is further from the origin than `10 ^ 9` times the distance of one
step (17 000 kilometres for sound and steps of 50 microseconds). -/
structure Ordinary (P : Sim.Params ℝ) : Prop where
  speed : 0 ≤ P.raySpeed
  time : 0 ≤ P.timeStep
  eps : 0 ≤ P.eps
  absorption : ∀ k, 1 / 10 ^ 6 ≤ P.absorption k
  normals : ∀ k, |Vec3.norm (P.geo.vn k) - 1| ≤ 2 / 10 ^ 14
  size : ∃ B : ℝ, (|P.lo.x| ≤ B ∧ |P.lo.y| ≤ B ∧ |P.lo.z| ≤ B) ∧ (|P.hi.x| ≤ B ∧ |P.hi.y| ≤ B ∧ |P.hi.z| ≤ B) ∧
    P.eps ≤ B ∧ B ≤ 10 ^ 9 * (P.raySpeed * P.timeStep)

/-- The distance from `p` to `q` is that of one step, up to one part in `10 ^ 5`. -/
def OneStep (P : Sim.Params ℝ) (p q : Vec3 ℝ) : Prop :=
  |Vec3.norm (q - p) - P.raySpeed * P.timeStep| ≤ 1 / 10 ^ 5 * (P.raySpeed * P.timeStep)

/-- The building is of ordinary size for a run of `b` batches: the number of batches times the size of the building (and a
step) is at most `10 ^ 8` times the distance of one step.  (With sound and steps of 50 microseconds a building of 100 metres
may have 17 000 batches.) -/
def SizeForBatches (P : Sim.Params ℝ) (b : Nat) : Prop :=
  ∃ L : ℝ, (|P.lo.x| ≤ L ∧ |P.lo.y| ≤ L ∧ |P.lo.z| ≤ L) ∧ (|P.hi.x| ≤ L ∧ |P.hi.y| ≤ L ∧ |P.hi.z| ≤ L) ∧ P.eps ≤ L ∧
    b * (L + P.raySpeed * P.timeStep) ≤ 10 ^ 8 * (P.raySpeed * P.timeStep)

open Classical in
/-- What the rays of a row hand over to the absorber with the number `sn`: the energies of the rays that are not dead and for
which it is the first absorber that contains the ray; `inside c p` says that the absorber at `c` contains `p`.  The sum is exact. -/
noncomputable def handedOver (P : Sim.Params ℝ) (inside : Vec3 ℝ → Vec3 ℝ → Prop) (row : Sim.Row ℝ) (sn : Nat) : ℝ :=
  ((row.pos.zip row.energy).map fun x =>
    if P.eps < x.2 ∧ P.absorbers.findIdx? (fun c => inside c x.1) = some sn then x.2 else 0).sum

/-- A ray of the row that is not dead is in an absorber. -/
def HeardBy (P : Sim.Params ℝ) (inside : Vec3 ℝ → Vec3 ℝ → Prop) (row : Sim.Row ℝ) : Prop :=
  ∃ (k : Nat) (p : Vec3 ℝ) (e : ℝ), row.pos[k]? = some p ∧ row.energy[k]? = some e ∧ P.eps < e ∧ ∃ c ∈ P.absorbers, inside c p

end B3d.Spec
