import Verif.Model.Rounded
import Verif.Model.Sim

/-!
# The simulation loop in rounded arithmetic

`simulation_loop` (`building3d/sim/rays/simulation_loop.py`) once more, with every arithmetic operation of the code
replaced by a rounded one.  What the loop asks about the polygons (`Sim.Geo`) is a parameter as in `Model/Sim.lean`, so it
may be the result of rounded calculations too.  Searching for the target surface only compares numbers and is taken from
`Model/Sim.lean`.  Overflow and underflow are left out.
-/

namespace B3d.SimRounded

open Sim

/-- Rounded arithmetic with the set `rep` of the numbers that can be stored in 64 bits (`FLOAT`,
`building3d/geom/types.py` L8): the results of subtractions are among them, and taking something that is not negative away
from a stored number does not make it larger.  The results of additions, multiplications and divisions are among them
too, and adding zero to a stored number does not change it. -/
structure Arith extends Rounded.Arith where
  rep : ℝ → Prop
  rep_zero : rep 0
  rep_one : rep 1
  rep_sub : ∀ x y, rep (sub x y)
  sub_le : ∀ x y, rep x → 0 ≤ y → sub x y ≤ x
  rep_add : ∀ x y, rep (add x y)
  rep_mul : ∀ x y, rep (mul x y)
  rep_div : ∀ x y, rep (div x y)
  add_zero : ∀ x, rep x → add x 0 = x

variable (A : Arith) (P : Params ℝ)

/-- Sum of two arrays of shape `(3,)`: `position[rn] += delta_pos[rn]`, `simulation_loop.py` L233. -/
def addv (p q : Vec3 ℝ) : Vec3 ℝ := ⟨A.add p.x q.x, A.add p.y q.y, A.add p.z q.z⟩

/-- Difference of two arrays of shape `(3,)`: `position[rn] - absorbers[sn]`, `simulation_loop.py` L144. -/
def subv (p q : Vec3 ℝ) : Vec3 ℝ := ⟨A.sub p.x q.x, A.sub p.y q.y, A.sub p.z q.z⟩

/-- A number times an array of shape `(3,)`: `velocity[rn] * time_step`, `simulation_loop.py` L204. -/
def mulv (s : ℝ) (v : Vec3 ℝ) : Vec3 ℝ := ⟨A.mul s v.x, A.mul s v.y, A.mul s v.z⟩

/-- `np.sum((position[rn] - absorbers[sn]) ** 2)`, `simulation_loop.py` L144 (added from the left). -/
def sqDist (p q : Vec3 ℝ) : ℝ :=
  let d := subv A p q
  A.add (A.add (A.mul d.x d.x) (A.mul d.y d.y)) (A.mul d.z d.z)

/-- `int(np.floor(x / step))` on the three axes, `simulation_loop.py` L166-168. -/
noncomputable def cellOf (p : Vec3 ℝ) (step : ℝ) : Cell := (⌊A.div p.x step⌋, ⌊A.div p.y step⌋, ⌊A.div p.z step⌋)

/-- `reflection_dist`, `simulation_loop.py` L86-87. -/
noncomputable def reflDist : ℝ := A.mul (A.mul P.raySpeed P.timeStep) (A.lit (101 / 100))

/-- Absorbers that contain a position take the energy of the ray, `simulation_loop.py` L143-147. -/
noncomputable def absorbLoop (sqRadius : ℝ) (pos : Vec3 ℝ) : List (Vec3 ℝ) → List ℝ → ℝ → List ℝ × ℝ
  | a :: as, h :: hs, e =>
    if sqDist A pos a < sqRadius then
      let r := absorbLoop sqRadius pos as hs 0
      (A.add h e :: r.1, r.2)
    else
      let r := absorbLoop sqRadius pos as hs e
      (h :: r.1, r.2)
  | _, hs, e => (hs, e)

/-- One ray of the absorber check, `simulation_loop.py` L141-147; `absorber_sq_radius` is from L82. -/
noncomputable def absorbRay (hs : List ℝ) (r : Ray ℝ) : List ℝ × Ray ℝ :=
  if r.energy ≤ P.eps then (hs, r)
  else
    let res := absorbLoop A (A.mul P.absorberRadius P.absorberRadius) r.pos P.absorbers hs r.energy
    (res.1, r.withEnergy res.2)

/-- The absorber check for all rays, `simulation_loop.py` L140-147. -/
noncomputable def absorbAll : List ℝ → List (Ray ℝ) → List ℝ × List (Ray ℝ)
  | hs, [] => (hs, [])
  | hs, r :: rs =>
    let a := absorbRay A P hs r
    let b := absorbAll a.1 rs
    (b.1, a.2 :: b.2)

/-- The ray has left the bounding box, `simulation_loop.py` L155-162. -/
noncomputable def leftBox (p : Vec3 ℝ) : Bool :=
  p.x < A.sub P.lo.x P.eps || p.y < A.sub P.lo.y P.eps || p.z < A.sub P.lo.z P.eps ||
  A.add P.hi.x P.eps < p.x || A.add P.hi.y P.eps < p.y || A.add P.hi.z P.eps < p.z

/-- `velocity - 2 * dot * vn` and the new `delta_pos`, `simulation_loop.py` L202-204, with the energy left. -/
def reflect (pn : Nat) (e : ℝ) (r : Ray ℝ) : Ray ℝ :=
  let v := subv A r.vel (mulv A (A.mul 2 (A.dot (P.geo.vn pn) r.vel)) (P.geo.vn pn))
  ⟨r.pos, v, mulv A P.timeStep v, e⟩

/-- The reflection loop, `simulation_loop.py` L193-230.  At most `fuel` evaluations of the loop condition; `none` when
they do not suffice. -/
noncomputable def reflectLoop (c : Cell) : Nat → Ray ℝ → Option Nat → Option (Ray ℝ × Option Nat)
  | 0, _, _ => none
  | _ + 1, r, none => some (r, none)
  | fuel + 1, r, some pn =>
    if P.geo.dist r.pos pn < reflDist A P ∧ P.eps < r.energy then
      if A.sub r.energy (P.absorption pn) ≤ P.eps then some (r.withEnergy 0, some pn)
      else
        let r' := reflect A P pn (A.sub r.energy (P.absorption pn)) r
        reflectLoop c fuel r' (target P c r')
    else some (r, some pn)

/-- `dist > reflection_dist`, where the distance to no surface is infinite, `simulation_loop.py` L232. -/
noncomputable def farEnough (p : Vec3 ℝ) : Option Nat → Bool
  | none => true
  | some pn => reflDist A P < P.geo.dist p pn

/-- `simulation_loop.py` L232-235. -/
noncomputable def advance (r : Ray ℝ) (t : Option Nat) : Ray ℝ :=
  if P.eps < r.energy && farEnough A P r.pos t then ⟨addv A r.pos r.delta, r.vel, r.delta, r.energy⟩ else r

/-- `simulation_loop.py` L155-163. -/
noncomputable def checkLeft (r : Ray ℝ) : Ray ℝ :=
  if 0 < r.energy && leftBox A P r.pos then r.withEnergy 0 else r

/-- The body of the parallel loop for one ray, `simulation_loop.py` L150-235. -/
noncomputable def moveRay (fuel : Nat) (r : Ray ℝ) : Option (Ray ℝ) :=
  if r.energy ≤ P.eps then some r
  else
    let r1 := checkLeft A P r
    let c := cellOf A r1.pos P.gridStep
    match reflectLoop A P c fuel r1 (target P c r1) with
    | none => none
    | some (r2, t) => some (advance A P r2 t)

/-- The parallel loop in the order of the ray numbers, `simulation_loop.py` L149-235. -/
noncomputable def moveAll (fuel : Nat) : List (Ray ℝ) → Option (List (Ray ℝ))
  | [] => some []
  | r :: rs =>
    match moveRay A P fuel r with
    | none => none
    | some r' =>
      match moveAll fuel rs with
      | none => none
      | some rs' => some (r' :: rs')

/-- One step of the simulation loop, `simulation_loop.py` L132-235. -/
noncomputable def step (fuel : Nat) (s : St ℝ) : Option (St ℝ) :=
  let a := absorbAll A P (s.hits.map fun _ => 0) s.rays
  match moveAll A P fuel a.2 with
  | none => none
  | some rs => some ⟨rs, a.1⟩

/-- `num_steps` steps; all states including the first one (`simulation_loop.py` L132-240). -/
noncomputable def steps (fuel : Nat) : Nat → St ℝ → Option (List (St ℝ))
  | 0, s => some [s]
  | n + 1, s =>
    match step A P fuel s with
    | none => none
    | some s' =>
      match steps fuel n s' with
      | none => none
      | some l => some (s :: l)

/-- Start of `simulation_loop`: `delta_pos = velocity * time_step`, L85. -/
def start (a : Arrays ℝ) : St ℝ :=
  ⟨a.rays.map fun r => ⟨r.1, r.2.1, mulv A P.timeStep r.2.1, r.2.2⟩, a.hits⟩

/-- `simulation_loop`, `simulation_loop.py` L21-249: the rows of the buffers. -/
noncomputable def simulationLoop (fuel numSteps : Nat) (a : Arrays ℝ) : Option (List (Row ℝ)) :=
  (steps A P fuel numSteps (start A P a)).map fun l => l.map rowOf

/-- Initial arrays of `Simulation.run`, `simulation.py` L124-137: each random vector of `raw` is divided by its length
and multiplied by the speed. -/
noncomputable def initArrays (source : Vec3 ℝ) (raw : List (Vec3 ℝ)) : Arrays ℝ :=
  ⟨raw.map fun d => (source, mulv A P.raySpeed (Rounded.divv A.toArith d (A.norm d)), 1), P.absorbers.map fun _ => 0⟩

/-- The state handed from batch to batch, `simulation.py` L199-203: `velocity = (pos_buf[-1] - pos_buf[-2]) / time_step`.
`none` stands for the `IndexError` when there is only one row. -/
def nextArrays (rows : List (Row ℝ)) : Option (Arrays ℝ) :=
  match rows.reverse with
  | last :: prev :: _ =>
    some ⟨(last.pos.zip (prev.pos.zip last.energy)).map fun r =>
      (r.1, Rounded.divv A.toArith (subv A r.1 r.2.1) P.timeStep, r.2.2), last.hits⟩
  | _ => none

/-- The batch loop of `Simulation.run`, `simulation.py` L171-206: the writes of all batches. -/
noncomputable def runBatches (fuel batchSize : Nat) : Nat → Nat → Arrays ℝ → Option (List (Nat × Row ℝ))
  | 0, _, _ => some []
  | n + 1, stepNo, a =>
    match simulationLoop A P fuel batchSize a with
    | none => none
    | some rows =>
      match nextArrays A P rows with
      | none => none
      | some a' =>
        match runBatches fuel batchSize n (stepNo + batchSize) a' with
        | none => none
        | some ws => some (dumpBuffers stepNo rows ++ ws)

/-- `Simulation.run`, `simulation.py` L120-209, with `numSteps = batches * batchSize` (L83 requires divisibility). -/
noncomputable def simulationRun (fuel batchSize batches : Nat) (source : Vec3 ℝ) (raw : List (Vec3 ℝ)) :
    Option (List (Nat × Row ℝ)) := runBatches A P fuel batchSize batches 0 (initArrays A P source raw)

end B3d.SimRounded
