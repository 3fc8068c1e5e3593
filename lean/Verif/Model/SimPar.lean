import Verif.Model.Sim

/-! # The parallel loop over rays, statement by statement

`for rn in prange(num_rays)` in `building3d/sim/rays/simulation_loop.py` L149-235.  Every iteration is
a thread with its own program counter and local variables; the elements `position[rn]`,
`velocity[rn]`, `delta_pos[rn]` and `energy[rn]` of the shared arrays are the fields of ray `rn`.
One turn of a thread executes one statement. -/

namespace B3d.Sim

variable {K : Type} [Field K] [LinearOrder K] [IsStrictOrderedRing K] [FloorRing K]

/-- Program counter of a thread with its local variables: `c` is `(x, y, z)`, `t` is
`target_surfs[rn]` (which determines `vn` and `dist`), `pn` a known target. -/
inductive Pc where
  /-- L151 -/
  | begin
  /-- L155-163 -/
  | box
  /-- L166-191 -/
  | look
  /-- L193, the loop condition -/
  | loop (c : Cell) (t : Option Nat)
  /-- L195 -/
  | absorb (c : Cell) (pn : Nat)
  /-- L196-198 -/
  | check (c : Cell) (pn : Nat)
  /-- L202-203 -/
  | reflect (c : Cell) (pn : Nat)
  /-- L204 -/
  | delta (c : Cell)
  /-- L209-230 -/
  | lookAgain (c : Cell)
  /-- L232-235 -/
  | move (t : Option Nat)
  | done

/-- One statement of the loop body, `simulation_loop.py` L150-235. -/
def micro (P : Params K) : Ray K × Pc → Ray K × Pc
  | (r, .begin) => if r.energy ≤ P.eps then (r, .done) else (r, .box)
  | (r, .box) => if 0 < r.energy && leftBox P r.pos then (r.withEnergy 0, .look) else (r, .look)
  | (r, .look) => (r, .loop (cellOf r.pos P.gridStep) (target P (cellOf r.pos P.gridStep) r))
  | (r, .loop _ none) => (r, .move none)
  | (r, .loop c (some pn)) =>
    if P.geo.dist r.pos pn < P.reflDist ∧ P.eps < r.energy then (r, .absorb c pn)
    else (r, .move (some pn))
  | (r, .absorb c pn) => (r.withEnergy (r.energy - P.absorption pn), .check c pn)
  | (r, .check c pn) =>
    if r.energy ≤ P.eps then (r.withEnergy 0, .move (some pn)) else (r, .reflect c pn)
  | (r, .reflect c pn) =>
    (⟨r.pos, r.vel - (2 * Vec3.dot (P.geo.vn pn) r.vel) • P.geo.vn pn, r.delta, r.energy⟩, .delta c)
  | (r, .delta c) => (⟨r.pos, r.vel, P.timeStep • r.vel, r.energy⟩, .lookAgain c)
  | (r, .lookAgain c) => (r, .loop c (target P c r))
  | (r, .move t) => (advance P r t, .done)
  | (r, .done) => (r, .done)

/-- The shared arrays and the program counters after the turns listed in the schedule: `i` in the
schedule stands for a turn of the thread of ray `i`. -/
def runSchedule (P : Params K) (schedule : List Nat) (s : List (Ray K × Pc)) : List (Ray K × Pc) :=
  schedule.foldl (fun s i => s.modify i (micro P)) s

/-- All threads at the beginning of the loop. -/
def threads (rays : List (Ray K)) : List (Ray K × Pc) := rays.map fun r => (r, .begin)

end B3d.Sim
