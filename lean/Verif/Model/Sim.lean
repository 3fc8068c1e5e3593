import Verif.Model.Vec3
import Verif.Model.PyErr
import Mathlib.Algebra.Order.Floor.Ring

/-!
# Ray simulation

`building3d/sim/rays/voxel_grid.py`, `find_nearby_polygons.py`, `find_target.py`,
`simulation_loop.py` and the loop of `simulation.py`.

Numbers are elements of a linearly ordered field with a floor function.  The two geometric predicates
used by the loop, `is_point_inside_projection` and `distance_point_to_polygon`, and the polygon
normals are the fields of `Geo`; nothing is assumed about them unless a theorem says so.  The order in
which a Python set is iterated is the parameter `setIter`.  Printing is not modelled.  Arrays with
one row per ray (`position`, `velocity`, `delta_pos`, `energy`) are one list of records; the arrays
`absorber_sq_dist` and `target_surfs`, which are written before they are read in every iteration, are
local.
-/

namespace B3d.Sim

variable {K : Type} [Field K] [LinearOrder K] [IsStrictOrderedRing K] [FloorRing K]

/-! ### Voxel grid -/

/-- Cell of a voxel grid. -/
abbrev Cell := Int × Int × Int

/-- Python dict from cells to arrays of polygon numbers, as list of entries. -/
abbrev Grid := List (Cell × List Nat)

/-- `grid[key]`, `none` if the key is missing. -/
def gridGet (g : Grid) (c : Cell) : Option (List Nat) :=
  (g.find? fun e => e.1 = c).map Prod.snd

/-- `grid[key] = value`. -/
def gridSet (g : Grid) (c : Cell) (v : List Nat) : Grid :=
  if g.any (fun e => e.1 = c) then g.map fun e => if e.1 = c then (c, v) else e else g ++ [(c, v)]

/-- `np.arange(start, stop, step)`. -/
def arange (start stop step : K) : List K :=
  (List.range ⌈(stop - start) / step⌉.toNat).map fun (k : Nat) => start + (k : K) * step

/-- `int(np.floor(x / step))` on the three axes, `voxel_grid.py` L60-66 and `simulation_loop.py`
L166-168. -/
def cellOf (p : Vec3 K) (step : K) : Cell := (⌊p.x / step⌋, ⌊p.y / step⌋, ⌊p.z / step⌋)

/-- All vertices below the lower or above the upper side of the cube on one axis,
`voxel_grid.py` L92-97. -/
def outsideAxis (xs : List K) (lo hi : K) : Bool :=
  xs.all (fun x => x < lo) || xs.all (fun x => hi < x)

/-- `voxel_grid.py` L83-97: `outside`. -/
def outside (pts : List (Vec3 K)) (c : Cell) (step : K) : Bool :=
  outsideAxis (pts.map Vec3.x) ((c.1 : K) * step) ((c.1 : K) * step + step) ||
  outsideAxis (pts.map Vec3.y) ((c.2.1 : K) * step) ((c.2.1 : K) * step + step) ||
  outsideAxis (pts.map Vec3.z) ((c.2.2 : K) * step) ((c.2.2 : K) * step + step)

/-- Numbers of the polygons put in a cell, `voxel_grid.py` L80-105. -/
def polysIn (polys : List (List (Vec3 K))) (c : Cell) (step : K) : List Nat :=
  (List.range polys.length).filter fun pn =>
    match polys[pn]? with
    | none => false
    | some pts => !outside pts c step

/-- The keys of the grid, `voxel_grid.py` L38-66. -/
def gridKeys (lo hi : Vec3 K) (step eps : K) : List Cell :=
  (arange (lo.x - eps) (hi.x + eps + step + eps) step).flatMap fun x =>
    (arange (lo.y - eps) (hi.y + eps + step + eps) step).flatMap fun y =>
      (arange (lo.z - eps) (hi.z + eps + step + eps) step).map fun z => cellOf ⟨x, y, z⟩ step

/-- `make_voxel_grid`, `voxel_grid.py` L12-111. -/
def makeVoxelGrid (lo hi : Vec3 K) (polys : List (List (Vec3 K))) (step eps : K) :
    Except PyErr Grid :=
  let keys := gridKeys lo hi step eps
  let grid := keys.foldl (fun g c => gridSet g c (polysIn polys c step)) []
  if (List.range polys.length).all fun pn => keys.any fun c => pn ∈ polysIn polys c step then .ok grid
  else .error .valueError

/-- Offsets of the 27 cells, `find_nearby_polygons.py` L27-29. -/
def offsets : List Int := [-1, 0, 1]

/-- `find_nearby_polygons`, L7-34; `setIter` lists a set in the order in which it is iterated. -/
def findNearby (setIter : List Nat → List Nat) (c : Cell) (g : Grid) : List Nat :=
  setIter (offsets.flatMap fun i => offsets.flatMap fun j => offsets.flatMap fun k =>
    (gridGet g (c.1 + i, c.2.1 + j, c.2.2 + k)).getD [])

/-! ### Target surface -/

/-- What the loop asks about the polygons. -/
structure Geo (K : Type) where
  /-- `is_point_inside_projection(pos, direction, poly_pts[pn], poly_tri[pn], fwd_only=True, atol)` -/
  hit : Vec3 K → Vec3 K → Nat → Bool
  /-- `distance_point_to_polygon(pos, poly_pts[pn], poly_tri[pn], normal)` -/
  dist : Vec3 K → Nat → K
  /-- `normal(pts[-1], pts[0], pts[1])` for the polygon -/
  vn : Nat → Vec3 K

/-- One iteration of `find_target_surface`, `find_target.py` L51-72; the state is `min_dist_index`
with its entry in `target_candidates` (no other entry is read). -/
def targetStep (geo : Geo K) (trans : List Int) (pos dir : Vec3 K) (best : Option (Nat × K))
    (pn : Nat) : Option (Nat × K) :=
  if (pn : Int) ∈ trans then best
  else if geo.hit pos dir pn then
    match best with
    | none => some (pn, geo.dist pos pn)
    | some (m, dm) => if geo.dist pos pn < dm then some (pn, geo.dist pos pn) else some (m, dm)
  else best

/-- `find_target_surface`, `find_target.py` L14-77; `none` stands for `-1`. -/
def findTarget (geo : Geo K) (trans : List Int) (check : List Nat) (pos dir : Vec3 K) : Option Nat :=
  (check.foldl (targetStep geo trans pos dir) none).map Prod.fst

/-! ### Simulation loop -/

/-- Arguments of `simulation_loop` that stay the same, and the numbers derived from them
(`simulation_loop.py` L26-42 and L82-105). -/
structure Params (K : Type) where
  raySpeed : K
  timeStep : K
  gridStep : K
  grid : Grid
  absorbers : List (Vec3 K)
  absorberRadius : K
  /-- bounding box of the points -/
  lo : Vec3 K
  hi : Vec3 K
  transparent : List Int
  /-- `surf_absorption[pn]` -/
  absorption : Nat → K
  eps : K
  geo : Geo K
  setIter : List Nat → List Nat

/-- `transparent_polygons` after `simulation_loop.py` L78-79. -/
def Params.trans (P : Params K) : List Int :=
  if 1 < P.transparent.length ∧ (-1) ∈ P.transparent then P.transparent.filter (· ≠ -1)
  else P.transparent

/-- `reflection_dist`, `simulation_loop.py` L86-87. -/
def Params.reflDist (P : Params K) : K := P.raySpeed * P.timeStep * (101 / 100)

/-- State of one ray. -/
structure Ray (K : Type) where
  pos : Vec3 K
  vel : Vec3 K
  delta : Vec3 K
  energy : K
deriving DecidableEq

/-- The ray with another energy: `energy[rn] = e`. -/
def Ray.withEnergy (r : Ray K) (e : K) : Ray K := ⟨r.pos, r.vel, r.delta, e⟩

/-- Absorbers that contain a position take the energy of the ray, `simulation_loop.py` L143-147.
`hs` has the length of `as` (both come from `absorbers`). -/
def absorbLoop (sqRadius : K) (pos : Vec3 K) : List (Vec3 K) → List K → K → List K × K
  | a :: as, h :: hs, e =>
    if Vec3.normSq (pos - a) < sqRadius then
      let r := absorbLoop sqRadius pos as hs 0
      ((h + e) :: r.1, r.2)
    else
      let r := absorbLoop sqRadius pos as hs e
      (h :: r.1, r.2)
  | _, hs, e => (hs, e)

/-- One ray of the absorber check, `simulation_loop.py` L141-147. -/
def absorbRay (P : Params K) (hs : List K) (r : Ray K) : List K × Ray K :=
  if r.energy ≤ P.eps then (hs, r)
  else
    let res := absorbLoop (P.absorberRadius ^ 2) r.pos P.absorbers hs r.energy
    (res.1, r.withEnergy res.2)

/-- The absorber check for all rays, `simulation_loop.py` L140-147. -/
def absorbAll (P : Params K) : List K → List (Ray K) → List K × List (Ray K)
  | hs, [] => (hs, [])
  | hs, r :: rs =>
    let a := absorbRay P hs r
    let b := absorbAll P a.1 rs
    (b.1, a.2 :: b.2)

/-- The ray has left the bounding box, `simulation_loop.py` L155-162. -/
def leftBox (P : Params K) (p : Vec3 K) : Bool :=
  p.x < P.lo.x - P.eps || p.y < P.lo.y - P.eps || p.z < P.lo.z - P.eps ||
  P.hi.x + P.eps < p.x || P.hi.y + P.eps < p.y || P.hi.z + P.eps < p.z

/-- `target_surfs[rn]`, `simulation_loop.py` L171-181 and L209-219. -/
def target (P : Params K) (c : Cell) (r : Ray K) : Option Nat :=
  findTarget P.geo P.trans (findNearby P.setIter c P.grid) r.pos r.vel

/-- `velocity - 2 * dot * vn` and the new `delta_pos`, `simulation_loop.py` L202-204, with the energy
left. -/
def reflect (P : Params K) (pn : Nat) (e : K) (r : Ray K) : Ray K :=
  let v := r.vel - (2 * Vec3.dot (P.geo.vn pn) r.vel) • P.geo.vn pn
  ⟨r.pos, v, P.timeStep • v, e⟩

/-- The reflection loop, `simulation_loop.py` L193-230.  At most `fuel` evaluations of the loop
condition; `none` when they do not suffice. -/
def reflectLoop (P : Params K) (c : Cell) : Nat → Ray K → Option Nat → Option (Ray K × Option Nat)
  | 0, _, _ => none
  | _ + 1, r, none => some (r, none)
  | fuel + 1, r, some pn =>
    if P.geo.dist r.pos pn < P.reflDist ∧ P.eps < r.energy then
      if r.energy - P.absorption pn ≤ P.eps then some (r.withEnergy 0, some pn)
      else
        let r' := reflect P pn (r.energy - P.absorption pn) r
        reflectLoop P c fuel r' (target P c r')
    else some (r, some pn)

/-- `dist > reflection_dist`, where the distance to no surface is infinite. -/
def farEnough (P : Params K) (p : Vec3 K) : Option Nat → Bool
  | none => true
  | some pn => P.reflDist < P.geo.dist p pn

/-- `simulation_loop.py` L232-235. -/
def advance (P : Params K) (r : Ray K) (t : Option Nat) : Ray K :=
  if P.eps < r.energy && farEnough P r.pos t then ⟨r.pos + r.delta, r.vel, r.delta, r.energy⟩ else r

/-- `simulation_loop.py` L155-163. -/
def checkLeft (P : Params K) (r : Ray K) : Ray K :=
  if 0 < r.energy && leftBox P r.pos then r.withEnergy 0 else r

/-- The body of the parallel loop for one ray, `simulation_loop.py` L150-235. -/
def moveRay (P : Params K) (fuel : Nat) (r : Ray K) : Option (Ray K) :=
  if r.energy ≤ P.eps then some r
  else
    let r1 := checkLeft P r
    let c := cellOf r1.pos P.gridStep
    match reflectLoop P c fuel r1 (target P c r1) with
    | none => none
    | some (r2, t) => some (advance P r2 t)

/-- The parallel loop in the order of the ray numbers, `simulation_loop.py` L149-235. -/
def moveAll (P : Params K) (fuel : Nat) : List (Ray K) → Option (List (Ray K))
  | [] => some []
  | r :: rs =>
    match moveRay P fuel r with
    | none => none
    | some r' =>
      match moveAll P fuel rs with
      | none => none
      | some rs' => some (r' :: rs')

/-- State of the loop. -/
structure St (K : Type) where
  rays : List (Ray K)
  hits : List K

/-- One step of the simulation loop, `simulation_loop.py` L132-235. -/
def step (P : Params K) (fuel : Nat) (s : St K) : Option (St K) :=
  let a := absorbAll P (s.hits.map fun _ => 0) s.rays
  match moveAll P fuel a.2 with
  | none => none
  | some rs => some ⟨rs, a.1⟩

/-- `num_steps` steps; all states including the first one. -/
def steps (P : Params K) (fuel : Nat) : Nat → St K → Option (List (St K))
  | 0, s => some [s]
  | n + 1, s =>
    match step P fuel s with
    | none => none
    | some s' =>
      match steps P fuel n s' with
      | none => none
      | some l => some (s :: l)

/-- One row of the three buffers. -/
structure Row (K : Type) where
  pos : List (Vec3 K)
  energy : List K
  hits : List K
deriving DecidableEq

/-- `pos_buf[i] = position; enr_buf[i] = energy; hit_buf[i] = hits`, `simulation_loop.py` L114-116
and L238-240. -/
def rowOf (s : St K) : Row K := ⟨s.rays.map Ray.pos, s.rays.map Ray.energy, s.hits⟩

/-- Position, velocity and energy of every ray, and the hits: the array arguments of
`simulation_loop`. -/
structure Arrays (K : Type) where
  rays : List (Vec3 K × Vec3 K × K)
  hits : List K

/-- Start of `simulation_loop`: `delta_pos = velocity * time_step`, L85. -/
def start (P : Params K) (a : Arrays K) : St K :=
  ⟨a.rays.map fun r => ⟨r.1, r.2.1, P.timeStep • r.2.1, r.2.2⟩, a.hits⟩

/-- `simulation_loop`, `simulation_loop.py` L21-249: the rows of the buffers. -/
def simulationLoop (P : Params K) (fuel numSteps : Nat) (a : Arrays K) : Option (List (Row K)) :=
  (steps P fuel numSteps (start P a)).map fun l => l.map rowOf

/-! ### Batches -/

/-- `Simulation.run` between two batches, `simulation.py` L200-203: the arrays for the next batch from
the last two rows.  (`none` when there are fewer than two rows.) -/
def nextArrays (P : Params K) (rows : List (Row K)) : Option (Arrays K) :=
  match rows.reverse with
  | last :: prev :: _ =>
    some ⟨(last.pos.zip (prev.pos.zip last.energy)).map fun r =>
      (r.1, (1 / P.timeStep) • (r.1 - r.2.1), r.2.2), last.hits⟩
  | _ => none

/-- `dump_buffers` as the list of writes (step number, row), `dump_buffers.py` L40-52. -/
def dumpBuffers (initStep : Nat) (rows : List (Row K)) : List (Nat × Row K) :=
  (List.range rows.length).zip rows |>.map fun e => (e.1 + initStep, e.2)

/-- The batch loop of `Simulation.run`, `simulation.py` L171-206: the writes of all batches. -/
def runBatches (P : Params K) (fuel batchSize : Nat) : Nat → Nat → Arrays K →
    Option (List (Nat × Row K))
  | 0, _, _ => some []
  | n + 1, stepNo, a =>
    match simulationLoop P fuel batchSize a with
    | none => none
    | some rows =>
      match nextArrays P rows with
      | none => none
      | some a' =>
        match runBatches P fuel batchSize n (stepNo + batchSize) a' with
        | none => none
        | some ws => some (dumpBuffers stepNo rows ++ ws)

/-- Initial arrays of `Simulation.run`, `simulation.py` L124-137; the directions of the rays, random
unit vectors, are a parameter. -/
def initArrays (P : Params K) (source : Vec3 K) (dirs : List (Vec3 K)) : Arrays K :=
  ⟨dirs.map fun d => (source, P.raySpeed • d, 1), P.absorbers.map fun _ => 0⟩

/-- `Simulation.run`, `simulation.py` L120-209, with `numSteps = batches * batchSize`
(L83 requires divisibility). -/
def simulationRun (P : Params K) (fuel batchSize batches : Nat) (source : Vec3 K)
    (dirs : List (Vec3 K)) : Option (List (Nat × Row K)) :=
  runBatches P fuel batchSize batches 0 (initArrays P source dirs)

end B3d.Sim
