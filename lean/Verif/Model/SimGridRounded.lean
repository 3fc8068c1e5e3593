import Verif.Model.SimRounded

/-!
# The voxel grid in rounded arithmetic

`make_voxel_grid` (`building3d/sim/rays/voxel_grid.py`) once more, with every arithmetic operation replaced by a rounded one.
The function is compiled by numba, whose `np.arange` adds a multiple of the step to the start (in NumPy the multiples are those
of the rounded difference of the first two numbers).  Overflow and underflow are left out.
-/

namespace B3d.SimRounded

open Sim

variable (A : Arith)

/-- `np.arange(start, stop, step)` as compiled by numba: `ceil((stop - start) / step)` numbers `start + i * step`;
`voxel_grid.py` L51-53. -/
noncomputable def arange (start stop step : ℝ) : List ℝ :=
  (List.range ⌈A.div (A.sub stop start) step⌉.toNat).map fun (i : Nat) => A.add start (A.mul i step)

/-- The numbers on one axis, `voxel_grid.py` L38-53: `min -= eps`, `max += eps`, `np.arange(min, max + step + eps, step)`. -/
noncomputable def axisRange (lo hi step eps : ℝ) : List ℝ :=
  arange A (A.sub lo eps) (A.add (A.add (A.add hi eps) step) eps) step

/-- The keys of the grid, `voxel_grid.py` L55-66. -/
noncomputable def gridKeys (lo hi : Vec3 ℝ) (step eps : ℝ) : List Cell :=
  (axisRange A lo.x hi.x step eps).flatMap fun x =>
    (axisRange A lo.y hi.y step eps).flatMap fun y =>
      (axisRange A lo.z hi.z step eps).map fun z => cellOf A ⟨x, y, z⟩ step

/-- The polygon is beside the cell number `k` of an axis, `voxel_grid.py` L83-97: `min_xyz_cube = key * step`,
`max_xyz_cube = min_xyz_cube + step`. -/
noncomputable def beside (xs : List ℝ) (k : ℤ) (step : ℝ) : Bool :=
  outsideAxis xs (A.mul k step) (A.add (A.mul k step) step)

/-- `voxel_grid.py` L83-97: `outside`. -/
noncomputable def outside (pts : List (Vec3 ℝ)) (c : Cell) (step : ℝ) : Bool :=
  beside A (pts.map Vec3.x) c.1 step || beside A (pts.map Vec3.y) c.2.1 step || beside A (pts.map Vec3.z) c.2.2 step

/-- Numbers of the polygons put in a cell, `voxel_grid.py` L80-105. -/
noncomputable def polysIn (polys : List (List (Vec3 ℝ))) (c : Cell) (step : ℝ) : List Nat :=
  (List.range polys.length).filter fun pn =>
    match polys[pn]? with
    | none => false
    | some pts => !outside A pts c step

/-- `make_voxel_grid`, `voxel_grid.py` L12-111. -/
noncomputable def makeVoxelGrid (lo hi : Vec3 ℝ) (polys : List (List (Vec3 ℝ))) (step eps : ℝ) : Except PyErr Grid :=
  let keys := gridKeys A lo hi step eps
  let grid := keys.foldl (fun g c => gridSet g c (polysIn A polys c step)) []
  if (List.range polys.length).all fun pn => keys.any fun c => pn ∈ polysIn A polys c step then .ok grid
  else .error .valueError

end B3d.SimRounded
