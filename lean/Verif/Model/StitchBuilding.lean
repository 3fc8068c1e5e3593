import Verif.Model.Stitch
import Verif.Model.Graph

/-!
# Stitching the solids of a building

`Building.stitch_solids`, `building3d/geom/building/__init__.py` L191-209, with the solids themselves.  The solids of the
building are listed with their paths; the solid graph is an argument (`get_graph` is in `Verif.Model.Graph`).
-/

namespace B3d.Solids

open Hier (GDict)

/-- The solids of a building, with their paths. -/
abbrev SolidDict := List (Str × SolidG)

/-- `self.zones[z_name].solids[s_name]`, `building/__init__.py` L206-207; the zone and the solid are given by the path. -/
def solidAt (B : SolidDict) (path : Str) : Option SolidG := (B.find? fun e => e.1 = path).map Prod.snd

/-- The solid has been changed in place. -/
def putSolid (B : SolidDict) (path : Str) (S : SolidG) : SolidDict := B.map fun e => if e.1 = path then (e.1, S) else e

/-- The double loop of `Building.stitch_solids`, `building/__init__.py` L199-209, over the pairs of a solid path and
one of its neighbours.  `done` are the sets of names treated before (L198, L209).  The two paths belong to different
solids (C11: the solid graph has no loops).  `rnd` are the random names used for a pair.
`none` means that the recursion of some `stitch_solids` is too deep. -/
noncomputable def stitchLoop (rnd : Str → Str → Nat → Str) (fuel : Nat) : List (Str × Str) → List (Str × Str) → SolidDict →
    Option (SolidDict × Except PyErr Unit)
  | _, [], B => some (B, .ok ())
  | done, (s, t) :: rest, B =>
    match Str.split PATH_SEP s, Str.split PATH_SEP t with
    | [_, _, sName], [_, _, tName] =>
      if (sName, tName) ∈ done ∨ (tName, sName) ∈ done then stitchLoop rnd fuel done rest B
      else
        match solidAt B s, solidAt B t with
        | some S, some T =>
          match stitchSolids (rnd s t) fuel S T with
          | none => none
          | some ((S', T'), .error e) => some (putSolid (putSolid B s S') t T', .error e)
          | some ((S', T'), .ok ()) =>
            stitchLoop rnd fuel (done ++ [(sName, tName)]) rest (putSolid (putSolid B s S') t T')
        | _, _ => some (B, .error .keyError)
    | _, _ => some (B, .error .valueError)

/-- `Building.stitch_solids`, `building/__init__.py` L191-209, given the solid graph. -/
noncomputable def stitchBuilding (rnd : Str → Str → Nat → Str) (fuel : Nat) (g : GDict) (B : SolidDict) :
    Option (SolidDict × Except PyErr Unit) :=
  stitchLoop rnd fuel [] (g.flatMap fun kv => kv.2.map fun t => (kv.1, t)) B

end B3d.Solids
