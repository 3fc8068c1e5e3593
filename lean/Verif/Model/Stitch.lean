import Verif.Model.Slice
import Verif.Model.Crossing

/-!
# Stitching two solids

`building3d/geom/solid/stitch.py` and `Wall.replace_polygon`.  The solids are changed in place, also if an exception is
raised afterwards, so the functions return the changed solids beside the outcome.  A solid is a list of walls with
their named polygons (`Verif.Model.Solids`); the two solids share no walls.  Parents of the objects are in
`Verif.Model.Hierarchy`.  Exact reals.
-/

namespace B3d.Solids

open Polygon Slice

/-- `get_walls_and_polygons`, `stitch.py` L150-158; walls by their numbers. -/
def wallsAndPolygons (s : SolidG) : List (Nat × Str × Poly) :=
  s.zipIdx.flatMap fun w => w.1.polys.map fun p => (w.2, p)

/-- The condition in `next_adjacent_polygons`, `stitch.py` L35-37. -/
noncomputable def canBeSliced (P Q : Poly) : Except PyErr Bool :=
  match arePolygonsCrossing P.pts P.tri Q.pts Q.tri with
  | .error e => .error e
  | .ok overlapping =>
    match containsPolygon P Q with
    | .error e => .error e
    | .ok true => .ok true
    | .ok false =>
      match containsPolygon Q P with
      | .error e => .error e
      | .ok within => .ok (overlapping || within)

/-- The double loop of `next_adjacent_polygons`, `stitch.py` L33-39, over the pairs in their order. -/
noncomputable def firstSliceable : List ((Str × Poly) × (Str × Poly)) →
    Except PyErr (Option ((Str × Poly) × (Str × Poly)))
  | [] => .ok none
  | (p, q) :: rest =>
    match canBeSliced p.2 q.2 with
    | .error e => .error e
    | .ok true => .ok (some (p, q))
    | .ok false => firstSliceable rest

/-- `next_adjacent_polygons`, `stitch.py` L31-41. -/
noncomputable def nextAdjacentPolygons (s1 s2 : SolidG) : Except PyErr (Option ((Str × Poly) × (Str × Poly))) :=
  firstSliceable ((wallsAndPolygons s1).flatMap fun p => (wallsAndPolygons s2).map fun q => (p.2, q.2))

/-- `get_sup_cut`, `stitch.py` L95-102: all points one after the other, the first two exchanged. -/
def getSupCut (pairs : List (Vec3 ℝ × Vec3 ℝ)) : Except PyErr (List (Vec3 ℝ)) :=
  match pairs.flatMap fun p => [p.1, p.2] with
  | a :: b :: rest => .ok (b :: a :: rest)
  | _ => .error .indexError

/-- `remove_outside_points`, `stitch.py` L161-170. -/
noncomputable def removeOutsidePoints (P : Poly) : List (Vec3 ℝ) → Except PyErr (List (Vec3 ℝ))
  | [] => .ok []
  | pt :: rest =>
    match Polygon.isPointInside pt P.pts P.tri true with
    | .error e => .error e
    | .ok b =>
      match removeOutsidePoints P rest with
      | .error e => .error e
      | .ok kept => .ok (if b then pt :: kept else kept)

/-- The loop of `Wall.replace_polygon` with `Wall.add_polygon`, `wall/__init__.py` L71-81, L85-86.  It stops at the
first name that is taken. -/
def addPolysTo (w : WallG) : List (Str × Poly) → WallG × Except PyErr Unit
  | [] => (w, .ok ())
  | p :: rest =>
    if p.1 ∈ w.polys.map Prod.fst then (w, .error .geometryError)
    else addPolysTo { w with polys := w.polys ++ [p] } rest

/-- `Wall.replace_polygon`, `wall/__init__.py` L83-86. -/
def wallReplace (w : WallG) (old : Str) (news : List (Str × Poly)) : WallG × Except PyErr Unit :=
  if old ∈ w.polys.map Prod.fst then
    addPolysTo { w with polys := w.polys.filter fun p => p.1 ≠ old } news
  else (w, .error .keyError)

/-- The loop of `replace_polygon`, `stitch.py` L145-147, over the walls and polygons listed before. -/
def replaceLoop (old : Str) (news : List (Str × Poly)) : List (Nat × Str × Poly) → SolidG →
    SolidG × Except PyErr Unit
  | [], s => (s, .ok ())
  | (i, name, _) :: rest, s =>
    if name = old then
      match s[i]? with
      | none => (s, .error .indexError)
      | some w =>
        match wallReplace w name news with
        | (w', .error e) => (s.set i w', .error e)
        | (w', .ok ()) => replaceLoop old news rest (s.set i w')
    else replaceLoop old news rest s

/-- `replace_polygon`, `stitch.py` L142-147. -/
def replacePolygon (s : SolidG) (old : Str) (news : List (Str × Poly)) : SolidG × Except PyErr Unit :=
  replaceLoop old news (wallsAndPolygons s) s

/-- The check of the orientation, `stitch.py` L132-135; `rnd` is the random name of a flipped polygon.  A normal of
NaNs is close to nothing. -/
noncomputable def orientLike (P : Poly) (part : Str × Poly) (rnd : Str) : Except PyErr (Str × Poly) :=
  let same : Prop := match part.2.vn, P.vn with
    | some a, some b => allClose a b NP_RTOL NP_ATOL
    | _, _ => False
  open Classical in
  if same then .ok part
  else
    match Polygon.flip part.2 with
    | .error e => .error e
    | .ok Q => .ok (rnd, Q)

/-- The names of the parts, `stitch.py` L127. -/
def mainName (name : Str) : Str := name ++ "-main".toList

/-- The names of the parts, `stitch.py` L127. -/
def supName (name : Str) : Str := name ++ "-sup".toList

/-- `slice_one_and_replace`, `stitch.py` L118-135, up to the replacement: the two parts, or `none` where the function
returns `None, None`. -/
noncomputable def sliceOne (p : Str × Poly) (slicingPts : List (Vec3 ℝ)) (rnd : Str) :
    Except PyErr (Option ((Str × Poly) × (Str × Poly))) :=
  match addIntersectionPoints p.2.pts slicingPts with
  | .error e => .error e
  | .ok (_, s) =>
    match removeOutsidePoints p.2 s with
    | .error e => .error e
    | .ok s =>
      if s.length < 2 then .ok none
      else
        match slicePolygon p.2 s none (some (mainName p.1)) none (some (supName p.1)) rnd rnd with
        | .error .geometryError => .ok none
        | .error e => .error e
        | .ok (a, b) =>
          match orientLike p.2 a rnd with
          | .error e => .error e
          | .ok a =>
            match orientLike p.2 b rnd with
            | .error e => .error e
            | .ok b => .ok (some (a, b))

/-- `slice_one_and_replace`, `stitch.py` L105-139: the changed solid and the first part (`None` if there is none). -/
noncomputable def sliceOneAndReplace (s : SolidG) (p : Str × Poly) (slicingPts : List (Vec3 ℝ)) (rnd : Str) :
    SolidG × Except PyErr (Option (Str × Poly)) :=
  match sliceOne p slicingPts rnd with
  | .error e => (s, .error e)
  | .ok none => (s, .ok none)
  | .ok (some (a, b)) =>
    match replacePolygon s p.1 [a, b] with
    | (s', .error e) => (s', .error e)
    | (s', .ok ()) => (s', .ok (some a))

/-- Slicing the large polygon twice, `stitch.py` L66-68 and L72-74. -/
noncomputable def sliceTwice (s : SolidG) (p : Str × Poly) (supCut small : List (Vec3 ℝ)) (rnd : Str) :
    SolidG × Except PyErr Unit :=
  match sliceOneAndReplace s p supCut rnd with
  | (s', .error e) => (s', .error e)
  | (s', .ok none) => (s', .error .assertionError)
  | (s', .ok (some main)) =>
    match sliceOneAndReplace s' main small rnd with
    | (s'', .error e) => (s'', .error e)
    | (s'', .ok _) => (s'', .ok ())

/-- Slicing once, `stitch.py` L81, L85, L89-90: the result of the slicing is not looked at. -/
noncomputable def sliceOnce (s : SolidG) (p : Str × Poly) (slicingPts : List (Vec3 ℝ)) (rnd : Str) :
    SolidG × Except PyErr Unit :=
  match sliceOneAndReplace s p slicingPts rnd with
  | (s', .error e) => (s', .error e)
  | (s', .ok _) => (s', .ok ())

/-- The four tests at the beginning of `slice_both_and_replace`, `stitch.py` L46-49: `p2` in `p1`, `p1` in `p2`, and
both with the boundary. -/
noncomputable def containments (P Q : Poly) : Except PyErr (Bool × Bool × Bool × Bool) :=
  match containsPolygon P Q, containsPolygon Q P, containsPolygon P Q (-10 ^ 6), containsPolygon Q P (-10 ^ 6) with
  | .ok a, .ok b, .ok c, .ok d => .ok (a, b, c, d)
  | .error e, _, _, _ => .error e
  | _, .error e, _, _ => .error e
  | _, _, .error e, _ => .error e
  | _, _, _, .error e => .error e

/-- `slice_both_and_replace`, `stitch.py` L44-92. -/
noncomputable def sliceBothAndReplace (s1 : SolidG) (p1 : Str × Poly) (s2 : SolidG) (p2 : Str × Poly) (rnd : Str) :
    (SolidG × SolidG) × Except PyErr Unit :=
  match containments p1.2 p2.2 with
  | .error e => ((s1, s2), .error e)
  | .ok (p2In, p1In, p2InBnd, p1InBnd) =>
    if p2In || p1In then
      match Points.findClosePairs p1.2.pts p2.2.pts 2 true with
      | .error e => ((s1, s2), .error e)
      | .ok pairs =>
        match getSupCut pairs with
        | .error e => ((s1, s2), .error e)
        | .ok supCut =>
          if p2In then
            match sliceTwice s1 p1 supCut p2.2.pts rnd with
            | (s1', r) => ((s1', s2), r)
          else
            match sliceTwice s2 p2 supCut p1.2.pts rnd with
            | (s2', r) => ((s1, s2'), r)
    else if p1InBnd then
      match sliceOnce s2 p2 p1.2.pts rnd with
      | (s2', r) => ((s1, s2'), r)
    else if p2InBnd then
      match sliceOnce s1 p1 p2.2.pts rnd with
      | (s1', r) => ((s1', s2), r)
    else
      match sliceOnce s1 p1 p2.2.pts rnd with
      | (s1', .error e) => ((s1', s2), .error e)
      | (s1', .ok ()) =>
        match sliceOnce s2 p2 p1.2.pts rnd with
        | (s2', r) => ((s1', s2'), r)

/-- `stitch_solids`, `stitch.py` L16-28.  `fuel` bounds the depth of the recursion; `none` means that it is not enough
(Python raises `RecursionError` at about 1000).  `rnd` are the random names used by each call. -/
noncomputable def stitchSolids (rnd : Nat → Str) : Nat → SolidG → SolidG →
    Option ((SolidG × SolidG) × Except PyErr Unit)
  | 0, _, _ => none
  | fuel + 1, s1, s2 =>
    match nextAdjacentPolygons s1 s2 with
    | .error e => some ((s1, s2), .error e)
    | .ok none => some ((s1, s2), .ok ())
    | .ok (some (p1, p2)) =>
      match sliceBothAndReplace s1 p1 s2 p2 (rnd fuel) with
      | (s, .error e) => some (s, .error e)
      | (s, .ok ()) => stitchSolids rnd fuel s.1 s.2

end B3d.Solids
