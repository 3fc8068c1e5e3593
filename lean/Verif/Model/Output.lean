import Verif.Model.PyErr
import Mathlib.Algebra.Field.Defs
import Mathlib.Algebra.Order.Field.Basic
import Mathlib.Algebra.BigOperators.Group.List.Basic

/-!
# Results of a simulation: impulse response, trails and movie frames

`building3d/sim/rays/impulse_response.py`, `building3d/sim/rays/movie_from_buffer.py`,
`building3d/sim/rays/ray_buff_plotter.py`.

A buffer is the list of its rows.  All rows have the same width (arrays of shape `(steps, width)`); an
entry outside is `IndexError`.  Drawing, files and colours are not modelled.
-/

namespace B3d.Output

/-! ### Impulse response -/

section response

variable {K : Type} [Field K] [LinearOrder K]

/-- `hit_inst.sum(axis=0)[an]`, `impulse_response.py` L33. -/
def colSum (rows : List (List K)) (an : Nat) : K := (rows.map fun r => r.getD an 0).sum

/-- `max` of an array (`impulse_response.py` L33); `ValueError` if it is empty. -/
def maxOf : List K → Except PyErr K
  | [] => .error .valueError
  | x :: xs => .ok (xs.foldl max x)

/-- `np.linspace(0, stop, num)`, as called in `impulse_response.py` L38. -/
def linspace (stop : K) (num : Nat) : List K :=
  (List.range num).map fun (k : Nat) => if num = 1 then 0 else (k : K) * (stop / ((num : K) - 1))

/-- The returned table (`impulse_response.py` L41-43): the time of each row, and one column for each
absorber. -/
structure Response (K : Type) where
  time : List K
  columns : List (List K)
deriving DecidableEq

/-- `impulse_response`, `impulse_response.py` L8-45, for a buffer of floats with `width` absorbers. -/
def impulseResponse (rows : List (List K)) (width : Nat) (timeStep : K) : Except PyErr (Response K) :=
  match maxOf ((List.range width).map (colSum rows)) with
  | .error e => .error e
  | .ok s =>
    if 0 < s then
      .ok ⟨linspace ((rows.length : K) * timeStep) rows.length,
        (List.range width).map fun an => rows.map fun r => r.getD an 0 / s⟩
    else .error .assertionError

end response

/-! ### Trails -/

variable {α : Type}

/-- `pb[t, ray]`, `movie_from_buffer.py` L166. -/
def entry (pb : List (List α)) (t ray : Nat) : Except PyErr α :=
  match pb[t]? with
  | none => .error .indexError
  | some row =>
    match row[ray]? with
    | none => .error .indexError
    | some x => .ok x

/-- State of the loops in `position_buffer_to_lines`, `movie_from_buffer.py` L160-162. -/
structure Lines (α : Type) where
  varr : List α
  index : List Nat
  curr : Nat

/-- The inner loop, `movie_from_buffer.py` L165-168, for the given `buf_i`. -/
def trailLoop (pb : List (List α)) (ray : Nat) : List Nat → Lines α → Except PyErr (Lines α)
  | [], st => .ok st
  | t :: ts, st =>
    match entry pb t ray with
    | .error e => .error e
    | .ok p => trailLoop pb ray ts ⟨st.varr ++ [p], st.index ++ [st.curr], st.curr + 1⟩

/-- The outer loop, `movie_from_buffer.py` L163-168. -/
def raysLoop (pb : List (List α)) : List Nat → Lines α → Except PyErr (Lines α)
  | [], st => .ok st
  | ray :: rays, st =>
    match trailLoop pb ray (List.range pb.length) { st with index := st.index ++ [pb.length] } with
    | .error e => .error e
    | .ok st => raysLoop pb rays st

/-- `position_buffer_to_lines`, `movie_from_buffer.py` L143-170. -/
def bufferToLines (pb : List (List α)) (numRays : Nat) : Except PyErr (List α × List Nat) :=
  match raysLoop pb (List.range numRays) ⟨[], [], 0⟩ with
  | .error e => .error e
  | .ok st => .ok (st.varr, st.index)

/-- `pos_buf[:, rn, :]`, `ray_buff_plotter.py` L34. -/
def column (pb : List (List α)) (ray : Nat) : List Nat → Except PyErr (List α)
  | [] => .ok []
  | t :: ts =>
    match entry pb t ray with
    | .error e => .error e
    | .ok p =>
      match column pb ray ts with
      | .error e => .error e
      | .ok ps => .ok (p :: ps)

/-- The loop of `get_lines`, `ray_buff_plotter.py` L33-36. -/
def plotLoop (pb : List (List α)) : List Nat → Nat → List α → List (List Nat) →
    Except PyErr (List α × List (List Nat))
  | [], _, verts, lines => .ok (verts, lines)
  | ray :: rays, curr, verts, lines =>
    match column pb ray (List.range pb.length) with
    | .error e => .error e
    | .ok c => plotLoop pb rays (curr + pb.length) (verts ++ c)
        (lines ++ [(List.range pb.length).map fun i => curr + i])

/-- `RayBuffPlotter.get_lines`, `ray_buff_plotter.py` L27-38; `np.vstack` of nothing is a
`ValueError`. -/
def getLines (pb : List (List α)) (numRays : Nat) : Except PyErr (List α × List (List Nat)) :=
  match plotLoop pb (List.range numRays) 0 [] [] with
  | .error e => .error e
  | .ok (verts, lines) => if verts.length = 0 then .error .valueError else .ok (verts, lines)

/-- `pos_buf[start:end]` of frame `i`, `movie_from_buffer.py` L73-79. -/
def window (pb : List (List α)) (trail i : Nat) : List (List α) :=
  let start := if (i : Int) - (trail : Int) < 0 then 0 else i - trail
  (pb.take i).drop start

/-- What is drawn in a frame, `movie_from_buffer.py` L128-135: the points (last row of the window) and
their energies; the trails, and the energies attached to the points of the trails,
`energy.flatten()`. -/
structure Frame (α β : Type) where
  points : List α
  pointColours : List β
  trails : List α × List Nat
  colours : List β

/-- One pass of the loop, `movie_from_buffer.py` L72-137; `position[-1]` of an empty window is an
`IndexError`. -/
def frame {β : Type} (pos : List (List α)) (enr : List (List β)) (numRays trail i : Nat) :
    Except PyErr (Frame α β) :=
  match (window pos trail i).getLast? with
  | none => .error .indexError
  | some last =>
    match (window enr trail i).getLast? with
    | none => .error .indexError
    | some lastEnergy =>
      match bufferToLines (window pos trail i) numRays with
      | .error e => .error e
      | .ok l => .ok ⟨last, lastEnergy, l, (window enr trail i).flatten⟩

/-- The loop over the frames, `movie_from_buffer.py` L71-137. -/
def frameLoop {β : Type} (pos : List (List α)) (enr : List (List β)) (numRays trail : Nat) :
    List Nat → Except PyErr (List (Frame α β))
  | [] => .ok []
  | i :: is =>
    match frame pos enr numRays trail i with
    | .error e => .error e
    | .ok f =>
      match frameLoop pos enr numRays trail is with
      | .error e => .error e
      | .ok fs => .ok (f :: fs)

/-- The frames written by `make_movie_from_buffer`, `movie_from_buffer.py` L68-139: the loop runs from 1,
and `write_frame` is called in all passes but the first. -/
def movie {β : Type} (pos : List (List α)) (enr : List (List β)) (numRays trail : Nat) :
    Except PyErr (List (Frame α β)) :=
  if pos.length ≠ enr.length then .error .assertionError
  else
    match frameLoop pos enr numRays trail ((List.range pos.length).drop 1) with
    | .error e => .error e
    | .ok fs => .ok (fs.drop 1)

end B3d.Output
