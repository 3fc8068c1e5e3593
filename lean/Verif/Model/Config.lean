import Verif.Model.Hierarchy
import Verif.Model.Sim

/-!
# Surface parameters of a simulation

`building3d/sim/rays/simulation_config.py`, and the constructor of
`building3d/sim/rays/simulation.py`.

A parameter value is an element of any type `V`.  The numbers given to polygons by the array format
converter are a function of the object identity.
-/

namespace B3d.Config

open Hier

variable {P V : Type}

/-- A Python `dict` with string keys. -/
abbrev Dict (α : Type) := List (Str × α)

/-- `d.get(k)`. -/
def dGet {α : Type} (d : Dict α) (k : Str) : Option α :=
  (d.find? fun e => e.1 = k).map Prod.snd

/-- `d[k] = v`. -/
def dSet {α : Type} : Dict α → Str → α → Dict α
  | [], k, v => [(k, v)]
  | (k', v') :: d, k, v => if k = k' then (k', v) :: d else (k', v') :: dSet d k v

/-- `self.surfaces`, `simulation_config.py` L46-51. -/
abbrev Surfaces (V : Type) := Dict (Dict V)

/-- The key of the default value. -/
def defaultKey : Str := "default".toList

/-- `self.surfaces[param][path] = value`, L118 and L123. -/
def assign (s : Surfaces V) (param path : Str) (value : V) : Except PyErr (Surfaces V) :=
  match dGet s param with
  | none => .error .keyError
  | some d => .ok (dSet s param (dSet d path value))

/-- The loop L122-123 (and the inner loop L81-82); `s` is the state when an exception is raised. -/
def assignAll (s : Surfaces V) (param : Str) (value : V) : List Str → Surfaces V × Except PyErr Unit
  | [] => (s, .ok ())
  | path :: paths =>
    match assign s param path value with
    | .error e => (s, .error e)
    | .ok s' => assignAll s' param value paths

/-- Body of the outer loop of `set_default_surface_paths`, L80-82. -/
def defaultStep (paths : List Str) (s : Surfaces V) (key : Str) : Surfaces V :=
  match dGet s key with
  | none => s
  | some d =>
    match dGet d defaultKey with
    | none => s
    | some v => (assignAll s key v paths).1

/-- `set_default_surface_paths`, L77-82, for parameters which all have a default value (as in
L46-51). -/
def setDefaults (s : Surfaces V) (paths : List Str) : Surfaces V :=
  (s.map Prod.fst).foldl (defaultStep paths) s

/-- The part of `SimulationConfig.__init__` about surfaces, L45-52; `initial` holds the default of
each parameter (in the code the only parameter is `absorption`, with default 0.2). -/
def initConfig (h : Heap P) (b : Nat) (initial : Dict V) : Except PyErr (Surfaces V) :=
  match getPolygonPaths h b with
  | .error e => .error e
  | .ok paths => .ok (setDefaults (initial.map fun kv => (kv.1, [(defaultKey, kv.2)])) paths)

/-- `set_surface_param`, L84-129: state afterwards and outcome. -/
def setSurfaceParam (parseInt : Str → Option Int) (h : Heap P) (b : Nat) (s : Surfaces V)
    (param path : Str) (value : V) : Surfaces V × Except PyErr Unit :=
  match Hier.get parseInt h b path with
  | .error e => (s, .error e)
  | .ok (.point _) => (s, .error .typeError)
  | .ok (.obj i) =>
    match h[i]? with
    | none => (s, .error .typeError)
    | some o =>
      if o.kind = .polygon then
        match assign s param path value with
        | .error e => (s, .error e)
        | .ok s' => (s', .ok ())
      else
        match getPolygonPaths h i with
        | .error e => (s, .error e)
        | .ok paths => assignAll s param value paths

/-- `pp in d ? d[pp] : d["default"]`, L164-167. -/
def valueOf (d : Dict V) (pp : Str) : Except PyErr V :=
  match dGet d pp with
  | some v => .ok v
  | none =>
    match dGet d defaultKey with
    | some v => .ok v
    | none => .error .keyError

/-- Body of the loop of `surface_params_to_array`, L156-167; `num` is the attribute of the polygons. -/
def arrayStep (parseInt : Str → Option Int) (num : Nat → Option Int) (h : Heap P) (b : Nat)
    (s : Surfaces V) (param : Str) (n : Nat) (values : List V) (pp : Str) : Except PyErr (List V) :=
  match Hier.get parseInt h b pp with
  | .error e => .error e
  | .ok (.point _) => .error .assertionError
  | .ok (.obj i) =>
    match h[i]? with
    | none => .error .typeError
    | some o =>
      if o.kind ≠ .polygon then .error .assertionError
      else
        match num i with
        | none => .error .runtimeError
        | some k =>
          if 0 ≤ k ∧ k < n then
            match dGet s param with
            | none => .error .keyError
            | some d =>
              match valueOf d pp with
              | .error e => .error e
              | .ok v => .ok (values.set k.toNat v)
          else .error .assertionError

/-- The loop of `surface_params_to_array`, L156-167. -/
def arrayLoop (parseInt : Str → Option Int) (num : Nat → Option Int) (h : Heap P) (b : Nat)
    (s : Surfaces V) (param : Str) (n : Nat) : List V → List Str → Except PyErr (List V)
  | values, [] => .ok values
  | values, pp :: pps =>
    match arrayStep parseInt num h b s param n values pp with
    | .error e => .error e
    | .ok values => arrayLoop parseInt num h b s param n values pps

/-- `surface_params_to_array`, L131-169. -/
def surfaceParamsToArray [Zero V] (parseInt : Str → Option Int) (num : Nat → Option Int) (h : Heap P)
    (b : Nat) (s : Surfaces V) (param : Str) : Except PyErr (List V) :=
  match getPolygonPaths h b with
  | .error e => .error e
  | .ok paths =>
    arrayLoop parseInt num h b s param paths.length (List.replicate paths.length 0) paths

/-- `self.surf_absorption`, `simulation.py` L62-63; `numFaces` is `len(self.polygons)`, the number of
triangles of the array format. -/
def simAbsorption (s : Surfaces V) (numFaces : Nat) : Except PyErr (List V) :=
  match dGet s "absorption".toList with
  | none => .error .keyError
  | some d =>
    match dGet d defaultKey with
    | none => .error .keyError
    | some v => .ok (List.replicate numFaces v)

/-! ### Constructor of a simulation -/

/-- A directory: whether it is there, and how many entries it has. -/
inductive Dir where
  | missing
  | present (entries : Nat)
deriving DecidableEq

/-- `os.makedirs(path)` for a path that is there or not. -/
def makedirs : Dir → Except PyErr Dir
  | .missing => .ok (.present 0)
  | .present _ => .error .fileExistsError

/-- `Simulation.make_dirs`, `simulation.py` L88-97: project directory, then buffer directory.
Creating the project directory may add an entry to no other directory than its parent, and creating the
buffer directory (usually inside the project directory) is modelled for the buffer directory only. -/
def makeDirs (project buffer : Dir) : Except PyErr (Dir × Dir) :=
  let project := match project with
    | .missing => Dir.present 0
    | d => d
  match buffer with
  | .present (_ + 1) => .error .runtimeError
  | d =>
    match makedirs d with
    | .error e => .error e
    | .ok d => .ok (project, d)

/-- The checks at the end of `Simulation.__init__`, `simulation.py` L82-86 (`%` by zero raises
`ZeroDivisionError`), for natural numbers of steps. -/
def checkSteps (numSteps batchSize : Nat) : Except PyErr Unit :=
  if numSteps < batchSize then .error .assertionError
  else if batchSize = 0 then .error .zeroDivisionError
  else if numSteps % batchSize ≠ 0 then .error .assertionError
  else .ok ()

/-- End of `Simulation.__init__`, `simulation.py` L81-86. -/
def prepare (numSteps batchSize : Nat) (project buffer : Dir) : Except PyErr (Dir × Dir) :=
  match checkSteps numSteps batchSize with
  | .error e => .error e
  | .ok () => makeDirs project buffer

end B3d.Config
