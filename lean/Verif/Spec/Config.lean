import Verif.Model.Config

/-! # Specification vocabulary for surface parameters -/

namespace B3d.Config

open Hier

variable {P V : Type}

/-- The value stored for a parameter and a path. -/
def value (s : Surfaces V) (param path : Str) : Option V :=
  match s.find? (fun e => e.1 = param) with
  | none => none
  | some e => (e.2.find? fun f => f.1 = path).map Prod.snd

/-- The parameter exists. -/
def Known (s : Surfaces V) (param : Str) : Prop := ∃ e ∈ s, e.1 = param

/-- `j` is a polygon which is `i` or lies somewhere below `i`. -/
inductive Below (h : Heap P) : Nat → Nat → Prop
  | self (i : Nat) (o : Obj P) : h[i]? = some o → o.kind = .polygon → Below h i i
  | child (i j k : Nat) (name : Str) (o : Obj P) : h[i]? = some o → (name, j) ∈ o.children →
      Below h j k → Below h i k

/-- One call of `set_surface_param`. -/
structure Call (V : Type) where
  param : Str
  path : Str
  value : V

/-- The call is about this parameter and its path is that of an object of the building (as given by
`InB`) at or above polygon `j`. -/
def Addresses (h : Heap P) (InB : Nat → Prop) (param : Str) (j : Nat) (c : Call V) : Prop :=
  c.param = param ∧ ∃ i, InB i ∧ Hier.path h i = c.path ∧ Below h i j

/-- State after a sequence of calls, failing ones included. -/
def settings (parseInt : Str → Option Int) (h : Heap P) (b : Nat) (s : Surfaces V)
    (calls : List (Call V)) : Surfaces V :=
  calls.foldl (fun s c => (setSurfaceParam parseInt h b s c.param c.path c.value).1) s

open Classical in
/-- Value of the last element that satisfies the condition. -/
noncomputable def lastValue (p : Call V → Prop) (calls : List (Call V)) : Option V :=
  ((calls.filter fun c => decide (p c)).getLast?).map Call.value

end B3d.Config
