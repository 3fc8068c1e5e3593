import Verif.Model.Output
import Verif.Model.Rounded

/-!
# The impulse response in rounded arithmetic

`impulse_response` (`building3d/sim/rays/impulse_response.py`) once more, with every arithmetic operation of the code replaced by
a rounded one.  Overflow and underflow are left out.
-/

namespace B3d.OutputRounded

open Output

/-- `a` is the sum of the numbers in a list (`hit_inst.sum(axis=0)`, `impulse_response.py` L33), added in some order and with some
grouping, with one rounding for each addition.  NumPy adds pairwise or one after the other, depending on the layout in memory; any
way of adding the numbers is allowed here.  (NumPy may start with zero; adding zero to a stored number does not change it, so this is
left out.) -/
inductive Summed (A : Rounded.Arith) : List ℝ → ℝ → Prop
  | nil : Summed A [] 0
  | one (x : ℝ) : Summed A [x] x
  | add {l l' : List ℝ} {a b : ℝ} : l ≠ [] → l' ≠ [] → Summed A l a → Summed A l' b → Summed A (l ++ l') (A.add a b)
  | perm {l l' : List ℝ} {a : ℝ} : l.Perm l' → Summed A l a → Summed A l' a

variable (A : Rounded.Arith) (sum : List ℝ → ℝ)

/-- `np.linspace(0, stop, num)` (NumPy), as called in `impulse_response.py` L38: `delta = stop - start`, `step = delta / (num - 1)`,
the values `k * step + start`, and `stop` for the last one.  (NumPy has another branch for a step that is zero, which does not occur
with a positive time step.) -/
noncomputable def linspace (stop : ℝ) (num : Nat) : List ℝ :=
  (List.range num).map fun (k : Nat) =>
    if num = 1 then 0
    else if k + 1 = num then stop
    else A.add (A.mul (k : ℝ) (A.div (A.sub stop 0) ((num : ℝ) - 1))) 0

open Classical in
/-- `impulse_response`, `impulse_response.py` L8-45, for a buffer of floats with `width` absorbers; `sum` adds up a column. -/
noncomputable def impulseResponse (rows : List (List ℝ)) (width : Nat) (timeStep : ℝ) : Except PyErr (Response ℝ) :=
  match maxOf ((List.range width).map fun an => sum (rows.map fun r => r.getD an 0)) with
  | .error e => .error e
  | .ok s =>
    if 0 < s then
      .ok ⟨linspace A (A.mul (rows.length : ℝ) timeStep) rows.length,
        (List.range width).map fun an => rows.map fun r => A.div (r.getD an 0) s⟩
    else .error .assertionError

end B3d.OutputRounded
