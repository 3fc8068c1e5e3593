import Verif.Model.Output

/-! # Specification vocabulary for simulation results -/

namespace B3d.Output

variable {α : Type}

/-- A buffer of full rows. -/
def Rect (rows : List (List α)) (width : Nat) : Prop := ∀ r ∈ rows, r.length = width

/-- Value at a time for a ray. -/
def at? (pb : List (List α)) (t ray : Nat) : Option α := (pb[t]?).bind fun r => r[ray]?

/-- Polylines in PyVista's encoding: for each line the number of its points, then their indices. -/
def encode (lines : List (List Nat)) : List Nat := lines.flatMap fun l => l.length :: l

/-- `lines` are one polyline for each ray: that of ray `r` has one point for every time, in order, and the
point at time `t` is the position of the ray at that time.  No point is used twice. -/
def AreTrails (pb : List (List α)) (numRays : Nat) (verts : List α) (lines : List (List Nat)) : Prop :=
  lines.length = numRays ∧
  verts.length = numRays * pb.length ∧
  lines.flatten.Nodup ∧
  ∀ r, r < numRays → ∃ l, lines[r]? = some l ∧ l.length = pb.length ∧
    ∀ t, t < pb.length → ∃ k, l[t]? = some k ∧ k < verts.length ∧ verts[k]? = at? pb t r

end B3d.Output
