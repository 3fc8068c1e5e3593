import Verif.Model.Sim

/-! # Specification vocabulary for the ray simulation -/

namespace B3d.Sim

variable {K : Type} [Field K] [LinearOrder K]

/-- `q` belongs to a triangle spanned by vertices of the polygon. -/
def PointOf (pts : List (Vec3 K)) (q : Vec3 K) : Prop :=
  ∃ p1 ∈ pts, ∃ p2 ∈ pts, ∃ p3 ∈ pts, ∃ a b c : K, 0 ≤ a ∧ 0 ≤ b ∧ 0 ≤ c ∧ a + b + c = 1 ∧
    q = a • p1 + b • p2 + c • p3

/-- All points lie in the box. -/
def Within (lo hi : Vec3 K) (pts : List (Vec3 K)) : Prop :=
  ∀ v ∈ pts, lo.x ≤ v.x ∧ v.x ≤ hi.x ∧ lo.y ≤ v.y ∧ v.y ≤ hi.y ∧ lo.z ≤ v.z ∧ v.z ≤ hi.z

/-- `p` and `q` differ by at most `d` on every axis. -/
def Near (d : K) (p q : Vec3 K) : Prop := |q.x - p.x| ≤ d ∧ |q.y - p.y| ≤ d ∧ |q.z - p.z| ≤ d

/-- Iterating a set: its elements, each once, in some order. -/
def IteratesSet (setIter : List Nat → List Nat) : Prop :=
  ∀ l, (setIter l).Nodup ∧ ∀ x, x ∈ setIter l ↔ x ∈ l

/-! ### Reflections -/

/-- The mirror image of a velocity at a plane with unit normal `n`. -/
def mirror (n v : Vec3 K) : Vec3 K := v - (2 * Vec3.dot n v) • n

/-- Velocity after bouncing off the polygons in the list, one after another. -/
def bounced (geo : Geo K) (v : Vec3 K) (ks : List Nat) : Vec3 K :=
  ks.foldl (fun v k => mirror (geo.vn k) v) v

/-- The polygon is opaque and the ray hits it. -/
def OpaqueHit (geo : Geo K) (trans : List Int) (pos dir : Vec3 K) (pn : Nat) : Prop :=
  (pn : Int) ∉ trans ∧ geo.hit pos dir pn = true

/-- `k` is a nearest polygon among the opaque ones of `near` in direction `v`. -/
def IsNearest (geo : Geo K) (trans : List Int) (near : List Nat) (pos v : Vec3 K) (k : Nat) : Prop :=
  k ∈ near ∧ OpaqueHit geo trans pos v k ∧
    ∀ k' ∈ near, OpaqueHit geo trans pos v k' → geo.dist pos k ≤ geo.dist pos k'

/-- The polygons the ray at `pos` with velocity `v` bounces off: each is a nearest opaque polygon in
the direction of the velocity at that moment, closer than the reflection distance. -/
def Chain (geo : Geo K) (trans : List Int) (near : List Nat) (reflDist : K) (pos : Vec3 K) :
    Vec3 K → List Nat → Prop
  | _, [] => True
  | v, k :: ks => IsNearest geo trans near pos v k ∧ geo.dist pos k < reflDist ∧
      Chain geo trans near reflDist pos (mirror (geo.vn k) v) ks

/-! ### Absorbers -/

/-- Number of the first absorber that contains the position. -/
def firstAbsorber (radius : K) (absorbers : List (Vec3 K)) (p : Vec3 K) : Option Nat :=
  absorbers.findIdx? fun a => Vec3.normSq (p - a) < radius ^ 2

/-! ### Files -/

/-- Content of the files of a step after a sequence of writes: that of the last write, if any. -/
def fileOf {α : Type} (writes : List (Nat × α)) (step : Nat) : Option α :=
  writes.foldl (fun f w => if w.1 = step then some w.2 else f) none

/-- Between two rows: every ray that has energy in the second one has moved, or its position does not
hit any polygon when tested with the zero direction. -/
def MovedOrFree (geo : Geo K) (eps : K) (prev next : Row K) : Prop :=
  ∀ (k : Nat) (p q : Vec3 K) (e : K), prev.pos[k]? = some p → next.pos[k]? = some q →
    next.energy[k]? = some e → eps < e → q ≠ p ∨ ∀ pn, geo.hit q 0 pn = false

end B3d.Sim
