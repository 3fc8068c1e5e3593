import Verif.Model.ArrayFormat
import Verif.Proofs.Mesh

/-! # Lemmas about the array format -/

set_option linter.unusedSectionVars false

namespace B3d.ArrayFormat

open B3d.Triangles (Tri)
open B3d.Tree
open B3d.Mesh (setRow shiftTri shifted polyMesh shifted_length)

variable {P : Type}

/-! ### Closed forms -/

/-- `counts[0]` times `k`, `counts[1]` times `k + 1`, and so on. -/
def own : Nat → List Nat → List Nat
  | _, [] => []
  | k, n :: r => List.replicate n k ++ own (k + 1) r

theorem own_append (a b : List Nat) : ∀ k, own k (a ++ b) = own k a ++ own (k + a.length) b := by
  induction a with
  | nil => intro k; rfl
  | cons n a ih =>
    intro k
    simp only [List.cons_append, own, ih, List.length_cons, List.append_assoc]
    congr 3
    omega

theorem own_length (a : List Nat) : ∀ k, (own k a).length = a.sum := by
  induction a with
  | nil => intro k; rfl
  | cons n a ih => intro k; simp [own, ih]

theorem shifted_append (a b : List (List P × List Tri)) :
    ∀ k, shifted k (a ++ b) = shifted k a ++ shifted (k + (a.map fun m => m.1.length).sum) b := by
  induction a with
  | nil => intro k; simp [shifted]
  | cons m a ih =>
    intro k
    obtain ⟨pts, tri⟩ := m
    simp [shifted, ih, Nat.add_assoc]

/-- The arrays without the counters. -/
structure Arr (P : Type) where
  points : List P
  faces : List Tri
  polygons : List Nat
  walls : List Nat
  solids : List Nat
  zones : List Nat

/-- State of the loops: arrays filled up to `D`, zeros after. -/
def stOf (zero : P) (D : Arr P) (wn sn zn r1 r2 r3 r4 r5 : Nat) : AState P :=
  ⟨D.points ++ List.replicate r1 zero, D.faces ++ List.replicate r2 (0, 0, 0),
    D.polygons ++ List.replicate r2 0, D.walls ++ List.replicate r3 0,
    D.solids ++ List.replicate r4 0, D.zones ++ List.replicate r5 0,
    D.walls.length, wn, sn, zn, D.points.length, D.faces.length⟩

def polysPts (ps : List (Poly P)) : List P := ps.flatMap Poly.pts
def numTris (ps : List (Poly P)) : Nat := (ps.map fun p => p.tri.length).sum
def wallsPolys (ws : List (Wall P)) : List (Poly P) := ws.flatMap Wall.polygons
def solidsWalls (ss : List (Solid P)) : List (Wall P) := ss.flatMap Solid.walls
def zonesSolids (zs : List (Zone P)) : List (Solid P) := zs.flatMap Zone.solids

/-- Arrays after some polygons of wall number `wn`. -/
def Arr.addPolys (D : Arr P) (wn : Nat) (ps : List (Poly P)) : Arr P :=
  { D with
    points := D.points ++ polysPts ps
    faces := D.faces ++ shifted D.points.length (ps.map polyMesh)
    polygons := D.polygons ++ own D.walls.length (ps.map fun p => p.tri.length)
    walls := D.walls ++ List.replicate ps.length wn }

/-- Arrays after some walls of solid number `sn`. -/
def Arr.addWalls (D : Arr P) (sn : Nat) (ws : List (Wall P)) : Arr P :=
  { D with
    points := D.points ++ polysPts (wallsPolys ws)
    faces := D.faces ++ shifted D.points.length ((wallsPolys ws).map polyMesh)
    polygons := D.polygons ++ own D.walls.length ((wallsPolys ws).map fun p => p.tri.length)
    walls := D.walls ++ own D.solids.length (ws.map fun w => w.polygons.length)
    solids := D.solids ++ List.replicate ws.length sn }

/-- Arrays after some solids of zone number `zn`. -/
def Arr.addSolids (D : Arr P) (zn : Nat) (ss : List (Solid P)) : Arr P :=
  { points := D.points ++ polysPts (wallsPolys (solidsWalls ss))
    faces := D.faces ++ shifted D.points.length ((wallsPolys (solidsWalls ss)).map polyMesh)
    polygons := D.polygons ++
      own D.walls.length ((wallsPolys (solidsWalls ss)).map fun p => p.tri.length)
    walls := D.walls ++ own D.solids.length ((solidsWalls ss).map fun w => w.polygons.length)
    solids := D.solids ++ own D.zones.length (ss.map fun s => s.walls.length)
    zones := D.zones ++ List.replicate ss.length zn }

/-- Arrays after some zones. -/
def Arr.addZones (D : Arr P) (zn : Nat) (zs : List (Zone P)) : Arr P :=
  { points := D.points ++ polysPts (wallsPolys (solidsWalls (zonesSolids zs)))
    faces := D.faces ++
      shifted D.points.length ((wallsPolys (solidsWalls (zonesSolids zs))).map polyMesh)
    polygons := D.polygons ++ own D.walls.length
      ((wallsPolys (solidsWalls (zonesSolids zs))).map fun p => p.tri.length)
    walls := D.walls ++
      own D.solids.length ((solidsWalls (zonesSolids zs)).map fun w => w.polygons.length)
    solids := D.solids ++ own D.zones.length ((zonesSolids zs).map fun s => s.walls.length)
    zones := D.zones ++ own zn (zs.map fun z => z.solids.length) }

/-- Polygons numbered from `k`. -/
def numPolys : Nat → List (Poly P) → List (Poly P)
  | _, [] => []
  | k, p :: ps => { p with num := some k } :: numPolys (k + 1) ps

/-- Walls numbered from `k`, their polygons from `pk`. -/
def numWalls : Nat → Nat → List (Wall P) → List (Wall P)
  | _, _, [] => []
  | k, pk, w :: ws =>
    { w with num := some k, polygons := numPolys pk w.polygons } ::
      numWalls (k + 1) (pk + w.polygons.length) ws

/-- Solids numbered from `k`, walls from `wk`, polygons from `pk`. -/
def numSolids : Nat → Nat → Nat → List (Solid P) → List (Solid P)
  | _, _, _, [] => []
  | k, wk, pk, s :: ss =>
    { s with num := some k, walls := numWalls wk pk s.walls } ::
      numSolids (k + 1) (wk + s.walls.length) (pk + (wallsPolys s.walls).length) ss

/-- Zones numbered from `k`, solids from `sk`, walls from `wk`, polygons from `pk`. -/
def numZones : Nat → Nat → Nat → Nat → List (Zone P) → List (Zone P)
  | _, _, _, _, [] => []
  | k, sk, wk, pk, z :: zs =>
    { z with num := some k, solids := numSolids sk wk pk z.solids } ::
      numZones (k + 1) (sk + z.solids.length) (wk + (solidsWalls z.solids).length)
        (pk + (wallsPolys (solidsWalls z.solids)).length) zs

/-! ### The loops -/

theorem setRow_zero {α : Type} (A : List α) (n : Nat) (z v : α) :
    setRow (A ++ List.replicate (n + 1) z) A.length v = .ok (A ++ [v] ++ List.replicate n z) := by
  have := Mesh.setRow_append A (List.replicate n z) z v
  rw [List.replicate_succ, this]
  simp

theorem setSlice_zero {α : Type} (A rows : List α) (n : Nat) (z : α) :
    setSlice (A ++ List.replicate (rows.length + n) z) A.length rows =
      .ok (A ++ rows ++ List.replicate n z) := by
  unfold setSlice
  rw [if_pos (by simp)]
  have e : A.length + rows.length = (A ++ List.replicate rows.length z).length := by simp
  rw [List.take_left', List.replicate_add, ← List.append_assoc, e, List.drop_left']
  · rfl
  · rfl

theorem setRange_zero {α : Type} (v z : α) (n m : Nat) : ∀ (A : List α),
    setRange v A.length n (A ++ List.replicate (n + m) z) =
      .ok (A ++ List.replicate n v ++ List.replicate m z) := by
  induction n with
  | zero => intro A; simp [setRange]
  | succ n ih =>
    intro A
    have e : n + 1 + m = (n + m) + 1 := by omega
    rw [setRange, e, setRow_zero]
    have := ih (A ++ [v])
    rw [List.length_append] at this
    simp only [List.length_singleton] at this
    simp only []
    rw [this, List.replicate_succ]
    simp

theorem putPoly_ok (zero : P) (D : Arr P) (p : Poly P) (wn sn zn r1 r2 r3 r4 r5 : Nat)
    (hD : D.polygons.length = D.faces.length) :
    putPoly p (stOf zero D wn sn zn (p.pts.length + r1) (p.tri.length + r2) (r3 + 1) r4 r5) =
      .ok ({ p with num := some D.walls.length },
        stOf zero (D.addPolys wn [p]) wn sn zn r1 r2 r3 r4 r5) := by
  have h1 := setRow_zero D.walls r3 0 wn
  have h2 := setSlice_zero D.points p.pts r1 zero
  have h3 := setSlice_zero D.faces (p.tri.map (shiftTri D.points.length)) r2 (0, 0, 0)
  have h4 := setRange_zero D.walls.length 0 p.tri.length r2 D.polygons
  rw [List.length_map] at h3
  rw [hD] at h4
  unfold putPoly stOf
  simp only [h1, h2, h3, h4]
  simp [Arr.addPolys, polysPts, shifted, own, polyMesh]

theorem Arr.addPolys_cons (D : Arr P) (wn : Nat) (p : Poly P) (ps : List (Poly P)) :
    (D.addPolys wn [p]).addPolys wn ps = D.addPolys wn (p :: ps) := by
  simp [Arr.addPolys, polysPts, shifted, own, polyMesh, List.replicate_succ]

theorem forEach_putPoly (zero : P) (wn sn zn r1 r2 r3 r4 r5 : Nat) (ps : List (Poly P)) :
    ∀ D : Arr P, D.polygons.length = D.faces.length →
    forEach putPoly ps (stOf zero D wn sn zn ((polysPts ps).length + r1) (numTris ps + r2)
        (ps.length + r3) r4 r5) =
      .ok (numPolys D.walls.length ps,
        stOf zero (D.addPolys wn ps) wn sn zn r1 r2 r3 r4 r5) := by
  induction ps with
  | nil => intro D _; simp [forEach, numPolys, polysPts, numTris, Arr.addPolys, shifted, own]
  | cons p ps ih =>
    intro D hD
    have e1 : (polysPts (p :: ps)).length + r1 = p.pts.length + ((polysPts ps).length + r1) := by
      simp [polysPts]; omega
    have e2 : numTris (p :: ps) + r2 = p.tri.length + (numTris ps + r2) := by
      simp [numTris]; omega
    have e3 : (p :: ps).length + r3 = (ps.length + r3) + 1 := by simp; omega
    rw [e1, e2, e3, forEach, putPoly_ok zero D p _ _ _ _ _ _ _ _ hD]
    simp only []
    rw [ih _ (by simp [Arr.addPolys, shifted, own, hD, polyMesh]), Arr.addPolys_cons]
    simp [numPolys, Arr.addPolys]

theorem Arr.addPolys_inv (D : Arr P) (wn : Nat) (ps : List (Poly P))
    (hD : D.polygons.length = D.faces.length) :
    (D.addPolys wn ps).polygons.length = (D.addPolys wn ps).faces.length := by
  simp [Arr.addPolys, own_length, shifted_length, hD, polyMesh, Function.comp_def]

theorem Arr.addWalls_inv (D : Arr P) (sn : Nat) (ws : List (Wall P))
    (hD : D.polygons.length = D.faces.length) :
    (D.addWalls sn ws).polygons.length = (D.addWalls sn ws).faces.length := by
  simp [Arr.addWalls, own_length, shifted_length, hD, polyMesh, Function.comp_def]

theorem Arr.addSolids_inv (D : Arr P) (zn : Nat) (ss : List (Solid P))
    (hD : D.polygons.length = D.faces.length) :
    (D.addSolids zn ss).polygons.length = (D.addSolids zn ss).faces.length := by
  simp [Arr.addSolids, own_length, shifted_length, hD, polyMesh, Function.comp_def]

theorem putWall_ok (zero : P) (D : Arr P) (w : Wall P) (sn zn r1 r2 r3 r4 r5 : Nat)
    (hD : D.polygons.length = D.faces.length) :
    putWall w (stOf zero D D.solids.length sn zn ((polysPts w.polygons).length + r1)
        (numTris w.polygons + r2) (w.polygons.length + r3) (r4 + 1) r5) =
      .ok ({ w with num := some D.solids.length,
                    polygons := numPolys D.walls.length w.polygons },
        stOf zero (D.addWalls sn [w]) (D.addWalls sn [w]).solids.length sn zn r1 r2 r3 r4 r5) := by
  have h1 := setRow_zero D.solids r4 0 sn
  have h2 := forEach_putPoly zero D.solids.length sn zn r1 r2 r3 r4 r5 w.polygons
    { D with solids := D.solids ++ [sn] } hD
  unfold putWall
  unfold stOf at h2 ⊢
  simp only [h1]
  simp only [] at h2
  rw [h2]
  simp [Arr.addWalls, Arr.addPolys, wallsPolys, own]

theorem Arr.addWalls_cons (D : Arr P) (sn : Nat) (w : Wall P) (ws : List (Wall P)) :
    (D.addWalls sn [w]).addWalls sn ws = D.addWalls sn (w :: ws) := by
  simp [Arr.addWalls, wallsPolys, polysPts, shifted_append, own_append, own, polyMesh,
    List.replicate_succ, List.length_flatMap, Function.comp_def]

theorem forEach_putWall (zero : P) (sn zn r1 r2 r3 r4 r5 : Nat) (ws : List (Wall P)) :
    ∀ D : Arr P, D.polygons.length = D.faces.length →
    forEach putWall ws (stOf zero D D.solids.length sn zn ((polysPts (wallsPolys ws)).length + r1)
        (numTris (wallsPolys ws) + r2) ((wallsPolys ws).length + r3) (ws.length + r4) r5) =
      .ok (numWalls D.solids.length D.walls.length ws,
        stOf zero (D.addWalls sn ws) (D.addWalls sn ws).solids.length sn zn r1 r2 r3 r4 r5) := by
  induction ws with
  | nil =>
    intro D _
    simp [forEach, numWalls, polysPts, wallsPolys, numTris, Arr.addWalls, shifted, own]
  | cons w ws ih =>
    intro D hD
    have e1 : (polysPts (wallsPolys (w :: ws))).length + r1 =
        (polysPts w.polygons).length + ((polysPts (wallsPolys ws)).length + r1) := by
      simp [polysPts, wallsPolys]; omega
    have e2 : numTris (wallsPolys (w :: ws)) + r2 =
        numTris w.polygons + (numTris (wallsPolys ws) + r2) := by
      simp [numTris, wallsPolys]; omega
    have e3 : (wallsPolys (w :: ws)).length + r3 =
        w.polygons.length + ((wallsPolys ws).length + r3) := by
      simp [wallsPolys]; omega
    have e4 : (w :: ws).length + r4 = (ws.length + r4) + 1 := by simp; omega
    rw [e1, e2, e3, e4, forEach, putWall_ok zero D w _ _ _ _ _ _ _ hD]
    simp only []
    rw [ih _ (Arr.addWalls_inv D sn [w] hD), Arr.addWalls_cons]
    simp [numWalls, Arr.addWalls, own]

theorem putSolid_ok (zero : P) (D : Arr P) (s : Solid P) (zn r1 r2 r3 r4 r5 : Nat)
    (hD : D.polygons.length = D.faces.length) :
    putSolid s (stOf zero D D.solids.length D.zones.length zn
        ((polysPts (wallsPolys s.walls)).length + r1) (numTris (wallsPolys s.walls) + r2)
        ((wallsPolys s.walls).length + r3) (s.walls.length + r4) (r5 + 1)) =
      .ok ({ s with num := some D.zones.length,
                    walls := numWalls D.solids.length D.walls.length s.walls },
        stOf zero (D.addSolids zn [s]) (D.addSolids zn [s]).solids.length
          (D.addSolids zn [s]).zones.length zn r1 r2 r3 r4 r5) := by
  have h1 := setRow_zero D.zones r5 0 zn
  have h2 := forEach_putWall zero D.zones.length zn r1 r2 r3 r4 r5 s.walls
    { D with zones := D.zones ++ [zn] } hD
  unfold putSolid
  unfold stOf at h2 ⊢
  simp only [h1]
  simp only [] at h2
  rw [h2]
  simp [Arr.addSolids, Arr.addWalls, solidsWalls, own]

theorem Arr.addSolids_cons (D : Arr P) (zn : Nat) (s : Solid P) (ss : List (Solid P)) :
    (D.addSolids zn [s]).addSolids zn ss = D.addSolids zn (s :: ss) := by
  simp [Arr.addSolids, wallsPolys, solidsWalls, polysPts, shifted_append, own_append, own, polyMesh,
    List.replicate_succ, List.length_flatMap, Function.comp_def, List.map_flatMap, own_length]

theorem forEach_putSolid (zero : P) (zn r1 r2 r3 r4 r5 : Nat) (ss : List (Solid P)) :
    ∀ D : Arr P, D.polygons.length = D.faces.length →
    forEach putSolid ss (stOf zero D D.solids.length D.zones.length zn
        ((polysPts (wallsPolys (solidsWalls ss))).length + r1)
        (numTris (wallsPolys (solidsWalls ss)) + r2) ((wallsPolys (solidsWalls ss)).length + r3)
        ((solidsWalls ss).length + r4) (ss.length + r5)) =
      .ok (numSolids D.zones.length D.solids.length D.walls.length ss,
        stOf zero (D.addSolids zn ss) (D.addSolids zn ss).solids.length
          (D.addSolids zn ss).zones.length zn r1 r2 r3 r4 r5) := by
  induction ss with
  | nil =>
    intro D _
    simp [forEach, numSolids, polysPts, wallsPolys, solidsWalls, numTris, Arr.addSolids, shifted,
      own]
  | cons s ss ih =>
    intro D hD
    have e1 : (polysPts (wallsPolys (solidsWalls (s :: ss)))).length + r1 =
        (polysPts (wallsPolys s.walls)).length +
          ((polysPts (wallsPolys (solidsWalls ss))).length + r1) := by
      simp [polysPts, wallsPolys, solidsWalls]; omega
    have e2 : numTris (wallsPolys (solidsWalls (s :: ss))) + r2 =
        numTris (wallsPolys s.walls) + (numTris (wallsPolys (solidsWalls ss)) + r2) := by
      simp [numTris, wallsPolys, solidsWalls]; omega
    have e3 : (wallsPolys (solidsWalls (s :: ss))).length + r3 =
        (wallsPolys s.walls).length + ((wallsPolys (solidsWalls ss)).length + r3) := by
      simp [wallsPolys, solidsWalls]; omega
    have e4 : (solidsWalls (s :: ss)).length + r4 =
        s.walls.length + ((solidsWalls ss).length + r4) := by
      simp [solidsWalls]; omega
    have e5 : (s :: ss).length + r5 = (ss.length + r5) + 1 := by simp; omega
    rw [e1, e2, e3, e4, e5, forEach, putSolid_ok zero D s _ _ _ _ _ _ hD]
    simp only []
    rw [ih _ (Arr.addSolids_inv D zn [s] hD), Arr.addSolids_cons]
    simp [numSolids, Arr.addSolids, own, solidsWalls, own_length, wallsPolys, List.length_flatMap]

theorem putZone_ok (zero : P) (D : Arr P) (z : Zone P) (zn r1 r2 r3 r4 r5 : Nat)
    (hD : D.polygons.length = D.faces.length) :
    putZone z (stOf zero D D.solids.length D.zones.length zn
        ((polysPts (wallsPolys (solidsWalls z.solids))).length + r1)
        (numTris (wallsPolys (solidsWalls z.solids)) + r2)
        ((wallsPolys (solidsWalls z.solids)).length + r3)
        ((solidsWalls z.solids).length + r4) (z.solids.length + r5)) =
      .ok ({ z with num := some zn,
                    solids := numSolids D.zones.length D.solids.length D.walls.length z.solids },
        stOf zero (D.addZones zn [z]) (D.addZones zn [z]).solids.length
          (D.addZones zn [z]).zones.length (zn + 1) r1 r2 r3 r4 r5) := by
  have h2 := forEach_putSolid zero zn r1 r2 r3 r4 r5 z.solids D hD
  unfold putZone
  rw [h2]
  simp [stOf, Arr.addSolids, Arr.addZones, zonesSolids, own]

theorem Arr.addZones_cons (D : Arr P) (zn : Nat) (z : Zone P) (zs : List (Zone P)) :
    (D.addZones zn [z]).addZones (zn + 1) zs = D.addZones zn (z :: zs) := by
  simp [Arr.addZones, wallsPolys, solidsWalls, zonesSolids, polysPts, shifted_append, own_append,
    own, polyMesh, List.length_flatMap, Function.comp_def, List.map_flatMap, own_length]

theorem forEach_putZone (zero : P) (r1 r2 r3 r4 r5 : Nat) (zs : List (Zone P)) :
    ∀ (D : Arr P) (zn : Nat), D.polygons.length = D.faces.length →
    forEach putZone zs (stOf zero D D.solids.length D.zones.length zn
        ((polysPts (wallsPolys (solidsWalls (zonesSolids zs)))).length + r1)
        (numTris (wallsPolys (solidsWalls (zonesSolids zs))) + r2)
        ((wallsPolys (solidsWalls (zonesSolids zs))).length + r3)
        ((solidsWalls (zonesSolids zs)).length + r4) ((zonesSolids zs).length + r5)) =
      .ok (numZones zn D.zones.length D.solids.length D.walls.length zs,
        stOf zero (D.addZones zn zs) (D.addZones zn zs).solids.length
          (D.addZones zn zs).zones.length (zn + zs.length) r1 r2 r3 r4 r5) := by
  induction zs with
  | nil =>
    intro D _ _
    simp [forEach, numZones, polysPts, wallsPolys, solidsWalls, zonesSolids, numTris, Arr.addZones,
      shifted, own]
  | cons z zs ih =>
    intro D zn hD
    have e1 : (polysPts (wallsPolys (solidsWalls (zonesSolids (z :: zs))))).length + r1 =
        (polysPts (wallsPolys (solidsWalls z.solids))).length +
          ((polysPts (wallsPolys (solidsWalls (zonesSolids zs)))).length + r1) := by
      simp [polysPts, wallsPolys, solidsWalls, zonesSolids]; omega
    have e2 : numTris (wallsPolys (solidsWalls (zonesSolids (z :: zs)))) + r2 =
        numTris (wallsPolys (solidsWalls z.solids)) +
          (numTris (wallsPolys (solidsWalls (zonesSolids zs))) + r2) := by
      simp [numTris, wallsPolys, solidsWalls, zonesSolids]; omega
    have e3 : (wallsPolys (solidsWalls (zonesSolids (z :: zs)))).length + r3 =
        (wallsPolys (solidsWalls z.solids)).length +
          ((wallsPolys (solidsWalls (zonesSolids zs))).length + r3) := by
      simp [wallsPolys, solidsWalls, zonesSolids]; omega
    have e4 : (solidsWalls (zonesSolids (z :: zs))).length + r4 =
        (solidsWalls z.solids).length + ((solidsWalls (zonesSolids zs)).length + r4) := by
      simp [solidsWalls, zonesSolids]; omega
    have e5 : (zonesSolids (z :: zs)).length + r5 =
        z.solids.length + ((zonesSolids zs).length + r5) := by
      simp [zonesSolids]; omega
    have e6 : zn + (z :: zs).length = zn + 1 + zs.length := by simp; omega
    rw [e1, e2, e3, e4, e5, e6, forEach, putZone_ok zero D z _ _ _ _ _ _ hD]
    simp only []
    have hinv : (D.addZones zn [z]).polygons.length = (D.addZones zn [z]).faces.length := by
      simp [Arr.addZones, own_length, shifted_length, hD, polyMesh, Function.comp_def]
    rw [ih _ (zn + 1) hinv, Arr.addZones_cons]
    simp [numZones, Arr.addZones, own, solidsWalls, zonesSolids, own_length, wallsPolys,
      List.length_flatMap]

/-! ### Counting -/

theorem countPolys (ps : List (Poly P)) : ∀ a b c d e f : Nat,
    ps.foldl (fun (c : Nat × Nat × Nat × Nat × Nat × Nat) p =>
      (c.1, c.2.1, c.2.2.1, c.2.2.2.1 + 1, c.2.2.2.2.1 + p.tri.length,
        c.2.2.2.2.2 + p.pts.length)) (a, b, c, d, e, f) =
      (a, b, c, d + ps.length, e + numTris ps, f + (polysPts ps).length) := by
  induction ps with
  | nil => intro a b c d e f; simp [numTris, polysPts]
  | cons p ps ih =>
    intro a b c d e f
    rw [List.foldl_cons, ih]
    simp [numTris, polysPts]
    omega

theorem numTris_append (a b : List (Poly P)) : numTris (a ++ b) = numTris a + numTris b := by
  simp [numTris]

theorem polysPts_append (a b : List (Poly P)) : polysPts (a ++ b) = polysPts a ++ polysPts b := by
  simp [polysPts]

theorem countWalls (ws : List (Wall P)) : ∀ a b c d e f : Nat,
    ws.foldl (fun c w =>
      w.polygons.foldl (fun (c : Nat × Nat × Nat × Nat × Nat × Nat) p =>
          (c.1, c.2.1, c.2.2.1, c.2.2.2.1 + 1, c.2.2.2.2.1 + p.tri.length,
            c.2.2.2.2.2 + p.pts.length))
        (c.1, c.2.1, c.2.2.1 + 1, c.2.2.2)) (a, b, c, d, e, f) =
      (a, b, c + ws.length, d + (wallsPolys ws).length, e + numTris (wallsPolys ws),
        f + (polysPts (wallsPolys ws)).length) := by
  induction ws with
  | nil => intro a b c d e f; simp [numTris, polysPts, wallsPolys]
  | cons w ws ih =>
    intro a b c d e f
    have h : wallsPolys (w :: ws) = w.polygons ++ wallsPolys ws := by simp [wallsPolys]
    rw [List.foldl_cons, countPolys, ih, h, numTris_append, polysPts_append]
    simp only [List.length_cons, List.length_append, Prod.mk.injEq, true_and]
    omega

theorem countSolids (ss : List (Solid P)) : ∀ a b c d e f : Nat,
    ss.foldl (fun c s =>
      s.walls.foldl (fun c w =>
        w.polygons.foldl (fun (c : Nat × Nat × Nat × Nat × Nat × Nat) p =>
            (c.1, c.2.1, c.2.2.1, c.2.2.2.1 + 1, c.2.2.2.2.1 + p.tri.length,
              c.2.2.2.2.2 + p.pts.length))
          (c.1, c.2.1, c.2.2.1 + 1, c.2.2.2))
        (c.1, c.2.1 + 1, c.2.2)) (a, b, c, d, e, f) =
      (a, b + ss.length, c + (solidsWalls ss).length, d + (wallsPolys (solidsWalls ss)).length,
        e + numTris (wallsPolys (solidsWalls ss)),
        f + (polysPts (wallsPolys (solidsWalls ss))).length) := by
  induction ss with
  | nil => intro a b c d e f; simp [numTris, polysPts, wallsPolys, solidsWalls]
  | cons s ss ih =>
    intro a b c d e f
    have h : solidsWalls (s :: ss) = s.walls ++ solidsWalls ss := by simp [solidsWalls]
    have h' : ∀ x y : List (Wall P), wallsPolys (x ++ y) = wallsPolys x ++ wallsPolys y := by
      intro x y; simp [wallsPolys]
    rw [List.foldl_cons, countWalls, ih, h, h', numTris_append, polysPts_append]
    simp only [List.length_cons, List.length_append, Prod.mk.injEq, true_and]
    omega

theorem countObjects_eq (b : Bldg P) : countObjects b =
    (b.zones.length, (zonesSolids b.zones).length, (solidsWalls (zonesSolids b.zones)).length,
      (wallsPolys (solidsWalls (zonesSolids b.zones))).length,
      numTris (wallsPolys (solidsWalls (zonesSolids b.zones))),
      (polysPts (wallsPolys (solidsWalls (zonesSolids b.zones)))).length) := by
  unfold countObjects
  suffices h : ∀ (zs : List (Zone P)) (a b c d e f : Nat),
      zs.foldl (fun c z =>
        z.solids.foldl (fun c s =>
          s.walls.foldl (fun c w =>
            w.polygons.foldl (fun (c : Nat × Nat × Nat × Nat × Nat × Nat) p =>
                (c.1, c.2.1, c.2.2.1, c.2.2.2.1 + 1, c.2.2.2.2.1 + p.tri.length,
                  c.2.2.2.2.2 + p.pts.length))
              (c.1, c.2.1, c.2.2.1 + 1, c.2.2.2))
            (c.1, c.2.1 + 1, c.2.2))
          (c.1 + 1, c.2)) (a, b, c, d, e, f) =
        (a + zs.length, b + (zonesSolids zs).length, c + (solidsWalls (zonesSolids zs)).length,
          d + (wallsPolys (solidsWalls (zonesSolids zs))).length,
          e + numTris (wallsPolys (solidsWalls (zonesSolids zs))),
          f + (polysPts (wallsPolys (solidsWalls (zonesSolids zs)))).length) by
    rw [h]; simp
  intro zs
  induction zs with
  | nil => intro a b c d e f; simp [numTris, polysPts, wallsPolys, solidsWalls, zonesSolids]
  | cons z zs ih =>
    intro a b c d e f
    have h : zonesSolids (z :: zs) = z.solids ++ zonesSolids zs := by simp [zonesSolids]
    have h' : ∀ x y : List (Wall P), wallsPolys (x ++ y) = wallsPolys x ++ wallsPolys y := by
      intro x y; simp [wallsPolys]
    have h'' : ∀ x y : List (Solid P), solidsWalls (x ++ y) = solidsWalls x ++ solidsWalls y := by
      intro x y; simp [solidsWalls]
    rw [List.foldl_cons, countSolids, ih, h, h'', h', numTris_append, polysPts_append]
    simp only [List.length_cons, List.length_append, Prod.mk.injEq]
    omega

/-- Empty arrays. -/
def Arr.empty : Arr P := ⟨[], [], [], [], [], []⟩

/-- The result of `to_array_format` in closed form. -/
theorem toArrayFormat_eq (zero : P) (b : Bldg P) :
    ∃ st, toArrayFormat zero b = .ok ({ b with zones := numZones 0 0 0 0 b.zones }, st) ∧
      st.points = polysPts (wallsPolys (solidsWalls (zonesSolids b.zones))) ∧
      st.faces = shifted 0 ((wallsPolys (solidsWalls (zonesSolids b.zones))).map polyMesh) ∧
      st.polygons = own 0
        ((wallsPolys (solidsWalls (zonesSolids b.zones))).map fun p => p.tri.length) ∧
      st.walls = own 0 ((solidsWalls (zonesSolids b.zones)).map fun w => w.polygons.length) ∧
      st.solids = own 0 ((zonesSolids b.zones).map fun s => s.walls.length) ∧
      st.zones = own 0 (b.zones.map fun z => z.solids.length) := by
  have h := forEach_putZone zero 0 0 0 0 0 b.zones Arr.empty 0 rfl
  unfold toArrayFormat
  rw [countObjects_eq]
  simp only []
  simp only [Nat.add_zero] at h
  have e : stOf zero (Arr.empty : Arr P) (Arr.empty : Arr P).solids.length
        (Arr.empty : Arr P).zones.length 0
        (polysPts (wallsPolys (solidsWalls (zonesSolids b.zones)))).length
        (numTris (wallsPolys (solidsWalls (zonesSolids b.zones))))
        (wallsPolys (solidsWalls (zonesSolids b.zones))).length
        (solidsWalls (zonesSolids b.zones)).length (zonesSolids b.zones).length =
        ⟨List.replicate (polysPts (wallsPolys (solidsWalls (zonesSolids b.zones)))).length zero,
        List.replicate (numTris (wallsPolys (solidsWalls (zonesSolids b.zones)))) (0, 0, 0),
        List.replicate (numTris (wallsPolys (solidsWalls (zonesSolids b.zones)))) 0,
        List.replicate (wallsPolys (solidsWalls (zonesSolids b.zones))).length 0,
        List.replicate (solidsWalls (zonesSolids b.zones)).length 0,
        List.replicate (zonesSolids b.zones).length 0, 0, 0, 0, 0, 0, 0⟩ := by
      simp [stOf, Arr.empty]
  rw [e] at h
  rw [h]
  exact ⟨_, rfl, by simp [stOf, Arr.addZones, Arr.empty]⟩

end B3d.ArrayFormat
