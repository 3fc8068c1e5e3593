import Verif.Proofs.ArrayFormatRead
import Verif.Props.Mesh

/-!
# C14, C15: the array format
-/

namespace B3d.ArrayFormat

open B3d.Triangles (Tri)
open B3d.Tree
open B3d.Mesh (shiftTri shifted polyMesh soup InRange mapM_ok)

variable {P : Type}

/-! ## Specification -/

/-- All solids of a building in order. -/
def allSolids (b : Bldg P) : List (Solid P) := b.zones.flatMap Zone.solids
/-- All walls of a building in order. -/
def allWalls (b : Bldg P) : List (Wall P) := (allSolids b).flatMap Solid.walls
/-- All polygons of a building in order. -/
def allPolys (b : Bldg P) : List (Poly P) := (allWalls b).flatMap Wall.polygons

/-- The numbers of a list of objects are `0, 1, 2, ...`. -/
def Consecutive (nums : List (Option Nat)) : Prop := nums = (List.range nums.length).map some

/-- A polygon without its number. -/
def stripPoly (p : Poly P) : Poly P := { p with num := none }
/-- A wall without numbers. -/
def stripWall (w : Wall P) : Wall P := { w with num := none, polygons := w.polygons.map stripPoly }
/-- A solid without numbers. -/
def stripSolid (s : Solid P) : Solid P := { s with num := none, walls := s.walls.map stripWall }
/-- A zone without numbers. -/
def stripZone (z : Zone P) : Zone P := { z with num := none, solids := z.solids.map stripSolid }
/-- The building without its numbers: names, uids, order, points, triangles. -/
def content (b : Bldg P) : Bldg P := { b with zones := b.zones.map stripZone }

/-- The faces whose entry in `polygons` is `i`, as coordinates, in order. -/
def facesOf (st : AState P) (i : Nat) : List (Option P × Option P × Option P) :=
  soup (st.points, ((st.polygons.zip st.faces).filter fun e => e.1 = i).map Prod.snd)

/-- The arrays describe the numbered building `b`. -/
structure Describes (b : Bldg P) (st : AState P) : Prop where
  /-- zones, solids, walls and polygons carry consecutive numbers in traversal order -/
  zoneNums : Consecutive (b.zones.map Zone.num)
  solidNums : Consecutive ((allSolids b).map Solid.num)
  wallNums : Consecutive ((allWalls b).map Wall.num)
  polyNums : Consecutive ((allPolys b).map Poly.num)
  /-- sizes -/
  zonesLen : st.zones.length = (allSolids b).length
  solidsLen : st.solids.length = (allWalls b).length
  wallsLen : st.walls.length = (allPolys b).length
  facesLen : st.polygons.length = st.faces.length
  /-- every solid refers to its zone, every wall to its solid, every polygon to its wall -/
  solidZone : ∀ z ∈ b.zones, ∀ s ∈ z.solids, ∃ i, s.num = some i ∧ st.zones[i]? = z.num
  wallSolid : ∀ s ∈ allSolids b, ∀ w ∈ s.walls, ∃ i, w.num = some i ∧ st.solids[i]? = s.num
  polyWall : ∀ w ∈ allWalls b, ∀ p ∈ w.polygons, ∃ i, p.num = some i ∧ st.walls[i]? = w.num
  /-- the faces labelled with a polygon's number are its triangles, in order and with the same
  coordinates, and no face is without a polygon -/
  polyFaces : ∀ p ∈ allPolys b, ∃ i, p.num = some i ∧ facesOf st i = soup (polyMesh p)
  faceOwner : ∀ i ∈ st.polygons, ∃ p ∈ allPolys b, p.num = some i
  /-- all point numbers exist; the points are those of the polygons in order -/
  range : InRange (st.points, st.faces)
  points : st.points = (allPolys b).flatMap Poly.pts

/-! ## Lemmas -/

theorem consecutive_of {n : Nat} {l : List (Option Nat)} (h : l = (List.range' 0 n).map some) :
    Consecutive l := by
  subst h
  simp [Consecutive, List.range_eq_range']

theorem allSolids_eq (b : Bldg P) : allSolids b = zonesSolids b.zones := rfl
theorem allWalls_eq (b : Bldg P) : allWalls b = solidsWalls (zonesSolids b.zones) := rfl
theorem allPolys_eq (b : Bldg P) : allPolys b = wallsPolys (solidsWalls (zonesSolids b.zones)) := rfl

theorem numPolys_mem {ps : List (Poly P)} : ∀ {k : Nat} {p : Poly P}, p ∈ numPolys k ps →
    ∃ j, j < ps.length ∧ p.num = some (k + j) := by
  induction ps with
  | nil => intro k p h; simp [numPolys] at h
  | cons q ps ih =>
    intro k p h
    rcases List.mem_cons.1 h with rfl | h
    · exact ⟨0, by simp, rfl⟩
    · obtain ⟨j, hj, hp⟩ := ih h
      exact ⟨j + 1, by simpa using hj, by rw [hp]; congr 1; omega⟩

theorem numWalls_mem {ws : List (Wall P)} : ∀ {k pk : Nat} {w : Wall P}, w ∈ numWalls k pk ws →
    ∃ j, j < ws.length ∧ w.num = some (k + j) := by
  induction ws with
  | nil => intro k pk p h; simp [numWalls] at h
  | cons q ws ih =>
    intro k pk p h
    rcases List.mem_cons.1 h with rfl | h
    · exact ⟨0, by simp, rfl⟩
    · obtain ⟨j, hj, hp⟩ := ih h
      exact ⟨j + 1, by simpa using hj, by rw [hp]; congr 1; omega⟩

theorem numSolids_mem {ss : List (Solid P)} : ∀ {k wk pk : Nat} {s : Solid P},
    s ∈ numSolids k wk pk ss → ∃ j, j < ss.length ∧ s.num = some (k + j) := by
  induction ss with
  | nil => intro k wk pk p h; simp [numSolids] at h
  | cons q ss ih =>
    intro k wk pk p h
    rcases List.mem_cons.1 h with rfl | h
    · exact ⟨0, by simp, rfl⟩
    · obtain ⟨j, hj, hp⟩ := ih h
      exact ⟨j + 1, by simpa using hj, by rw [hp]; congr 1; omega⟩

theorem own_cons_left (n k j : Nat) (r : List Nat) (h : j < n) :
    (own k (n :: r))[j]? = some k := by
  rw [own, List.getElem?_append_left (by simpa using h)]
  simp [h]

theorem own_cons_right (n k j : Nat) (r : List Nat) :
    (own k (n :: r))[n + j]? = (own (k + 1) r)[j]? := by
  rw [own, List.getElem?_append_right (by simp)]
  simp

theorem zone_owner (zs : List (Zone P)) : ∀ (k sk wk pk : Nat),
    ∀ z ∈ numZones k sk wk pk zs, ∀ s ∈ z.solids, ∃ i, s.num = some (sk + i) ∧
      (own k (zs.map fun z => z.solids.length))[i]? = z.num := by
  induction zs with
  | nil => intro k sk wk pk z hz; simp [numZones] at hz
  | cons q zs ih =>
    intro k sk wk pk z hz s hs
    rw [numZones] at hz
    rcases List.mem_cons.1 hz with rfl | hz
    · obtain ⟨j, hj, hn⟩ := numSolids_mem hs
      exact ⟨j, hn, own_cons_left _ _ _ _ hj⟩
    · obtain ⟨i, hi, ho⟩ := ih _ _ _ _ z hz s hs
      refine ⟨q.solids.length + i, by rw [hi, Nat.add_assoc], ?_⟩
      rw [List.map_cons, own_cons_right, ho]

theorem solid_owner (ss : List (Solid P)) : ∀ (k wk pk : Nat),
    ∀ s ∈ numSolids k wk pk ss, ∀ w ∈ s.walls, ∃ i, w.num = some (wk + i) ∧
      (own k (ss.map fun s => s.walls.length))[i]? = s.num := by
  induction ss with
  | nil => intro k wk pk z hz; simp [numSolids] at hz
  | cons q ss ih =>
    intro k wk pk z hz s hs
    rw [numSolids] at hz
    rcases List.mem_cons.1 hz with rfl | hz
    · obtain ⟨j, hj, hn⟩ := numWalls_mem hs
      exact ⟨j, hn, own_cons_left _ _ _ _ hj⟩
    · obtain ⟨i, hi, ho⟩ := ih _ _ _ z hz s hs
      refine ⟨q.walls.length + i, by rw [hi, Nat.add_assoc], ?_⟩
      rw [List.map_cons, own_cons_right, ho]

theorem wall_owner (ws : List (Wall P)) : ∀ (k pk : Nat),
    ∀ w ∈ numWalls k pk ws, ∀ p ∈ w.polygons, ∃ i, p.num = some (pk + i) ∧
      (own k (ws.map fun w => w.polygons.length))[i]? = w.num := by
  induction ws with
  | nil => intro k pk z hz; simp [numWalls] at hz
  | cons q ws ih =>
    intro k pk z hz s hs
    rw [numWalls] at hz
    rcases List.mem_cons.1 hz with rfl | hz
    · obtain ⟨j, hj, hn⟩ := numPolys_mem hs
      exact ⟨j, hn, own_cons_left _ _ _ _ hj⟩
    · obtain ⟨i, hi, ho⟩ := ih _ _ z hz s hs
      refine ⟨q.polygons.length + i, by rw [hi, Nat.add_assoc], ?_⟩
      rw [List.map_cons, own_cons_right, ho]

theorem numPolys_get (ps : List (Poly P)) : ∀ (k i : Nat) (hi : i < ps.length),
    (numPolys k ps)[i]? = some { ps[i] with num := some (k + i) } := by
  induction ps with
  | nil => intro k i hi; simp at hi
  | cons p ps ih =>
    intro k i hi
    obtain _ | i := i
    · simp [numPolys]
    · rw [numPolys, List.getElem?_cons_succ, ih (k + 1) i (by simpa using hi)]
      simp [Nat.add_assoc, Nat.add_comm 1]

theorem numPolys_mem_get {ps : List (Poly P)} {k : Nat} {p : Poly P} (h : p ∈ numPolys k ps) :
    ∃ (i : Nat) (hi : i < ps.length), p = { ps[i] with num := some (k + i) } := by
  obtain ⟨i, hi, rfl⟩ := List.getElem_of_mem h
  rw [numPolys_length] at hi
  have := numPolys_get ps k i hi
  rw [List.getElem?_eq_getElem (by rwa [numPolys_length])] at this
  exact ⟨i, hi, Option.some.inj this⟩

theorem content_num (b : Bldg P) (k sk wk pk : Nat) :
    content { b with zones := numZones k sk wk pk b.zones } = content b := by
  have h1 : ∀ (ps : List (Poly P)) (k : Nat), (numPolys k ps).map stripPoly = ps.map stripPoly := by
    intro ps
    induction ps with
    | nil => intro k; rfl
    | cons p ps ih => intro k; simp [numPolys, ih, stripPoly]
  have h2 : ∀ (ws : List (Wall P)) (k pk : Nat),
      (numWalls k pk ws).map stripWall = ws.map stripWall := by
    intro ws
    induction ws with
    | nil => intro k pk; rfl
    | cons w ws ih => intro k pk; simp [numWalls, ih, h1, stripWall]
  have h3 : ∀ (ss : List (Solid P)) (k wk pk : Nat),
      (numSolids k wk pk ss).map stripSolid = ss.map stripSolid := by
    intro ss
    induction ss with
    | nil => intro k wk pk; rfl
    | cons s ss ih => intro k wk pk; simp [numSolids, ih, h2, stripSolid]
  have h4 : ∀ (zs : List (Zone P)) (k sk wk pk : Nat),
      (numZones k sk wk pk zs).map stripZone = zs.map stripZone := by
    intro zs
    induction zs with
    | nil => intro k sk wk pk; rfl
    | cons s ss ih => intro k sk wk pk; simp [numZones, ih, h3, stripZone]
  unfold content
  simp only [h4]

theorem pick_faces (ps : List (Poly P)) (i : Nat) (hi : i < ps.length) :
    (((own 0 (ps.map fun p => p.tri.length)).zip (shifted 0 (ps.map polyMesh))).filter
      fun e => e.1 = i).map Prod.snd =
      ps[i].tri.map (shiftTri (polysPts (ps.take i)).length) := by
  have key : ∀ (ps : List (Poly P)) (k off i : Nat) (hi : i < ps.length),
      pick (own k (ps.map fun p => p.tri.length)) (shifted off (ps.map polyMesh)) (k + i) =
        ps[i].tri.map (shiftTri (off + (polysPts (ps.take i)).length)) := by
    intro ps
    induction ps with
    | nil => intro k off i hi; simp at hi
    | cons p ps ih =>
      intro k off i hi
      simp only [List.map_cons, own, shifted, polyMesh]
      rw [pick_append _ _ _ _ _ (by simp)]
      obtain _ | i := i
      · rw [pick_not_mem (own _ _)]
        · have := pick_replicate_self (p.tri.map (shiftTri off)) k
          rw [List.length_map] at this
          simp [this, polysPts]
        · intro h; have := mem_own h; omega
      · rw [pick_not_mem (List.replicate _ _)]
        · have := ih (k + 1) (off + p.pts.length) i (by simpa using hi)
          have e : k + (i + 1) = k + 1 + i := by omega
          rw [e]
          rw [List.nil_append]
          refine Eq.trans this ?_
          simp [polysPts, Nat.add_assoc]
        · intro h; have := List.eq_of_mem_replicate h; omega
  have := key ps 0 0 i hi
  simpa [pick] using this

/-! ## C14 -/

/-- C14: for every building whose polygons have valid triangles (empty walls, solids and zones
allowed) the conversion succeeds, changes nothing but the numbers, and the arrays describe the
building. -/
theorem C14_array_format (zero : P) (b : Bldg P) (hr : ∀ p ∈ allPolys b, InRange (polyMesh p)) :
    ∃ b' st, toArrayFormat zero b = .ok (b', st) ∧ content b' = content b ∧ Describes b' st := by
  obtain ⟨st, h, e1, e2, e3, e4, e5, e6⟩ := toArrayFormat_eq zero b
  refine ⟨_, st, h, content_num b 0 0 0 0, ?_⟩
  have hS := zonesSolids_num b.zones 0 0 0 0
  have hW := solidsWalls_num (zonesSolids b.zones) 0 0 0
  have hP := wallsPolys_num (solidsWalls (zonesSolids b.zones)) 0 0
  have hA : allPolys { b with zones := numZones 0 0 0 0 b.zones } = numPolys 0 (allPolys b) := by
    rw [allPolys_eq, hS, hW, hP]; rfl
  have hu := Mesh.isUnion_flatten (parts := (allPolys b).map polyMesh)
    (by
      intro m hm
      obtain ⟨p, hp, rfl⟩ := List.mem_map.1 hm
      exact hr p hp)
  have hpts : ((List.map Prod.fst ((allPolys b).map polyMesh)).flatten) = polysPts (allPolys b) := by
    simp [polysPts, polyMesh, List.flatMap_def, Function.comp_def]
  refine
    { zoneNums := consecutive_of (numZones_num _ _ _ _ _)
      solidNums := ?_
      wallNums := ?_
      polyNums := ?_
      zonesLen := ?_
      solidsLen := ?_
      wallsLen := ?_
      facesLen := ?_
      solidZone := ?_
      wallSolid := ?_
      polyWall := ?_
      polyFaces := ?_
      faceOwner := ?_
      range := ?_
      points := ?_ }
  · rw [allSolids_eq, hS]; exact consecutive_of (numSolids_num _ _ _ _)
  · rw [allWalls_eq, hS, hW]; exact consecutive_of (numWalls_num _ _ _)
  · rw [hA]; exact consecutive_of (numPolys_num _ _)
  · rw [allSolids_eq, hS, numSolids_length, e6, own_length]
    simp [zonesSolids, List.length_flatMap]
  · rw [allWalls_eq, hS, hW, numWalls_length, e5, own_length]
    simp [solidsWalls, List.length_flatMap]
  · rw [hA, numPolys_length, e4, own_length]
    simp [allPolys_eq, wallsPolys, List.length_flatMap]
  · rw [e2, e3, own_length, Mesh.shifted_length]
    simp [polyMesh, Function.comp_def]
  · intro z hz s hs
    obtain ⟨i, h1, h2⟩ := zone_owner b.zones 0 0 0 0 z hz s hs
    exact ⟨i, by simpa using h1, by rw [e6]; exact h2⟩
  · intro s hs w hw
    rw [allSolids_eq, hS] at hs
    obtain ⟨i, h1, h2⟩ := solid_owner _ 0 0 0 s hs w hw
    exact ⟨i, by simpa using h1, by rw [e5]; exact h2⟩
  · intro w hw p hp
    rw [allWalls_eq, hS, hW] at hw
    obtain ⟨i, h1, h2⟩ := wall_owner _ 0 0 w hw p hp
    exact ⟨i, by simpa using h1, by rw [e4]; exact h2⟩
  · intro p hp
    rw [hA] at hp
    obtain ⟨i, hi, rfl⟩ := numPolys_mem_get hp
    refine ⟨i, by simp, ?_⟩
    unfold facesOf
    rw [e1, e2, e3]
    have hpf := pick_faces (allPolys b) i hi
    refine Eq.trans (congrArg (fun l => soup (_, l)) hpf) ?_
    have e : polysPts (wallsPolys (solidsWalls (zonesSolids b.zones))) =
        polysPts ((allPolys b).take i) ++ (allPolys b)[i].pts ++
          polysPts ((allPolys b).drop (i + 1)) := by
      have e' : allPolys b = (allPolys b).take i ++
          ((allPolys b)[i] :: (allPolys b).drop (i + 1)) := by simp
      rw [← allPolys_eq]
      generalize (allPolys b)[i] = q at e' ⊢
      generalize (allPolys b).take i = x at e' ⊢
      generalize (allPolys b).drop (i + 1) = y at e' ⊢
      rw [e']
      simp [polysPts]
    rw [e]
    exact Mesh.soup_shift _ _ _ _ (hr _ (List.getElem_mem hi))
  · intro i hi
    rw [e3] at hi
    have := mem_own hi
    rw [List.length_map, Nat.zero_add] at this
    rw [hA]
    refine ⟨{ (allPolys b)[i]'this.2 with num := some i }, ?_, rfl⟩
    have := numPolys_get (allPolys b) 0 i this.2
    rw [Nat.zero_add] at this
    exact List.mem_of_getElem? this
  · have := hu.range
    rw [hpts] at this
    rw [e1, e2]
    exact this
  · rw [e1, hA]
    have : ∀ (ps : List (Poly P)) (k : Nat), (numPolys k ps).flatMap Poly.pts = polysPts ps := by
      intro ps
      induction ps with
      | nil => intro k; rfl
      | cons p ps ih => intro k; simp [numPolys, ih, polysPts]
    rw [this]; rfl

/-- A building with two zones (the second one empty), an empty wall, and three polygons. -/
def demoBldg : Bldg Nat :=
  ⟨['b'], ['u'], [⟨['z'], ['u'], [⟨['s'], ['u'],
      [⟨['a'], ['u'], [⟨['p'], ['u'], [10, 11, 12], [(0, 1, 2)], none⟩,
        ⟨['q'], ['u'], [13, 14, 15, 16], [(0, 1, 2), (0, 2, 3)], none⟩], none⟩,
       ⟨['e'], ['u'], [], none⟩], none⟩,
    ⟨['t'], ['u'], [⟨['a'], ['u'], [⟨['p'], ['u'], [20, 21, 22], [(2, 1, 0)], none⟩], none⟩], none⟩],
    none⟩, ⟨['y'], ['u'], [], none⟩]⟩

example : (∀ p ∈ allPolys demoBldg, InRange (polyMesh p)) ∧
    (toArrayFormat 0 demoBldg).map (fun r => (r.2.faces, r.2.polygons, r.2.walls, r.2.solids,
      r.2.zones)) = .ok ([(0, 1, 2), (3, 4, 5), (3, 5, 6), (9, 8, 7)], [0, 1, 1, 2], [0, 0, 2],
        [0, 0, 1], [0, 0]) := by
  refine ⟨?_, by decide +kernel⟩
  intro p hp
  simp [allPolys, allWalls, allSolids, demoBldg] at hp
  rcases hp with rfl | rfl | rfl <;> simp [InRange, polyMesh]

/-! ## C15 -/

/-- What the round trip keeps: the nesting and, for every polygon, points and triangles. -/
def geometry (b : Bldg P) : List (List (List (List (List P × List Tri)))) :=
  b.zones.map fun z => z.solids.map fun s => s.walls.map fun w => w.polygons.map fun p =>
    (p.pts, p.tri)

/-- The object read back in place of polygon `p`. -/
def relabelPoly (rname ruid : Nat → Nat → Str) (p : Poly P) : Poly P :=
  ⟨rname 0 (p.num.getD 0), ruid 0 (p.num.getD 0), p.pts, p.tri, none⟩
/-- The object read back in place of wall `w`. -/
def relabelWall (rname ruid : Nat → Nat → Str) (w : Wall P) : Wall P :=
  ⟨rname 1 (w.num.getD 0), ruid 1 (w.num.getD 0), w.polygons.map (relabelPoly rname ruid), none⟩
/-- The object read back in place of solid `s`. -/
def relabelSolid (rname ruid : Nat → Nat → Str) (s : Solid P) : Solid P :=
  ⟨rname 2 (s.num.getD 0), ruid 2 (s.num.getD 0), s.walls.map (relabelWall rname ruid), none⟩
/-- The object read back in place of zone `z`. -/
def relabelZone (rname ruid : Nat → Nat → Str) (z : Zone P) : Zone P :=
  ⟨rname 3 (z.num.getD 0), ruid 3 (z.num.getD 0), z.solids.map (relabelSolid rname ruid), none⟩

/-- Random names are valid and differ from each other. -/
def FreshNames (rname : Nat → Nat → Str) : Prop :=
  (∀ l i, PATH_SEP ∉ rname l i) ∧ ∀ l i j, rname l i = rname l j → i = j

theorem validateName_ok {n : Str} (h : PATH_SEP ∉ n) : validateName n = .ok n := by
  unfold validateName; rw [if_neg h]

/-- Names made from different numbers differ. -/
theorem names_nodup {X : Type} (rname : Nat → Nat → Str) (hf : FreshNames rname) (l : Nat)
    (num : X → Option Nat) (xs : List X) (k n : Nat)
    (h : xs.map num = (List.range' k n).map some) :
    (xs.map fun x => rname l ((num x).getD 0)).Nodup := by
  have : (xs.map fun x => rname l ((num x).getD 0)) =
      (List.range' k n).map (rname l) := by
    have e : (xs.map fun x => rname l ((num x).getD 0)) =
        (xs.map num).map fun o => rname l (o.getD 0) := by simp
    rw [e, h]
    simp
  rw [this]
  exact List.Nodup.map (fun i j => hf.2 l i j) List.nodup_range'

theorem numPolys_of_wall {ws : List (Wall P)} : ∀ {k pk : Nat} {w : Wall P},
    w ∈ numWalls k pk ws → ∃ k' n, w.polygons.map Poly.num = (List.range' k' n).map some := by
  induction ws with
  | nil => intro k pk w h; simp [numWalls] at h
  | cons q ws ih =>
    intro k pk w h
    rcases List.mem_cons.1 h with rfl | h
    · exact ⟨_, _, numPolys_num _ _⟩
    · exact ih h

theorem numWalls_of_solid {ss : List (Solid P)} : ∀ {k wk pk : Nat} {s : Solid P},
    s ∈ numSolids k wk pk ss → ∃ k' n, s.walls.map Wall.num = (List.range' k' n).map some := by
  induction ss with
  | nil => intro k wk pk w h; simp [numSolids] at h
  | cons q ss ih =>
    intro k wk pk w h
    rcases List.mem_cons.1 h with rfl | h
    · exact ⟨_, _, numWalls_num _ _ _⟩
    · exact ih h

theorem numSolids_of_zone {zs : List (Zone P)} : ∀ {k sk wk pk : Nat} {z : Zone P},
    z ∈ numZones k sk wk pk zs → ∃ k' n, z.solids.map Solid.num = (List.range' k' n).map some := by
  induction zs with
  | nil => intro k sk wk pk w h; simp [numZones] at h
  | cons q zs ih =>
    intro k sk wk pk w h
    rcases List.mem_cons.1 h with rfl | h
    · exact ⟨_, _, numSolids_num _ _ _ _⟩
    · exact ih h

theorem nth_num {X : Type} (num : X → Option Nat) (xs : List X) (n : Nat)
    (h : xs.map num = (List.range' 0 n).map some) (i : Nat) (hi : i < xs.length) :
    (num xs[i]).getD 0 = i := by
  have hn : xs.length = n := by have := congrArg List.length h; simpa using this
  have h1 : (xs.map num)[i]? = some (num xs[i]) := by simp [hi]
  rw [h] at h1
  simp [hn ▸ hi] at h1
  rw [← h1]; rfl

theorem geometry_relabel (rname ruid : Nat → Nat → Str) (n u : Str) (zs : List (Zone P)) :
    geometry (⟨n, u, zs.map (relabelZone rname ruid)⟩ : Bldg P) = geometry ⟨n, u, zs⟩ := by
  simp [geometry, relabelZone, relabelSolid, relabelWall, relabelPoly, Function.comp_def]

theorem geometry_num (n u : Str) (zs : List (Zone P)) (k sk wk pk : Nat) :
    geometry (⟨n, u, numZones k sk wk pk zs⟩ : Bldg P) = geometry ⟨n, u, zs⟩ := by
  have h2 : ∀ (ws : List (Wall P)) (k pk : Nat),
      ((numWalls k pk ws).map fun w => w.polygons.map fun p => (p.pts, p.tri)) =
        ws.map fun w => w.polygons.map fun p => (p.pts, p.tri) := by
    intro ws
    induction ws with
    | nil => intro k pk; rfl
    | cons w ws ih => intro k pk; simp [numWalls, ih, numPolys_geom]
  have h3 : ∀ (ss : List (Solid P)) (k wk pk : Nat),
      ((numSolids k wk pk ss).map fun s => s.walls.map fun w => w.polygons.map fun p =>
        (p.pts, p.tri)) = ss.map fun s => s.walls.map fun w => w.polygons.map fun p =>
        (p.pts, p.tri) := by
    intro ss
    induction ss with
    | nil => intro k wk pk; rfl
    | cons s ss ih => intro k wk pk; simp [numSolids, ih, h2]
  unfold geometry
  simp only []
  induction zs generalizing k sk wk pk with
  | nil => rfl
  | cons z zs ih => simp [numZones, ih, h3]

/-- The largest zone number is that of the last zone with a solid. -/
theorem own_max (c e : List Nat) (n : Nat) (hn : n ≠ 0) (he : ∀ x ∈ e, x = 0) :
    (own 0 (c ++ n :: e)).max? = some c.length := by
  have hown : ∀ (e : List Nat) (k : Nat), (∀ x ∈ e, x = 0) → own k e = [] := by
    intro e
    induction e with
    | nil => intro k _; rfl
    | cons x e ih =>
      intro k h
      rw [own, h x (by simp), ih _ fun y hy => h y (by simp [hy])]
      rfl
  have : own 0 (c ++ n :: e) = own 0 c ++ List.replicate n c.length := by
    rw [own_append, own, hown e _ he]
    simp
  rw [this, List.max?_eq_some_iff]
  refine ⟨?_, ?_⟩
  · rw [List.mem_append]
    right
    simp [hn]
  · intro k hk
    rcases List.mem_append.1 hk with hk | hk
    · have := mem_own hk; omega
    · have := List.eq_of_mem_replicate hk; omega

theorem numZones_append (a b : List (Zone P)) : ∀ (k sk wk pk : Nat), ∃ sk' wk' pk',
    numZones k sk wk pk (a ++ b) =
      numZones k sk wk pk a ++ numZones (k + a.length) sk' wk' pk' b := by
  induction a with
  | nil => intro k sk wk pk; exact ⟨sk, wk, pk, rfl⟩
  | cons z a ih =>
    intro k sk wk pk
    obtain ⟨x, y, w, h⟩ := ih (k + 1) (sk + z.solids.length) (wk + (solidsWalls z.solids).length)
        (pk + (wallsPolys (solidsWalls z.solids)).length)
    refine ⟨x, y, w, ?_⟩
    simp only [List.cons_append, numZones, h, List.length_cons]
    congr 3
    omega

/-- C15: converting to arrays and back.  The polygons use each of their vertices in a triangle (and
no others) and pass the constructor's own geometric checks; names drawn for the new objects are valid
and different.  Then the result has the same nesting, points and triangles; only zones after the last
zone with a solid are lost (`b.zones = zs ++ [z] ++ lost`). -/
theorem C15_round_trip (zero : P) (geom : List P → List Tri → Option PyErr)
    (rname ruid : Nat → Nat → Str) (hf : FreshNames rname) (b : Bldg P)
    (hg : ∀ p ∈ allPolys b, UsesExactly p.pts p.tri ∧ geom p.pts p.tri = none)
    (zs : List (Zone P)) (z : Zone P) (lost : List (Zone P)) (hb : b.zones = zs ++ z :: lost)
    (hz : z.solids ≠ []) (hl : ∀ y ∈ lost, y.solids = []) :
    ∃ b' st back, toArrayFormat zero b = .ok (b', st) ∧
      fromArrayFormat geom rname ruid st.points st.faces st.polygons st.walls st.solids st.zones =
        .ok back ∧ geometry back = geometry { b with zones := zs ++ [z] } := by
  obtain ⟨st, h, e1, e2, e3, e4, e5, e6⟩ := toArrayFormat_eq zero b
  set Z := numZones 0 0 0 0 b.zones with hZ
  have hS := zonesSolids_num b.zones 0 0 0 0
  have hW := solidsWalls_num (zonesSolids b.zones) 0 0 0
  have hP := wallsPolys_num (solidsWalls (zonesSolids b.zones)) 0 0
  rw [← hZ] at hS
  have hmax : st.zones.max? = some zs.length := by
    have := own_max (zs.map fun z => z.solids.length) (lost.map fun z => z.solids.length)
      z.solids.length (by simpa using hz) (by
        intro x hx
        obtain ⟨y, hy, rfl⟩ := List.mem_map.1 hx
        simp [hl y hy])
    rw [e6, hb]
    simpa using this
  -- polygons
  set PS := wallsPolys (solidsWalls (zonesSolids b.zones)) with hPS
  have hPZ : wallsPolys (solidsWalls (zonesSolids Z)) = numPolys 0 PS := by rw [hS, hW, hP]
  have r1 : (List.range st.walls.length).mapM (fun pi =>
      readPoly geom (rname 0 pi) (ruid 0 pi) st.points st.faces st.polygons pi) =
      .ok ((numPolys 0 PS).map (relabelPoly rname ruid)) := by
    have hlen : st.walls.length = ((numPolys 0 PS).map (relabelPoly rname ruid)).length := by
      rw [e4, own_length, List.length_map, numPolys_length, hPS]
      simp [wallsPolys, List.length_flatMap]
    rw [hlen]
    apply mapM_range
    intro i hi
    rw [List.length_map, numPolys_length] at hi
    have hget := numPolys_get PS 0 i hi
    have hi' : i < (numPolys 0 PS).length := by rwa [numPolys_length]
    rw [List.getElem?_eq_getElem hi'] at hget
    have hget := Option.some.inj hget
    have hgp := hg PS[i] (List.getElem_mem hi)
    rw [List.getElem_map, hget, e1, e2, e3]
    unfold readPoly
    rw [getPolygon_of_list PS i hi hgp.1]
    simp only [newPoly, hgp.2, validateName_ok (hf.1 0 i)]
    simp [relabelPoly]
  -- walls
  set WS := solidsWalls (zonesSolids b.zones) with hWS
  have hWZ : solidsWalls (zonesSolids Z) = numWalls 0 0 WS := by rw [hS, hW]
  have r2 : (List.range st.solids.length).mapM (fun wi =>
      newWall (rname 1 wi) (ruid 1 wi)
        (pick st.walls ((numPolys 0 PS).map (relabelPoly rname ruid)) wi)) =
      .ok ((numWalls 0 0 WS).map (relabelWall rname ruid)) := by
    have hlen : st.solids.length = ((numWalls 0 0 WS).map (relabelWall rname ruid)).length := by
      rw [e5, own_length, List.length_map, numWalls_length, hWS]
      simp [solidsWalls, List.length_flatMap]
    rw [hlen]
    apply mapM_range
    intro i hi
    rw [List.length_map] at hi
    have hp := pick_own ((numWalls 0 0 WS).map fun w => w.polygons.map (relabelPoly rname ruid)) 0 i
      (by simpa using hi)
    have ho : (((numWalls 0 0 WS).map fun w => w.polygons.map (relabelPoly rname ruid)).map
        List.length) = WS.map fun w => w.polygons.length := by
      rw [List.map_map, ← numWalls_count WS 0 0]
      simp [Function.comp_def]
    have hfl : ((numWalls 0 0 WS).map fun w => w.polygons.map (relabelPoly rname ruid)).flatten =
        (numPolys 0 PS).map (relabelPoly rname ruid) := by
      rw [← hP, wallsPolys, List.map_flatMap, List.flatMap_def]
    rw [ho, hfl, Nat.zero_add, ← e4] at hp
    rw [hp]
    simp only [List.getElem_map]
    have hnum := nth_num Wall.num _ _ (numWalls_num WS 0 0) i hi
    obtain ⟨k', n, hn⟩ := numPolys_of_wall (List.getElem_mem hi)
    have hnd := names_nodup rname hf 0 Poly.num _ k' n hn
    unfold newWall
    rw [validateName_ok (hf.1 1 i)]
    simp only []
    rw [addAllNew_ok]
    · simp [relabelWall, hnum]
    · simpa [relabelPoly, Function.comp_def] using hnd
  -- solids
  set SS := zonesSolids b.zones with hSS
  have r3 : (List.range st.zones.length).mapM (fun si =>
      newSolid (rname 2 si) (ruid 2 si)
        (pick st.solids ((numWalls 0 0 WS).map (relabelWall rname ruid)) si)) =
      .ok ((numSolids 0 0 0 SS).map (relabelSolid rname ruid)) := by
    have hlen : st.zones.length = ((numSolids 0 0 0 SS).map (relabelSolid rname ruid)).length := by
      rw [e6, own_length, List.length_map, numSolids_length, hSS]
      simp [zonesSolids, List.length_flatMap]
    rw [hlen]
    apply mapM_range
    intro i hi
    rw [List.length_map] at hi
    have hp := pick_own ((numSolids 0 0 0 SS).map fun s => s.walls.map (relabelWall rname ruid)) 0 i
      (by simpa using hi)
    have ho : (((numSolids 0 0 0 SS).map fun s => s.walls.map (relabelWall rname ruid)).map
        List.length) = SS.map fun s => s.walls.length := by
      rw [List.map_map, ← numSolids_count SS 0 0 0]
      simp [Function.comp_def]
    have hfl : ((numSolids 0 0 0 SS).map fun s => s.walls.map (relabelWall rname ruid)).flatten =
        (numWalls 0 0 WS).map (relabelWall rname ruid) := by
      rw [← hW, solidsWalls, List.map_flatMap, List.flatMap_def]
    rw [ho, hfl, Nat.zero_add, ← e5] at hp
    rw [hp]
    simp only [List.getElem_map]
    have hnum := nth_num Solid.num _ _ (numSolids_num SS 0 0 0) i hi
    obtain ⟨k', n, hn⟩ := numWalls_of_solid (List.getElem_mem hi)
    have hnd := names_nodup rname hf 1 Wall.num _ k' n hn
    unfold newSolid
    rw [validateName_ok (hf.1 2 i)]
    simp only []
    rw [addAllNew_ok]
    · simp [relabelSolid, hnum]
    · simpa [relabelWall, Function.comp_def] using hnd
  -- zones
  have hbz : b.zones = (zs ++ [z]) ++ lost := by rw [hb]; simp
  obtain ⟨sk', wk', pk', hsplit⟩ := numZones_append (zs ++ [z]) lost 0 0 0 0
  rw [← hbz, ← hZ] at hsplit
  set Z1 := numZones 0 0 0 0 (zs ++ [z]) with hZ1
  have r4 : (List.range (zs.length + 1)).mapM (fun zi =>
      newZone (rname 3 zi) (ruid 3 zi)
        (pick st.zones ((numSolids 0 0 0 SS).map (relabelSolid rname ruid)) zi)) =
      .ok (Z1.map (relabelZone rname ruid)) := by
    have hlen : zs.length + 1 = (Z1.map (relabelZone rname ruid)).length := by
      rw [List.length_map, hZ1, numZones_length]
      simp
    rw [hlen]
    apply mapM_range
    intro i hi
    rw [List.length_map] at hi
    have hi2 : i < Z.length := by rw [hsplit, List.length_append]; omega
    have hp := pick_own (Z.map fun s => s.solids.map (relabelSolid rname ruid)) 0 i
      (by simpa using hi2)
    have ho : ((Z.map fun s => s.solids.map (relabelSolid rname ruid)).map
        List.length) = b.zones.map fun s => s.solids.length := by
      rw [List.map_map, ← numZones_count b.zones 0 0 0 0]
      simp [Function.comp_def, hZ]
    have hfl : (Z.map fun s => s.solids.map (relabelSolid rname ruid)).flatten =
        (numSolids 0 0 0 SS).map (relabelSolid rname ruid) := by
      rw [← hS, zonesSolids, List.map_flatMap, List.flatMap_def]
    rw [ho, hfl, Nat.zero_add, ← e6] at hp
    rw [hp]
    simp only [List.getElem_map]
    have hzi : Z[i] = Z1[i] := by
      simp only [hsplit]
      rw [List.getElem_append_left hi]
    rw [hzi]
    have hnum : (Zone.num Z1[i]).getD 0 = i :=
      nth_num Zone.num _ _ (numZones_num (zs ++ [z]) 0 0 0 0) i hi
    obtain ⟨k', n, hn⟩ := numSolids_of_zone (List.getElem_mem hi)
    have hnd := names_nodup rname hf 2 Solid.num _ k' n hn
    unfold newZone
    rw [validateName_ok (hf.1 3 i)]
    simp only []
    rw [addAllNew_ok]
    · simp [relabelZone, hnum]
    · simpa [relabelSolid, Function.comp_def] using hnd
  -- building
  have hnd := names_nodup rname hf 3 Zone.num _ _ _ (numZones_num (zs ++ [z]) 0 0 0 0)
  have r5 : newBldg (rname 4 0) (ruid 4 0) (Z1.map (relabelZone rname ruid)) =
      .ok ⟨rname 4 0, ruid 4 0, Z1.map (relabelZone rname ruid)⟩ := by
    unfold newBldg
    rw [validateName_ok (hf.1 4 0)]
    simp only []
    rw [addAllNew_ok]
    · simp
    · simpa [relabelZone, Function.comp_def] using hnd
  refine ⟨_, st, ⟨rname 4 0, ruid 4 0, Z1.map (relabelZone rname ruid)⟩, h, ?_, ?_⟩
  · unfold fromArrayFormat
    simp only [hmax, r1, r2, r3, r4]
    exact r5
  · rw [geometry_relabel, geometry_num]
    rfl

/-- C15, nothing lost: if the last zone has a solid the whole building comes back. -/
theorem C15_round_trip_complete (zero : P) (geom : List P → List Tri → Option PyErr)
    (rname ruid : Nat → Nat → Str) (hf : FreshNames rname) (b : Bldg P)
    (hg : ∀ p ∈ allPolys b, UsesExactly p.pts p.tri ∧ geom p.pts p.tri = none)
    (hz : ∃ z, b.zones.getLast? = some z ∧ z.solids ≠ []) :
    ∃ b' st back, toArrayFormat zero b = .ok (b', st) ∧
      fromArrayFormat geom rname ruid st.points st.faces st.polygons st.walls st.solids st.zones =
        .ok back ∧ geometry back = geometry b := by
  obtain ⟨z, h1, h2⟩ := hz
  obtain ⟨zs, hzs⟩ := List.getLast?_eq_some_iff.1 h1
  obtain ⟨b', st, back, a1, a2, a3⟩ := C15_round_trip zero geom rname ruid hf b hg zs z [] hzs h2
    (by simp)
  refine ⟨b', st, back, a1, a2, ?_⟩
  rw [a3, ← hzs]

/-- C15: a building without solids cannot be read back. -/
theorem C15_no_solids (zero : P) (geom : List P → List Tri → Option PyErr)
    (rname ruid : Nat → Nat → Str) (b : Bldg P) (h : ∀ z ∈ b.zones, z.solids = []) :
    ∃ b' st, toArrayFormat zero b = .ok (b', st) ∧
      fromArrayFormat geom rname ruid st.points st.faces st.polygons st.walls st.solids st.zones =
        .error .valueError := by
  obtain ⟨st, h0, e1, e2, e3, e4, e5, e6⟩ := toArrayFormat_eq zero b
  refine ⟨_, st, h0, ?_⟩
  have : st.zones = [] := by
    rw [e6, ← List.length_eq_zero_iff, own_length, List.sum_eq_zero_iff_forall_eq_nat]
    intro x hx
    obtain ⟨y, hy, rfl⟩ := List.mem_map.1 hx
    simp [h y hy]
  unfold fromArrayFormat
  rw [this]
  rfl

/-- Names for the example: level and number in unary. -/
def demoNames : Nat → Nat → Str := fun l i => List.replicate l 'a' ++ 'b' :: List.replicate i 'c'

theorem demoNames_fresh : FreshNames demoNames := by
  refine ⟨?_, ?_⟩
  · intro l i
    simp [demoNames, PATH_SEP]
  · intro l i j h
    have := congrArg List.length h
    simpa [demoNames] using this

/-- The round trip of the example. -/
def demoBack : Except PyErr (List (List (List (List (List Nat × List Tri))))) :=
  match toArrayFormat 0 demoBldg with
  | .ok (_, st) => (fromArrayFormat (fun _ _ => none) demoNames demoNames st.points st.faces
      st.polygons st.walls st.solids st.zones).map geometry
  | .error e => .error e

set_option synthInstance.maxSize 10000 in
example : FreshNames demoNames ∧
    (∀ p ∈ allPolys demoBldg, UsesExactly p.pts p.tri) ∧
    demoBldg.zones = [] ++ demoBldg.zones[0] :: [⟨['y'], ['u'], [], none⟩] ∧
    demoBack = .ok [[[[([10, 11, 12], [(0, 1, 2)]),
        ([13, 14, 15, 16], [(0, 1, 2), (0, 2, 3)])], []], [[([20, 21, 22], [(2, 1, 0)])]]]] := by
  refine ⟨demoNames_fresh, ?_, rfl, by decide +kernel⟩
  intro p hp
  simp [allPolys, allWalls, allSolids, demoBldg] at hp
  rcases hp with rfl | rfl | rfl <;> intro k <;> simp <;> omega

end B3d.ArrayFormat
