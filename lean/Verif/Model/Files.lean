import Verif.Model.ArrayFormat

/-!
# B3D and dotbim files

`building3d/io/b3d.py`, `building3d/io/dotbim.py`, `building3d/types/recursive_default_dict.py`.

The content of a file is modelled as the data structure handed to `json.dump` and returned by
`json.load` (string keys, ordered dictionaries; numbers and strings are assumed to survive JSON).
For the creation of parent directories see `FileSystem`.
-/

namespace B3d.Files

open B3d.Triangles (Tri)
open B3d.Tree
open B3d.ArrayFormat (newPoly newWall newSolid newZone newBldg)

/-- An ordered dictionary. -/
abbrev Dict (K V : Type) := List (K × V)

variable {K V P F : Type} [DecidableEq K]

/-- `f(d[k])` for a default dictionary (`types/recursive_default_dict.py` L5-19): a missing key is
first added at the end with the default value. -/
def upd (k : K) (dflt : V) (f : V → V) : Dict K V → Dict K V
  | [] => [(k, f dflt)]
  | (k', v) :: d => if k' = k then (k', f v) :: d else (k', v) :: upd k dflt f d

/-- `d[k] = v`. -/
def put (k : K) (v : V) (d : Dict K V) : Dict K V := upd k v (fun _ => v) d

/-- Four levels of dictionaries: zone, solid, wall, polygon. -/
abbrev Nest (K V : Type) := Dict K (Dict K (Dict K (Dict K V)))

/-- `d[kz][ks][kw][kp] = v`. -/
def putNest (kz ks kw kp : K) (v : V) (d : Nest K V) : Nest K V :=
  upd kz [] (fun d => upd ks [] (fun d => upd kw [] (put kp v) d) d) d

/-! ### B3D -/

/-- `{"pts": ..., "tri": ..., "uid": ...}` (`io/b3d.py` L68-74; the three assignments are one step
here). -/
structure PolyRec (P : Type) where
  pts : List P
  tri : List Tri
  uid : Str
  deriving DecidableEq

/-- The document: `"zones"` exists only if some polygon was written. -/
structure B3dDoc (P : Type) where
  name : Str
  zones : Option (Nest Str (PolyRec P))

/-- `bdict["zones"][z][s][w][p] = v`, `io/b3d.py` L68-74. -/
def putB3d (z s w p : Str) (v : PolyRec P) (doc : B3dDoc P) : B3dDoc P :=
  ⟨doc.name, some (putNest z s w p v (doc.zones.getD []))⟩

/-- `write_b3d`, `io/b3d.py` L59-78. -/
def writeB3d (b : Bldg P) : B3dDoc P :=
  b.zones.foldl (fun doc z =>
    z.solids.foldl (fun doc s =>
      s.walls.foldl (fun doc w =>
        w.polygons.foldl (fun doc p =>
          putB3d z.name s.name w.name p.name ⟨p.pts, p.tri, p.uid⟩ doc) doc) doc) doc)
    ⟨b.name, none⟩

/-- `for e in es: x = make(e); self.add(x)`, raising when a name repeats. -/
def addEach {E X : Type} (make : E → Except PyErr X) (name : X → Str) :
    List X → List E → Except PyErr (List X)
  | done, [] => .ok done
  | done, e :: es =>
    match make e with
    | .error err => .error err
    | .ok x =>
      if name x ∈ done.map name then .error .geometryError
      else addEach make name (done ++ [x]) es

/-- Lines 95-105 of `io/b3d.py` for one polygon. -/
def readB3dPoly (geom : List P → List Tri → Option PyErr) (e : Str × PolyRec P) :
    Except PyErr (Poly P) :=
  newPoly geom e.1 e.2.uid e.2.pts e.2.tri

/-- Lines 93-106 of `io/b3d.py` for one wall. `uid` stands for the random uid. -/
def readB3dWall (geom : List P → List Tri → Option PyErr) (uid : Str)
    (e : Str × Dict Str (PolyRec P)) : Except PyErr (Wall P) :=
  match validateName e.1 with
  | .error err => .error err
  | .ok name =>
    match addEach (readB3dPoly geom) Poly.name [] e.2 with
    | .error err => .error err
    | .ok ps => .ok ⟨name, uid, ps, none⟩

/-- Lines 91-108 of `io/b3d.py` for one solid. -/
def readB3dSolid (geom : List P → List Tri → Option PyErr) (uid : Str)
    (e : Str × Dict Str (Dict Str (PolyRec P))) : Except PyErr (Solid P) :=
  match e.2.mapM (readB3dWall geom uid) with
  | .error err => .error err
  | .ok walls => newSolid e.1 uid walls

/-- Lines 89-109 of `io/b3d.py` for one zone. -/
def readB3dZone (geom : List P → List Tri → Option PyErr) (uid : Str)
    (e : Str × Dict Str (Dict Str (Dict Str (PolyRec P)))) : Except PyErr (Zone P) :=
  match validateName e.1 with
  | .error err => .error err
  | .ok name =>
    match addEach (readB3dSolid geom uid) Solid.name [] e.2 with
    | .error err => .error err
    | .ok ss => .ok ⟨name, uid, ss, none⟩

/-- `read_b3d`, `io/b3d.py` L81-111.  Containers get random uids; the model gives all of them the
same arbitrary `uid`, which no later step looks at. -/
def readB3d (geom : List P → List Tri → Option PyErr) (uid : Str) (doc : B3dDoc P) :
    Except PyErr (Bldg P) :=
  match validateName doc.name with
  | .error err => .error err
  | .ok name =>
    match doc.zones with
    | none => .error .keyError
    | some zones =>
      match addEach (readB3dZone geom uid) Zone.name [] zones with
      | .error err => .error err
      | .ok zs => .ok ⟨name, uid, zs⟩

/-! ### dotbim -/

/-- `TOOL_NAME`, `io/dotbim.py` L19. -/
def TOOL_NAME : Str := "Building3D".toList

/-- `arr.flatten().tolist()` for an array of rows of three. -/
def flatten3 {α : Type} (rows : List (α × α × α)) : List α :=
  rows.flatMap fun r => [r.1, r.2.1, r.2.2]

/-- `np.array(l).reshape((-1, 3))`: `ValueError` when the length is not a multiple of three. -/
def reshape3 {α : Type} : List α → Except PyErr (List (α × α × α))
  | [] => .ok []
  | a :: b :: c :: l =>
    match reshape3 l with
    | .error e => .error e
    | .ok rows => .ok ((a, b, c) :: rows)
  | _ => .error .valueError

/-- `dotbimpy.Mesh` as stored (`io/dotbim.py` L47-51). -/
structure BimMesh (F : Type) where
  meshId : Nat
  coordinates : List F
  indices : List Nat
  deriving DecidableEq

/-- The `info` dictionary of an element (`io/dotbim.py` L56-65). -/
structure BimInfo where
  zoneName : Str
  zoneUid : Str
  solidName : Str
  solidUid : Str
  wallName : Str
  wallUid : Str
  polygonName : Str
  polygonUid : Str
  deriving DecidableEq

/-- `dotbimpy.Element` as stored: only the fields read back (`io/dotbim.py` L71-79); vector,
rotation, guid, type and colour are constant or repeated in `info`. -/
structure BimElement where
  meshId : Nat
  info : BimInfo
  deriving DecidableEq

/-- A .bim file; `generatedBy` may be missing in foreign files.  The remaining keys are assumed to be
present. -/
structure BimFile (F : Type) where
  meshes : List (BimMesh F)
  elements : List BimElement
  buildingName : Str
  buildingUid : Str
  generatedBy : Option Str
  deriving DecidableEq

/-- `write_dotbim`, `io/dotbim.py` L35-96: state is (mesh_id, meshes, elements). -/
def writeDotbim (b : Bldg (F × F × F)) : BimFile F :=
  let st := b.zones.foldl (fun st zone =>
    zone.solids.foldl (fun st sld =>
      sld.walls.foldl (fun st wall =>
        wall.polygons.foldl (fun (st : Nat × List (BimMesh F) × List BimElement) poly =>
          (st.1 + 1, st.2.1 ++ [⟨st.1, flatten3 poly.pts, flatten3 poly.tri⟩],
            st.2.2 ++ [⟨st.1, ⟨zone.name, zone.uid, sld.name, sld.uid, wall.name, wall.uid,
              poly.name, poly.uid⟩⟩])) st) st) st) (0, [], [])
  ⟨st.2.1, st.2.2, b.name, b.uid, some TOOL_NAME⟩

/-- One entry of `data` (`io/dotbim.py` L111-136): vertices, faces and, later, the names. -/
structure BimData (F : Type) where
  vertices : List (F × F × F)
  faces : List Tri
  info : Option BimInfo

/-- The loop over the meshes, `io/dotbim.py` L112-122. -/
def readMeshes : Dict Nat (BimData F) → List (BimMesh F) → Except PyErr (Dict Nat (BimData F))
  | data, [] => .ok data
  | data, m :: ms =>
    match reshape3 m.coordinates with
    | .error e => .error e
    | .ok vertices =>
      match reshape3 m.indices with
      | .error e => .error e
      | .ok faces => readMeshes (put m.meshId ⟨vertices, faces, none⟩ data) ms

/-- `data[mid][...] = ...` for an existing key. -/
def setInfo (mid : Nat) (info : BimInfo) : Dict Nat (BimData F) → Except PyErr (Dict Nat (BimData F))
  | [] => .error .keyError
  | (k, v) :: d =>
    if k = mid then .ok ((k, { v with info := some info }) :: d)
    else
      match setInfo mid info d with
      | .error e => .error e
      | .ok d => .ok ((k, v) :: d)

/-- The loop over the elements, `io/dotbim.py` L127-136. -/
def readElements : Dict Nat (BimData F) → List BimElement → Except PyErr (Dict Nat (BimData F))
  | data, [] => .ok data
  | data, el :: els =>
    match setInfo el.meshId el.info data with
    | .error e => .error e
    | .ok data => readElements data els

/-- The loop building the model dictionary, `io/dotbim.py` L144-160; keys are (uid, name). -/
def buildModel : Nest (Str × Str) (List (F × F × F) × List Tri) → Dict Nat (BimData F) →
    Except PyErr (Nest (Str × Str) (List (F × F × F) × List Tri))
  | model, [] => .ok model
  | model, (_, d) :: rest =>
    match d.info with
    | none => .error .keyError
    | some i =>
      buildModel (putNest (i.zoneUid, i.zoneName) (i.solidUid, i.solidName) (i.wallUid, i.wallName)
        (i.polygonUid, i.polygonName) (d.vertices, d.faces) model) rest

/-- Polygons, `io/dotbim.py` L173-182. -/
def bimPoly (geom : List P → List Tri → Option PyErr)
    (e : (Str × Str) × (List P × List Tri)) : Except PyErr (Poly P) :=
  newPoly geom e.1.2 e.1.1 e.2.1 e.2.2

/-- Walls, `io/dotbim.py` L170-183. -/
def bimWall (geom : List P → List Tri → Option PyErr)
    (e : (Str × Str) × Dict (Str × Str) (List P × List Tri)) : Except PyErr (Wall P) :=
  match e.2.mapM (bimPoly geom) with
  | .error err => .error err
  | .ok polys => newWall e.1.2 e.1.1 polys

/-- Solids, `io/dotbim.py` L167-184. -/
def bimSolid (geom : List P → List Tri → Option PyErr)
    (e : (Str × Str) × Dict (Str × Str) (Dict (Str × Str) (List P × List Tri))) :
    Except PyErr (Solid P) :=
  match e.2.mapM (bimWall geom) with
  | .error err => .error err
  | .ok walls => newSolid e.1.2 e.1.1 walls

/-- Zones, `io/dotbim.py` L164-187. -/
def bimZone (geom : List P → List Tri → Option PyErr)
    (e : (Str × Str) × Dict (Str × Str) (Dict (Str × Str) (Dict (Str × Str)
      (List P × List Tri)))) : Except PyErr (Zone P) :=
  match e.2.mapM (bimSolid geom) with
  | .error err => .error err
  | .ok solids => newZone e.1.2 e.1.1 solids

/-- `read_dotbim`, `io/dotbim.py` L99-190. -/
def readDotbim (geom : List (F × F × F) → List Tri → Option PyErr) (f : BimFile F) :
    Except PyErr (Bldg (F × F × F)) :=
  match f.generatedBy with
  | none => .error .keyError
  | some g =>
    if g ≠ TOOL_NAME then .error .valueError
    else
      match readMeshes [] f.meshes with
      | .error e => .error e
      | .ok data =>
        match readElements data f.elements with
        | .error e => .error e
        | .ok data =>
          match buildModel [] data with
          | .error e => .error e
          | .ok model =>
            match validateName f.buildingName with
            | .error e => .error e
            | .ok name =>
              match addEach (bimZone geom) Zone.name [] model with
              | .error e => .error e
              | .ok zs => .ok ⟨name, f.buildingUid, zs⟩

end B3d.Files
