import Verif.Props.Reload
import Verif.Props.ArrayFormat
import Verif.Props.SimSetup

/-! # C101: saving and reading a building keeps what the simulation works on -/

namespace B3d.Files

open B3d.Triangles (Tri)
open B3d.Tree
open B3d.ArrayFormat
open B3d.Mesh (polyMesh shifted)

variable {P : Type}

/-- The polygons of a building in order: vertices and triangles. -/
def shapes (b : Bldg P) : List (List P × List Tri) := (allPolys b).map fun p => (p.pts, p.tri)

theorem shapes_leaves (b : Bldg P) :
    shapes b = (leaves b).map fun e => (e.2.2.2.2.2.1, e.2.2.2.2.2.2) := by
  simp [shapes, allPolys, allWalls, allSolids, leaves, List.map_flatMap, List.flatMap_assoc, Function.comp_def]

theorem geometry_view (b : Bldg P) : geometry b = (view b).2.map fun z => z.2.map fun s => s.2.map fun w =>
    w.2.map fun p => (p.2.2.1, p.2.2.2) := by
  simp [geometry, view, Function.comp_def]

/-- Buildings with the same polygons in the same order have the same arrays of points, faces and polygons, and equally many
polygons, however these are distributed over walls, solids and zones. -/
theorem arrays_of_shapes (zero : P) {b b' : Bldg P} (h : shapes b = shapes b') :
    ∃ n n' st st', toArrayFormat zero b = .ok (n, st) ∧ toArrayFormat zero b' = .ok (n', st') ∧
      st.points = st'.points ∧ st.faces = st'.faces ∧ st.polygons = st'.polygons ∧
      st.walls.length = st'.walls.length := by
  have own_len : ∀ (l : List Nat) k, (own k l).length = l.sum := by
    intro l
    induction l with
    | nil => intro k; rfl
    | cons a l ih => intro k; simp [own, ih]
  obtain ⟨st, h0, e1, e2, e3, e4, -⟩ := toArrayFormat_eq zero b
  obtain ⟨st', h0', e1', e2', e3', e4', -⟩ := toArrayFormat_eq zero b'
  rw [← allPolys_eq] at e1 e2 e3 e1' e2' e3'
  refine ⟨_, _, st, st', h0, h0', ?_, ?_, ?_, ?_⟩
  · have key : ∀ b : Bldg P, polysPts (allPolys b) = (shapes b).flatMap Prod.fst := by
      intro b; simp [polysPts, shapes, List.flatMap_map]
    rw [e1, e1', key, key, h]
  · have key : ∀ b : Bldg P, (allPolys b).map polyMesh = (shapes b).map fun e => (e.1, e.2) := by
      intro b
      simp only [shapes, List.map_map]
      rfl
    rw [e2, e2', key, key, h]
  · have key : ∀ b : Bldg P, ((allPolys b).map fun p => p.tri.length) = (shapes b).map fun e => e.2.length := by
      intro b; simp [shapes, Function.comp_def]
    rw [e3, e3', key, key, h]
  · have key : ∀ b : Bldg P, (((solidsWalls (zonesSolids b.zones)).map fun w => w.polygons.length)).sum =
        (shapes b).length := by
      intro b
      rw [← allWalls_eq, shapes, List.length_map, allPolys, List.length_flatMap]
    rw [e4, e4', own_len, own_len, key, key, h]

/-- Buildings with the same nesting, vertices and triangles have the same six arrays. -/
theorem arrays_of_geometry (zero : P) {b b' : Bldg P} (h : geometry b = geometry b') :
    ∃ n n' st st', toArrayFormat zero b = .ok (n, st) ∧ toArrayFormat zero b' = .ok (n', st') ∧
      st.points = st'.points ∧ st.faces = st'.faces ∧ st.polygons = st'.polygons ∧
      st.walls = st'.walls ∧ st.solids = st'.solids ∧ st.zones = st'.zones := by
  have hs : shapes b = shapes b' := by
    have key : ∀ b : Bldg P, shapes b = (geometry b).flatten.flatten.flatten := by
      intro b
      simp [shapes, geometry, allPolys, allWalls, allSolids, List.flatMap_def, List.map_flatten, Function.comp_def]
    rw [key, key, h]
  obtain ⟨n, n', st, st', h0, h0', a1, a2, a3, -⟩ := arrays_of_shapes zero hs
  refine ⟨n, n', st, st', h0, h0', a1, a2, a3, ?_⟩
  obtain ⟨s, k, -, -, -, e4, e5, e6⟩ := toArrayFormat_eq zero b
  obtain ⟨s', k', -, -, -, e4', e5', e6'⟩ := toArrayFormat_eq zero b'
  rw [h0, Except.ok.injEq, Prod.mk.injEq] at k
  rw [h0', Except.ok.injEq, Prod.mk.injEq] at k'
  obtain ⟨-, rfl⟩ := k
  obtain ⟨-, rfl⟩ := k'
  refine ⟨?_, ?_, ?_⟩
  · have key : ∀ b : Bldg P, ((solidsWalls (zonesSolids b.zones)).map fun w => w.polygons.length) =
        (geometry b).flatten.flatten.map List.length := by
      intro b
      simp [geometry, solidsWalls, zonesSolids, List.flatMap_def, List.map_flatten, Function.comp_def]
    rw [e4, e4', key, key, h]
  · have key : ∀ b : Bldg P, ((zonesSolids b.zones).map fun s => s.walls.length) =
        (geometry b).flatten.map List.length := by
      intro b
      simp [geometry, zonesSolids, List.flatMap_def, List.map_flatten, Function.comp_def]
    rw [e5, e5', key, key, h]
  · have key : ∀ b : Bldg P, (b.zones.map fun z => z.solids.length) = (geometry b).map List.length := by
      intro b
      simp [geometry, Function.comp_def]
    rw [e6, e6', key, key, h]

/-- **C101, B3D files.**  A building is saved to a B3D file and read again.  The arrays of points, of faces and of the polygons of
the faces are the same for both, and so is the number of polygons. -/
theorem C101_b3d (zero : P) (geom : List P → List Tri → Option PyErr) (uid : Str) (b : Bldg P)
    (hd : Distinct b) (hv : ValidNames b) (hg : Accepted geom b) (hne : leaves b ≠ []) :
    ∃ b' n n' st st', readB3d geom uid (writeB3d b) = .ok b' ∧
      toArrayFormat zero b = .ok (n, st) ∧ toArrayFormat zero b' = .ok (n', st') ∧
      st'.points = st.points ∧ st'.faces = st.faces ∧ st'.polygons = st.polygons ∧
      st'.walls.length = st.walls.length := by
  obtain ⟨b', h, -, hl, -⟩ := C16_every_polygon geom uid b hd hv hg hne
  obtain ⟨n', n, st', st, h1, h2, h3⟩ := arrays_of_shapes zero
    (show shapes b' = shapes b by rw [shapes_leaves, shapes_leaves, hl])
  exact ⟨b', n, n', st, st', h, h2, h1, h3⟩

/-- **C101, all arrays.**  If no wall, solid or zone of the building is empty, all six arrays are the same. -/
theorem C101_b3d_exact (zero : P) (geom : List P → List Tri → Option PyErr) (uid : Str) (b : Bldg P)
    (hd : Distinct b) (hv : ValidNames b) (hg : Accepted geom b) (hne : leaves b ≠ []) (he : NoneEmpty b) :
    ∃ b' n n' st st', readB3d geom uid (writeB3d b) = .ok b' ∧
      toArrayFormat zero b = .ok (n, st) ∧ toArrayFormat zero b' = .ok (n', st') ∧
      st'.points = st.points ∧ st'.faces = st.faces ∧ st'.polygons = st.polygons ∧
      st'.walls = st.walls ∧ st'.solids = st.solids ∧ st'.zones = st.zones := by
  obtain ⟨b', h, hw⟩ := C16_exact geom uid b hd hv hg hne he
  obtain ⟨n', n, st', st, h1, h2, h3⟩ := arrays_of_geometry zero
    (show geometry b' = geometry b by rw [geometry_view, geometry_view, hw])
  exact ⟨b', n, n', st, st', h, h2, h1, h3⟩

/-- **C101, dotbim files.** -/
theorem C101_dotbim {F : Type} (zero : F × F × F) (geom : List (F × F × F) → List Tri → Option PyErr)
    (b : Bldg (F × F × F)) (hd : Distinct b) (hv : ValidNames b) (hg : Accepted geom b) :
    ∃ b' n n' st st', readDotbim geom (writeDotbim b) = .ok b' ∧
      toArrayFormat zero b = .ok (n, st) ∧ toArrayFormat zero b' = .ok (n', st') ∧
      st'.points = st.points ∧ st'.faces = st.faces ∧ st'.polygons = st.polygons ∧
      st'.walls.length = st.walls.length := by
  obtain ⟨b', h, -, -, hl, -⟩ := C17_every_polygon geom b hd hv hg
  obtain ⟨n', n, st', st, h1, h2, h3⟩ := arrays_of_shapes zero
    (show shapes b' = shapes b by rw [shapes_leaves, shapes_leaves, hl])
  exact ⟨b', n, n', st, st', h, h2, h1, h3⟩

/-- The triangles of a polygon made from points use exactly its vertices. -/
theorem made_uses {pts : List (Vec3 ℝ)} {vn : Option (Vec3 ℝ)} {P : Polygon.Poly}
    (h : Polygon.polygonNew pts none vn = .ok P) : UsesExactly P.pts P.tri := by
  obtain ⟨hn, v, hv, hc, ht, -⟩ := Polygon.polygonNew_ok h
  obtain ⟨h1, -, h3⟩ := Triangles.C20_triangulate_valid _ _ _ _ _ _ _ hn ht
  have hlen : P.pts.length = pts.length := by rcases h1 with h1 | h1 <;> rw [h1]; simp
  intro k
  constructor
  · intro hk
    exact Triangles.C20_triangulate_uses_every_vertex _ _ _ _ _ _ _ hn ht k (by omega)
  · rintro ⟨⟨a, b, c⟩, hm, hk⟩
    obtain ⟨l1, l2, l3, -⟩ := h3 a b c hm
    rcases hk with rfl | rfl | rfl <;> omega

/-- **C100, arrays.**  A building whose polygons were made from points is converted to arrays and back, with the real
constructor of `Polygon`: if its last zone has a solid, this succeeds, and nesting, vertices and triangles are the same. -/
theorem C100_arrays (rname ruid : Nat → Nat → Str) (hf : FreshNames rname) (b : Bldg (Vec3 ℝ)) (hm : Made b)
    (hz : ∃ z, b.zones.getLast? = some z ∧ z.solids ≠ []) :
    ∃ b' st back, toArrayFormat 0 b = .ok (b', st) ∧
      fromArrayFormat Polygon.readOutcome rname ruid st.points st.faces st.polygons st.walls st.solids st.zones =
        .ok back ∧ geometry back = geometry b := by
  refine C15_round_trip_complete 0 Polygon.readOutcome rname ruid hf b ?_ hz
  intro p hp
  simp only [allPolys, allWalls, allSolids, List.mem_flatMap] at hp
  obtain ⟨w, ⟨s, ⟨z, hz, hs⟩, hw⟩, hp⟩ := hp
  have ha := accepted_of_made hm z hz s hs w hw p hp
  obtain ⟨pts, vn, P, hP, e1, e2, hc⟩ := hm z hz s hs w hw p hp
  exact ⟨by rw [e1, e2]; exact made_uses hP, ha⟩

/-- A building with one tilted square meets the hypotheses of `C100_arrays`. -/
example : ∃ b : Bldg (Vec3 ℝ), Made b ∧ ∃ z, b.zones.getLast? = some z ∧ z.solids ≠ [] := by
  obtain ⟨P, h1, h2, h3, -⟩ := Polygon.square_read
  refine ⟨⟨['b'], [], [⟨['z'], [], [⟨['s'], [], [⟨['w'], [], [⟨['p'], [], P.pts, P.tri, none⟩], none⟩], none⟩], none⟩]⟩,
    ?_, _, rfl, by simp⟩
  simp only [Made, List.forall_mem_singleton]
  exact ⟨_, none, P, h1, rfl, rfl, h3⟩

/-- **C101 fails for empty walls.**  A wall without polygons gets a number in the arrays but is not saved: after reading, the
walls behind it have other numbers. -/
theorem C101_empty_wall : ∃ (b b' n n' : Bldg (Nat × Nat × Nat)) (st st' : AState (Nat × Nat × Nat)),
    Distinct b ∧ ValidNames b ∧ readB3d (fun _ _ => none) [] (writeB3d b) = .ok b' ∧
    toArrayFormat (0, 0, 0) b = .ok (n, st) ∧ toArrayFormat (0, 0, 0) b' = .ok (n', st') ∧
    st.walls = [1] ∧ st'.walls = [0] ∧ st.solids = [0, 0] ∧ st'.solids = [0] := by
  let pp : Poly (Nat × Nat × Nat) := ⟨['p'], ['5'], [(0, 0, 0), (1, 0, 0), (0, 1, 0)], [(0, 1, 2)], none⟩
  let qq : Poly (Nat × Nat × Nat) := { pp with num := some 0 }
  let aa : AState (Nat × Nat × Nat) :=
    ⟨[(0, 0, 0), (1, 0, 0), (0, 1, 0)], [(0, 1, 2)], [0], [1], [0, 0], [0], 1, 2, 1, 1, 3, 1⟩
  refine ⟨⟨['b'], [], [⟨['z'], [], [⟨['s'], [], [⟨['e'], [], [], none⟩, ⟨['w'], [], [pp], none⟩], none⟩], none⟩]⟩,
    ⟨['b'], [], [⟨['z'], [], [⟨['s'], [], [⟨['w'], [], [pp], none⟩], none⟩], none⟩]⟩,
    ⟨['b'], [], [⟨['z'], [], [⟨['s'], [], [⟨['e'], [], [], some 0⟩, ⟨['w'], [], [qq], some 1⟩], some 0⟩], some 0⟩]⟩,
    ⟨['b'], [], [⟨['z'], [], [⟨['s'], [], [⟨['w'], [], [qq], some 0⟩], some 0⟩], some 0⟩]⟩,
    aa, { aa with walls := [0], solids := [0], wn := 1 }, ⟨by decide, by decide, by decide, by decide⟩,
    ⟨by decide, by decide, by decide, by decide, by decide⟩, by decide +kernel, by decide +kernel, by decide +kernel, rfl, rfl,
    rfl, rfl⟩

/-- The sample building of C16, with an empty wall and an empty zone, meets the hypotheses of `C101_b3d` and `C101_dotbim`; what
is left of it without these meets those of `C101_b3d_exact`. -/
example : Distinct sample ∧ ValidNames sample ∧ Accepted (fun _ _ => none) sample ∧ leaves sample ≠ [] ∧
    Distinct (prune sample) ∧ ValidNames (prune sample) ∧ leaves (prune sample) ≠ [] ∧ NoneEmpty (prune sample) := by
  have hd : Distinct sample := ⟨by decide, by decide, by decide, by decide⟩
  have hv : ValidNames sample := ⟨by decide, by decide, by decide, by decide, by decide⟩
  exact ⟨hd, hv, by intro z _ s _ w _ p _; rfl, by decide, prune_distinct hd, prune_valid hv,
    by rw [leaves_prune]; decide, prune_noneEmpty _⟩

end B3d.Files

namespace B3d.Hier

open Polygon Solids Sim ArrayFormat B3d.Files

variable {P P' : Type}

/-- **C101, the simulation.**  Two buildings, in memory in any way, have the same polygons in the same order: vertices and
triangles.  If the search for transparent polygons is off, or finds the same numbers for both, the simulation gets the same
arguments for both, whatever the names, the identifiers and the division into walls, solids and zones; if it is refused
for one of them, then for the other with the same exception. -/
theorem C101_simulation (parseInt : Str → Option Int) (setIter : List Nat → List Nat)
    (h : Heap P) (poly : Polys) (cache : List (Nat × List Str)) (b : Nat)
    (h' : Heap P') (poly' : Polys) (cache' : List (Nat × List Str)) (b' : Nat) (c : SimArgs)
    (hs : shapes (treeOf h poly b) = shapes (treeOf h' poly' b'))
    (ht : c.searchTransparent = true → ∀ n n' st st', toArrayFormat 0 (treeOf h poly b) = .ok (n, st) →
      toArrayFormat 0 (treeOf h' poly' b') = .ok (n', st') →
      transparentNumbers parseInt h poly cache b (polygonNum h b n) =
        transparentNumbers parseInt h' poly' cache' b' (polygonNum h' b' n')) :
    simParams parseInt setIter h poly cache b c = simParams parseInt setIter h' poly' cache' b' c := by
  obtain ⟨n, n', st, st', h0, h0', a1, a2, a3, a4⟩ := arrays_of_shapes 0 hs
  unfold simParams
  rw [h0, h0']
  simp only [a1, a2, a3, a4]
  cases hc : c.searchTransparent with
  | false => rfl
  | true => simp only [if_true]; rw [ht hc n n' st st' h0 h0']

/-- Two buildings in memory, the second with other names and an additional empty wall, meet the hypothesis of
`C101_simulation`. -/
example (poly : Polys) :
    shapes (treeOf ([⟨.polygon, ['p'], some 1, [], []⟩, ⟨.wall, ['w'], some 2, [(['p'], 0)], []⟩,
      ⟨.solid, ['s'], some 3, [(['w'], 1)], []⟩, ⟨.zone, ['z'], some 4, [(['s'], 2)], []⟩,
      ⟨.building, ['b'], none, [(['z'], 3)], []⟩] : Heap Nat) poly 4) =
    shapes (treeOf ([⟨.wall, ['e'], some 3, [], []⟩, ⟨.polygon, ['q'], some 2, [], []⟩, ⟨.wall, ['v'], some 3, [(['q'], 1)], []⟩,
      ⟨.solid, ['t'], some 4, [(['e'], 0), (['v'], 2)], []⟩, ⟨.zone, ['y'], some 5, [(['t'], 3)], []⟩,
      ⟨.building, ['c'], none, [(['y'], 4)], []⟩] : Heap Nat) (fun i => poly (i - 1)) 5) ∧
    shapes (treeOf ([⟨.polygon, ['p'], some 1, [], []⟩, ⟨.wall, ['w'], some 2, [(['p'], 0)], []⟩,
      ⟨.solid, ['s'], some 3, [(['w'], 1)], []⟩, ⟨.zone, ['z'], some 4, [(['s'], 2)], []⟩,
      ⟨.building, ['b'], none, [(['z'], 3)], []⟩] : Heap Nat) poly 4) = [((poly 0).pts, (poly 0).tri)] := by
  constructor <;> rfl

end B3d.Hier
