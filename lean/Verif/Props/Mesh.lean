import Verif.Proofs.Mesh

/-!
# C13: meshes of composite objects

A mesh is a pair (vertices, faces); a face holds three vertex numbers.  What a user sees of a mesh is
the list of its triangles as coordinates, `soup`.
-/

namespace B3d.Mesh

open B3d.Triangles (Tri)
open B3d.Tree

variable {P : Type}

/-! ## Specification -/

/-- The coordinates the faces refer to. -/
def soup (m : List P × List Tri) : List (Option P × Option P × Option P) :=
  m.2.map fun t => (m.1[t.1]?, m.1[t.2.1]?, m.1[t.2.2]?)

/-- All face indices refer to existing vertices. -/
def InRange (m : List P × List Tri) : Prop :=
  ∀ t ∈ m.2, t.1 < m.1.length ∧ t.2.1 < m.1.length ∧ t.2.2 < m.1.length

/-- `m` is the union of the meshes `parts`: the vertices of all parts in order, and exactly the
faces of all parts in order, with the coordinates they have in their part. -/
structure IsUnion (m : List P × List Tri) (parts : List (List P × List Tri)) : Prop where
  verts : m.1 = (parts.map Prod.fst).flatten
  faces : soup m = (parts.map soup).flatten
  range : InRange m

/-- A polygon as its constructor leaves it: at least three points, at least one triangle, all vertex
numbers valid. -/
def Proper (p : Poly P) : Prop := 3 ≤ p.pts.length ∧ p.tri ≠ [] ∧ InRange (polyMesh p)

/-- Number of faces. -/
theorem IsUnion.length_faces {m : List P × List Tri} {parts : List (List P × List Tri)}
    (h : IsUnion m parts) : m.2.length = (parts.map fun p => p.2.length).sum := by
  have h1 : (soup m).length = m.2.length := by simp [soup]
  rw [← h1, h.faces, List.length_flatten]
  simp [soup, Function.comp_def]

/-! ## Lemmas -/

theorem soup_shift (pre pts post : List P) (tri : List Tri) (hr : InRange (pts, tri)) :
    soup (pre ++ pts ++ post, tri.map (shiftTri pre.length)) = soup (pts, tri) := by
  unfold soup
  rw [List.map_map]
  apply List.map_congr_left
  intro t ht
  obtain ⟨h1, h2, h3⟩ := hr t ht
  have key : ∀ k, k < pts.length → (pre ++ pts ++ post)[k + pre.length]? = pts[k]? := by
    intro k hk
    rw [List.append_assoc, List.getElem?_append_right (by omega), Nat.add_sub_cancel,
      List.getElem?_append_left hk]
  simp only [Function.comp_apply, shiftTri]
  simp only at h1 h2 h3
  rw [key _ h1, key _ h2, key _ h3]

theorem soup_shifted (l : List (List P × List Tri)) (hr : ∀ m ∈ l, InRange m) :
    ∀ pre : List P, soup (pre ++ (l.map Prod.fst).flatten, shifted pre.length l) =
      (l.map soup).flatten := by
  induction l with
  | nil => intro pre; rfl
  | cons m l ih =>
    obtain ⟨pts, tri⟩ := m
    intro pre
    have h1 := soup_shift pre pts ((l.map Prod.fst).flatten) tri (hr _ (by simp))
    have h2 := ih (fun m hm => hr m (by simp [hm])) (pre ++ pts)
    rw [List.length_append] at h2
    simp only [List.map_cons, List.flatten_cons, shifted, ← h1, ← h2]
    simp [soup]

theorem inRange_shifted (l : List (List P × List Tri)) (hr : ∀ m ∈ l, InRange m) :
    ∀ (k : Nat), ∀ t ∈ shifted k l,
      t.1 < k + (l.map Prod.fst).flatten.length ∧ t.2.1 < k + (l.map Prod.fst).flatten.length ∧
        t.2.2 < k + (l.map Prod.fst).flatten.length := by
  induction l with
  | nil => intro k t ht; simp [shifted] at ht
  | cons m l ih =>
    obtain ⟨pts, tri⟩ := m
    intro k t ht
    simp only [shifted, List.mem_append, List.mem_map] at ht
    simp only [List.map_cons, List.flatten_cons, List.length_append]
    rcases ht with ⟨t0, ht0, rfl⟩ | ht
    · obtain ⟨h1, h2, h3⟩ := hr (pts, tri) (by simp) t0 ht0
      simp only at h1 h2 h3
      simp only [shiftTri]
      omega
    · obtain ⟨h1, h2, h3⟩ := ih (fun m hm => hr m (by simp [hm])) _ t ht
      omega

theorem isUnion_flatten {parts : List (List P × List Tri)}
    (hr : ∀ m ∈ parts, InRange m) :
    IsUnion ((parts.map Prod.fst).flatten, shifted 0 parts) parts where
  verts := rfl
  faces := soup_shifted parts hr []
  range := by
    intro t ht
    have := inRange_shifted parts hr 0 t ht
    simpa using this

/-- Stacking unions gives the union of everything. -/
theorem IsUnion.trans {X : Type} {m : List P × List Tri} (xs : List X)
    (mesh : X → List P × List Tri) (parts : X → List (List P × List Tri))
    (h : IsUnion m (xs.map mesh)) (hx : ∀ x ∈ xs, IsUnion (mesh x) (parts x)) :
    IsUnion m (xs.flatMap parts) where
  verts := by
    rw [h.verts]
    clear h
    induction xs with
    | nil => rfl
    | cons x xs ih =>
      simp only [List.map_cons, List.flatten_cons, List.flatMap_cons, List.map_append,
        List.flatten_append]
      rw [← ih (fun y hy => hx y (by simp [hy])), (hx x (by simp)).verts]
  faces := by
    rw [h.faces]
    clear h
    induction xs with
    | nil => rfl
    | cons x xs ih =>
      simp only [List.map_cons, List.flatten_cons, List.flatMap_cons, List.map_append,
        List.flatten_append]
      rw [← ih (fun y hy => hx y (by simp [hy])), (hx x (by simp)).faces]
  range := h.range

/-! ## C13 -/

/-- C13, the stacking function.  Whatever parts are given (numbers of points and triangles, any order),
if no part without points (or triangles) stands between two parts that have some, the result is the
union of the parts. -/
theorem C13_vstack_union (zero : P) (parts : List (List P × List Tri))
    (hr : ∀ m ∈ parts, InRange m)
    (hpts : ∀ i j k : Nat, i < j → j < k → ∀ a b c : List P × List Tri, parts[i]? = some a →
      parts[j]? = some b → parts[k]? = some c → a.1 ≠ [] → c.1 ≠ [] → b.1 ≠ [])
    (htri : ∀ i j k : Nat, i < j → j < k → ∀ a b c : List P × List Tri, parts[i]? = some a →
      parts[j]? = some b → parts[k]? = some c → a.2 ≠ [] → c.2 ≠ [] → b.2 ≠ []) :
    ∃ m, vstackMesh zero (parts.map Prod.fst) (parts.map Prod.snd) = .ok m ∧ IsUnion m parts := by
  refine ⟨_, vstackMesh_ok zero parts ?_ ?_, isUnion_flatten hr⟩
  · apply noGap_of_between _ [] 0 (by simp)
    intro i j k hij hjk hi hi' hk hk' hj
    simp only [List.nil_append, List.getElem?_map] at hi hi' hk hk' hj
    obtain ⟨a, ha⟩ : ∃ a, parts[i]? = some a := Option.ne_none_iff_exists'.1 (by simpa using hi')
    obtain ⟨c, hc⟩ : ∃ c, parts[k]? = some c := Option.ne_none_iff_exists'.1 (by simpa using hk')
    rw [ha] at hi; rw [hc] at hk
    obtain ⟨b, hb, hb0⟩ := Option.map_eq_some_iff.1 hj
    exact hpts i j k hij hjk a b c ha hb hc (by intro h; simp [h] at hi)
      (by intro h; simp [h] at hk) (by simpa using hb0)
  · apply noGap_of_between _ [] 0 (by simp)
    intro i j k hij hjk hi hi' hk hk' hj
    simp only [List.nil_append, List.getElem?_map] at hi hi' hk hk' hj
    obtain ⟨a, ha⟩ : ∃ a, parts[i]? = some a := Option.ne_none_iff_exists'.1 (by simpa using hi')
    obtain ⟨c, hc⟩ : ∃ c, parts[k]? = some c := Option.ne_none_iff_exists'.1 (by simpa using hk')
    rw [ha] at hi; rw [hc] at hk
    obtain ⟨b, hb, hb0⟩ := Option.map_eq_some_iff.1 hj
    exact htri i j k hij hjk a b c ha hb hc (by intro h; simp [h] at hi)
      (by intro h; simp [h] at hk) (by simpa using hb0)

/-- C13, sizes: for every list of parts, empty ones anywhere, the call succeeds and the result has as
many vertices and faces as the parts together. -/
theorem C13_vstack_sizes (zero : P) (parts : List (List P × List Tri)) :
    ∃ m, vstackMesh zero (parts.map Prod.fst) (parts.map Prod.snd) = .ok m ∧
      m.1.length = (parts.map fun m => m.1.length).sum ∧
      m.2.length = (parts.map fun m => m.2.length).sum :=
  vstackMesh_total zero parts

/-- C13: a different number of vertex arrays and face arrays is rejected. -/
theorem C13_vstack_mismatch (zero : P) (tPts : List (List P)) (tTri : List (List Tri))
    (h : tPts.length ≠ tTri.length) : vstackMesh zero tPts tTri = .error .assertionError := by
  unfold vstackMesh; rw [if_pos h]

example : ∃ m, vstackMesh (0 : Nat) [[], [1, 2, 3], [4, 5, 6, 7], []]
    [[], [(0, 1, 2)], [(0, 1, 2), (0, 2, 3)], []] = .ok m ∧
      m = ([1, 2, 3, 4, 5, 6, 7], [(0, 1, 2), (3, 4, 5), (3, 5, 6)]) := ⟨_, rfl, rfl⟩

theorem vstack_nonempty (zero : P) (parts : List (List P × List Tri))
    (hr : ∀ m ∈ parts, InRange m) (hne : ∀ m ∈ parts, m.1 ≠ [] ∧ m.2 ≠ []) :
    ∃ m, vstackMesh zero (parts.map Prod.fst) (parts.map Prod.snd) = .ok m ∧ IsUnion m parts :=
  C13_vstack_union zero parts hr
    (fun _ _ _ _ _ _ b _ _ hb _ _ _ => (hne b (List.mem_of_getElem? hb)).1)
    (fun _ _ _ _ _ _ b _ _ hb _ _ _ => (hne b (List.mem_of_getElem? hb)).2)

/-- C13 for walls: every wall, even without polygons. -/
theorem C13_wall_mesh (zero : P) (w : Wall P) (hp : ∀ p ∈ w.polygons, Proper p) :
    ∃ m, wallMesh zero w = .ok m ∧ IsUnion m (w.polygons.map polyMesh) := by
  have h := vstack_nonempty zero (w.polygons.map polyMesh)
    (by
      intro m hm
      obtain ⟨p, hp', rfl⟩ := List.mem_map.1 hm
      exact (hp p hp').2.2)
    (by
      intro m hm
      obtain ⟨p, hp', rfl⟩ := List.mem_map.1 hm
      refine ⟨?_, (hp p hp').2.1⟩
      have := (hp p hp').1
      intro h0
      simp only [polyMesh] at h0
      rw [h0] at this
      simp at this)
  obtain ⟨m, h1, h2⟩ := h
  refine ⟨m, ?_, h2⟩
  rw [← h1, wallMesh, List.map_map, List.map_map]
  rfl

theorem IsUnion.nonempty {m : List P × List Tri} {parts : List (List P × List Tri)}
    (h : IsUnion m parts) (hp : parts ≠ []) (hne : ∀ p ∈ parts, p.1 ≠ [] ∧ p.2 ≠ []) :
    m.1 ≠ [] ∧ m.2 ≠ [] := by
  obtain _ | ⟨p, parts⟩ := parts
  · exact absurd rfl hp
  · have h0 := hne p (by simp)
    constructor
    · rw [h.verts]
      simp [h0.1]
    · intro hm
      have := h.faces
      simp [soup, hm] at this
      exact h0.2 this.1

theorem Proper.nonempty {p : Poly P} (h : Proper p) :
    (polyMesh p).1 ≠ [] ∧ (polyMesh p).2 ≠ [] := by
  refine ⟨?_, h.2.1⟩
  intro h0
  have := h.1
  simp only [polyMesh] at h0
  rw [h0] at this
  simp at this

/-- One level of nesting. -/
theorem stackAll_union {X : Type} (zero : P) (mesh : X → Except PyErr (List P × List Tri))
    (polys : X → List (Poly P)) (xs : List X)
    (hp : ∀ x ∈ xs, ∀ p ∈ polys x, Proper p) (hne : ∀ x ∈ xs, polys x ≠ [])
    (h : ∀ x ∈ xs, ∃ m, mesh x = .ok m ∧ IsUnion m ((polys x).map polyMesh)) :
    ∃ m, stackAll zero mesh xs = .ok m ∧ IsUnion m ((xs.flatMap polys).map polyMesh) := by
  classical
  let g : X → List P × List Tri := fun x => if hx : ∃ m, mesh x = .ok m then hx.choose else ([], [])
  have hg : ∀ x ∈ xs, mesh x = .ok (g x) ∧ IsUnion (g x) ((polys x).map polyMesh) := by
    intro x hx
    obtain ⟨m, h1, h2⟩ := h x hx
    have hex : ∃ m, mesh x = .ok m := ⟨m, h1⟩
    have e : mesh x = .ok (g x) := by
      simp only [g, dif_pos hex]; exact hex.choose_spec
    have : g x = m := by rw [e] at h1; exact Except.ok.inj h1
    exact ⟨e, this ▸ h2⟩
  have hm : xs.mapM mesh = .ok (xs.map g) := mapM_ok mesh g xs fun x hx => (hg x hx).1
  obtain ⟨m, h1, h2⟩ := vstack_nonempty zero (xs.map g)
    (by
      intro m hm
      obtain ⟨x, hx, rfl⟩ := List.mem_map.1 hm
      exact (hg x hx).2.range)
    (by
      intro m hm
      obtain ⟨x, hx, rfl⟩ := List.mem_map.1 hm
      refine (hg x hx).2.nonempty (by simpa using hne x hx) ?_
      intro p hp'
      obtain ⟨q, hq, rfl⟩ := List.mem_map.1 hp'
      exact (hp x hx q hq).nonempty)
  refine ⟨m, ?_, ?_⟩
  · unfold stackAll
    rw [hm]
    exact h1
  · rw [List.map_flatMap]
    exact h2.trans xs g _ fun x hx => (hg x hx).2

/-- The polygons of a solid, zone and building in order. -/
def solidPolys (s : Solid P) : List (Poly P) := s.walls.flatMap Wall.polygons
/-- The polygons of a zone in order. -/
def zonePolys (z : Zone P) : List (Poly P) := z.solids.flatMap solidPolys
/-- The polygons of a building in order. -/
def bldgPolys (b : Bldg P) : List (Poly P) := b.zones.flatMap zonePolys

/-- C13 for solids.  Partial: the full property ranges over every solid, the hypothesis `hne`
excludes walls without polygons (`C13_empty_wall_corrupts_mesh`). -/
theorem C13_solid_mesh_partial (zero : P) (s : Solid P) (hp : ∀ p ∈ solidPolys s, Proper p)
    (hne : ∀ w ∈ s.walls, w.polygons ≠ []) :
    ∃ m, solidMesh zero s = .ok m ∧ IsUnion m ((solidPolys s).map polyMesh) :=
  stackAll_union zero (wallMesh zero) Wall.polygons s.walls
    (fun w hw p hpw => hp p (List.mem_flatMap.2 ⟨w, hw, hpw⟩)) hne
    (fun w hw => C13_wall_mesh zero w fun p hpw => hp p (List.mem_flatMap.2 ⟨w, hw, hpw⟩))

theorem solidPolys_ne {s : Solid P} (h1 : s.walls ≠ []) (h2 : ∀ w ∈ s.walls, w.polygons ≠ []) :
    solidPolys s ≠ [] := by
  obtain ⟨name, uid, walls, num⟩ := s
  obtain _ | ⟨w, ws⟩ := walls
  · exact absurd rfl h1
  · have := h2 w (by simp)
    simp [solidPolys, this]

/-- C13 for zones.  Partial: walls and solids inside are not empty. -/
theorem C13_zone_mesh_partial (zero : P) (z : Zone P) (hp : ∀ p ∈ zonePolys z, Proper p)
    (hne : ∀ s ∈ z.solids, s.walls ≠ [] ∧ ∀ w ∈ s.walls, w.polygons ≠ []) :
    ∃ m, zoneMesh zero z = .ok m ∧ IsUnion m ((zonePolys z).map polyMesh) :=
  stackAll_union zero (solidMesh zero) solidPolys z.solids
    (fun s hs p hps => hp p (List.mem_flatMap.2 ⟨s, hs, hps⟩))
    (fun s hs => solidPolys_ne (hne s hs).1 (hne s hs).2)
    (fun s hs => C13_solid_mesh_partial zero s
      (fun p hps => hp p (List.mem_flatMap.2 ⟨s, hs, hps⟩)) (hne s hs).2)

/-- C13 for buildings.  Partial: walls, solids and zones inside are not empty. -/
theorem C13_building_mesh_partial (zero : P) (b : Bldg P) (hp : ∀ p ∈ bldgPolys b, Proper p)
    (hne : ∀ z ∈ b.zones, z.solids ≠ [] ∧
      ∀ s ∈ z.solids, s.walls ≠ [] ∧ ∀ w ∈ s.walls, w.polygons ≠ []) :
    ∃ m, buildingMesh zero b = .ok m ∧ IsUnion m ((bldgPolys b).map polyMesh) :=
  stackAll_union zero (zoneMesh zero) zonePolys b.zones
    (fun z hz p hpz => hp p (List.mem_flatMap.2 ⟨z, hz, hpz⟩))
    (fun z hz => by
      obtain ⟨h1, h2⟩ := hne z hz
      obtain ⟨name, uid, solids, num⟩ := z
      obtain _ | ⟨s, ss⟩ := solids
      · exact absurd rfl h1
      · have := h2 s (by simp)
        have h3 := solidPolys_ne this.1 this.2
        simp [zonePolys, h3])
    (fun z hz => C13_zone_mesh_partial zero z
      (fun p hpz => hp p (List.mem_flatMap.2 ⟨z, hz, hpz⟩)) (hne z hz).2)

/-- Two triangles in two walls with an empty wall between them. -/
def gapSolid : Solid Nat :=
  ⟨['s'], ['u'], [⟨['a'], ['u'], [⟨['p'], ['u'], [10, 11, 12], [(0, 1, 2)], none⟩], none⟩,
    ⟨['b'], ['u'], [], none⟩,
    ⟨['c'], ['u'], [⟨['q'], ['u'], [20, 21, 22], [(0, 1, 2)], none⟩], none⟩], none⟩

/-- C13 is false for a solid with an empty wall between two others: the triangle of the first wall is
lost, the last vertices are zero and the remaining face refers to them. -/
theorem C13_empty_wall_corrupts_mesh :
    (∀ p ∈ solidPolys gapSolid, Proper p) ∧
    solidMesh 0 gapSolid = .ok ([20, 21, 22, 0, 0, 0], [(3, 4, 5), (0, 0, 0)]) ∧
    ∀ m, solidMesh 0 gapSolid = .ok m →
      ¬ IsUnion m ((solidPolys gapSolid).map polyMesh) := by
  have h : solidMesh 0 gapSolid = .ok ([20, 21, 22, 0, 0, 0], [(3, 4, 5), (0, 0, 0)]) := by
    decide +kernel
  refine ⟨?_, h, ?_⟩
  · intro p hp
    simp [solidPolys, gapSolid] at hp
    rcases hp with rfl | rfl <;> simp [Proper, InRange, polyMesh]
  · intro m hm hu
    rw [h] at hm
    have := Except.ok.inj hm
    subst this
    have := hu.verts
    simp [solidPolys, gapSolid, polyMesh] at this

/-- A zone with two solids of one and two walls meets the hypotheses. -/
def demoZone : Zone Nat :=
  ⟨['z'], ['u'], [⟨['s'], ['u'], [⟨['a'], ['u'], [⟨['p'], ['u'], [10, 11, 12], [(0, 1, 2)], none⟩,
      ⟨['q'], ['u'], [13, 14, 15, 16], [(0, 1, 2), (0, 2, 3)], none⟩], none⟩], none⟩,
    ⟨['t'], ['u'], [⟨['a'], ['u'], [⟨['p'], ['u'], [20, 21, 22], [(0, 1, 2)], none⟩], none⟩,
      ⟨['b'], ['u'], [⟨['p'], ['u'], [23, 24, 25], [(2, 1, 0)], none⟩], none⟩], none⟩], none⟩

example : (∀ p ∈ zonePolys demoZone, Proper p) ∧
    (∀ s ∈ demoZone.solids, s.walls ≠ [] ∧ ∀ w ∈ s.walls, w.polygons ≠ []) ∧
    zoneMesh 0 demoZone = .ok ([10, 11, 12, 13, 14, 15, 16, 20, 21, 22, 23, 24, 25],
      [(0, 1, 2), (3, 4, 5), (3, 5, 6), (7, 8, 9), (12, 11, 10)]) := by
  refine ⟨?_, ?_, by decide +kernel⟩
  · intro p hp
    simp [zonePolys, solidPolys, demoZone] at hp
    rcases hp with rfl | rfl | rfl | rfl <;> simp [Proper, InRange, polyMesh]
  · simp [demoZone]

end B3d.Mesh
