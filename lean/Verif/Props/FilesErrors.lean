import Verif.Props.Files

/-!
# C17: .bim files which are not accepted
-/

namespace B3d.Files

open B3d.Triangles (Tri)
open B3d.Tree
open B3d.ArrayFormat

variable {P F : Type}

/-! ### Meshes without an element -/

theorem readMeshes_some (ms : List (BimMesh F)) : ∀ (d : Dict Nat (BimData F)),
    (∀ m ∈ ms, m.coordinates.length % 3 = 0 ∧ m.indices.length % 3 = 0) → (∀ e ∈ d, e.2.info = none) →
    ∃ d', readMeshes d ms = .ok d' ∧ (∀ e ∈ d', e.2.info = none) ∧
      ∀ i, i ∈ d.map Prod.fst ∨ i ∈ ms.map BimMesh.meshId → i ∈ d'.map Prod.fst := by
  have hput : ∀ (k : Nat) (v : BimData F) (d : Dict Nat (BimData F)), v.info = none → (∀ e ∈ d, e.2.info = none) →
      (∀ e ∈ put k v d, e.2.info = none) ∧ ∀ i, i ∈ d.map Prod.fst ∨ i = k → i ∈ (put k v d).map Prod.fst := by
    intro k v d hv
    unfold put
    induction d with
    | nil => intro _; simp [upd, hv]
    | cons e d ih =>
      obtain ⟨k', v'⟩ := e
      intro h
      obtain ⟨h1, h2⟩ := ih fun e he => h e (List.mem_cons_of_mem _ he)
      rw [upd]
      by_cases hk : k' = k
      · rw [if_pos hk]
        refine ⟨?_, ?_⟩
        · intro e he
          rcases List.mem_cons.1 he with rfl | he
          · exact hv
          · exact h e (List.mem_cons_of_mem _ he)
        · rintro i (hi | rfl)
          · exact hi
          · simp [hk]
      · rw [if_neg hk]
        refine ⟨?_, ?_⟩
        · intro e he
          rcases List.mem_cons.1 he with rfl | he
          · exact h _ List.mem_cons_self
          · exact h1 e he
        · intro i hi
          simp only [List.map_cons, List.mem_cons] at hi ⊢
          rcases hi with (hi | hi) | hi
          · exact .inl hi
          · exact .inr (h2 i (.inl hi))
          · exact .inr (h2 i (.inr hi))
  induction ms with
  | nil => intro d _ hd; exact ⟨d, rfl, hd, fun i hi => hi.resolve_right (by simp)⟩
  | cons m ms ih =>
    intro d hm hd
    obtain ⟨a, b⟩ := hm m List.mem_cons_self
    obtain ⟨v, hv⟩ := (reshape3_cases m.coordinates).1 a
    obtain ⟨f, hf⟩ := (reshape3_cases m.indices).1 b
    obtain ⟨p1, p2⟩ := hput m.meshId ⟨v, f, none⟩ d rfl hd
    obtain ⟨d', h1, h2, h3⟩ := ih _ (fun m hm' => hm m (List.mem_cons_of_mem _ hm')) p1
    refine ⟨d', by rw [readMeshes, hv]; simp only [hf, h1], h2, fun i hi => h3 i ?_⟩
    simp only [List.map_cons, List.mem_cons] at hi
    rcases hi with hi | hi | hi
    · exact .inl (p2 i (.inl hi))
    · exact .inl (p2 i (.inr hi))
    · exact .inr hi

theorem setInfo_other (mid : Nat) (info : BimInfo) (d : Dict Nat (BimData F)) (h : mid ∈ d.map Prod.fst) :
    ∃ d', setInfo mid info d = .ok d' ∧ ∀ i v, i ≠ mid → (i, v) ∈ d → (i, v) ∈ d' := by
  induction d with
  | nil => simp at h
  | cons e d ih =>
    obtain ⟨k, v⟩ := e
    rw [setInfo]
    by_cases hk : k = mid
    · rw [if_pos hk]
      refine ⟨_, rfl, fun i w hi hm => ?_⟩
      rcases List.mem_cons.1 hm with hm | hm
      · cases hm; exact absurd hk hi
      · exact List.mem_cons_of_mem _ hm
    · rw [if_neg hk]
      simp only [List.map_cons, List.mem_cons] at h
      obtain ⟨d', h1, h2⟩ := ih (h.resolve_left fun e => hk e.symm)
      rw [h1]
      refine ⟨_, rfl, fun i w hi hm => ?_⟩
      rcases List.mem_cons.1 hm with hm | hm
      · rw [hm]; exact List.mem_cons_self
      · exact List.mem_cons_of_mem _ (h2 i w hi hm)

theorem readElements_other (els : List BimElement) : ∀ (d : Dict Nat (BimData F)),
    (∀ el ∈ els, el.meshId ∈ d.map Prod.fst) →
    ∃ d', readElements d els = .ok d' ∧ ∀ i v, i ∉ els.map BimElement.meshId → (i, v) ∈ d → (i, v) ∈ d' := by
  induction els with
  | nil => intro d _; exact ⟨d, rfl, fun _ _ _ h => h⟩
  | cons e els ih =>
    intro d h
    obtain ⟨d1, h1, h2⟩ := setInfo_other e.meshId e.info d (h e List.mem_cons_self)
    obtain ⟨d2, h3, h4⟩ := ih d1 fun el hel => by
      rw [setInfo_keys _ _ _ _ h1]
      exact h el (List.mem_cons_of_mem _ hel)
    refine ⟨d2, by rw [readElements, h1]; exact h3, fun i v hi hm => ?_⟩
    simp only [List.map_cons, List.mem_cons, not_or] at hi
    exact h4 i v hi.2 (h2 i v hi.1 hm)

theorem buildModel_none (d : Dict Nat (BimData F)) : ∀ M, (∃ e ∈ d, e.2.info = none) →
    buildModel M d = .error .keyError := by
  induction d with
  | nil => rintro M ⟨e, he, -⟩; simp at he
  | cons x d ih =>
    obtain ⟨k, v⟩ := x
    rintro M ⟨e, he, hn⟩
    rw [buildModel]
    cases hv : v.info with
    | none => rfl
    | some i =>
      rcases List.mem_cons.1 he with rfl | he
      · rw [hn] at hv; cases hv
      · exact ih _ ⟨e, he, hn⟩

/-- **C17, unused meshes.**  A file in which some mesh belongs to no element (and which is in order otherwise) is rejected
with `KeyError`. -/
theorem C17_unused_mesh (geom : List (F × F × F) → List Tri → Option PyErr) (f : BimFile F)
    (hg : f.generatedBy = some "Building3D".toList)
    (hm : ∀ m ∈ f.meshes, m.coordinates.length % 3 = 0 ∧ m.indices.length % 3 = 0)
    (he : ∀ el ∈ f.elements, el.meshId ∈ f.meshes.map BimMesh.meshId)
    (h : ∃ m ∈ f.meshes, m.meshId ∉ f.elements.map BimElement.meshId) :
    readDotbim geom f = .error .keyError := by
  obtain ⟨d, h1, h2, h3⟩ := readMeshes_some f.meshes [] hm (by simp)
  obtain ⟨d', h4, h5⟩ := readElements_other f.elements d fun el hel => h3 _ (.inr (he el hel))
  obtain ⟨m, hm', hn⟩ := h
  obtain ⟨⟨i, v⟩, hv, hi⟩ := List.mem_map.1 (h3 m.meshId (.inr (List.mem_map_of_mem hm')))
  simp only at hi
  have hg' : f.generatedBy = some TOOL_NAME := hg
  unfold readDotbim
  simp only [hg', ne_eq, not_true_eq_false, if_false, h1, h4]
  rw [buildModel_none d' [] ⟨(i, v), h5 i v (by rw [hi]; exact hn) hv, h2 _ hv⟩]

/-- **C17, elements without a mesh.**  A file in which some element belongs to no mesh (and whose meshes are in order) is
rejected with `KeyError`. -/
theorem C17_missing_mesh (geom : List (F × F × F) → List Tri → Option PyErr) (f : BimFile F)
    (hg : f.generatedBy = some "Building3D".toList)
    (hm : ∀ m ∈ f.meshes, m.coordinates.length % 3 = 0 ∧ m.indices.length % 3 = 0)
    (h : ∃ el ∈ f.elements, el.meshId ∉ f.meshes.map BimMesh.meshId) :
    readDotbim geom f = .error .keyError := by
  obtain ⟨d, h1, -, -⟩ := readMeshes_some f.meshes [] hm (by simp)
  have hg' : f.generatedBy = some TOOL_NAME := hg
  unfold readDotbim
  simp only [hg', ne_eq, not_true_eq_false, if_false, h1]
  rw [readElements_missing]
  obtain ⟨el, h3, h4⟩ := h
  refine ⟨el, h3, fun h5 => ?_⟩
  rcases readMeshes_keys _ _ _ h1 _ h5 with h6 | h6
  · exact h4 h6
  · simp at h6

/-- Non-vacuity of `C17_unused_mesh` and `C17_missing_mesh`. -/
example : ∃ f g : BimFile Nat, f.generatedBy = some "Building3D".toList ∧ g.generatedBy = some "Building3D".toList ∧
    (∀ m ∈ f.meshes, m.coordinates.length % 3 = 0 ∧ m.indices.length % 3 = 0) ∧
    (∀ m ∈ g.meshes, m.coordinates.length % 3 = 0 ∧ m.indices.length % 3 = 0) ∧
    (∀ el ∈ f.elements, el.meshId ∈ f.meshes.map BimMesh.meshId) ∧
    (∃ m ∈ f.meshes, m.meshId ∉ f.elements.map BimElement.meshId) ∧
    ∃ el ∈ g.elements, el.meshId ∉ g.meshes.map BimMesh.meshId := by
  refine ⟨⟨[⟨0, [0, 0, 0, 1, 0, 0, 0, 1, 0], [0, 1, 2]⟩, ⟨4, [], []⟩], [⟨0, ⟨[], [], [], [], [], [], [], []⟩⟩], ['b'], [],
    some "Building3D".toList⟩, ⟨[⟨0, [], []⟩], [⟨1, ⟨[], [], [], [], [], [], [], []⟩⟩], ['b'], [],
    some "Building3D".toList⟩, rfl, rfl, ?_, ?_, ?_, ?_, ?_⟩ <;> simp

/-! ### Repeated names -/

theorem addAllNew_repeated {X : Type} (name : X → Str) (xs : List X) : ∀ done, ((done).map name).Nodup →
    ¬ ((done ++ xs).map name).Nodup → addAllNew name done xs = .error .geometryError := by
  induction xs with
  | nil => intro done h h'; simp [h] at h'
  | cons x xs ih =>
    intro done h h'
    rw [addAllNew]
    by_cases hx : name x ∈ done.map name
    · rw [if_pos hx]
    · rw [if_neg hx]
      refine ih _ ?_ (by simpa using h')
      rw [List.map_append, List.nodup_append]
      refine ⟨h, by simp, ?_⟩
      rintro a ha b hb rfl
      simp only [List.map_cons, List.map_nil, List.mem_singleton] at hb
      exact hx (hb ▸ ha)

/-- What a reader does which either succeeds or finds a repeated name. -/
def Reads {X : Type} (r : Except PyErr X) (ok : Prop) (x : X) : Prop :=
  (ok ∧ r = .ok x) ∨ (¬ ok ∧ r = .error .geometryError)

theorem mapM_reads {E X X' : Type} {make : E → Except PyErr X'} {enc : X → E} {ok : X → Prop}
    {x : X → X'} {xs : List X} (hm : ∀ a ∈ xs, Reads (make (enc a)) (ok a) (x a)) :
    Reads ((xs.map enc).mapM make) (∀ a ∈ xs, ok a) (xs.map x) := by
  induction xs with
  | nil => exact .inl ⟨by simp, rfl⟩
  | cons a xs ih =>
    rw [List.map_cons, List.mapM_cons]
    rcases hm a List.mem_cons_self with ⟨h1, h2⟩ | ⟨h1, h2⟩
    · rw [h2]
      rcases ih fun b hb => hm b (List.mem_cons_of_mem _ hb) with ⟨h3, h4⟩ | ⟨h3, h4⟩
      · rw [h4]
        exact .inl ⟨by simpa using ⟨h1, h3⟩, rfl⟩
      · rw [h4]
        refine .inr ⟨fun h => h3 fun b hb => h b (List.mem_cons_of_mem _ hb), rfl⟩
    · rw [h2]
      exact .inr ⟨fun h => h1 (h a List.mem_cons_self), rfl⟩

theorem addAllNew_reads {X : Type} (name : X → Str) (xs : List X) :
    Reads (addAllNew name [] xs) (xs.map name).Nodup xs := by
  by_cases h : (xs.map name).Nodup
  · exact .inl ⟨h, addAllNew_ok name xs [] h⟩
  · exact .inr ⟨h, addAllNew_repeated name xs [] (by simp) h⟩

theorem addEach_reads {E X X' : Type} {make : E → Except PyErr X'} (name : X' → Str) {enc : X → E} {ok : X → Prop}
    {x : X → X'} (xs : List X) (hm : ∀ a ∈ xs, Reads (make (enc a)) (ok a) (x a)) : ∀ done, (done.map name).Nodup →
    Reads (addEach make name done (xs.map enc)) ((∀ a ∈ xs, ok a) ∧ ((done ++ xs.map x).map name).Nodup)
      (done ++ xs.map x) := by
  induction xs with
  | nil => intro done hd; exact .inl ⟨by simp [hd], by simp [addEach]⟩
  | cons a xs ih =>
    intro done hd
    rw [List.map_cons, addEach]
    rcases hm a List.mem_cons_self with ⟨h1, h2⟩ | ⟨h1, h2⟩
    · rw [h2]
      simp only
      by_cases hx : name (x a) ∈ done.map name
      · rw [if_pos hx]
        refine .inr ⟨?_, rfl⟩
        rintro ⟨-, h⟩
        rw [List.map_append, List.map_cons, List.map_cons, List.nodup_append] at h
        exact h.2.2 _ hx _ (by simp) rfl
      · rw [if_neg hx]
        have hd' : ((done ++ [x a]).map name).Nodup := by
          rw [List.map_append, List.nodup_append]
          refine ⟨hd, by simp, ?_⟩
          rintro c hc b hb rfl
          simp only [List.map_cons, List.map_nil, List.mem_singleton] at hb
          exact hx (hb ▸ hc)
        have := ih (fun b hb => hm b (List.mem_cons_of_mem _ hb)) (done ++ [x a]) hd'
        simp only [List.append_assoc, List.singleton_append] at this
        rcases this with ⟨⟨h3, h4⟩, h5⟩ | ⟨h3, h5⟩
        · exact .inl ⟨⟨by simpa using ⟨h1, h3⟩, h4⟩, h5⟩
        · exact .inr ⟨fun h => h3 ⟨fun b hb => h.1 b (List.mem_cons_of_mem _ hb), h.2⟩, h5⟩
    · rw [h2]
      exact .inr ⟨fun h => h1 (h.1 a List.mem_cons_self), rfl⟩

theorem wall_reads {geom : List P → List Tri → Option PyErr} {w : Wall P} (hn : PATH_SEP ∉ w.name)
    (hp : ∀ p ∈ w.polygons, PATH_SEP ∉ p.name) (hg : ∀ p ∈ w.polygons, geom p.pts p.tri = none) :
    Reads (bimWall geom ((w.uid, w.name), w.polygons.map fun p => ((p.uid, p.name), (p.pts, p.tri))))
      (w.polygons.map Poly.name).Nodup (freshWall w) := by
  unfold bimWall
  simp only []
  rw [mapM_map_ok _ _ freshPoly]
  · have := addAllNew_reads Poly.name (w.polygons.map freshPoly)
    have e : ((w.polygons.map freshPoly).map Poly.name) = w.polygons.map Poly.name := by
      simp [Function.comp_def, freshPoly]
    rw [e] at this
    rcases this with ⟨h1, h2⟩ | ⟨h1, h2⟩
    · exact .inl ⟨h1, by simp only [newWall, validName hn, h2]; rfl⟩
    · exact .inr ⟨h1, by simp only [newWall, validName hn, h2]⟩
  · intro p hp'
    simp only [bimPoly, newPoly, hg p hp', validName (hp p hp')]
    rfl

theorem solid_reads {geom : List P → List Tri → Option PyErr} {s : Solid P} (hn : PATH_SEP ∉ s.name)
    (hw : ∀ w ∈ s.walls, PATH_SEP ∉ w.name) (hp : ∀ w ∈ s.walls, ∀ p ∈ w.polygons, PATH_SEP ∉ p.name)
    (hg : ∀ w ∈ s.walls, ∀ p ∈ w.polygons, geom p.pts p.tri = none) :
    Reads (bimSolid geom ((s.uid, s.name), s.walls.map fun w => ((w.uid, w.name),
        w.polygons.map fun p => ((p.uid, p.name), (p.pts, p.tri)))))
      ((∀ w ∈ s.walls, (w.polygons.map Poly.name).Nodup) ∧ (s.walls.map Wall.name).Nodup) (freshSolid s) := by
  unfold bimSolid
  simp only []
  rcases mapM_reads (xs := s.walls) fun w hw' => wall_reads (hw w hw') (hp w hw') (hg w hw') with ⟨h1, h2⟩ | ⟨h1, h2⟩
  · rw [h2]
    have := addAllNew_reads Wall.name (s.walls.map freshWall)
    have e : ((s.walls.map freshWall).map Wall.name) = s.walls.map Wall.name := by
      simp [Function.comp_def, freshWall]
    rw [e] at this
    rcases this with ⟨h3, h4⟩ | ⟨h3, h4⟩
    · exact .inl ⟨⟨h1, h3⟩, by simp only [newSolid, validName hn, h4]; rfl⟩
    · exact .inr ⟨fun h => h3 h.2, by simp only [newSolid, validName hn, h4]⟩
  · rw [h2]
    exact .inr ⟨fun h => h1 h.1, rfl⟩

theorem zone_reads {geom : List P → List Tri → Option PyErr} {b : Bldg P} (hv : ValidNames b) (hg : Accepted geom b)
    {z : Zone P} (hz : z ∈ b.zones) :
    Reads (bimZone geom ((z.uid, z.name), z.solids.map fun s => ((s.uid, s.name), s.walls.map fun w => ((w.uid, w.name),
        w.polygons.map fun p => ((p.uid, p.name), (p.pts, p.tri))))))
      ((∀ s ∈ z.solids, (∀ w ∈ s.walls, (w.polygons.map Poly.name).Nodup) ∧ (s.walls.map Wall.name).Nodup) ∧
        (z.solids.map Solid.name).Nodup) (freshZone z) := by
  unfold bimZone
  simp only []
  rcases mapM_reads (xs := z.solids) fun s hs => solid_reads (hv.solids z hz s hs) (hv.walls z hz s hs)
    (hv.polygons z hz s hs) (hg z hz s hs) with ⟨h1, h2⟩ | ⟨h1, h2⟩
  · rw [h2]
    have := addAllNew_reads Solid.name (z.solids.map freshSolid)
    have e : ((z.solids.map freshSolid).map Solid.name) = z.solids.map Solid.name := by
      simp [Function.comp_def, freshSolid]
    rw [e] at this
    rcases this with ⟨h3, h4⟩ | ⟨h3, h4⟩
    · exact .inl ⟨⟨h1, h3⟩, by simp only [newZone, validName (hv.zones z hz), h4]; rfl⟩
    · exact .inr ⟨fun h => h3 h.2, by simp only [newZone, validName (hv.zones z hz), h4]⟩
  · rw [h2]
    exact .inr ⟨fun h => h1 h.1, rfl⟩

theorem bldg_reads {geom : List P → List Tri → Option PyErr} {b : Bldg P} (hv : ValidNames b) (hg : Accepted geom b) :
    Reads (addEach (bimZone geom) Zone.name [] (nestOf (fun u n => (u, n)) (fun p => (p.pts, p.tri)) b)) (Distinct b)
      (freshBldg b).zones := by
  unfold nestOf
  have := addEach_reads Zone.name b.zones (fun z hz => zone_reads hv hg hz) [] (by simp)
  have e : (([] ++ b.zones.map freshZone).map Zone.name) = b.zones.map Zone.name := by
    simp [Function.comp_def, freshZone]
  rw [e] at this
  rcases this with ⟨⟨h1, h2⟩, h3⟩ | ⟨h1, h3⟩
  · exact .inl ⟨⟨h2, fun z hz => (h1 z hz).2, fun z hz s hs => ((h1 z hz).1 s hs).2,
      fun z hz s hs => ((h1 z hz).1 s hs).1⟩, h3⟩
  · refine .inr ⟨fun hd => h1 ⟨fun z hz => ⟨fun s hs => ⟨hd.polygons z hz s hs, hd.walls z hz s hs⟩, hd.solids z hz⟩,
      hd.zones⟩, h3⟩

/-- No two siblings have the same uid and the same name. -/
structure Told (b : Bldg P) : Prop where
  zones : (b.zones.map fun z => (z.uid, z.name)).Nodup
  solids : ∀ z ∈ b.zones, (z.solids.map fun s => (s.uid, s.name)).Nodup
  walls : ∀ z ∈ b.zones, ∀ s ∈ z.solids, (s.walls.map fun w => (w.uid, w.name)).Nodup
  polygons : ∀ z ∈ b.zones, ∀ s ∈ z.solids, ∀ w ∈ s.walls, (w.polygons.map fun p => (p.uid, p.name)).Nodup

/-- **C17, repeated names.**  A file which describes a building where two siblings (zones, solids of a zone, walls of a solid
or polygons of a wall) have the same name but different uids is rejected with `GeometryError`; containers without polygons
are not in the file and do not count. -/
theorem C17_repeated_name (geom : List (F × F × F) → List Tri → Option PyErr) (b : Bldg (F × F × F)) (ht : Told b)
    (hv : ValidNames b) (hg : Accepted geom b) (hn : ¬ Distinct (prune b)) :
    readDotbim geom (writeDotbim b) = .error .geometryError := by
  rw [writeDotbim_eq]
  unfold readDotbim
  simp only [ne_eq, not_true_eq_false, if_false]
  have h1 := readMeshes_eq (recs b) 0 [] (by simp)
  rw [List.nil_append] at h1
  rw [h1]
  simp only []
  have h2 := readElements_eq (recs b) 0 [] (by simp)
  rw [List.nil_append, List.nil_append] at h2
  rw [h2]
  simp only [buildModel_eq, validName hv.bldg]
  have h3 := fold_recs_keys (key := fun u n => (u, n)) (fun p => (p.pts, p.tri)) b
    ⟨ht.zones, ht.solids, ht.walls, ht.polygons⟩
  rw [h3, ((bldg_reads (prune_valid hv) (prune_accepted hg)).resolve_left fun h => hn h.1).2]

/-- Non-vacuity of `C17_repeated_name`: two solids with the same name. -/
example : ∃ b : Bldg (Nat × Nat × Nat), Told b ∧ ValidNames b ∧ Accepted (fun _ _ => none) b ∧ ¬ Distinct (prune b) := by
  refine ⟨⟨['b'], ['1'], [⟨['z'], ['2'], [⟨['s'], ['3'], [⟨['w'], ['4'], [⟨['p'], ['5'], [(0, 0, 0), (1, 0, 0), (0, 1, 0)],
      [(0, 1, 2)], none⟩], none⟩], none⟩, ⟨['s'], ['6'], [⟨['w'], ['7'], [⟨['p'], ['8'], [(0, 0, 1), (1, 0, 1), (0, 1, 1)],
      [(0, 1, 2)], none⟩], none⟩], none⟩], none⟩]⟩, ⟨by decide, by decide, by decide, by decide⟩,
    ⟨by decide, by decide, by decide, by decide, by decide⟩, by intro z _ s _ w _ p _; rfl, ?_⟩
  intro h
  have := h.solids _ List.mem_cons_self
  revert this
  decide

end B3d.Files
