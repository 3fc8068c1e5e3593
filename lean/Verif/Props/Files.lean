import Verif.Proofs.Files
import Verif.Spec.Files

/-! # Properties C16, C17: B3D and dotbim files -/

namespace B3d.Files

open B3d.Triangles (Tri)
open B3d.Tree
open B3d.ArrayFormat
open B3d.Mesh (mapM_ok)

variable {P F : Type}

/-! ### Helper facts -/

theorem validName {n : Str} (h : PATH_SEP ∉ n) : validateName n = .ok n := by
  unfold validateName; rw [if_neg h]

theorem mem_prune_zones {b : Bldg P} {z : Zone P} (h : z ∈ (prune b).zones) :
    ∃ z0 ∈ b.zones, z = pruneZone z0 := by
  simp only [prune, List.mem_filter, List.mem_map] at h
  obtain ⟨⟨z0, h0, rfl⟩, _⟩ := h
  exact ⟨z0, h0, rfl⟩

theorem mem_pruneZone_solids {z : Zone P} {s : Solid P} (h : s ∈ (pruneZone z).solids) :
    ∃ s0 ∈ z.solids, s = pruneSolid s0 := by
  simp only [pruneZone, List.mem_filter, List.mem_map] at h
  obtain ⟨⟨s0, h0, rfl⟩, _⟩ := h
  exact ⟨s0, h0, rfl⟩

theorem mem_pruneSolid_walls {s : Solid P} {w : Wall P} (h : w ∈ (pruneSolid s).walls) :
    w ∈ s.walls := (List.mem_filter.1 h).1

theorem prune_distinct {b : Bldg P} (h : Distinct b) : Distinct (prune b) := by
  constructor
  · have : ((prune b).zones.map Zone.name).Sublist (b.zones.map Zone.name) := by
      have := (List.filter_sublist (p := fun z : Zone P => !z.solids.isEmpty)
        (l := b.zones.map pruneZone)).map Zone.name
      rw [List.map_map] at this
      exact this
    exact h.zones.sublist this
  · intro z hz
    obtain ⟨z0, h0, rfl⟩ := mem_prune_zones hz
    have : ((pruneZone z0).solids.map Solid.name).Sublist (z0.solids.map Solid.name) := by
      have := (List.filter_sublist (p := fun s : Solid P => !s.walls.isEmpty)
        (l := z0.solids.map pruneSolid)).map Solid.name
      rw [List.map_map] at this
      exact this
    exact (h.solids z0 h0).sublist this
  · intro z hz s hs
    obtain ⟨z0, h0, rfl⟩ := mem_prune_zones hz
    obtain ⟨s0, h1, rfl⟩ := mem_pruneZone_solids hs
    exact (h.walls z0 h0 s0 h1).sublist (List.filter_sublist.map _)
  · intro z hz s hs w hw
    obtain ⟨z0, h0, rfl⟩ := mem_prune_zones hz
    obtain ⟨s0, h1, rfl⟩ := mem_pruneZone_solids hs
    exact h.polygons z0 h0 s0 h1 w (mem_pruneSolid_walls hw)

theorem prune_valid {b : Bldg P} (h : ValidNames b) : ValidNames (prune b) := by
  constructor
  · exact h.bldg
  · intro z hz
    obtain ⟨z0, h0, rfl⟩ := mem_prune_zones hz
    exact h.zones z0 h0
  · intro z hz s hs
    obtain ⟨z0, h0, rfl⟩ := mem_prune_zones hz
    obtain ⟨s0, h1, rfl⟩ := mem_pruneZone_solids hs
    exact h.solids z0 h0 s0 h1
  · intro z hz s hs w hw
    obtain ⟨z0, h0, rfl⟩ := mem_prune_zones hz
    obtain ⟨s0, h1, rfl⟩ := mem_pruneZone_solids hs
    exact h.walls z0 h0 s0 h1 w (mem_pruneSolid_walls hw)
  · intro z hz s hs w hw
    obtain ⟨z0, h0, rfl⟩ := mem_prune_zones hz
    obtain ⟨s0, h1, rfl⟩ := mem_pruneZone_solids hs
    exact h.polygons z0 h0 s0 h1 w (mem_pruneSolid_walls hw)

theorem prune_accepted {geom : List P → List Tri → Option PyErr} {b : Bldg P}
    (h : Accepted geom b) : Accepted geom (prune b) := by
  intro z hz s hs w hw
  obtain ⟨z0, h0, rfl⟩ := mem_prune_zones hz
  obtain ⟨s0, h1, rfl⟩ := mem_pruneZone_solids hs
  exact h z0 h0 s0 h1 w (mem_pruneSolid_walls hw)

theorem prune_noneEmpty (b : Bldg P) : NoneEmpty (prune b) := by
  intro z hz
  have hz1 := (List.mem_filter.1 hz).2
  obtain ⟨z0, h0, rfl⟩ := mem_prune_zones hz
  refine ⟨by simpa [List.isEmpty_iff] using hz1, ?_⟩
  intro s hs
  have hs1 := (List.mem_filter.1 hs).2
  obtain ⟨s0, h1, rfl⟩ := mem_pruneZone_solids hs
  refine ⟨by simpa [List.isEmpty_iff] using hs1, ?_⟩
  intro w hw
  simpa [List.isEmpty_iff] using (List.mem_filter.1 hw).2

theorem flatMap_filter_empty {X Y : Type} (f : X → List Y) (e : X → Bool) (xs : List X)
    (h : ∀ x ∈ xs, e x = true → f x = []) : (xs.filter fun x => !e x).flatMap f = xs.flatMap f := by
  induction xs with
  | nil => rfl
  | cons x xs ih =>
    have ih := ih fun y hy => h y (by simp [hy])
    by_cases hx : e x = true
    · simp [hx, ih, h x (by simp) hx]
    · simp [hx, ih]

theorem leaves_prune (b : Bldg P) : leaves (prune b) = leaves b := by
  unfold leaves prune
  refine (flatMap_filter_empty _ (fun z : Zone P => z.solids.isEmpty) _
    (by intro z _ hz; simp [List.isEmpty_iff.1 hz])).trans ?_
  rw [List.flatMap_map]
  apply List.flatMap_congr
  intro z _
  refine (flatMap_filter_empty _ (fun s : Solid P => s.walls.isEmpty) _
    (by intro s _ hs; simp [List.isEmpty_iff.1 hs])).trans ?_
  rw [List.flatMap_map]
  apply List.flatMap_congr
  intro s _
  exact flatMap_filter_empty _ (fun w : Wall P => w.polygons.isEmpty) _
    (by intro w _ hw; simp [List.isEmpty_iff.1 hw])

theorem leaves_of_view {b b' : Bldg P} (h : view b = view b') : leaves b = leaves b' := by
  have key : ∀ b : Bldg P, leaves b = (view b).2.flatMap fun z => z.2.flatMap fun s =>
      s.2.flatMap fun w => w.2.map fun p => (z.1, s.1, w.1, p) := by
    intro b
    simp [leaves, view, List.flatMap_map, Function.comp_def]
  rw [key, key, h]

theorem leaves_nil_iff (b : Bldg P) : leaves b = [] ↔ recs b = [] := by
  simp [leaves, recs]

theorem noneEmpty_of_view {b b' : Bldg P} (h : view b = view b') (hb : NoneEmpty b') :
    NoneEmpty b := by
  have key : ∀ b : Bldg P, NoneEmpty b ↔ ∀ z ∈ (view b).2, z.2 ≠ [] ∧ ∀ s ∈ z.2, s.2 ≠ [] ∧
      ∀ w ∈ s.2, w.2 ≠ [] := by
    intro b
    simp only [NoneEmpty, view, List.forall_mem_map, ne_eq, List.map_eq_nil_iff]
  rw [key] at hb ⊢
  rwa [h]

/-! ### B3D -/

/-- Objects as read back: all containers have the same arbitrary uid. -/
def b3dWall (uid : Str) (w : Wall P) : Wall P := ⟨w.name, uid, w.polygons.map freshPoly, none⟩
/-- See `b3dWall`. -/
def b3dSolid (uid : Str) (s : Solid P) : Solid P := ⟨s.name, uid, s.walls.map (b3dWall uid), none⟩
/-- See `b3dWall`. -/
def b3dZone (uid : Str) (z : Zone P) : Zone P := ⟨z.name, uid, z.solids.map (b3dSolid uid), none⟩

/-- `addEach` over a list built from the objects themselves. -/
theorem addEach_map {E X X' : Type} (make : E → Except PyErr X') (name : X' → Str) (enc : X → E)
    (x : X → X') (xs : List X) (hm : ∀ a ∈ xs, make (enc a) = .ok (x a))
    (hn : ((xs.map x).map name).Nodup) : addEach make name [] (xs.map enc) = .ok (xs.map x) := by
  have key : ∀ (xs : List X) (done : List X'), (∀ a ∈ xs, make (enc a) = .ok (x a)) →
      ((done ++ xs.map x).map name).Nodup →
      addEach make name done (xs.map enc) = .ok (done ++ xs.map x) := by
    intro xs
    induction xs with
    | nil => intro done _ _; simp [addEach]
    | cons a xs ih =>
      intro done hm h
      rw [List.map_cons, addEach, hm a (by simp)]
      simp only []
      rw [if_neg, ih _ (fun e he => hm e (by simp [he]))]
      · simp
      · simpa using h
      · intro hx
        rw [List.map_append, List.map_cons, List.map_cons, List.nodup_append] at h
        exact h.2.2 _ hx _ (by simp) rfl
  simpa using key xs [] hm (by simpa using hn)

theorem mapM_map_ok {E X X' : Type} (make : E → Except PyErr X') (enc : X → E)
    (x : X → X') (xs : List X) (hm : ∀ a ∈ xs, make (enc a) = .ok (x a)) :
    (xs.map enc).mapM make = .ok (xs.map x) := by
  induction xs with
  | nil => rfl
  | cons a xs ih =>
    rw [List.map_cons, List.mapM_cons, hm a (by simp), ih fun y hy => hm y (by simp [hy])]
    rfl

theorem writeB3d_eq (b : Bldg P) (hb : Distinct b) :
    writeB3d b = ⟨b.name, if recs b = [] then none else
      some (nestOf (fun _ n => n) (fun p => (⟨p.pts, p.tri, p.uid⟩ : PolyRec P)) (prune b))⟩ := by
  rw [← fold_recs (key := fun _ n => n) (by intro u n u' n' h; exact h) _ b hb]
  have key : ∀ (rs : List (Zone P × Solid P × Wall P × Poly P)) (doc : B3dDoc P),
      rs.foldl (fun doc r => putB3d r.1.name r.2.1.name r.2.2.1.name r.2.2.2.name
        ⟨r.2.2.2.pts, r.2.2.2.tri, r.2.2.2.uid⟩ doc) doc
      = ⟨doc.name, if rs = [] then doc.zones else some (rs.foldl (fun d r =>
          putNest r.1.name r.2.1.name r.2.2.1.name r.2.2.2.name
            ⟨r.2.2.2.pts, r.2.2.2.tri, r.2.2.2.uid⟩ d) (doc.zones.getD []))⟩ := by
    intro rs
    induction rs with
    | nil => intro doc; simp
    | cons r rs ih =>
      intro doc
      rw [List.foldl_cons, ih]
      by_cases h : rs = []
      · simp [h, putB3d]
      · simp [h, putB3d]
  refine Eq.trans ?_ (key (recs b) ⟨b.name, none⟩)
  unfold recs writeB3d
  simp only [List.foldl_flatMap, List.foldl_map]

theorem readB3d_nest (geom : List P → List Tri → Option PyErr) (uid : Str) (b : Bldg P)
    (hd : Distinct b) (hv : ValidNames b) (hg : Accepted geom b) :
    readB3d geom uid ⟨b.name, some (nestOf (fun _ n => n)
        (fun p => (⟨p.pts, p.tri, p.uid⟩ : PolyRec P)) b)⟩
      = .ok ⟨b.name, uid, b.zones.map (b3dZone uid)⟩ := by
  unfold readB3d nestOf
  simp only [validName hv.bldg]
  rw [addEach_map _ _ _ (b3dZone uid)]
  · intro z hz
    unfold readB3dZone
    simp only [validName (hv.zones z hz)]
    rw [addEach_map _ _ _ (b3dSolid uid)]
    · rfl
    · intro s hs
      unfold readB3dSolid
      simp only []
      rw [mapM_map_ok _ _ (b3dWall uid)]
      · simp only [newSolid, validName (hv.solids z hz s hs)]
        rw [addAllNew_ok]
        · rfl
        · simpa [Function.comp_def, b3dWall] using hd.walls z hz s hs
      · intro w hw
        unfold readB3dWall
        simp only [validName (hv.walls z hz s hs w hw)]
        rw [addEach_map _ _ _ freshPoly]
        · rfl
        · intro p hp
          simp only [readB3dPoly, newPoly, hg z hz s hs w hw p hp,
            validName (hv.polygons z hz s hs w hw p hp)]
          rfl
        · simpa [Function.comp_def, freshPoly] using hd.polygons z hz s hs w hw
    · simpa [Function.comp_def, b3dSolid] using hd.solids z hz
  · simpa [Function.comp_def, b3dZone] using hd.zones

theorem view_b3d (uid : Str) (b : Bldg P) :
    view ⟨b.name, uid, b.zones.map (b3dZone uid)⟩ = view b := by
  simp [view, b3dZone, b3dSolid, b3dWall, freshPoly, Function.comp_def]

/-- C16: reading a written B3D file gives back the building without its empty containers: same names,
same order, same vertices, triangles and polygon uids. -/
theorem C16_round_trip (geom : List P → List Tri → Option PyErr) (uid : Str) (b : Bldg P)
    (hd : Distinct b) (hv : ValidNames b) (hg : Accepted geom b) (hne : leaves b ≠ []) :
    ∃ b', readB3d geom uid (writeB3d b) = .ok b' ∧ view b' = view (prune b) := by
  refine ⟨⟨(prune b).name, uid, (prune b).zones.map (b3dZone uid)⟩, ?_, view_b3d uid _⟩
  rw [writeB3d_eq b hd, if_neg (fun h => hne ((leaves_nil_iff b).2 h))]
  exact readB3d_nest geom uid (prune b) (prune_distinct hd) (prune_valid hv) (prune_accepted hg)

/-- C16: no polygon is lost, added, moved or reordered, and only non-empty containers remain. -/
theorem C16_every_polygon (geom : List P → List Tri → Option PyErr) (uid : Str) (b : Bldg P)
    (hd : Distinct b) (hv : ValidNames b) (hg : Accepted geom b) (hne : leaves b ≠ []) :
    ∃ b', readB3d geom uid (writeB3d b) = .ok b' ∧ b'.name = b.name ∧ leaves b' = leaves b ∧
      NoneEmpty b' := by
  obtain ⟨b', h, hview⟩ := C16_round_trip geom uid b hd hv hg hne
  exact ⟨b', h, congrArg Prod.fst hview, (leaves_of_view hview).trans (leaves_prune b),
    noneEmpty_of_view hview (prune_noneEmpty b)⟩

/-- C16: without empty containers the whole structure returns. -/
theorem C16_exact (geom : List P → List Tri → Option PyErr) (uid : Str) (b : Bldg P)
    (hd : Distinct b) (hv : ValidNames b) (hg : Accepted geom b) (hne : leaves b ≠ [])
    (he : NoneEmpty b) :
    ∃ b', readB3d geom uid (writeB3d b) = .ok b' ∧ view b' = view b := by
  obtain ⟨b', h, hview⟩ := C16_round_trip geom uid b hd hv hg hne
  refine ⟨b', h, hview.trans ?_⟩
  have hs : ∀ z ∈ b.zones, ∀ s ∈ z.solids, pruneSolid s = s := by
    intro z hz s hs
    have : (s.walls.filter fun w => !w.polygons.isEmpty) = s.walls := by
      rw [List.filter_eq_self]
      intro w hw
      simpa [List.isEmpty_iff] using ((he z hz).2 s hs).2 w hw
    unfold pruneSolid
    rw [this]
  have hz : ∀ z ∈ b.zones, pruneZone z = z := by
    intro z hz
    unfold pruneZone
    rw [List.map_congr_left (g := id) (hs z hz), List.map_id, List.filter_eq_self.2]
    intro s hs
    simpa [List.isEmpty_iff] using ((he z hz).2 s hs).1
  have : prune b = b := by
    unfold prune
    rw [List.map_congr_left (g := id) hz, List.map_id, List.filter_eq_self.2]
    intro z hz
    simpa [List.isEmpty_iff] using (he z hz).1
  rw [this]

/-- C16: a building without polygons is written without complaint but cannot be read. -/
theorem C16_no_polygons (geom : List P → List Tri → Option PyErr) (uid : Str) (b : Bldg P)
    (hd : Distinct b) (hv : ValidNames b) (hne : leaves b = []) :
    readB3d geom uid (writeB3d b) = .error .keyError := by
  rw [writeB3d_eq b hd, if_pos ((leaves_nil_iff b).1 hne)]
  simp [readB3d, validName hv.bldg]

/-! ### dotbim -/

theorem readBim_nest (geom : List P → List Tri → Option PyErr) (b : Bldg P)
    (hd : Distinct b) (hv : ValidNames b) (hg : Accepted geom b) :
    addEach (bimZone geom) Zone.name [] (nestOf (fun u n => (u, n)) (fun p => (p.pts, p.tri)) b)
      = .ok (freshBldg b).zones := by
  unfold nestOf
  rw [addEach_map _ _ _ freshZone]
  · rfl
  · intro z hz
    unfold bimZone
    simp only []
    rw [mapM_map_ok _ _ freshSolid]
    · simp only [newZone, validName (hv.zones z hz)]
      rw [addAllNew_ok]
      · rfl
      · simpa [Function.comp_def, freshSolid] using hd.solids z hz
    · intro s hs
      unfold bimSolid
      simp only []
      rw [mapM_map_ok _ _ freshWall]
      · simp only [newSolid, validName (hv.solids z hz s hs)]
        rw [addAllNew_ok]
        · rfl
        · simpa [Function.comp_def, freshWall] using hd.walls z hz s hs
      · intro w hw
        unfold bimWall
        simp only []
        rw [mapM_map_ok _ _ freshPoly]
        · simp only [newWall, validName (hv.walls z hz s hs w hw)]
          rw [addAllNew_ok]
          · rfl
          · simpa [Function.comp_def, freshPoly] using hd.polygons z hz s hs w hw
        · intro p hp
          simp only [bimPoly, newPoly, hg z hz s hs w hw p hp,
            validName (hv.polygons z hz s hs w hw p hp)]
          rfl
  · simpa [Function.comp_def, freshZone] using hd.zones

/-- C17: reading a written .bim file gives back the building without its empty containers: names,
uids, order, vertices and triangles. -/
theorem C17_round_trip (geom : List (F × F × F) → List Tri → Option PyErr) (b : Bldg (F × F × F))
    (hd : Distinct b) (hv : ValidNames b) (hg : Accepted geom b) :
    readDotbim geom (writeDotbim b) = .ok (freshBldg (prune b)) := by
  rw [writeDotbim_eq]
  unfold readDotbim
  simp only [ne_eq, not_true_eq_false, if_false]
  have h1 := readMeshes_eq (recs b) 0 [] (by simp)
  rw [List.nil_append] at h1
  rw [h1]
  simp only []
  have h2 := readElements_eq (recs b) 0 [] (by simp)
  rw [List.nil_append, List.nil_append] at h2
  rw [h2]
  simp only [buildModel_eq, validName hv.bldg]
  have h3 := fold_recs (key := fun u n => (u, n)) (by intro u n u' n' h; exact (Prod.mk.inj h).2)
    (fun p => (p.pts, p.tri)) b hd
  rw [h3, readBim_nest geom (prune b) (prune_distinct hd) (prune_valid hv) (prune_accepted hg)]
  rfl

/-- C17: no polygon is lost, added, moved or reordered. -/
theorem C17_every_polygon (geom : List (F × F × F) → List Tri → Option PyErr)
    (b : Bldg (F × F × F)) (hd : Distinct b) (hv : ValidNames b) (hg : Accepted geom b) :
    ∃ b', readDotbim geom (writeDotbim b) = .ok b' ∧ b'.name = b.name ∧ b'.uid = b.uid ∧
      leaves b' = leaves b ∧ NoneEmpty b' := by
  have hview : view (freshBldg (prune b)) = view (prune b) := by
    simp [view, freshBldg, freshZone, freshSolid, freshWall, freshPoly, Function.comp_def]
  exact ⟨_, C17_round_trip geom b hd hv hg, rfl, rfl,
    (leaves_of_view hview).trans (leaves_prune b),
    noneEmpty_of_view hview (prune_noneEmpty b)⟩

/-- C17: a file that this package did not generate is rejected, whatever it contains. -/
theorem C17_foreign (geom : List (F × F × F) → List Tri → Option PyErr) (f : BimFile F)
    (h : f.generatedBy ≠ some "Building3D".toList) :
    readDotbim geom f
      = .error (if f.generatedBy = none then .keyError else .valueError) := by
  unfold readDotbim
  match hf : f.generatedBy with
  | none => simp
  | some g =>
    have : g ≠ TOOL_NAME := by
      intro hg
      rw [hf, hg] at h
      exact h rfl
    simp [this]

theorem reshape3_cases {α : Type} : ∀ l : List α,
    (l.length % 3 = 0 → ∃ rows, reshape3 l = .ok rows) ∧ (l.length % 3 ≠ 0 → reshape3 l = .error .valueError)
  | [] => ⟨fun _ => ⟨[], rfl⟩, fun h => absurd rfl h⟩
  | [_] => ⟨fun h => by simp at h, fun _ => rfl⟩
  | [_, _] => ⟨fun h => by simp at h, fun _ => rfl⟩
  | a :: b :: c :: l => by
    obtain ⟨h1, h2⟩ := reshape3_cases l
    have e : (a :: b :: c :: l).length % 3 = l.length % 3 := by simp only [List.length_cons]; omega
    rw [e]
    refine ⟨fun h => ?_, fun h => by rw [reshape3, h2 h]⟩
    obtain ⟨rows, hr⟩ := h1 h
    exact ⟨_, by rw [reshape3, hr]⟩

theorem readMeshes_ragged : ∀ (ms : List (BimMesh F)) (data : Dict Nat (BimData F)),
    (∃ m ∈ ms, m.coordinates.length % 3 ≠ 0 ∨ m.indices.length % 3 ≠ 0) →
    readMeshes data ms = .error .valueError
  | [], _, ⟨_, h, _⟩ => nomatch h
  | m :: ms, data, ⟨m', h', hm⟩ => by
    obtain ⟨a1, a2⟩ := reshape3_cases m.coordinates
    obtain ⟨b1, b2⟩ := reshape3_cases m.indices
    rw [readMeshes]
    by_cases ha : m.coordinates.length % 3 = 0
    · obtain ⟨v, hv⟩ := a1 ha
      rw [hv]
      by_cases hb : m.indices.length % 3 = 0
      · obtain ⟨t, ht⟩ := b1 hb
        rw [ht]
        rcases List.mem_cons.1 h' with rfl | h'
        · exact absurd hm (by simp [ha, hb])
        · exact readMeshes_ragged ms _ ⟨m', h', hm⟩
      · simp only [b2 hb]
    · rw [a2 ha]

/-- C17: a file with a mesh whose numbers do not group by three is rejected with `ValueError`. -/
theorem C17_ragged (geom : List (F × F × F) → List Tri → Option PyErr) (f : BimFile F)
    (hg : f.generatedBy = some "Building3D".toList)
    (h : ∃ m ∈ f.meshes, m.coordinates.length % 3 ≠ 0 ∨ m.indices.length % 3 ≠ 0) :
    readDotbim geom f = .error .valueError := by
  have e : readMeshes ([] : Dict Nat (BimData F)) f.meshes = .error .valueError := readMeshes_ragged _ _ h
  have hg' : f.generatedBy = some TOOL_NAME := hg
  unfold readDotbim
  simp only [hg', ne_eq, not_true_eq_false, if_false, e]

/-- A file with four coordinates meets the hypotheses of `C17_ragged`. -/
example : ∃ f : BimFile Nat, f.generatedBy = some "Building3D".toList ∧
    ∃ m ∈ f.meshes, m.coordinates.length % 3 ≠ 0 ∨ m.indices.length % 3 ≠ 0 := by
  refine ⟨BimFile.mk [⟨0, [1, 2, 3, 4], [0, 0, 0]⟩] [] ['b'] [] (some "Building3D".toList), rfl, _,
    List.mem_cons_self, .inl ?_⟩
  simp

theorem setInfo_missing (mid : Nat) (info : BimInfo) (d : Dict Nat (BimData F))
    (h : mid ∉ d.map Prod.fst) : setInfo mid info d = .error .keyError := by
  induction d with
  | nil => rfl
  | cons e d ih =>
    obtain ⟨k, v⟩ := e
    simp only [List.map_cons, List.mem_cons, not_or] at h
    rw [setInfo, if_neg (fun hk => h.1 hk.symm), ih h.2]

theorem setInfo_keys (mid : Nat) (info : BimInfo) (d d' : Dict Nat (BimData F))
    (h : setInfo mid info d = .ok d') : d'.map Prod.fst = d.map Prod.fst := by
  induction d generalizing d' with
  | nil => simp [setInfo] at h
  | cons e d ih =>
    obtain ⟨k, v⟩ := e
    rw [setInfo] at h
    by_cases hk : k = mid
    · rw [if_pos hk] at h
      simp only [Except.ok.injEq] at h
      rw [← h]; rfl
    · rw [if_neg hk] at h
      cases hs : setInfo mid info d with
      | error e => rw [hs] at h; simp at h
      | ok d1 =>
        rw [hs] at h
        simp only [Except.ok.injEq] at h
        rw [← h, List.map_cons, ih d1 hs]; rfl

theorem readElements_missing (els : List BimElement) : ∀ (d : Dict Nat (BimData F)),
    (∃ el ∈ els, el.meshId ∉ d.map Prod.fst) → readElements d els = .error .keyError := by
  induction els with
  | nil => rintro d ⟨el, h, -⟩; simp at h
  | cons e els ih =>
    rintro d ⟨el, h, hn⟩
    rw [readElements]
    by_cases he : e.meshId ∈ d.map Prod.fst
    · cases hs : setInfo e.meshId e.info d with
      | error err =>
        have : ∀ (d : Dict Nat (BimData F)) err, setInfo e.meshId e.info d = .error err →
            err = .keyError := by
          intro d
          induction d with
          | nil => intro err h; simp [setInfo] at h; exact h.symm
          | cons x d ihd =>
            obtain ⟨k, v⟩ := x
            intro err h
            rw [setInfo] at h
            by_cases hk : k = e.meshId
            · rw [if_pos hk] at h; simp at h
            · rw [if_neg hk] at h
              cases hs : setInfo e.meshId e.info d with
              | error e2 =>
                rw [hs] at h
                simp only [Except.error.injEq] at h
                rw [← h]
                exact ihd e2 hs
              | ok d1 => rw [hs] at h; simp at h
        rw [this d err hs]
      | ok d1 =>
        simp only []
        apply ih
        rcases List.mem_cons.1 h with rfl | h
        · exact absurd he hn
        · exact ⟨el, h, by rw [setInfo_keys _ _ _ _ hs]; exact hn⟩
    · rw [setInfo_missing _ _ _ he]

theorem put_keys (k : Nat) (v : BimData F) (d : Dict Nat (BimData F)) (i : Nat)
    (h : i ∈ (put k v d).map Prod.fst) : i = k ∨ i ∈ d.map Prod.fst := by
  unfold put at h
  induction d with
  | nil => simp [upd] at h; exact Or.inl h
  | cons e d ih =>
    obtain ⟨k', v'⟩ := e
    rw [upd] at h
    by_cases hk : k' = k
    · rw [if_pos hk] at h
      exact Or.inr h
    · rw [if_neg hk, List.map_cons, List.mem_cons] at h
      rcases h with h | h
      · exact Or.inr (by simp [h])
      · rcases ih h with h | h
        · exact Or.inl h
        · exact Or.inr (by simp only [List.map_cons, List.mem_cons]; exact Or.inr h)

theorem readMeshes_keys (ms : List (BimMesh F)) : ∀ (d d' : Dict Nat (BimData F)),
    readMeshes d ms = .ok d' →
    ∀ i ∈ d'.map Prod.fst, i ∈ ms.map BimMesh.meshId ∨ i ∈ d.map Prod.fst := by
  induction ms with
  | nil => intro d d' h i hi; simp [readMeshes] at h; exact Or.inr (h ▸ hi)
  | cons m ms ih =>
    intro d d' h i hi
    rw [readMeshes] at h
    split at h
    · simp at h
    · split at h
      · simp at h
      · rcases ih _ _ h i hi with h1 | h1
        · exact Or.inl (by simp only [List.map_cons, List.mem_cons]; exact Or.inr h1)
        · rcases put_keys _ _ _ _ h1 with h2 | h2
          · exact Or.inl (by simp [h2])
          · exact Or.inr h2

/-- C17: a file with an element that refers to a mesh the file does not contain is never accepted. -/
theorem C17_dangling_element (geom : List (F × F × F) → List Tri → Option PyErr) (f : BimFile F)
    (h : ∃ el ∈ f.elements, el.meshId ∉ f.meshes.map BimMesh.meshId) :
    ∃ e, readDotbim geom f = .error e := by
  unfold readDotbim
  cases f.generatedBy with
  | none => exact ⟨_, rfl⟩
  | some g =>
    simp only []
    by_cases hg : g ≠ TOOL_NAME
    · rw [if_pos hg]; exact ⟨_, rfl⟩
    · rw [if_neg hg]
      cases hm : readMeshes [] f.meshes with
      | error e => exact ⟨_, rfl⟩
      | ok data =>
        simp only []
        rw [readElements_missing]
        · exact ⟨_, rfl⟩
        · obtain ⟨el, h1, h2⟩ := h
          refine ⟨el, h1, fun h3 => ?_⟩
          rcases readMeshes_keys _ _ _ hm _ h3 with h4 | h4
          · exact h2 h4
          · simp at h4

/-! ### A concrete case -/

/-- Two zones (one without solids), two solids with equally named walls, one empty wall. -/
def sample : Bldg (Nat × Nat × Nat) :=
  ⟨['b'], ['1'], [⟨['z'], ['2'], [⟨['s'], ['3'],
      [⟨['a'], ['4'], [⟨['p'], ['5'], [(0, 0, 0), (1, 0, 0), (0, 1, 0)], [(0, 1, 2)], none⟩,
        ⟨['q'], ['6'], [(0, 0, 0), (1, 0, 0), (1, 1, 0), (0, 1, 0)], [(0, 1, 2), (0, 2, 3)], none⟩],
          none⟩,
       ⟨['e'], ['7'], [], none⟩], none⟩,
    ⟨['t'], ['8'], [⟨['a'], ['4'], [⟨['p'], ['5'], [(0, 0, 1), (1, 0, 1), (0, 1, 1)], [(2, 1, 0)],
      none⟩], none⟩], none⟩], none⟩, ⟨['y'], ['9'], [], none⟩]⟩

set_option synthInstance.maxSize 10000 in
example : Distinct sample ∧ ValidNames sample ∧ Accepted (fun _ _ => none) sample ∧
    leaves sample ≠ [] ∧
    readDotbim (fun _ _ => none) (writeDotbim sample) = .ok
      ⟨['b'], ['1'], [⟨['z'], ['2'], [⟨['s'], ['3'],
        [⟨['a'], ['4'], [⟨['p'], ['5'], [(0, 0, 0), (1, 0, 0), (0, 1, 0)], [(0, 1, 2)], none⟩,
        ⟨['q'], ['6'], [(0, 0, 0), (1, 0, 0), (1, 1, 0), (0, 1, 0)], [(0, 1, 2), (0, 2, 3)], none⟩],
          none⟩], none⟩,
    ⟨['t'], ['8'], [⟨['a'], ['4'], [⟨['p'], ['5'], [(0, 0, 1), (1, 0, 1), (0, 1, 1)], [(2, 1, 0)],
      none⟩], none⟩], none⟩], none⟩]⟩ := by
  refine ⟨⟨by decide, by decide, by decide, by decide⟩, ⟨by decide, by decide, by decide, by decide,
    by decide⟩, by intro z _ s _ w _ p _; rfl, by decide, by decide +kernel⟩

example : leaves (⟨['b'], [], [⟨['z'], [], [], none⟩]⟩ : Bldg Nat) = [] := by decide

example : (⟨[], [], ['b'], ['u'], some ['x']⟩ : BimFile Nat).generatedBy
    ≠ some "Building3D".toList := by decide

end B3d.Files
