import Verif.Model.Files
import Verif.Spec.Files
import Verif.Proofs.Mesh
import Verif.Proofs.ArrayFormatRead

/-! Lemmas about `Verif/Model/Files.lean`. -/

namespace B3d.Files

open B3d.Triangles (Tri)
open B3d.Tree
open B3d.ArrayFormat
open B3d.Mesh (mapM_ok)

variable {K V P F : Type} [DecidableEq K]

/-! ### Dictionaries -/

theorem upd_upd (k : K) (dflt : V) (f g : V → V) (d : Dict K V) :
    upd k dflt g (upd k dflt f d) = upd k dflt (fun a => g (f a)) d := by
  induction d with
  | nil => simp [upd]
  | cons e d ih =>
    obtain ⟨k', v⟩ := e
    by_cases h : k' = k
    · simp [upd, h]
    · simp [upd, h, ih]

theorem upd_fresh (k : K) (dflt : V) (f : V → V) (d : Dict K V) (h : k ∉ d.map Prod.fst) :
    upd k dflt f d = d ++ [(k, f dflt)] := by
  induction d with
  | nil => simp [upd]
  | cons e d ih =>
    obtain ⟨k', v⟩ := e
    simp at h
    have h1 : ¬ k' = k := fun h2 => h.1 h2.symm
    simp [upd, h1, ih (by simpa using h.2)]

/-- A loop whose steps all work below the same key works below that key. -/
theorem fold_below {α β X : Type} (L : (β → β) → α → α)
    (hL : ∀ f g d, L g (L f d) = L (fun a => g (f a)) d)
    (e : X → Bool) (f : X → β → β) (xs : List X) : ∀ d,
    xs.foldl (fun d x => if e x then d else L (f x) d) d
      = if xs.all e then d
        else L (fun a => xs.foldl (fun a x => if e x then a else f x a) a) d := by
  induction xs with
  | nil => intro d; simp
  | cons x xs ih =>
    intro d
    rw [List.foldl_cons, ih]
    by_cases hx : e x = true
    · simp [hx]
    · simp only [Bool.not_eq_true] at hx
      simp only [hx, List.all_cons, Bool.false_and, Bool.false_eq_true, if_false, List.foldl_cons,
        hL]
      by_cases ha : xs.all e = true
      · rw [if_pos ha]
        congr 1
        funext a
        have : ∀ (l : List X) (a : β), l.all e = true →
            l.foldl (fun a x => if e x then a else f x a) a = a := by
          intro l
          induction l with
          | nil => intros; rfl
          | cons y l ihl =>
            intro a h
            simp only [List.all_cons, Bool.and_eq_true] at h
            rw [List.foldl_cons, if_pos h.1, ihl _ h.2]
        rw [this xs _ ha]
      · rw [if_neg ha]

/-- A loop whose steps each work below their own new key. -/
theorem fold_fresh {X : Type} (key : X → K) (dflt : V) (e : X → Bool) (f : X → V → V)
    (xs : List X) : ∀ d : Dict K V, (d.map Prod.fst ++ xs.map key).Nodup →
    xs.foldl (fun d x => if e x then d else upd (key x) dflt (f x) d) d
      = d ++ (xs.filter fun x => !e x).map fun x => (key x, f x dflt) := by
  induction xs with
  | nil => intro d _; simp
  | cons x xs ih =>
    intro d hd
    rw [List.foldl_cons]
    by_cases hx : e x = true
    · rw [if_pos hx, ih]
      · simp [hx]
      · refine hd.sublist ?_
        simp
    · have hk : key x ∉ d.map Prod.fst := by
        intro hm
        rw [List.nodup_append] at hd
        exact hd.2.2 _ hm _ (by simp) rfl
      rw [if_neg hx, upd_fresh _ _ _ _ hk, ih]
      · simp [hx]
      · simpa using hd

/-! ### Buildings without empty containers -/

/-- The polygons of a building with the objects around them, in the order of the loops. -/
def recs (b : Bldg P) : List (Zone P × Solid P × Wall P × Poly P) :=
  b.zones.flatMap fun z => z.solids.flatMap fun s => s.walls.flatMap fun w =>
    w.polygons.map fun p => (z, s, w, p)

/-- The nested dictionary of a building. -/
def nestOf (key : Str → Str → K) (val : Poly P → V) (b : Bldg P) : Nest K V :=
  b.zones.map fun z => (key z.uid z.name, z.solids.map fun s => (key s.uid s.name,
    s.walls.map fun w => (key w.uid w.name, w.polygons.map fun p => (key p.uid p.name, val p))))

omit [DecidableEq K] in
theorem nodup_key {X : Type} {key : Str → Str → K} {name uid : X → Str}
    (hk : ∀ u n u' n', key u n = key u' n' → n = n') {xs : List X} (h : (xs.map name).Nodup) :
    (xs.map fun x => key (uid x) (name x)).Nodup := by
  rw [List.Nodup, List.pairwise_map] at h ⊢
  exact h.imp fun hne he => hne (hk _ _ _ _ he)

/-- No two siblings share the key under which they are stored. -/
structure DistinctKeys (key : Str → Str → K) (b : Bldg P) : Prop where
  zones : (b.zones.map fun z => key z.uid z.name).Nodup
  solids : ∀ z ∈ b.zones, (z.solids.map fun s => key s.uid s.name).Nodup
  walls : ∀ z ∈ b.zones, ∀ s ∈ z.solids, (s.walls.map fun w => key w.uid w.name).Nodup
  polygons : ∀ z ∈ b.zones, ∀ s ∈ z.solids, ∀ w ∈ s.walls, (w.polygons.map fun p => key p.uid p.name).Nodup

omit [DecidableEq K] in
theorem Distinct.keys {key : Str → Str → K} (hk : ∀ u n u' n', key u n = key u' n' → n = n') {b : Bldg P}
    (h : Distinct b) : DistinctKeys key b :=
  ⟨nodup_key hk h.zones, fun z hz => nodup_key hk (h.solids z hz), fun z hz s hs => nodup_key hk (h.walls z hz s hs),
    fun z hz s hs w hw => nodup_key hk (h.polygons z hz s hs w hw)⟩

/-- The loop over the polygons of a wall. -/
theorem fold_polys {key : Str → Str → K}
    (val : Poly P → V) (ps : List (Poly P)) (h : (ps.map fun p => key p.uid p.name).Nodup) :
    ps.foldl (fun d p => put (key p.uid p.name) (val p) d) []
      = ps.map fun p => (key p.uid p.name, val p) := by
  have : ∀ (ps : List (Poly P)) (d : Dict K V),
      (d.map Prod.fst ++ ps.map fun p => key p.uid p.name).Nodup →
      ps.foldl (fun d p => put (key p.uid p.name) (val p) d) d
        = d ++ ps.map fun p => (key p.uid p.name, val p) := by
    intro ps
    induction ps with
    | nil => intro d _; simp
    | cons p ps ih =>
      intro d hd
      have hkk : key p.uid p.name ∉ d.map Prod.fst := by
        intro hm
        rw [List.nodup_append] at hd
        exact hd.2.2 _ hm _ (by simp) rfl
      rw [List.foldl_cons, put, upd_fresh _ _ _ _ hkk, ih]
      · simp
      · simpa using hd
  have := this ps [] (by simpa using h)
  simpa using this

theorem foldl_if_nil {α X : Type} (f : α → X → α) (xs : List X) (d : α) :
    xs.foldl f d = if xs.isEmpty then d else xs.foldl f d := by
  cases xs <;> simp

/-- Filling the nested dictionary polygon by polygon gives the dictionary of the pruned building. -/
theorem fold_recs_keys {key : Str → Str → K} (val : Poly P → V) (b : Bldg P) (hb : DistinctKeys key b) :
    (recs b).foldl (fun d r => putNest (key r.1.uid r.1.name) (key r.2.1.uid r.2.1.name)
      (key r.2.2.1.uid r.2.2.1.name) (key r.2.2.2.uid r.2.2.2.name) (val r.2.2.2) d) []
      = nestOf key val (prune b) := by
  unfold recs
  simp only [List.foldl_flatMap, List.foldl_map]
  -- the loop over polygons
  have hw : ∀ (z : Zone P) (s : Solid P) (w : Wall P) (d : Nest K V),
      w.polygons.foldl (fun d p => putNest (key z.uid z.name) (key s.uid s.name)
        (key w.uid w.name) (key p.uid p.name) (val p) d) d
      = if w.polygons.isEmpty then d else
          upd (key z.uid z.name) [] (fun d => upd (key s.uid s.name) [] (fun d =>
            upd (key w.uid w.name) []
              (fun a => w.polygons.foldl (fun a p => put (key p.uid p.name) (val p) a) a) d) d) d := by
    intro z s w d
    have := fold_below (fun (g : Dict K V → Dict K V) (d : Nest K V) =>
      upd (key z.uid z.name) [] (fun d => upd (key s.uid s.name) [] (fun d =>
            upd (key w.uid w.name) [] g d) d) d)
      (by intro f g d; simp only [upd_upd]) (fun _ : Poly P => false)
      (fun p => put (key p.uid p.name) (val p)) w.polygons d
    simp only [Bool.false_eq_true, if_false] at this
    unfold putNest
    rw [this]
    cases w.polygons <;> simp
  simp only [hw]
  -- the loop over walls
  have hs : ∀ (z : Zone P) (s : Solid P) (d : Nest K V),
      s.walls.foldl (fun d w => if w.polygons.isEmpty then d else
          upd (key z.uid z.name) [] (fun d => upd (key s.uid s.name) [] (fun d =>
            upd (key w.uid w.name) []
              (fun a => w.polygons.foldl (fun a p => put (key p.uid p.name) (val p) a) a) d) d) d) d
      = if (s.walls.all fun w => w.polygons.isEmpty) then d else
          upd (key z.uid z.name) [] (fun d => upd (key s.uid s.name) []
            (fun a => s.walls.foldl (fun a w => if w.polygons.isEmpty then a else
              upd (key w.uid w.name) []
                (fun a => w.polygons.foldl (fun a p => put (key p.uid p.name) (val p) a) a) a)
              a) d) d := by
    intro z s d
    exact fold_below (fun (g : Dict K (Dict K V) → Dict K (Dict K V)) (d : Nest K V) =>
      upd (key z.uid z.name) [] (fun d => upd (key s.uid s.name) [] g d) d)
      (by intro f g d; simp only [upd_upd]) (fun w : Wall P => w.polygons.isEmpty)
      (fun w => upd (key w.uid w.name) []
        (fun a => w.polygons.foldl (fun a p => put (key p.uid p.name) (val p) a) a)) s.walls d
  simp only [hs]
  -- the loop over solids
  have hz : ∀ (z : Zone P) (d : Nest K V),
      z.solids.foldl (fun d s => if (s.walls.all fun w => w.polygons.isEmpty) then d else
          upd (key z.uid z.name) [] (fun d => upd (key s.uid s.name) []
            (fun a => s.walls.foldl (fun a w => if w.polygons.isEmpty then a else
              upd (key w.uid w.name) []
                (fun a => w.polygons.foldl (fun a p => put (key p.uid p.name) (val p) a) a) a)
              a) d) d) d
      = if (z.solids.all fun s => s.walls.all fun w => w.polygons.isEmpty) then d else
          upd (key z.uid z.name) [] (fun a => z.solids.foldl (fun a s =>
            if (s.walls.all fun w => w.polygons.isEmpty) then a else upd (key s.uid s.name) []
              (fun a => s.walls.foldl (fun a w => if w.polygons.isEmpty then a else
              upd (key w.uid w.name) []
                (fun a => w.polygons.foldl (fun a p => put (key p.uid p.name) (val p) a) a) a)
              a) a) a) d := by
    intro z d
    exact fold_below (fun (g : Dict K (Dict K (Dict K V)) → Dict K (Dict K (Dict K V)))
        (d : Nest K V) => upd (key z.uid z.name) [] g d)
      (by intro f g d; simp only [upd_upd])
      (fun s : Solid P => s.walls.all fun w => w.polygons.isEmpty)
      (fun s => upd (key s.uid s.name) []
              (fun a => s.walls.foldl (fun a w => if w.polygons.isEmpty then a else
              upd (key w.uid w.name) []
                (fun a => w.polygons.foldl (fun a p => put (key p.uid p.name) (val p) a) a) a)
              a)) z.solids d
  simp only [hz]
  -- the loop over zones
  rw [fold_fresh (fun z : Zone P => key z.uid z.name) [] _ _ b.zones []
    (by simpa using hb.zones), List.nil_append]
  have hpz : (prune b).zones
      = (b.zones.filter fun z => !(z.solids.all fun s => s.walls.all fun w => w.polygons.isEmpty)).map
          pruneZone := by
    unfold prune
    simp only [List.filter_map]
    congr 1
    apply List.filter_congr
    intro z _
    simp only [pruneZone, Function.comp_apply, Bool.not_inj_iff]
    rw [Bool.eq_iff_iff]
    simp [List.isEmpty_iff, List.filter_eq_nil_iff, pruneSolid]
  unfold nestOf
  rw [hpz, List.map_map]
  apply List.map_congr_left
  intro z hzm
  have hzm := (List.mem_filter.1 hzm).1
  simp only [Function.comp_apply]
  rw [fold_fresh (fun s : Solid P => key s.uid s.name) [] _ _ z.solids []
    (by simpa using hb.solids z hzm), List.nil_append]
  have hps : (pruneZone z).solids
      = (z.solids.filter fun s => !(s.walls.all fun w => w.polygons.isEmpty)).map pruneSolid := by
    unfold pruneZone
    simp only [List.filter_map]
    congr 1
    apply List.filter_congr
    intro s _
    simp only [pruneSolid, Function.comp_apply, Bool.not_inj_iff]
    rw [Bool.eq_iff_iff]
    simp [List.isEmpty_iff, List.filter_eq_nil_iff]
  rw [hps, List.map_map]
  refine congrArg₂ Prod.mk rfl ?_
  apply List.map_congr_left
  intro s hsm
  have hsm := (List.mem_filter.1 hsm).1
  simp only [Function.comp_apply]
  rw [fold_fresh (fun w : Wall P => key w.uid w.name) [] _ _ s.walls []
    (by simpa using hb.walls z hzm s hsm), List.nil_append]
  refine congrArg₂ Prod.mk rfl ?_
  show _ = List.map _ (s.walls.filter fun w => !w.polygons.isEmpty)
  apply List.map_congr_left
  intro w hwm
  have hwm := (List.mem_filter.1 hwm).1
  rw [fold_polys val w.polygons (hb.polygons z hzm s hsm w hwm)]

theorem fold_recs {key : Str → Str → K} (hk : ∀ u n u' n', key u n = key u' n' → n = n')
    (val : Poly P → V) (b : Bldg P) (hb : Distinct b) :
    (recs b).foldl (fun d r => putNest (key r.1.uid r.1.name) (key r.2.1.uid r.2.1.name)
      (key r.2.2.1.uid r.2.2.1.name) (key r.2.2.2.uid r.2.2.2.name) (val r.2.2.2) d) []
      = nestOf key val (prune b) :=
  fold_recs_keys val b (hb.keys hk)

theorem recs_eq_nil (b : Bldg P) : recs b = [] ↔ (prune b).zones = [] := by
  simp [recs, prune, pruneZone, pruneSolid, List.filter_eq_nil_iff, List.flatMap_eq_nil_iff]

/-! ### Reading -/

theorem addEach_ok {E X : Type} (make : E → Except PyErr X) (name : X → Str) (x : E → X)
    (es : List E) (hm : ∀ e ∈ es, make e = .ok (x e)) : ∀ done,
    ((done ++ es.map x).map name).Nodup → addEach make name done es = .ok (done ++ es.map x) := by
  induction es with
  | nil => intro done _; simp [addEach]
  | cons e es ih =>
    intro done h
    rw [addEach, hm e (by simp)]
    simp only []
    rw [if_neg, ih (fun e he => hm e (by simp [he]))]
    · simp
    · simpa using h
    · intro hx
      rw [List.map_append, List.map_cons, List.map_cons, List.nodup_append] at h
      exact h.2.2 _ hx _ (by simp) rfl

/-! ### dotbim -/

theorem reshape3_flatten3 {α : Type} (rows : List (α × α × α)) :
    reshape3 (flatten3 rows) = .ok rows := by
  induction rows with
  | nil => rfl
  | cons r rows ih =>
    obtain ⟨a, b, c⟩ := r
    have : flatten3 ((a, b, c) :: rows) = a :: b :: c :: flatten3 rows := by simp [flatten3]
    rw [this, reshape3, ih]

/-- The names stored for a polygon. -/
def infoOf (r : Zone P × Solid P × Wall P × Poly P) : BimInfo :=
  ⟨r.1.name, r.1.uid, r.2.1.name, r.2.1.uid, r.2.2.1.name, r.2.2.1.uid, r.2.2.2.name, r.2.2.2.uid⟩

/-- The meshes written for a list of polygons, numbered from `k`. -/
def meshesFrom : Nat → List (Zone (F × F × F) × Solid (F × F × F) × Wall (F × F × F) ×
    Poly (F × F × F)) → List (BimMesh F)
  | _, [] => []
  | k, r :: rs => ⟨k, flatten3 r.2.2.2.pts, flatten3 r.2.2.2.tri⟩ :: meshesFrom (k + 1) rs

/-- The elements written for a list of polygons, numbered from `k`. -/
def elementsFrom : Nat → List (Zone P × Solid P × Wall P × Poly P) → List BimElement
  | _, [] => []
  | k, r :: rs => ⟨k, infoOf r⟩ :: elementsFrom (k + 1) rs

/-- The entries of `data` for a list of polygons. -/
def dataFrom (known : Bool) : Nat → List (Zone (F × F × F) × Solid (F × F × F) × Wall (F × F × F) ×
    Poly (F × F × F)) → Dict Nat (BimData F)
  | _, [] => []
  | k, r :: rs => (k, ⟨r.2.2.2.pts, r.2.2.2.tri, if known then some (infoOf r) else none⟩) ::
      dataFrom known (k + 1) rs

theorem writeDotbim_eq (b : Bldg (F × F × F)) :
    writeDotbim b = ⟨meshesFrom 0 (recs b), elementsFrom 0 (recs b), b.name, b.uid,
      some TOOL_NAME⟩ := by
  have key : ∀ (rs : List (Zone (F × F × F) × Solid (F × F × F) × Wall (F × F × F) ×
      Poly (F × F × F))) (k : Nat) (ms : List (BimMesh F)) (es : List BimElement),
      rs.foldl (fun (st : Nat × List (BimMesh F) × List BimElement) r =>
        (st.1 + 1, st.2.1 ++ [⟨st.1, flatten3 r.2.2.2.pts, flatten3 r.2.2.2.tri⟩],
            st.2.2 ++ [⟨st.1, infoOf r⟩])) (k, ms, es)
        = (k + rs.length, ms ++ meshesFrom k rs, es ++ elementsFrom k rs) := by
    intro rs
    induction rs with
    | nil => intro k ms es; simp [meshesFrom, elementsFrom]
    | cons r rs ih =>
      intro k ms es
      rw [List.foldl_cons, ih]
      simp [meshesFrom, elementsFrom]
      omega
  have h := key (recs b) 0 [] []
  unfold recs at h
  simp only [List.foldl_flatMap, List.foldl_map, infoOf, List.nil_append] at h
  unfold writeDotbim
  simp only [h]
  rfl

theorem dataFrom_keys (known : Bool) (rs : List (Zone (F × F × F) × Solid (F × F × F) ×
    Wall (F × F × F) × Poly (F × F × F))) : ∀ k i, i < k →
    i ∉ (dataFrom known k rs).map Prod.fst := by
  induction rs with
  | nil => intro k i _; simp [dataFrom]
  | cons r rs ih =>
    intro k i hi
    simp only [dataFrom, List.map_cons, List.mem_cons, not_or]
    exact ⟨by omega, ih (k + 1) i (by omega)⟩

theorem readMeshes_eq (rs : List (Zone (F × F × F) × Solid (F × F × F) ×
    Wall (F × F × F) × Poly (F × F × F))) : ∀ k (D : Dict Nat (BimData F)),
    (∀ i ∈ D.map Prod.fst, i < k) →
    readMeshes D (meshesFrom k rs) = .ok (D ++ dataFrom false k rs) := by
  induction rs with
  | nil => intro k D _; simp [meshesFrom, readMeshes, dataFrom]
  | cons r rs ih =>
    intro k D hD
    rw [meshesFrom, readMeshes]
    simp only [reshape3_flatten3]
    rw [put, upd_fresh _ _ _ _ (fun h => absurd (hD k h) (by omega)), ih]
    · simp [dataFrom]
    · intro i hi
      simp only [List.map_append, List.mem_append, List.map_cons, List.map_nil,
        List.mem_singleton] at hi
      rcases hi with hi | hi
      · exact Nat.lt_succ_of_lt (hD i hi)
      · omega

theorem setInfo_eq (k : Nat) (info : BimInfo) (v : BimData F) (E : Dict Nat (BimData F))
    (D : Dict Nat (BimData F)) (hD : k ∉ D.map Prod.fst) :
    setInfo k info (D ++ (k, v) :: E) = .ok (D ++ (k, { v with info := some info }) :: E) := by
  induction D with
  | nil => simp [setInfo]
  | cons e D ih =>
    obtain ⟨k', v'⟩ := e
    simp at hD
    have h1 : ¬ k' = k := fun h => hD.1 h.symm
    rw [List.cons_append, setInfo, if_neg h1, ih (by simpa using hD.2)]
    simp

theorem readElements_eq (rs : List (Zone (F × F × F) × Solid (F × F × F) ×
    Wall (F × F × F) × Poly (F × F × F))) : ∀ k (D : Dict Nat (BimData F)),
    (∀ i ∈ D.map Prod.fst, i < k) →
    readElements (D ++ dataFrom false k rs) (elementsFrom k rs) = .ok (D ++ dataFrom true k rs) := by
  induction rs with
  | nil => intro k D _; simp [elementsFrom, readElements, dataFrom]
  | cons r rs ih =>
    intro k D hD
    rw [elementsFrom, readElements]
    simp only [dataFrom]
    rw [setInfo_eq k _ _ _ D (fun h => absurd (hD k h) (by omega))]
    simp only []
    have := ih (k + 1) (D ++ [(k, ⟨r.2.2.2.pts, r.2.2.2.tri, some (infoOf r)⟩)]) (by
      intro i hi
      simp only [List.map_append, List.mem_append, List.map_cons, List.map_nil,
        List.mem_singleton] at hi
      rcases hi with hi | hi
      · exact Nat.lt_succ_of_lt (hD i hi)
      · omega)
    simpa using this

theorem buildModel_eq (rs : List (Zone (F × F × F) × Solid (F × F × F) ×
    Wall (F × F × F) × Poly (F × F × F))) : ∀ k (M : Nest (Str × Str) (List (F × F × F) × List Tri)),
    buildModel M (dataFrom true k rs)
      = .ok (rs.foldl (fun d r => putNest (r.1.uid, r.1.name) (r.2.1.uid, r.2.1.name)
          (r.2.2.1.uid, r.2.2.1.name) (r.2.2.2.uid, r.2.2.2.name)
          (r.2.2.2.pts, r.2.2.2.tri) d) M) := by
  induction rs with
  | nil => intro k M; simp [dataFrom, buildModel]
  | cons r rs ih =>
    intro k M
    rw [dataFrom, buildModel]
    simp only [if_true]
    rw [ih, List.foldl_cons]
    rfl

end B3d.Files
