import Verif.Proofs.ArrayFormat
import Mathlib.Data.List.Sort
import Mathlib.Data.List.DropRight

/-! # Reading the array format back -/

namespace B3d.ArrayFormat

open B3d.Triangles (Tri)
open B3d.Tree
open B3d.Mesh (shiftTri shifted polyMesh shifted_length mapM_ok)

variable {P : Type}

theorem mem_own {l : List Nat} : ∀ {a k : Nat}, k ∈ own a l → a ≤ k ∧ k < a + l.length := by
  induction l with
  | nil => intro a k h; simp [own] at h
  | cons n l ih =>
    intro a k h
    simp only [own, List.mem_append, List.mem_replicate] at h
    rcases h with ⟨_, rfl⟩ | h
    · simp
    · have := ih h
      simp only [List.length_cons]
      omega

/-! ### Grouping -/

theorem pick_append {X : Type} (o1 o2 : List Nat) (x1 x2 : List X) (k : Nat)
    (h : o1.length = x1.length) : pick (o1 ++ o2) (x1 ++ x2) k = pick o1 x1 k ++ pick o2 x2 k := by
  unfold pick
  rw [List.zip_append h, List.filter_append, List.map_append]

theorem pick_replicate_self {X : Type} (xs : List X) (k : Nat) :
    pick (List.replicate xs.length k) xs k = xs := by
  unfold pick
  induction xs with
  | nil => rfl
  | cons x xs ih => simpa [List.replicate_succ] using ih

theorem pick_not_mem {X : Type} (o : List Nat) (xs : List X) (k : Nat) (h : k ∉ o) :
    pick o xs k = [] := by
  unfold pick
  simp only [List.map_eq_nil_iff, List.filter_eq_nil_iff]
  rintro ⟨a, x⟩ hm
  have := (List.of_mem_zip hm).1
  simp only [decide_eq_true_eq]
  rintro rfl
  exact h this

theorem pick_own {X : Type} (gs : List (List X)) : ∀ (k i : Nat) (hi : i < gs.length),
    pick (own k (gs.map List.length)) gs.flatten (k + i) = gs[i] := by
  induction gs with
  | nil => intro k i hi; simp at hi
  | cons g gs ih =>
    intro k i hi
    simp only [List.map_cons, own, List.flatten_cons]
    rw [pick_append _ _ _ _ _ (by simp)]
    obtain _ | i := i
    · rw [Nat.add_zero, pick_replicate_self, pick_not_mem]
      · simp
      · intro h; have := mem_own h; omega
    · rw [pick_not_mem (List.replicate _ _)]
      · have := ih (k + 1) i (by simpa using hi)
        have e : k + (i + 1) = k + 1 + i := by omega
        rw [e, this]
        simp
      · intro h; have := List.eq_of_mem_replicate h; omega

/-! ### One polygon -/

theorem triIndex_aux (l : List Nat) (k : Nat) : ∀ off, k ∉ l →
    ((l.zipIdx off).filter fun e => decide (e.1 = k)).map Prod.snd = [] := by
  intro off h
  simp only [List.map_eq_nil_iff, List.filter_eq_nil_iff]
  rintro ⟨a, i⟩ hm
  have := List.fst_mem_of_mem_zipIdx hm
  simp only [decide_eq_true_eq]
  rintro rfl
  exact h this

theorem triIndex_replicate (n k : Nat) : ∀ off,
    (((List.replicate n k).zipIdx off).filter fun e => decide (e.1 = k)).map Prod.snd =
      List.range' off n := by
  induction n with
  | zero => intro off; rfl
  | succ n ih =>
    intro off
    simp [List.replicate_succ, List.range'_succ, ih]

theorem triIndexOf_eq (X Y : List Nat) (n k : Nat) (hX : k ∉ X) (hY : k ∉ Y) :
    triIndexOf (X ++ List.replicate n k ++ Y) k = List.range' X.length n := by
  unfold triIndexOf
  rw [List.zipIdx_append, List.zipIdx_append, List.filter_append, List.filter_append,
    List.map_append, List.map_append, triIndex_aux X k _ hX, triIndex_aux Y k _ hY,
    triIndex_replicate]
  simp

theorem filter_idx {α : Type} (l : List α) (p : Nat → Prop) [DecidablePred p] : ∀ off,
    (∀ i, off ≤ i → i < off + l.length → p i) →
    ((l.zipIdx off).filter fun e => decide (p e.2)).map Prod.fst = l := by
  induction l with
  | nil => intro off _; rfl
  | cons x l ih =>
    intro off h
    have h0 : p off := h off (le_refl _) (by simp)
    have := ih (off + 1) (fun i h1 h2 => h i (by omega) (by simp; omega))
    simp [h0, this]

theorem filter_idx_none {α : Type} (l : List α) (p : Nat → Prop) [DecidablePred p] : ∀ off,
    (∀ i, off ≤ i → i < off + l.length → ¬ p i) →
    ((l.zipIdx off).filter fun e => decide (p e.2)).map Prod.fst = [] := by
  intro off h
  simp only [List.map_eq_nil_iff, List.filter_eq_nil_iff]
  rintro ⟨a, i⟩ hm
  have h1 := List.mem_zipIdx hm
  simpa using h i (by omega) (by omega)

theorem selected_faces (F M G : List Tri) :
    ((F ++ M ++ G).zipIdx.filter fun e => decide (e.2 ∈ List.range' F.length M.length)).map
      Prod.fst = M := by
  rw [List.zipIdx_append, List.zipIdx_append, List.filter_append, List.filter_append,
    List.map_append, List.map_append,
    filter_idx_none F (fun i => i ∈ List.range' F.length M.length),
    filter_idx M (fun i => i ∈ List.range' F.length M.length),
    filter_idx_none G (fun i => i ∈ List.range' F.length M.length)]
  · simp
  · intro i h1 h2 h3
    rw [List.mem_range'_1] at h3
    rw [List.length_append] at h1
    omega
  · intro i h1 h2
    rw [List.mem_range'_1]
    omega
  · intro i h1 h2 h3
    rw [List.mem_range'_1] at h3
    omega

/-- A set of numbers is an interval: its sorted list is the interval. -/
theorem sort_dedup_eq_range (l : List Nat) (off n : Nat)
    (h : ∀ k, k ∈ l ↔ off ≤ k ∧ k < off + n) : l.dedup.insertionSort (· ≤ ·) = List.range' off n := by
  have hp : (l.dedup.insertionSort (· ≤ ·)).Perm (List.range' off n) := by
    refine (List.perm_insertionSort _ _).trans ?_
    rw [List.perm_ext_iff_of_nodup (List.nodup_dedup l) (List.nodup_range')]
    intro k
    rw [List.mem_dedup, h, List.mem_range'_1]
  refine List.Perm.eq_of_pairwise (le := (· ≤ ·)) (fun a b _ _ h1 h2 => le_antisymm h1 h2) ?_ ?_ hp
  · exact List.pairwise_insertionSort _ _
  · exact (List.pairwise_lt_range' (s := off) (n := n)).imp fun h => h.le

theorem lookup_range' (n : Nat) : ∀ (off start k : Nat), off ≤ k → k < off + n →
    ((List.range' off n).zipIdx start).lookup k = some (k - off + start) := by
  induction n with
  | zero => intro off start k h1 h2; omega
  | succ n ih =>
    intro off start k h1 h2
    rw [List.range'_succ, List.zipIdx_cons, List.lookup_cons]
    by_cases hk : k = off
    · subst hk; simp
    · have : (k == off) = false := by simpa using hk
      rw [this]
      simp only []
      rw [ih (off + 1) (start + 1) k (by omega) (by omega)]
      congr 1
      omega

theorem recount_range' (off n x : Nat) (h : x < n) :
    recount (List.range' off n) (x + off) = .ok x := by
  unfold recount
  rw [lookup_range' n off 0 (x + off) (by omega) (by omega)]
  simp

theorem mapM_rowAt {α : Type} (pts : List α) : ∀ (A B : List α),
    (List.range' A.length pts.length).mapM (rowAt (A ++ pts ++ B)) = .ok pts := by
  induction pts with
  | nil => intro A B; rfl
  | cons p pts ih =>
    intro A B
    have h1 : rowAt (A ++ p :: pts ++ B) A.length = .ok p := by
      unfold rowAt; simp
    have h2 := ih (A ++ [p]) B
    rw [List.length_append] at h2
    simp only [List.length_singleton, List.append_assoc, List.cons_append, List.nil_append] at h2
    rw [List.length_cons, List.range'_succ, List.mapM_cons, h1]
    simp only [List.append_assoc, List.cons_append]
    rw [h2]
    rfl

theorem mapM_polyTriRow (I : List Nat) (off : Nat) (tri : List Tri) : ∀ (F G : List Tri),
    (∀ t ∈ tri, recountTri I (shiftTri off t) = .ok t) →
    (List.range' F.length tri.length).mapM (polyTriRow (F ++ tri.map (shiftTri off) ++ G) I) =
      .ok tri := by
  induction tri with
  | nil => intro F G _; rfl
  | cons t tri ih =>
    intro F G h
    have h1 : polyTriRow (F ++ (t :: tri).map (shiftTri off) ++ G) I F.length = .ok t := by
      unfold polyTriRow rowAt
      simp [h t (by simp)]
    have h2 := ih (F ++ [shiftTri off t]) G (fun t ht => h t (by simp [ht]))
    rw [List.length_append] at h2
    simp only [List.length_singleton, List.append_assoc, List.cons_append, List.nil_append] at h2
    rw [List.length_cons, List.range'_succ, List.mapM_cons, h1]
    simp only [List.append_assoc, List.cons_append, List.map_cons]
    rw [h2]
    rfl

/-- Every vertex number of the triangles exists, and every vertex is used by a triangle. -/
def UsesExactly (pts : List P) (tri : List Tri) : Prop :=
  ∀ k, k < pts.length ↔ ∃ t ∈ tri, k = t.1 ∨ k = t.2.1 ∨ k = t.2.2

theorem getPolygon_eq (A : List P) (pts : List P) (B : List P) (F : List Tri) (tri G : List Tri)
    (X Y : List Nat) (k : Nat) (hF : X.length = F.length) (hX : k ∉ X) (hY : k ∉ Y)
    (hu : UsesExactly pts tri) :
    getPolygonPointsAndFaces (A ++ pts ++ B) (F ++ tri.map (shiftTri A.length) ++ G)
      (X ++ List.replicate tri.length k ++ Y) k = .ok (pts, tri) := by
  have h1 := triIndexOf_eq X Y tri.length k hX hY
  have h2 : ptIndexOf (F ++ tri.map (shiftTri A.length) ++ G)
      (List.range' X.length tri.length) = List.range' A.length pts.length := by
    unfold ptIndexOf
    apply sort_dedup_eq_range
    intro j
    have hs := selected_faces F (tri.map (shiftTri A.length)) G
    rw [List.length_map, ← hF] at hs
    have : (((F ++ tri.map (shiftTri A.length) ++ G).zipIdx.filter
        fun e => decide (e.2 ∈ List.range' X.length tri.length)).flatMap
          fun e => [e.1.1, e.1.2.1, e.1.2.2]) =
        (tri.map (shiftTri A.length)).flatMap fun t => [t.1, t.2.1, t.2.2] := by
      conv_rhs => rw [← hs]
      rw [List.flatMap_map]
    rw [this]
    simp only [List.mem_flatMap, List.mem_map, exists_exists_and_eq_and, shiftTri, List.mem_cons,
      List.not_mem_nil, or_false]
    constructor
    · rintro ⟨t, ht, hj⟩
      have a1 := (hu t.1).2 ⟨t, ht, Or.inl rfl⟩
      have a2 := (hu t.2.1).2 ⟨t, ht, Or.inr (Or.inl rfl)⟩
      have a3 := (hu t.2.2).2 ⟨t, ht, Or.inr (Or.inr rfl)⟩
      omega
    · rintro ⟨hj1, hj2⟩
      obtain ⟨t, ht, hj⟩ := (hu (j - A.length)).1 (by omega)
      exact ⟨t, ht, by omega⟩
  unfold getPolygonPointsAndFaces
  simp only [h1, h2, mapM_rowAt]
  rw [hF, mapM_polyTriRow]
  intro t ht
  have a1 := (hu t.1).2 ⟨t, ht, Or.inl rfl⟩
  have a2 := (hu t.2.1).2 ⟨t, ht, Or.inr (Or.inl rfl)⟩
  have a3 := (hu t.2.2).2 ⟨t, ht, Or.inr (Or.inr rfl)⟩
  unfold recountTri shiftTri
  simp only [recount_range' _ _ _ a1, recount_range' _ _ _ a2, recount_range' _ _ _ a3]

/-- The `i`-th polygon of a list of polygons. -/
theorem getPolygon_of_list (ps : List (Poly P)) (i : Nat) (hi : i < ps.length)
    (hu : UsesExactly ps[i].pts ps[i].tri) :
    getPolygonPointsAndFaces (polysPts ps) (shifted 0 (ps.map polyMesh))
      (own 0 (ps.map fun p => p.tri.length)) i = .ok (ps[i].pts, ps[i].tri) := by
  obtain ⟨A, p, B, rfl, hA⟩ : ∃ A p B, ps = A ++ p :: B ∧ A.length = i :=
    ⟨ps.take i, ps[i], ps.drop (i + 1), by simp, by simp; omega⟩
  subst hA
  have hp : (A ++ p :: B)[A.length] = p := by simp
  rw [hp] at hu ⊢
  have e1 : polysPts (A ++ p :: B) = polysPts A ++ p.pts ++ polysPts B := by simp [polysPts]
  have e2 : shifted 0 ((A ++ p :: B).map polyMesh) =
      shifted 0 (A.map polyMesh) ++ p.tri.map (shiftTri (polysPts A).length) ++
        shifted ((polysPts A).length + p.pts.length) (B.map polyMesh) := by
    rw [List.map_append, shifted_append]
    simp [shifted, polyMesh, polysPts, List.length_flatMap, Function.comp_def]
  have e3 : own 0 ((A ++ p :: B).map fun p => p.tri.length) =
      own 0 (A.map fun p => p.tri.length) ++ List.replicate p.tri.length A.length ++
        own (A.length + 1) (B.map fun p => p.tri.length) := by
    rw [List.map_append, own_append]
    simp [own]
  rw [e1, e2, e3]
  apply getPolygon_eq _ _ _ _ _ _ _ _ _ _ _ _ hu
  · simp [own_length, shifted_length, polyMesh, Function.comp_def]
  · intro h; have := mem_own h; simp at this
  · intro h; have := mem_own h; omega

/-! ### Constructors -/

theorem addAllNew_ok {X : Type} (name : X → Str) (xs : List X) : ∀ done,
    ((done ++ xs).map name).Nodup → addAllNew name done xs = .ok (done ++ xs) := by
  induction xs with
  | nil => intro done _; simp [addAllNew]
  | cons x xs ih =>
    intro done h
    rw [addAllNew, if_neg, ih]
    · simp
    · simpa using h
    · intro hm
      rw [List.map_append, List.map_cons, List.nodup_append] at h
      exact h.2.2 _ hm _ (by simp) rfl

theorem addAllNew_err {X : Type} (name : X → Str) (xs : List X) : ∀ done,
    (done.map name).Nodup → ¬ ((done ++ xs).map name).Nodup →
    addAllNew name done xs = .error .geometryError := by
  induction xs with
  | nil => intro done h1 h2; simp at h2; exact absurd h1 h2
  | cons x xs ih =>
    intro done h1 h2
    rw [addAllNew]
    by_cases hm : name x ∈ done.map name
    · rw [if_pos hm]
    · rw [if_neg hm, ih]
      · rw [List.map_append, List.nodup_append]
        refine ⟨h1, by simp, ?_⟩
        intro a ha b hb
        simp at hb
        subst hb
        rintro rfl
        exact hm ha
      · simpa using h2

theorem mapM_range {X : Type} (f : Nat → Except PyErr X) (xs : List X)
    (h : ∀ (i : Nat) (hi : i < xs.length), f i = .ok xs[i]) :
    (List.range xs.length).mapM f = .ok xs := by
  have key : ∀ (l : List X) (k : Nat), (∀ (i : Nat) (hi : i < l.length), f (k + i) = .ok l[i]) →
      (List.range' k l.length).mapM f = .ok l := by
    intro l
    induction l with
    | nil => intro k _; rfl
    | cons x l ih =>
      intro k hk
      rw [List.length_cons, List.range'_succ, List.mapM_cons]
      have h0 := hk 0 (by simp)
      simp only [Nat.add_zero, List.getElem_cons_zero] at h0
      rw [h0, ih (k + 1)]
      · rfl
      · intro i hi
        have := hk (i + 1) (by simpa using hi)
        simp only [List.getElem_cons_succ] at this
        rw [← this]
        congr 1
        omega
  have := key xs 0 (by simpa using h)
  rwa [List.range_eq_range']

/-! ### Numbered trees -/

theorem wallsPolys_num (ws : List (Wall P)) : ∀ k pk,
    wallsPolys (numWalls k pk ws) = numPolys pk (wallsPolys ws) := by
  have happ : ∀ (a b : List (Poly P)) (k : Nat),
      numPolys k (a ++ b) = numPolys k a ++ numPolys (k + a.length) b := by
    intro a b
    induction a with
    | nil => intro k; rfl
    | cons p a ih => intro k; simp [numPolys, ih, Nat.add_assoc, Nat.add_comm 1]
  induction ws with
  | nil => intro k pk; rfl
  | cons w ws ih =>
    intro k pk
    have h1 : wallsPolys (w :: ws) = w.polygons ++ wallsPolys ws := by simp [wallsPolys]
    have h2 : ∀ (a : Wall P) (b), wallsPolys (a :: b) = a.polygons ++ wallsPolys b := by
      intro a b; simp [wallsPolys]
    rw [numWalls, h2, h1, happ, ih]

theorem solidsWalls_num (ss : List (Solid P)) : ∀ k wk pk,
    solidsWalls (numSolids k wk pk ss) = numWalls wk pk (solidsWalls ss) := by
  have happ : ∀ (a b : List (Wall P)) (k pk : Nat),
      numWalls k pk (a ++ b) =
        numWalls k pk a ++ numWalls (k + a.length) (pk + (wallsPolys a).length) b := by
    intro a b
    induction a with
    | nil => intro k pk; rfl
    | cons p a ih =>
      intro k pk
      simp [numWalls, ih, Nat.add_assoc, Nat.add_comm 1, wallsPolys]
  induction ss with
  | nil => intro k wk pk; rfl
  | cons s ss ih =>
    intro k wk pk
    have h2 : ∀ (a : Solid P) (b), solidsWalls (a :: b) = a.walls ++ solidsWalls b := by
      intro a b; simp [solidsWalls]
    rw [numSolids, h2, h2, happ, ih]

theorem zonesSolids_num (zs : List (Zone P)) : ∀ k sk wk pk,
    zonesSolids (numZones k sk wk pk zs) = numSolids sk wk pk (zonesSolids zs) := by
  have happ : ∀ (a b : List (Solid P)) (k wk pk : Nat),
      numSolids k wk pk (a ++ b) =
        numSolids k wk pk a ++ numSolids (k + a.length) (wk + (solidsWalls a).length)
          (pk + (wallsPolys (solidsWalls a)).length) b := by
    intro a b
    induction a with
    | nil => intro k wk pk; rfl
    | cons p a ih =>
      intro k wk pk
      simp [numSolids, ih, Nat.add_assoc, Nat.add_comm 1, wallsPolys, solidsWalls]
  induction zs with
  | nil => intro k sk wk pk; rfl
  | cons z zs ih =>
    intro k sk wk pk
    have h2 : ∀ (a : Zone P) (b), zonesSolids (a :: b) = a.solids ++ zonesSolids b := by
      intro a b; simp [zonesSolids]
    rw [numZones, h2, h2, happ, ih]

theorem numPolys_length (ps : List (Poly P)) : ∀ k, (numPolys k ps).length = ps.length := by
  induction ps with
  | nil => intro k; rfl
  | cons p ps ih => intro k; simp [numPolys, ih]

theorem numWalls_length (ws : List (Wall P)) : ∀ k pk, (numWalls k pk ws).length = ws.length := by
  induction ws with
  | nil => intro k pk; rfl
  | cons w ws ih => intro k pk; simp [numWalls, ih]

theorem numSolids_length (ss : List (Solid P)) :
    ∀ k wk pk, (numSolids k wk pk ss).length = ss.length := by
  induction ss with
  | nil => intro k wk pk; rfl
  | cons s ss ih => intro k wk pk; simp [numSolids, ih]

theorem numZones_length (zs : List (Zone P)) :
    ∀ k sk wk pk, (numZones k sk wk pk zs).length = zs.length := by
  induction zs with
  | nil => intro k sk wk pk; rfl
  | cons z zs ih => intro k sk wk pk; simp [numZones, ih]

theorem numPolys_num (ps : List (Poly P)) : ∀ k,
    (numPolys k ps).map Poly.num = (List.range' k ps.length).map some := by
  induction ps with
  | nil => intro k; rfl
  | cons p ps ih => intro k; simp [numPolys, ih, List.range'_succ]

theorem numWalls_num (ws : List (Wall P)) : ∀ k pk,
    (numWalls k pk ws).map Wall.num = (List.range' k ws.length).map some := by
  induction ws with
  | nil => intro k pk; rfl
  | cons w ws ih => intro k pk; simp [numWalls, ih, List.range'_succ]

theorem numSolids_num (ss : List (Solid P)) : ∀ k wk pk,
    (numSolids k wk pk ss).map Solid.num = (List.range' k ss.length).map some := by
  induction ss with
  | nil => intro k wk pk; rfl
  | cons s ss ih => intro k wk pk; simp [numSolids, ih, List.range'_succ]

theorem numZones_num (zs : List (Zone P)) : ∀ k sk wk pk,
    (numZones k sk wk pk zs).map Zone.num = (List.range' k zs.length).map some := by
  induction zs with
  | nil => intro k sk wk pk; rfl
  | cons z zs ih => intro k sk wk pk; simp [numZones, ih, List.range'_succ]

theorem numPolys_geom (ps : List (Poly P)) : ∀ k,
    (numPolys k ps).map (fun p => (p.pts, p.tri)) = ps.map fun p => (p.pts, p.tri) := by
  induction ps with
  | nil => intro k; rfl
  | cons p ps ih => intro k; simp [numPolys, ih]

theorem numWalls_count (ws : List (Wall P)) : ∀ k pk,
    (numWalls k pk ws).map (fun w => w.polygons.length) = ws.map fun w => w.polygons.length := by
  induction ws with
  | nil => intro k pk; rfl
  | cons w ws ih => intro k pk; simp [numWalls, ih, numPolys_length]

theorem numSolids_count (ss : List (Solid P)) : ∀ k wk pk,
    (numSolids k wk pk ss).map (fun s => s.walls.length) = ss.map fun s => s.walls.length := by
  induction ss with
  | nil => intro k wk pk; rfl
  | cons s ss ih => intro k wk pk; simp [numSolids, ih, numWalls_length]

theorem numZones_count (zs : List (Zone P)) : ∀ k sk wk pk,
    (numZones k sk wk pk zs).map (fun z => z.solids.length) = zs.map fun z => z.solids.length := by
  induction zs with
  | nil => intro k sk wk pk; rfl
  | cons z zs ih => intro k sk wk pk; simp [numZones, ih, numSolids_length]

end B3d.ArrayFormat
