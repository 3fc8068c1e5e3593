import Verif.Proofs.Graph
import Mathlib.Data.List.Dedup
import Mathlib.Data.List.Induction

/-!
# C10 - C12, C56, C61, C62: adjacency graphs and what is built on them
-/

set_option linter.unusedSectionVars false

namespace B3d.Hier
variable {P : Type}

/-! ### Specification -/

/-- `i` is a polygon of the building `b`. -/
def IsPolygonOf (h : Heap P) (b i : Nat) : Prop :=
  Within h b i ∧ ∃ o : Obj P, h[i]? = some o ∧ o.kind = .polygon

/-- The relation asked for by the flags holds from `i` to `j`. -/
def Asked (r : Rels) (f : Flags) (i j : Nat) : Prop :=
  (f.facing = true ∧ r.facing i j = true) ∨ (f.overlapping = true ∧ r.crossing i j = true) ∨
  (f.touching = true ∧ r.touching i j = true)

/-- Two different polygons whose bounding boxes overlap and which are in one of the requested
relations, in one of the two argument orders. -/
def Adjacent (r : Rels) (f : Flags) (i j : Nat) : Prop :=
  i ≠ j ∧ ((r.bb i j = true ∧ Asked r f i j) ∨ (r.bb j i = true ∧ Asked r f j i))

theorem cond_iff (r : Rels) (f : Flags) (i j : Nat) : r.cond f i j = true ↔ Asked r f i j := by
  unfold Rels.cond Asked
  cases f.facing <;> cases f.overlapping <;> cases f.touching <;> simp

/-! ### C10 -/

theorem isPolygonOf_iff {h : Heap P} {b : Nat} {B : Obj P} (c : BCtx h b B) (i : Nat) :
    i ∈ leafIds h 4 b ↔ IsPolygonOf h b i := by
  rw [c.mem_leafIds]
  unfold IsPolygonOf
  constructor
  · rintro ⟨hw, o, ho, hr⟩
    refine ⟨hw, o, ho, ?_⟩
    cases hk : o.kind <;> rw [hk] at hr <;> simp [Kind.rank] at hr ⊢
  · rintro ⟨hw, o, ho, hk⟩
    exact ⟨hw, o, ho, by rw [hk]; rfl⟩

theorem graph_spec {h : Heap P} {b : Nat} {B : Obj P} (c : BCtx h b B) (r : Rels) (f : Flags)
    (htwo : ∃ i j, i ≠ j ∧ IsPolygonOf h b i ∧ IsPolygonOf h b j) :
    ((graphPolygon h r f b).map Prod.fst).Nodup ∧
    (∀ s, s ∈ (graphPolygon h r f b).map Prod.fst ↔ ∃ i, IsPolygonOf h b i ∧ path h i = s) ∧
    (∀ i v, IsPolygonOf h b i → (path h i, v) ∈ graphPolygon h r f b →
      v.Nodup ∧ ∀ q, q ∈ v ↔ ∃ j, IsPolygonOf h b j ∧ path h j = q ∧ Adjacent r f i j) := by
  have hinj : ∀ i ∈ leafIds h 4 b, ∀ j ∈ leafIds h 4 b, path h i = path h j → i = j := by
    intro i hi j hj he
    exact c.path_inj ((isPolygonOf_iff c i).1 hi).1 ((isPolygonOf_iff c j).1 hj).1 he
  have hmem : ∀ i j, (i, j) ∈ ((leafIds h 4 b).flatMap fun i => (leafIds h 4 b).map fun j => (i, j)) ↔
      i ∈ leafIds h 4 b ∧ j ∈ leafIds h 4 b := by
    intro i j
    simp only [List.mem_flatMap, List.mem_map, Prod.mk.injEq]
    constructor
    · rintro ⟨a, ha, b', hb', rfl, rfl⟩; exact ⟨ha, hb'⟩
    · rintro ⟨ha, hb'⟩; exact ⟨i, ha, j, hb', rfl, rfl⟩
  have I := GInv.foldl (r := r) (f := f) hinj
    ((leafIds h 4 b).flatMap fun i => (leafIds h 4 b).map fun j => (i, j)) ⟨[], []⟩ []
    (by rintro ⟨i, j⟩ hij; exact (hmem i j).1 hij) GInv.nil
  rw [List.nil_append] at I
  have htouch : ∀ i ∈ leafIds h 4 b,
      TouchIn ((leafIds h 4 b).flatMap fun i => (leafIds h 4 b).map fun j => (i, j)) i := by
    intro i hi
    obtain ⟨a, a', hne, ha, ha'⟩ := htwo
    rw [← isPolygonOf_iff c] at ha ha'
    by_cases hia : i = a
    · exact ⟨a', by rw [hia]; exact hne, Or.inl ((hmem _ _).2 ⟨hi, ha'⟩)⟩
    · exact ⟨a, hia, Or.inl ((hmem _ _).2 ⟨hi, ha⟩)⟩
  have hedge : ∀ i ∈ leafIds h 4 b, ∀ j ∈ leafIds h 4 b,
      (EdgeIn r f ((leafIds h 4 b).flatMap fun i => (leafIds h 4 b).map fun j => (i, j)) i j ↔
        Adjacent r f i j) := by
    intro i hi j hj
    unfold EdgeIn Adjacent
    rw [hmem, hmem]
    simp only [conn, Bool.and_eq_true, cond_iff, hi, hj, and_self, true_and]
  refine ⟨I.nodup, ?_, ?_⟩
  · intro s
    show s ∈ List.map Prod.fst (GState.g (List.foldl _ _ _)) ↔ _
    rw [I.keys s]
    constructor
    · rintro ⟨i, hi, he, _⟩; exact ⟨i, (isPolygonOf_iff c i).1 hi, he⟩
    · rintro ⟨i, hi, he⟩
      have hi := (isPolygonOf_iff c i).2 hi
      exact ⟨i, hi, he, htouch i hi⟩
  · intro i v hi hm
    have hi := (isPolygonOf_iff c i).2 hi
    obtain ⟨h1, h2⟩ := I.entries _ v hm i hi rfl
    refine ⟨h1, fun q => ?_⟩
    rw [h2]
    constructor
    · rintro ⟨j, hj, he, hE⟩
      exact ⟨j, (isPolygonOf_iff c j).1 hj, he, (hedge i hi j hj).1 hE⟩
    · rintro ⟨j, hj, he, hE⟩
      have hj := (isPolygonOf_iff c j).2 hj
      exact ⟨j, hj, he, (hedge i hi j hj).2 hE⟩

/-- C10: the polygon graph of a building with at least two polygons has exactly the polygon paths as
keys, each once; the list stored for a polygon has no repetitions and consists of exactly the paths
of the polygons adjacent to it. -/
theorem C10_polygon_graph_exact (ops : List (Op P)) (hl : LinearFrom [] ops) (b : Nat) (B : Obj P)
    (hb : (exec ops)[b]? = some B) (hk : B.kind = .building) (r : Rels) (f : Flags)
    (htwo : ∃ i j, i ≠ j ∧ IsPolygonOf (exec ops) b i ∧ IsPolygonOf (exec ops) b j) :
    let h := exec ops
    let g := graphPolygon h r f b
    (g.map Prod.fst).Nodup ∧
    (∀ s, s ∈ g.map Prod.fst ↔ ∃ i, IsPolygonOf h b i ∧ path h i = s) ∧
    ∀ i, IsPolygonOf h b i → ∃ v, g.lookup (path h i) = some v ∧ v.Nodup ∧
      (∀ q ∈ v, ∃ j, IsPolygonOf h b j ∧ path h j = q) ∧
      ∀ j, IsPolygonOf h b j → (path h j ∈ v ↔ Adjacent r f i j) := by
  intro h g
  have c := BCtx.of_ops hl hb hk
  obtain ⟨h1, h2, h3⟩ := graph_spec c r f htwo
  refine ⟨h1, h2, ?_⟩
  intro i hi
  obtain ⟨⟨k, v⟩, hm, he⟩ := List.mem_map.1 ((h2 (path h i)).2 ⟨i, hi, rfl⟩)
  simp only [] at he
  subst he
  obtain ⟨hn, hq⟩ := h3 i v hi hm
  refine ⟨v, glookup_of_mem h1 hm, hn, ?_, ?_⟩
  · intro q hqv
    obtain ⟨j, hj, he, _⟩ := (hq q).1 hqv
    exact ⟨j, hj, he⟩
  · intro j hj
    rw [hq]
    constructor
    · rintro ⟨j', hj', he, ha⟩
      rw [c.path_inj hj.1 hj'.1 he.symm]; exact ha
    · intro ha; exact ⟨j, hj, rfl, ha⟩

/-- C10: adjacency in the polygon graph is symmetric and irreflexive. -/
theorem C10_polygon_graph_symmetric (ops : List (Op P)) (hl : LinearFrom [] ops) (b : Nat)
    (B : Obj P) (hb : (exec ops)[b]? = some B) (hk : B.kind = .building) (r : Rels) (f : Flags)
    (htwo : ∃ i j, i ≠ j ∧ IsPolygonOf (exec ops) b i ∧ IsPolygonOf (exec ops) b j)
    (s t : Str) (v : List Str) (hv : (graphPolygon (exec ops) r f b).lookup s = some v)
    (ht : t ∈ v) :
    s ≠ t ∧ ∃ v', (graphPolygon (exec ops) r f b).lookup t = some v' ∧ s ∈ v' := by
  have c := BCtx.of_ops hl hb hk
  obtain ⟨h1, h2, h3⟩ := C10_polygon_graph_exact ops hl b B hb hk r f htwo
  have hs : s ∈ (graphPolygon (exec ops) r f b).map Prod.fst := by
    have : ∀ (l : GDict), l.lookup s = some v → s ∈ l.map Prod.fst := by
      intro l
      induction l with
      | nil => intro h; cases h
      | cons a l ih =>
        intro h
        rw [List.lookup_cons] at h
        by_cases e : s = a.1
        · simp [e]
        · have hb' : (s == a.1) = false := by simp [e]
          rw [hb'] at h
          exact List.mem_cons_of_mem _ (ih h)
    exact this _ hv
  obtain ⟨i, hi, rfl⟩ := (h2 s).1 hs
  obtain ⟨v1, hv1, _, hq, ha⟩ := h3 i hi
  rw [hv] at hv1; cases hv1
  obtain ⟨j, hj, rfl⟩ := hq t ht
  have hadj := (ha j hj).1 ht
  obtain ⟨v2, hv2, _, _, ha2⟩ := h3 j hj
  refine ⟨fun e => hadj.1 (c.path_inj hi.1 hj.1 e), v2, hv2, (ha2 i hi).2 ⟨hadj.1.symm, ?_⟩⟩
  exact hadj.2.symm

/-- With fewer than two polygons the graph is empty (no key at all). -/
theorem C10_graph_of_one_polygon (ops : List (Op P)) (hl : LinearFrom [] ops) (b : Nat) (B : Obj P)
    (hb : (exec ops)[b]? = some B) (hk : B.kind = .building) (r : Rels) (f : Flags)
    (hone : ∀ i j, IsPolygonOf (exec ops) b i → IsPolygonOf (exec ops) b j → i = j) :
    graphPolygon (exec ops) r f b = [] := by
  have c := BCtx.of_ops hl hb hk
  unfold graphPolygon
  have hsame : ∀ (M : List (Nat × Nat)) (st : GState), (∀ ij ∈ M, ij.1 = ij.2) →
      M.foldl (graphStep (path (exec ops)) r f) st = st := by
    intro M
    induction M with
    | nil => intro st _; rfl
    | cons ij M ih =>
      intro st hM
      rw [List.foldl_cons]
      have : graphStep (path (exec ops)) r f st ij = st := by
        unfold graphStep
        simp only [hM ij (by simp), if_true]
      rw [this]
      exact ih st (fun x hx => hM x (by simp [hx]))
  simp only []
  rw [hsame]
  rintro ⟨i, j⟩ hij
  simp only [List.mem_flatMap, List.mem_map, Prod.mk.injEq] at hij
  obtain ⟨a, ha, b', hb', rfl, rfl⟩ := hij
  exact hone a b' ((isPolygonOf_iff c a).1 ha) ((isPolygonOf_iff c b').1 hb')

/-- A building used in the examples: one zone with two solids of one wall each; polygons 0 and 3. -/
def twoOps : List (Op Nat) :=
  [ .construct .polygon ['p'] [] none [], .construct .wall ['w'] [] none [0],
    .construct .solid ['s'] [] none [1],
    .construct .polygon ['q'] [] none [], .construct .wall ['w'] [] none [3],
    .construct .solid ['t'] [] none [4],
    .construct .zone ['z'] [] none [2, 5], .construct .building ['b'] [] none [6] ]

/-- Relations used in the examples: 0 faces 3 (seen only from 0), 3 crosses 0. -/
def twoRels : Rels :=
  ⟨fun _ _ => true, fun i j => i == 0 && j == 3, fun i j => i == 3 && j == 0, fun _ _ => false⟩

example : graphPolygon (exec twoOps) twoRels ⟨true, false, false⟩ 7 =
    [("b/z/s/w/p".toList, ["b/z/t/w/q".toList]), ("b/z/t/w/q".toList, ["b/z/s/w/p".toList])] ∧
    graphPolygon (exec twoOps) twoRels ⟨false, false, true⟩ 7 =
    [("b/z/s/w/p".toList, []), ("b/z/t/w/q".toList, [])] := by decide +kernel

theorem notElsewhere_of_all (h : Heap P) (c x : Nat)
    (hall : (h.zipIdx.all fun oi => oi.1.children.all fun kv => kv.2 != x || oi.2 == c) = true) :
    NotElsewhere h c x := by
  intro i o k hi hk
  rw [List.all_eq_true] at hall
  have := hall (o, i) (by rw [List.mem_zipIdx_iff_getElem?]; exact hi)
  rw [List.all_eq_true] at this
  have := this _ hk
  simpa using this

example : LinearFrom [] twoOps := by
  unfold twoOps
  refine ⟨?_, ?_, ?_, ?_, ?_, ?_, ?_, ?_, trivial⟩ <;> intro x hx <;>
    apply notElsewhere_of_all <;> simp at hx
  · subst hx; decide +kernel
  · subst hx; decide +kernel
  · subst hx; decide +kernel
  · subst hx; decide +kernel
  · rcases hx with rfl | rfl <;> decide +kernel
  · subst hx; decide +kernel

/-! ### C11 -/

/-- `list(set(xs))`: the same members, each once, in some order. -/
def IsSetList (setList : List Str → List Str) : Prop :=
  ∀ l, (setList l).Nodup ∧ ∀ x, x ∈ setList l ↔ x ∈ l

/-- Non-vacuity of the specification of `list(set(...))`. -/
example : IsSetList List.dedup := fun l => ⟨List.nodup_dedup l, fun _ => List.mem_dedup⟩

/-- C11: the wall, solid and zone graphs (`n` = 1, 2, 3).  Keys are exactly the paths of the
containers of that level that contain a polygon; the list of a container `A` has no repetitions,
lists only such containers, and lists `A'` iff `A'` differs from `A` and some polygon in `A` is
adjacent to some polygon in `A'`. -/
theorem C11_level_graph_exact (setList : List Str → List Str) (hset : IsSetList setList)
    (ops : List (Op P)) (hl : LinearFrom [] ops) (b : Nat) (B : Obj P)
    (hb : (exec ops)[b]? = some B) (hk : B.kind = .building) (r : Rels) (f : Flags)
    (htwo : ∃ i j, i ≠ j ∧ IsPolygonOf (exec ops) b i ∧ IsPolygonOf (exec ops) b j)
    (n : Nat) (hn : n = 1 ∨ n = 2 ∨ n = 3) :
    let h := exec ops
    let g := stripGraph setList (graphPolygon h r f b) n
    let Part := fun A => Within h b A ∧ (∃ o : Obj P, h[A]? = some o ∧ o.kind.rank = n) ∧
      ∃ p, IsPolygonOf h A p
    (g.map Prod.fst).Nodup ∧
    (∀ s, s ∈ g.map Prod.fst ↔ ∃ A, Part A ∧ path h A = s) ∧
    ∀ A, Part A → ∃ v, g.lookup (path h A) = some v ∧ v.Nodup ∧
      (∀ q ∈ v, ∃ A', Part A' ∧ path h A' = q) ∧
      ∀ A', Part A' → (path h A' ∈ v ↔
        A ≠ A' ∧ ∃ p p', IsPolygonOf h A p ∧ IsPolygonOf h A' p' ∧ Adjacent r f p p') := by
  intro h g Part
  have c : BCtx h b B := BCtx.of_ops hl hb hk
  obtain ⟨g1, g2, g3⟩ := graph_spec c r f htwo
  have I := SInv.strip n (graphPolygon h r f b)
  have hgk : g.map Prod.fst = ((graphPolygon h r f b).foldl (stripStep n) []).map Prod.fst := by
    show List.map Prod.fst (List.map _ _) = _
    rw [List.map_map]; rfl
  have polyB : ∀ {A p}, Within h b A → IsPolygonOf h A p → IsPolygonOf h b p :=
    fun hA hp => ⟨hA.trans hp.1, hp.2⟩
  -- the part that contains a given polygon
  have part_of : ∀ p, IsPolygonOf h b p → ∃ A, Part A ∧ IsPolygonOf h A p ∧
      removeLast (path h p) n = path h A := by
    rintro p ⟨hp, o, ho, hko⟩
    obtain ⟨A, oA, hA, hoA, hrA, hAp⟩ := c.ancestor hp ho hko n (by omega)
    exact ⟨A, ⟨hA, ⟨oA, hoA, hrA⟩, p, hAp, o, ho, hko⟩, ⟨hAp, o, ho, hko⟩,
      c.removeLast_path ho hko hA hoA hrA hAp⟩
  have strip_iff : ∀ A p, Part A → IsPolygonOf h b p →
      (removeLast (path h p) n = path h A ↔ IsPolygonOf h A p) := by
    rintro A p ⟨hA, ⟨oA, hoA, hrA⟩, _⟩ ⟨hp, o, ho, hko⟩
    rw [c.within_iff hp ho hko hA hoA hrA]
    exact ⟨fun h => ⟨h, o, ho, hko⟩, fun h => h.1⟩
  have keys_iff : ∀ s, s ∈ g.map Prod.fst ↔ ∃ A, Part A ∧ path h A = s := by
    intro s
    rw [hgk, I.keys]
    constructor
    · rintro ⟨⟨k, v⟩, hm, rfl⟩
      obtain ⟨p, hp, hpk⟩ := (g2 k).1 (List.mem_map_of_mem (f := Prod.fst) hm)
      obtain ⟨A, hA, _, he⟩ := part_of p hp
      exact ⟨A, hA, by rw [← he, hpk]⟩
    · rintro ⟨A, hA, rfl⟩
      obtain ⟨p, hp⟩ := hA.2.2
      have hpb := polyB hA.1 hp
      obtain ⟨kv, hm, he⟩ := List.mem_map.1 ((g2 (path h p)).2 ⟨p, hpb, rfl⟩)
      exact ⟨kv, hm, by rw [he]; exact (strip_iff A p hA hpb).2 hp⟩
  refine ⟨by rw [hgk]; exact I.nodup, keys_iff, ?_⟩
  intro A hA
  obtain ⟨⟨k, v⟩, hm, he⟩ := List.mem_map.1 ((keys_iff (path h A)).2 ⟨A, hA, rfl⟩)
  simp only [] at he
  subst he
  obtain ⟨⟨k', v'⟩, hm', he'⟩ := List.mem_map.1 hm
  simp only [Prod.mk.injEq] at he'
  obtain ⟨rfl, rfl⟩ := he'
  have hent := I.entries _ v' hm'
  obtain ⟨hs1, hs2⟩ := hset v'
  -- neighbours as polygons
  have hx : ∀ x, x ∈ setList v' ↔ x ≠ path h A ∧ ∃ p p', IsPolygonOf h A p ∧
      IsPolygonOf h b p' ∧ Adjacent r f p p' ∧ removeLast (path h p') n = x := by
    intro x
    rw [hs2, hent]
    constructor
    · rintro ⟨h1, ⟨k, v⟩, hkv, h2, y, hy, h3⟩
      obtain ⟨p, hp, hpk⟩ := (g2 k).1 (List.mem_map_of_mem (f := Prod.fst) hkv)
      simp only [] at hpk h2 hy
      subst hpk
      obtain ⟨p', hp', hpy, ha⟩ := ((g3 p v hp hkv).2 y).1 hy
      subst hpy
      exact ⟨h1, p, p', (strip_iff A p hA hp).1 h2, hp', ha, h3⟩
    · rintro ⟨h1, p, p', hp, hp', ha, h3⟩
      have hpb := polyB hA.1 hp
      obtain ⟨⟨k, v⟩, hkv, he⟩ := List.mem_map.1 ((g2 (path h p)).2 ⟨p, hpb, rfl⟩)
      simp only [] at he
      subst he
      exact ⟨h1, _, hkv, (strip_iff A p hA hpb).2 hp, path h p',
        ((g3 p v hpb hkv).2 _).2 ⟨p', hp', rfl, ha⟩, h3⟩
  refine ⟨setList v', glookup_of_mem (by rw [hgk]; exact I.nodup) hm, hs1, ?_, ?_⟩
  · intro q hq
    obtain ⟨_, p, p', hp, hp', ha, h3⟩ := (hx q).1 hq
    obtain ⟨A', hA', _, he⟩ := part_of p' hp'
    exact ⟨A', hA', by rw [← he, h3]⟩
  · intro A' hA'
    rw [hx]
    constructor
    · rintro ⟨h1, p, p', hp, hp', ha, h3⟩
      exact ⟨fun e => h1 (by rw [e]), p, p', hp, (strip_iff A' p' hA' hp').1 h3, ha⟩
    · rintro ⟨h1, p, p', hp, hp', ha⟩
      have hpb := polyB hA'.1 hp'
      exact ⟨fun e => h1 (c.path_inj hA.1 hA'.1 e.symm), p, p', hp, hpb, ha,
        (strip_iff A' p' hA' hpb).2 hp'⟩

/-- C11: `graph_wall`, `graph_solid` and `graph_zone` give the same graph whether the polygon graph
is handed to them or computed by them.  Any other graph that is handed to them is projected as it is,
unless it is empty: then the polygon graph is computed. -/
theorem C11_level_graph_given_or_computed (setList : List Str → List Str) (h : Heap P) (r : Rels)
    (f : Flags) (b n : Nat) :
    graphLevel setList h r f b none n = stripGraph setList (graphPolygon h r f b) n ∧
    graphLevel setList h r f b (some (graphPolygon h r f b)) n =
      stripGraph setList (graphPolygon h r f b) n ∧
    graphLevel setList h r f b (some []) n = stripGraph setList (graphPolygon h r f b) n ∧
    ∀ g, g ≠ [] → graphLevel setList h r f b (some g) n = stripGraph setList g n := by
  refine ⟨rfl, ?_, rfl, fun g hg => ?_⟩
  · unfold graphLevel
    simp only []
    split <;> rfl
  · unfold graphLevel
    simp only [List.length_eq_zero_iff, if_neg hg]

example : stripGraph List.dedup (graphPolygon (exec twoOps) twoRels ⟨true, false, false⟩ 7) 2 =
    [("b/z/s".toList, ["b/z/t".toList]), ("b/z/t".toList, ["b/z/s".toList])] ∧
    stripGraph List.dedup (graphPolygon (exec twoOps) twoRels ⟨true, false, false⟩ 7) 3 =
    [("b/z".toList, [])] := by decide +kernel

/-! ### C12 -/

/-- What can happen to a building: it (or the relations between its polygons) changes, or a graph is
requested. -/
inductive GEvent (P : Type) where
  | change (h : Heap P) (r : Rels)
  | query (new : Bool) (level : Level) (f : Flags)

/-- State of the building during a history. -/
structure GWorld (P : Type) where
  h : Heap P
  r : Rels
  cache : Cache

/-- One event. -/
def GEvent.exec (setList : List Str → List Str) (b : Nat) (s : GWorld P) : GEvent P → GWorld P
  | .change h r => { s with h := h, r := r }
  | .query new level f => { s with cache := (getGraph setList s.h s.r b s.cache new level f).1 }

/-- The cache holds the four graphs of one moment `h`, `r`, `f`, or nothing. -/
def Cache.OfMoment (setList : List Str → List Str) (b : Nat) (c : Cache) (h : Heap P) (r : Rels)
    (f : Flags) : Prop :=
  c.polygon = graphPolygon h r f b ∧
  c.wall = stripGraph setList (graphPolygon h r f b) 1 ∧
  c.solid = stripGraph setList (graphPolygon h r f b) 2 ∧
  c.zone = stripGraph setList (graphPolygon h r f b) 3

/-- The graph of one level. -/
def levelGraph (setList : List Str → List Str) (h : Heap P) (r : Rels) (f : Flags) (b : Nat) :
    Level → Except PyErr GDict
  | .polygon => .ok (graphPolygon h r f b)
  | .wall => .ok (stripGraph setList (graphPolygon h r f b) 1)
  | .solid => .ok (stripGraph setList (graphPolygon h r f b) 2)
  | .zone => .ok (stripGraph setList (graphPolygon h r f b) 3)
  | .other => .error .valueError

/-- C12 (partial): with `new=True`, or when no graph is cached, the returned graph is the one for
the requested flags and the present geometry, whatever happened before.  What is missing (a query
with `new=False` and a cached graph) is false, see `C12_cached_graph_is_stale`. -/
theorem C12_fresh_graph_partial (setList : List Str → List Str) (h : Heap P) (r : Rels) (b : Nat)
    (c : Cache) (new : Bool) (level : Level) (f : Flags)
    (hnew : new = true ∨ c.polygon = []) :
    (getGraph setList h r b c new level f).2 = levelGraph setList h r f b level ∧
    (getGraph setList h r b c new level f).1.OfMoment setList b h r f := by
  have hl := fun n => (C11_level_graph_given_or_computed setList h r f b n).2
  have hn : (if c.polygon.length = 0 then true else new) = true := by
    rcases hnew with rfl | hc
    · split <;> rfl
    · rw [hc]; rfl
  unfold getGraph
  simp only [hn, if_true, hl]
  cases level <;> exact ⟨rfl, rfl, rfl, rfl, rfl⟩

/-- C12 (partial): after any history starting without a cached graph, a query returns the graph of
some moment of the history at which a graph was computed: either this very query, or an earlier one
with its flags and the geometry of that time. -/
theorem C12_graph_of_some_moment_partial (setList : List Str → List Str) (b : Nat)
    (h0 : Heap P) (r0 : Rels) (evs : List (GEvent P)) (new : Bool) (level : Level) (f : Flags) :
    let w := evs.foldl (GEvent.exec setList b) ⟨h0, r0, ⟨[], [], [], []⟩⟩
    ∃ (pre post : List (GEvent P)) (new' : Bool) (level' : Level) (f' : Flags),
      evs ++ [.query new level f] = pre ++ .query new' level' f' :: post ∧
      let w' := pre.foldl (GEvent.exec setList b) ⟨h0, r0, ⟨[], [], [], []⟩⟩
      (getGraph setList w.h w.r b w.cache new level f).2 =
        levelGraph setList w'.h w'.r f' b level := by
  -- invariant: the cache is empty or belongs to an earlier query
  have inv : ∀ evs : List (GEvent P),
      let w := evs.foldl (GEvent.exec setList b) ⟨h0, r0, ⟨[], [], [], []⟩⟩
      w.cache.polygon = [] ∨
      ∃ (pre post : List (GEvent P)) (new' : Bool) (level' : Level) (f' : Flags),
        evs = pre ++ .query new' level' f' :: post ∧
        let w' := pre.foldl (GEvent.exec setList b) ⟨h0, r0, ⟨[], [], [], []⟩⟩
        w.cache.OfMoment setList b w'.h w'.r f' := by
    intro evs
    induction evs using List.reverseRecOn with
    | nil => exact Or.inl rfl
    | append_singleton evs ev ih =>
      intro w
      have hw : w = GEvent.exec setList b
          (evs.foldl (GEvent.exec setList b) ⟨h0, r0, ⟨[], [], [], []⟩⟩) ev := by
        show List.foldl _ _ _ = _
        rw [List.foldl_append]; rfl
      rw [hw]
      have keep : ∀ c : Cache, c = (evs.foldl (GEvent.exec setList b)
            ⟨h0, r0, ⟨[], [], [], []⟩⟩).cache →
          c.polygon = [] ∨ ∃ (pre post : List (GEvent P)) (new' : Bool) (level' : Level)
            (f' : Flags), evs ++ [ev] = pre ++ .query new' level' f' :: post ∧
            c.OfMoment setList b (pre.foldl (GEvent.exec setList b) ⟨h0, r0, ⟨[], [], [], []⟩⟩).h
              (pre.foldl (GEvent.exec setList b) ⟨h0, r0, ⟨[], [], [], []⟩⟩).r f' := by
        rintro c rfl
        rcases ih with h | ⟨pre, post, n', l', f', he, hm⟩
        · exact Or.inl h
        · exact Or.inr ⟨pre, post ++ [ev], n', l', f', by rw [he]; simp, hm⟩
      cases ev with
      | change h r => exact keep _ rfl
      | query n l fl =>
        by_cases hc : n = true ∨ (evs.foldl (GEvent.exec setList b)
            ⟨h0, r0, ⟨[], [], [], []⟩⟩).cache.polygon = []
        · right
          exact ⟨evs, [], n, l, fl, rfl, (C12_fresh_graph_partial setList _ _ b _ n l fl hc).2⟩
        · apply keep
          have h1 : n = false := by
            cases n
            · rfl
            · exact absurd (Or.inl rfl) hc
          have h2 : ¬ (evs.foldl (GEvent.exec setList b)
            ⟨h0, r0, ⟨[], [], [], []⟩⟩).cache.polygon.length = 0 := by
            intro h; exact hc (Or.inr (List.length_eq_zero_iff.1 h))
          show (getGraph setList _ _ b _ n l fl).1 = _
          unfold getGraph
          simp only [if_neg h2, h1]
          cases l <;> rfl
  intro w
  by_cases hc : new = true ∨ w.cache.polygon = []
  · exact ⟨evs, [], new, level, f, rfl, (C12_fresh_graph_partial setList _ _ b _ new level f hc).1⟩
  · rcases inv evs with h | ⟨pre, post, n', l', f', he, hm⟩
    · exact absurd (Or.inr h) hc
    · refine ⟨pre, post ++ [.query new level f], n', l', f', by rw [he]; simp, ?_⟩
      have h1 : new = false := by
        cases new
        · rfl
        · exact absurd (Or.inl rfl) hc
      have h2 : ¬ w.cache.polygon.length = 0 := by
        intro h; exact hc (Or.inr (List.length_eq_zero_iff.1 h))
      unfold getGraph
      simp only [if_neg h2, h1]
      obtain ⟨m1, m2, m3, m4⟩ := hm
      cases level
      · exact congrArg Except.ok m1
      · exact congrArg Except.ok m2
      · exact congrArg Except.ok m3
      · exact congrArg Except.ok m4
      · rfl

/-- C12 fails for a query that finds a cached graph: after asking for facing polygons, asking for
overlapping ones (with the default `new=False`) returns the facing graph; and after the geometry has
changed so that nothing faces, the old edges are still returned. -/
theorem C12_cached_graph_is_stale :
    ∃ (ops : List (Op Nat)) (b : Nat) (r r' : Rels) (f f' : Flags),
      let h := exec ops
      let c := (getGraph List.dedup h r b ⟨[], [], [], []⟩ false .polygon f).1
      (getGraph List.dedup h r b c false .polygon f').2 ≠ levelGraph List.dedup h r f' b .polygon ∧
      (getGraph List.dedup h r' b c false .polygon f).2 ≠
        levelGraph List.dedup h r' f b .polygon := by
  refine ⟨twoOps, 7, twoRels, ⟨fun _ _ => false, fun _ _ => false, fun _ _ => false,
    fun _ _ => false⟩, ⟨true, false, false⟩, ⟨false, false, true⟩, ?_⟩
  decide +kernel

/-! ### C61 -/

theorem stitchVisitsAux_spec : ∀ (pairs done : List (Str × Str)) (nm : Str → Str),
    (∀ st ∈ pairs, ∃ b1 z1 b2 z2, Str.split PATH_SEP st.1 = [b1, z1, nm st.1] ∧
      Str.split PATH_SEP st.2 = [b2, z2, nm st.2]) →
    ∃ l, stitchVisitsAux done pairs = .ok l ∧ l.Sublist pairs ∧
      (∀ st ∈ pairs, (∃ d ∈ done, (d = (nm st.1, nm st.2) ∨ d = (nm st.2, nm st.1))) ∨
        ∃ v ∈ l, (nm v.1 = nm st.1 ∧ nm v.2 = nm st.2) ∨ (nm v.1 = nm st.2 ∧ nm v.2 = nm st.1)) ∧
      (∀ v ∈ l, (nm v.1, nm v.2) ∉ done ∧ (nm v.2, nm v.1) ∉ done) ∧
      l.Pairwise (fun v u => ¬ ((nm v.1 = nm u.1 ∧ nm v.2 = nm u.2) ∨
        (nm v.1 = nm u.2 ∧ nm v.2 = nm u.1))) := by
  intro pairs
  induction pairs with
  | nil => intro done nm _; exact ⟨[], rfl, by simp, by simp, by simp, by simp⟩
  | cons st rest ih =>
    intro done nm hp
    obtain ⟨s, t⟩ := st
    obtain ⟨b1, z1, b2, z2, h1, h2⟩ := hp (s, t) (by simp)
    simp only [] at h1 h2
    unfold stitchVisitsAux
    rw [h1, h2]
    simp only []
    have hp' : ∀ st ∈ rest, ∃ b1 z1 b2 z2, Str.split PATH_SEP st.1 = [b1, z1, nm st.1] ∧
      Str.split PATH_SEP st.2 = [b2, z2, nm st.2] := fun x hx => hp x (by simp [hx])
    by_cases hd : (nm s, nm t) ∈ done ∨ (nm t, nm s) ∈ done
    · rw [if_pos hd]
      obtain ⟨l, hl, hs, hc, hn, hpw⟩ := ih done nm hp'
      refine ⟨l, hl, hs.cons _, ?_, hn, hpw⟩
      intro x hx
      rcases List.mem_cons.1 hx with rfl | hx
      · left
        rcases hd with h | h
        · exact ⟨_, h, Or.inl rfl⟩
        · exact ⟨_, h, Or.inr rfl⟩
      · exact hc x hx
    · rw [if_neg hd]
      obtain ⟨l, hl, hs, hc, hn, hpw⟩ := ih (done ++ [(nm s, nm t)]) nm hp'
      rw [hl]
      refine ⟨(s, t) :: l, rfl, hs.cons_cons _, ?_, ?_, ?_⟩
      · intro x hx
        rcases List.mem_cons.1 hx with rfl | hx
        · exact Or.inr ⟨(s, t), by simp, Or.inl ⟨rfl, rfl⟩⟩
        · rcases hc x hx with ⟨d, hd', he⟩ | ⟨v, hv, he⟩
          · rcases List.mem_append.1 hd' with h | h
            · exact Or.inl ⟨d, h, he⟩
            · rw [List.mem_singleton] at h
              subst h
              right
              refine ⟨(s, t), by simp, ?_⟩
              rcases he with he | he
              · left; simpa using he
              · right; simpa using he
          · exact Or.inr ⟨v, by simp [hv], he⟩
      · intro v hv
        rcases List.mem_cons.1 hv with rfl | hv
        · exact ⟨fun h => hd (Or.inl h), fun h => hd (Or.inr h)⟩
        · obtain ⟨a1, a2⟩ := hn v hv
          exact ⟨fun h => a1 (by simp [h]), fun h => a2 (by simp [h])⟩
      · rw [List.pairwise_cons]
        refine ⟨?_, hpw⟩
        intro u hu he
        obtain ⟨a1, a2⟩ := hn u hu
        rcases he with ⟨e1, e2⟩ | ⟨e1, e2⟩
        · simp only [] at e1 e2
          exact a1 (by rw [← e1, ← e2]; simp)
        · simp only [] at e1 e2
          exact a2 (by rw [← e1, ← e2]; simp)

/-- C61 (partial): if no two solids of the building have the same name, every pair of adjacent
solids (some polygon of one facing or overlapping some polygon of the other, at the time the graph
was made) is processed exactly once, and nothing else is processed.  Missing: buildings in which two
zones contain solids of the same name, see `C61_same_names_skipped`. -/
theorem C61_stitch_visits_partial (setList : List Str → List Str) (hset : IsSetList setList)
    (ops : List (Op P)) (hl : LinearFrom [] ops) (b : Nat) (B : Obj P)
    (hb : (exec ops)[b]? = some B) (hk : B.kind = .building) (r : Rels)
    (htwo : ∃ i j, i ≠ j ∧ IsPolygonOf (exec ops) b i ∧ IsPolygonOf (exec ops) b j)
    (hnames : ∀ (i j : Nat) (oi oj : Obj P), Within (exec ops) b i → Within (exec ops) b j →
      (exec ops)[i]? = some oi → (exec ops)[j]? = some oj → oi.kind = .solid → oj.kind = .solid →
      oi.name = oj.name → i = j) :
    let h := exec ops
    let Solid := fun A => Within h b A ∧ (∃ o : Obj P, h[A]? = some o ∧ o.kind = .solid) ∧
      ∃ p, IsPolygonOf h A p
    ∃ l, stitchVisits (stripGraph setList (graphPolygon h r ⟨true, true, false⟩ b) 2) = .ok l ∧
      (∀ st ∈ l, ∃ A A', Solid A ∧ Solid A' ∧ st = (path h A, path h A') ∧ A ≠ A' ∧
        ∃ p p', IsPolygonOf h A p ∧ IsPolygonOf h A' p' ∧ Adjacent r ⟨true, true, false⟩ p p') ∧
      (∀ A A', Solid A → Solid A' → A ≠ A' →
        (∃ p p', IsPolygonOf h A p ∧ IsPolygonOf h A' p' ∧ Adjacent r ⟨true, true, false⟩ p p') →
        l.countP (fun st => decide (st = (path h A, path h A') ∨ st = (path h A', path h A)))
          = 1) := by
  intro h Solid
  have c : BCtx h b B := BCtx.of_ops hl hb hk
  obtain ⟨k1, k2, k3⟩ := C11_level_graph_exact setList hset ops hl b B hb hk r ⟨true, true, false⟩
    htwo 2 (by simp)
  simp only [] at k1 k2 k3
  change (List.map Prod.fst (stripGraph setList (graphPolygon h r ⟨true, true, false⟩ b) 2)).Nodup
    at k1
  have rank2 : ∀ A : Nat, (∃ o : Obj P, h[A]? = some o ∧ o.kind.rank = 2) ↔
      ∃ o : Obj P, h[A]? = some o ∧ o.kind = .solid := by
    intro A
    constructor
    · rintro ⟨o, ho, hr⟩
      refine ⟨o, ho, ?_⟩
      cases hko : o.kind <;> rw [hko] at hr <;> simp [Kind.rank] at hr ⊢
    · rintro ⟨o, ho, hr⟩; exact ⟨o, ho, by rw [hr]; rfl⟩
  have toPart : ∀ A : Nat, Solid A → (Within h b A ∧ (∃ o : Obj P, h[A]? = some o ∧ o.kind.rank = 2) ∧
      ∃ p, IsPolygonOf h A p) := fun A hA => ⟨hA.1, (rank2 A).2 hA.2.1, hA.2.2⟩
  have ofPart : ∀ A : Nat, (Within h b A ∧ (∃ o : Obj P, h[A]? = some o ∧ o.kind.rank = 2) ∧
      ∃ p, IsPolygonOf h A p) → Solid A := fun A hA => ⟨hA.1, (rank2 A).1 hA.2.1, hA.2.2⟩
  generalize hg : stripGraph setList (graphPolygon h r ⟨true, true, false⟩ b) 2 = g
  rw [hg] at k1
  -- all visited pairs
  have hpairs : ∀ s t, (s, t) ∈ (g.flatMap fun kv => kv.2.map fun t => (kv.1, t)) ↔
      ∃ A A', Solid A ∧ Solid A' ∧ s = path h A ∧ t = path h A' ∧ A ≠ A' ∧
        ∃ p p', IsPolygonOf h A p ∧ IsPolygonOf h A' p' ∧
          Adjacent r ⟨true, true, false⟩ p p' := by
    intro s t
    simp only [List.mem_flatMap, List.mem_map, Prod.mk.injEq]
    constructor
    · rintro ⟨⟨k, v⟩, hm, t', ht', rfl, rfl⟩
      simp only [] at ht' ⊢
      have hkm : k ∈ (stripGraph setList (graphPolygon h r ⟨true, true, false⟩ b) 2).map Prod.fst := by
        rw [hg]; exact List.mem_map.2 ⟨_, hm, rfl⟩
      obtain ⟨A, hA, rfl⟩ := (k2 k).1 hkm
      obtain ⟨v', hv', _, hq, ha⟩ := k3 A hA
      have hv'' := glookup_of_mem k1 hm
      change List.lookup (path h A) (stripGraph setList (graphPolygon h r ⟨true, true, false⟩ b) 2)
        = some v' at hv'
      rw [hg] at hv'
      have e := hv'.symm.trans hv''
      cases e
      obtain ⟨A', hA', rfl⟩ := hq t' ht'
      obtain ⟨hne, hadj⟩ := (ha A' hA').1 ht'
      exact ⟨A, A', ofPart A hA, ofPart A' hA', rfl, rfl, hne, hadj⟩
    · rintro ⟨A, A', hA, hA', rfl, rfl, hne, hadj⟩
      obtain ⟨v', hv', _, hq, ha⟩ := k3 A (toPart A hA)
      change List.lookup (path h A) (stripGraph setList (graphPolygon h r ⟨true, true, false⟩ b) 2)
        = some v' at hv'
      rw [hg] at hv'
      have hmem : ∀ (l : GDict), l.lookup (path h A) = some v' → (path h A, v') ∈ l := by
        intro l
        induction l with
        | nil => intro hh; cases hh
        | cons a l ih =>
          intro hh
          rw [List.lookup_cons] at hh
          by_cases e : path h A = a.1
          · have hb' : (path h A == a.1) = true := by simp [e]
            rw [hb'] at hh
            have : a.2 = v' := by simpa using hh
            rw [e, ← this]; simp
          · have hb' : (path h A == a.1) = false := by simp [e]
            rw [hb'] at hh
            exact List.mem_cons_of_mem _ (ih hh)
      exact ⟨_, hmem g hv', path h A', (ha A' (toPart A' hA')).2 ⟨hne, hadj⟩, rfl, rfl⟩
  -- the name of the solid with a given path
  have hcomp : ∀ A, Solid A → ∃ (z : Str) (o : Obj P), h[A]? = some o ∧
      Str.split PATH_SEP (path h A) = [B.name, z, o.name] := by
    rintro A ⟨hA, ⟨o, ho, hko⟩, _⟩
    obtain ⟨keys, ch⟩ := hA.chain
    obtain ⟨o', ho', hr⟩ := c.len ch
    rw [ho] at ho'; cases ho'
    rw [hko] at hr
    simp only [Kind.rank] at hr
    have hlen : keys.length = 2 := by omega
    have hsp : Str.split PATH_SEP (path h A) = B.name :: keys := by
      rw [c.path ch]; exact Str.split_join _ _ (by simp) (c.sep ch)
    cases ch with
    | nil => simp at hlen
    | @snoc keys' i _ oi k ch' hi hkm =>
      have : keys'.length = 1 := by simpa using hlen
      obtain ⟨z, rfl⟩ := List.length_eq_one_iff.1 this
      obtain ⟨oj, h1, h2, _⟩ := c.w.child _ _ _ _ hi hkm
      rw [ho] at h1; cases h1
      exact ⟨z, o, ho, by rw [hsp, h2]; rfl⟩
  let nm : Str → Str := fun s => match Str.split PATH_SEP s with
    | [_, _, n] => n
    | _ => []
  have hnm : ∀ A, Solid A → ∃ o : Obj P, h[A]? = some o ∧ nm (path h A) = o.name := by
    intro A hA
    obtain ⟨z, o, ho, hs⟩ := hcomp A hA
    exact ⟨o, ho, by show (match Str.split PATH_SEP (path h A) with | [_, _, n] => n | _ => []) = _; rw [hs]⟩
  have hnminj : ∀ A A', Solid A → Solid A' → nm (path h A) = nm (path h A') → A = A' := by
    intro A A' hA hA' he
    obtain ⟨o, ho, h1⟩ := hnm A hA
    obtain ⟨o', ho', h2⟩ := hnm A' hA'
    obtain ⟨_, ⟨x, hx, hxk⟩, _⟩ := hA
    obtain ⟨_, ⟨x', hx', hxk'⟩, _⟩ := hA'
    rw [ho] at hx; cases hx
    rw [ho'] at hx'; cases hx'
    exact hnames A A' o o' (by assumption) (by assumption) ho ho' hxk hxk' (by rw [← h1, ← h2, he])
  obtain ⟨l, hl', hsub, hcov, _, hpw⟩ := stitchVisitsAux_spec
    (g.flatMap fun kv => kv.2.map fun t => (kv.1, t)) [] nm (by
      rintro ⟨s, t⟩ hst
      obtain ⟨A, A', hA, hA', rfl, rfl, _⟩ := (hpairs s t).1 hst
      obtain ⟨z, o, ho, hs⟩ := hcomp A hA
      obtain ⟨z', o', ho', hs'⟩ := hcomp A' hA'
      obtain ⟨x, hx, hn⟩ := hnm A hA
      obtain ⟨x', hx', hn'⟩ := hnm A' hA'
      rw [ho] at hx; cases hx
      rw [ho'] at hx'; cases hx'
      exact ⟨B.name, z, B.name, z', by rw [hn]; exact hs, by rw [hn']; exact hs'⟩)
  refine ⟨l, hl', ?_, ?_⟩
  · rintro ⟨s, t⟩ hst
    obtain ⟨A, A', hA, hA', rfl, rfl, hne, hadj⟩ := (hpairs s t).1 (hsub.subset hst)
    exact ⟨A, A', hA, hA', rfl, hne, hadj⟩
  · intro A A' hA hA' hne hadj
    have hin := (hpairs (path h A) (path h A')).2 ⟨A, A', hA, hA', rfl, rfl, hne, hadj⟩
    rcases hcov _ hin with ⟨d, hd, _⟩ | ⟨v, hv, he⟩
    · cases hd
    · -- the visited pair is this one
      obtain ⟨v1, v2⟩ := v
      obtain ⟨C, C', hC, hC', rfl, rfl, _⟩ := (hpairs v1 v2).1 (hsub.subset hv)
      simp only [] at he
      have hvis : (C = A ∧ C' = A') ∨ (C = A' ∧ C' = A) := by
        rcases he with ⟨e1, e2⟩ | ⟨e1, e2⟩
        · exact Or.inl ⟨hnminj _ _ hC hA e1, hnminj _ _ hC' hA' e2⟩
        · exact Or.inr ⟨hnminj _ _ hC hA' e1, hnminj _ _ hC' hA e2⟩
      have hpos : 0 < l.countP
          (fun st => decide (st = (path h A, path h A') ∨ st = (path h A', path h A))) := by
        rw [List.countP_pos_iff]
        refine ⟨_, hv, ?_⟩
        rcases hvis with ⟨rfl, rfl⟩ | ⟨rfl, rfl⟩ <;> simp
      have hle : ∀ l : List (Str × Str), l.Pairwise (fun v u => ¬ ((nm v.1 = nm u.1 ∧ nm v.2 = nm u.2) ∨
          (nm v.1 = nm u.2 ∧ nm v.2 = nm u.1))) → l.countP
          (fun st => decide (st = (path h A, path h A') ∨ st = (path h A', path h A))) ≤ 1 := by
        intro l
        induction l with
        | nil => intro _; simp
        | cons x l ih =>
          intro hp
          rw [List.pairwise_cons] at hp
          rw [List.countP_cons]
          by_cases hx : x = (path h A, path h A') ∨ x = (path h A', path h A)
          · have : l.countP (fun st => decide (st = (path h A, path h A') ∨
                st = (path h A', path h A))) = 0 := by
              rw [List.countP_eq_zero]
              intro u hu hd
              have hd : u = (path h A, path h A') ∨ u = (path h A', path h A) := by simpa using hd
              apply hp.1 u hu
              rcases hx with rfl | rfl <;> rcases hd with rfl | rfl <;> simp
            rw [this]
            simp [hx]
          · simp only [hx, decide_false, Bool.false_eq_true, if_false, Nat.add_zero]
            exact ih hp.2
      have := hle l hpw
      omega

/-- Building with two zones that contain solids of the same names `s` and `t`. -/
def sameNameOps : List (Op Unit) :=
  [ .construct .polygon ['p'] [] none [], .construct .wall ['w'] [] none [0],
    .construct .solid ['s'] [] none [1],
    .construct .polygon ['p'] [] none [], .construct .wall ['w'] [] none [3],
    .construct .solid ['t'] [] none [4],
    .construct .polygon ['p'] [] none [], .construct .wall ['w'] [] none [6],
    .construct .solid ['s'] [] none [7],
    .construct .polygon ['p'] [] none [], .construct .wall ['w'] [] none [9],
    .construct .solid ['t'] [] none [10],
    .construct .zone ['y'] [] none [2, 5], .construct .zone ['z'] [] none [8, 11],
    .construct .building ['b'] [] none [12, 13] ]

/-- C61 fails in general: solids `s` and `t` overlap in zone `y` and also in zone `z`; only the pair
of zone `y` is stitched. -/
theorem C61_same_names_skipped :
    ∃ (ops : List (Op Unit)) (b : Nat) (r : Rels),
      let g := stripGraph List.dedup (graphPolygon (exec ops) r ⟨true, true, false⟩ b) 2
      g = [("b/y/s".toList, ["b/y/t".toList]), ("b/y/t".toList, ["b/y/s".toList]),
        ("b/z/s".toList, ["b/z/t".toList]), ("b/z/t".toList, ["b/z/s".toList])] ∧
      stitchVisits g = .ok [("b/y/s".toList, "b/y/t".toList)] := by
  refine ⟨sameNameOps, 14, ⟨fun _ _ => true, fun _ _ => false,
    fun i j => (i == 0 && j == 3) || (i == 6 && j == 9), fun _ _ => false⟩, ?_⟩
  decide +kernel

/-! ### C62 -/

theorem findLocationLoop_all (parseInt : Str → Option Int) (h : Heap P) (inside : Nat → Bool)
    (b : Nat) : ∀ (l : List (Str × Nat)),
    (∀ si ∈ l, 0 < si.1.length ∧ get parseInt h b si.1 = .ok (.obj si.2) ∧
      ∃ o : Obj P, h[si.2]? = some o ∧ o.kind = .solid) →
    findLocationLoop parseInt h inside b (l.map Prod.fst) =
      match l.find? (fun si => inside si.2) with
      | some si => .ok si.1
      | none => .error .runtimeError := by
  intro l
  induction l with
  | nil => intro _; rfl
  | cons si l ih =>
    intro hl
    obtain ⟨h0, h1, o, h2, h3⟩ := hl si (by simp)
    rw [List.map_cons, findLocationLoop, h1]
    simp only [h2, h3, if_true, List.find?_cons]
    cases inside si.2 with
    | true => simp [h0]
    | false =>
      simp only [Bool.false_eq_true, if_false]
      exact ih (fun x hx => hl x (by simp [hx]))

/-- C62: `find_location` with hints that are solids of the building returns the path of the first
solid containing the point, looking at the hints first and then at all solids; it raises
`RuntimeError` iff no solid of the building contains the point. -/
theorem C62_find_location (parseInt : Str → Option Int) (ops : List (Op P))
    (hl : LinearFrom [] ops) (b : Nat) (B : Obj P) (hb : (exec ops)[b]? = some B)
    (hk : B.kind = .building) (hname : B.name ≠ []) (inside : Nat → Bool) (hints : List Nat)
    (hh : ∀ i ∈ hints, Within (exec ops) b i ∧
      ∃ o : Obj P, (exec ops)[i]? = some o ∧ o.kind = .solid) :
    let h := exec ops
    let Solid := fun i => Within h b i ∧ ∃ o : Obj P, h[i]? = some o ∧ o.kind = .solid
    let res := findLocation parseInt h inside b (hints.map (path h))
    (∀ s, res = .ok s → ∃ i, Solid i ∧ inside i = true ∧ path h i = s) ∧
    (∀ e, res = .error e → e = .runtimeError ∧ ∀ i, Solid i → inside i = false) ∧
    (∀ pre i post, hints = pre ++ i :: post → (∀ j ∈ pre, inside j = false) → inside i = true →
      res = .ok (path h i)) := by
  intro h Solid res
  have c : BCtx h b B := BCtx.of_ops hl hb hk
  have hleaf : ∀ i, i ∈ leafIds h 2 b ↔ Solid i := by
    intro i
    rw [c.mem_leafIds]
    constructor
    · rintro ⟨hw, o, ho, hr⟩
      refine ⟨hw, o, ho, ?_⟩
      cases hko : o.kind <;> rw [hko] at hr <;> simp [Kind.rank] at hr ⊢
    · rintro ⟨hw, o, ho, hko⟩
      exact ⟨hw, o, ho, by rw [hko]; rfl⟩
  have hall : ∀ i ∈ hints ++ leafIds h 2 b, Solid i := by
    intro i hi
    rcases List.mem_append.1 hi with hi | hi
    · exact hh i hi
    · exact (hleaf i).1 hi
  have heq : res = match (hints ++ leafIds h 2 b).find? inside with
      | some i => .ok (path h i)
      | none => .error .runtimeError := by
    have := findLocationLoop_all parseInt h inside b
      ((hints ++ leafIds h 2 b).map fun i => (path h i, i)) (by
        rintro ⟨s, i⟩ hsi
        obtain ⟨i', hi', he⟩ := List.mem_map.1 hsi
        cases he
        obtain ⟨hw, o, ho, hko⟩ := hall i hi'
        refine ⟨?_, (C07_get_own_path_partial parseInt ops hl b B hb hk i hw).1, o, ho, hko⟩
        obtain ⟨keys, ch⟩ := hw.chain
        show 0 < (path h i).length
        rw [c.path ch]
        have : 0 < B.name.length := List.length_pos_iff.2 hname
        cases keys with
        | nil => simpa [Str.join] using this
        | cons k ks => simp [Str.join]; omega)
    have hm : ((hints ++ leafIds h 2 b).map fun i => (path h i, i)).map Prod.fst =
        hints.map (path h) ++ (leafIds h 2 b).map (path h) := by
      rw [List.map_map, List.map_append]; rfl
    rw [hm] at this
    show findLocationLoop _ _ _ _ (hints.map (path h) ++ (leafIds h 2 b).map (path h)) = _
    rw [this, List.find?_map]
    have hc : ((fun si : Str × Nat => inside si.2) ∘ fun i => (path h i, i)) = inside := rfl
    rw [hc]
    cases (hints ++ leafIds h 2 b).find? inside <;> rfl
  refine ⟨?_, ?_, ?_⟩
  · intro s hs
    rw [heq] at hs
    cases hf : (hints ++ leafIds h 2 b).find? inside with
    | none => rw [hf] at hs; cases hs
    | some i =>
      rw [hf] at hs
      cases hs
      exact ⟨i, hall i (List.mem_of_find?_eq_some hf), List.find?_some hf, rfl⟩
  · intro e he
    rw [heq] at he
    cases hf : (hints ++ leafIds h 2 b).find? inside with
    | some i => rw [hf] at he; cases he
    | none =>
      rw [hf] at he
      cases he
      refine ⟨rfl, fun i hi => ?_⟩
      have := List.find?_eq_none.1 hf i (by simp [(hleaf i).2 hi])
      simpa using this
  · intro pre i post hp hpre hi
    rw [heq, hp]
    have : (pre ++ i :: post ++ leafIds h 2 b).find? inside = some i := by
      rw [List.append_assoc, List.find?_append, List.find?_eq_none.2 (by
        intro x hx; simp [hpre x hx])]
      simp [hi]
    rw [this]

example : findLocation (fun _ => none) (exec twoOps) (fun i => i == 5) 7 [] =
    .ok "b/z/t".toList ∧
    findLocation (fun _ => none) (exec twoOps) (fun _ => false) 7 ["b/z/t".toList] =
    .error .runtimeError ∧
    findLocation (fun _ => none) (exec twoOps) (fun _ => true) 7 ["b/z/t".toList] =
    .ok "b/z/t".toList := by decide +kernel

/-! ### C56 -/

theorem transparentLoop_spec : ∀ (g : GDict) (acc : List Str),
    (∀ kv ∈ g, kv.2.length ≤ 1 ∧ ∃ z, zoneOf kv.1 = .ok z) →
    (∀ kv ∈ g, ∀ q ∈ kv.2, ∃ z, zoneOf q = .ok z) →
    ∃ l, transparentLoop acc g = .ok l ∧
      ∀ x, x ∈ l ↔ x ∈ acc ∨ ∃ k q, (k, [q]) ∈ g ∧ zoneOf k = zoneOf q ∧ (x = k ∨ x = q) := by
  intro g
  induction g with
  | nil => intro acc _ _; exact ⟨acc, rfl, by simp⟩
  | cons kv g ih =>
    intro acc h1 h2
    obtain ⟨k, v⟩ := kv
    obtain ⟨hlen, z, hz⟩ := h1 (k, v) (by simp)
    simp only [] at hlen hz
    have ih' := fun acc => ih acc (fun x hx => h1 x (by simp [hx])) (fun x hx => h2 x (by simp [hx]))
    unfold transparentLoop
    rw [if_neg (by omega)]
    match v, hlen with
    | [], _ =>
      simp only []
      obtain ⟨l, hl, hx⟩ := ih' acc
      refine ⟨l, hl, fun x => ?_⟩
      rw [hx]
      simp
    | [q], _ =>
      simp only []
      obtain ⟨z', hz'⟩ := h2 (k, [q]) (by simp) q (by simp)
      by_cases hin : k ∉ acc ∨ q ∉ acc
      · rw [if_pos hin, hz, hz']
        simp only []
        by_cases hzz : z = z'
        · rw [if_pos hzz]
          obtain ⟨l, hl, hx⟩ := ih' (acc ++ [k, q])
          refine ⟨l, hl, fun x => ?_⟩
          rw [hx]
          constructor
          · rintro (h | ⟨k', q', hm, he, h⟩)
            · rcases List.mem_append.1 h with h | h
              · exact Or.inl h
              · refine Or.inr ⟨k, q, by simp, by rw [hz, hz', hzz], by simpa using h⟩
            · exact Or.inr ⟨k', q', by simp [hm], he, h⟩
          · rintro (h | ⟨k', q', hm, he, h⟩)
            · exact Or.inl (by simp [h])
            · rcases List.mem_cons.1 hm with e | hm
              · cases e
                left
                rcases h with rfl | rfl <;> simp
              · exact Or.inr ⟨k', q', hm, he, h⟩
        · rw [if_neg hzz]
          obtain ⟨l, hl, hx⟩ := ih' acc
          refine ⟨l, hl, fun x => ?_⟩
          rw [hx]
          constructor
          · rintro (h | ⟨k', q', hm, he, h⟩)
            · exact Or.inl h
            · exact Or.inr ⟨k', q', by simp [hm], he, h⟩
          · rintro (h | ⟨k', q', hm, he, h⟩)
            · exact Or.inl h
            · rcases List.mem_cons.1 hm with e | hm
              · cases e
                rw [hz, hz'] at he
                exact absurd (by simpa using he) hzz
              · exact Or.inr ⟨k', q', hm, he, h⟩
      · rw [if_neg hin]
        have hin' : k ∈ acc ∧ q ∈ acc := by
          constructor
          · by_contra hc; exact hin (Or.inl hc)
          · by_contra hc; exact hin (Or.inr hc)
        obtain ⟨l, hl, hx⟩ := ih' acc
        refine ⟨l, hl, fun x => ?_⟩
        rw [hx]
        constructor
        · rintro (h | ⟨k', q', hm, he, h⟩)
          · exact Or.inl h
          · exact Or.inr ⟨k', q', by simp [hm], he, h⟩
        · rintro (h | ⟨k', q', hm, he, h⟩)
          · exact Or.inl h
          · rcases List.mem_cons.1 hm with e | hm
            · cases e
              left
              rcases h with rfl | rfl
              · exact hin'.1
              · exact hin'.2
            · exact Or.inr ⟨k', q', hm, he, h⟩

/-- C56 (partial): on the first call for a building in which every polygon faces at most one other
polygon, the result is exactly the set of paths of polygons that face another polygon of the same
zone (`Adjacent` with only the `facing` flag), and with each polygon it contains its partner.
Missing: later calls after an edit (`C56_cached_result_is_stale`); polygons facing each other inside
one solid are also reported (`C56_same_solid_reported`); more than one facing partner raises
`AssertionError`. -/
theorem C56_find_transparent_partial (ops : List (Op P)) (hl : LinearFrom [] ops) (b : Nat)
    (B : Obj P) (hb : (exec ops)[b]? = some B) (hk : B.kind = .building) (r : Rels)
    (cache : List (Nat × List Str)) (hcache : cache.lookup b = none)
    (htwo : ∃ i j, i ≠ j ∧ IsPolygonOf (exec ops) b i ∧ IsPolygonOf (exec ops) b j)
    (hone : ∀ i j j', IsPolygonOf (exec ops) b i → IsPolygonOf (exec ops) b j →
      IsPolygonOf (exec ops) b j' → Adjacent r ⟨true, false, false⟩ i j →
      Adjacent r ⟨true, false, false⟩ i j' → j = j') :
    let h := exec ops
    ∃ l, (findTransparent h r cache b).2 = .ok l ∧
      (∀ s, s ∈ l ↔ ∃ i j z, IsPolygonOf h b i ∧ path h i = s ∧ IsPolygonOf h b j ∧
        Adjacent r ⟨true, false, false⟩ i j ∧
        (∃ o : Obj P, h[z]? = some o ∧ o.kind = .zone) ∧ Within h b z ∧ Within h z i ∧
        Within h z j) ∧
      (∀ i, IsPolygonOf h b i → path h i ∈ l → ∃ j, IsPolygonOf h b j ∧ path h j ∈ l ∧
        Adjacent r ⟨true, false, false⟩ i j) := by
  intro h
  have c : BCtx h b B := BCtx.of_ops hl hb hk
  obtain ⟨g1, g2, g3⟩ := graph_spec c r ⟨true, false, false⟩ htwo
  -- components of the path of a polygon
  have hzone : ∀ i, IsPolygonOf h b i → ∃ (z : Nat) (o : Obj P), h[z]? = some o ∧ o.kind = .zone ∧
      Within h b z ∧ Within h z i ∧ zoneOf (path h i) = .ok o.name ∧
      path h z = Str.join PATH_SEP [B.name, o.name] := by
    rintro i ⟨hw, o, ho, hko⟩
    obtain ⟨z, oz, hz, hoz, hrz, hzi⟩ := c.ancestor hw ho hko 3 (by omega)
    obtain ⟨k1, c1⟩ := hz.chain
    obtain ⟨k2, c2⟩ := hzi.chain
    obtain ⟨o1, ho1, hr1⟩ := c.len c1
    rw [hoz] at ho1; cases ho1
    have hkz : oz.kind = .zone := by
      cases hkk : oz.kind <;> rw [hkk] at hrz <;> simp [Kind.rank] at hrz ⊢
    have hl1 : k1.length = 1 := by omega
    have hname : k1 = [oz.name] := by
      cases c1 with
      | nil => simp at hl1
      | @snoc keys' i' _ oi k ch' hi hkm =>
        have : keys' = [] := by
          have : keys'.length = 0 := by simpa using hl1
          exact List.length_eq_zero_iff.1 this
        subst this
        obtain ⟨oj, h1, h2, _⟩ := c.w.child _ _ _ _ hi hkm
        rw [hoz] at h1; cases h1
        rw [h2]; rfl
    subst hname
    refine ⟨z, oz, hoz, hkz, hz, hzi, ?_, c.path c1⟩
    unfold zoneOf splitPath
    have c3 := c1.append c2
    rw [c.path c3, Str.split_join _ _ (by simp) (c.sep c3)]
    rfl
  have hsame : ∀ i j, IsPolygonOf h b i → IsPolygonOf h b j →
      (zoneOf (path h i) = zoneOf (path h j) ↔
        ∃ z, (∃ o : Obj P, h[z]? = some o ∧ o.kind = .zone) ∧ Within h b z ∧ Within h z i ∧
          Within h z j) := by
    intro i j hi hj
    obtain ⟨z, o, ho, hko, hwz, hzi, hzo, hp⟩ := hzone i hi
    obtain ⟨z', o', ho', hko', hwz', hzj, hzo', hp'⟩ := hzone j hj
    constructor
    · intro he
      rw [hzo, hzo'] at he
      have : o.name = o'.name := by simpa using he
      have hzz : z = z' := c.path_inj hwz hwz' (by rw [hp, hp', this])
      subst hzz
      exact ⟨z, ⟨o, ho, hko⟩, hwz, hzi, hzj⟩
    · rintro ⟨y, ⟨oy, hoy, hky⟩, hwy, hyi, hyj⟩
      have e1 : z = y := by
        obtain ⟨hwi, oi, hoi, hki⟩ := hi
        apply c.path_inj hwz hwy
        rw [← c.removeLast_path hoi hki hwz ho (n := 3) (by rw [hko]; rfl) hzi,
          ← c.removeLast_path hoi hki hwy hoy (n := 3) (by rw [hky]; rfl) hyi]
      have e2 : z' = y := by
        obtain ⟨hwj, oj, hoj, hkj⟩ := hj
        apply c.path_inj hwz' hwy
        rw [← c.removeLast_path hoj hkj hwz' ho' (n := 3) (by rw [hko']; rfl) hzj,
          ← c.removeLast_path hoj hkj hwy hoy (n := 3) (by rw [hky]; rfl) hyj]
      have e3 : z = z' := e1.trans e2.symm
      have e4 : (some o : Option (Obj P)) = some o' := by rw [← ho, ← ho', e3]
      cases e4
      rw [hzo, hzo']
  have key : ∀ k v, (k, v) ∈ graphPolygon h r ⟨true, false, false⟩ b →
      ∃ i, IsPolygonOf h b i ∧ path h i = k ∧ v.Nodup ∧ ∀ q, q ∈ v ↔ ∃ j, IsPolygonOf h b j ∧
        path h j = q ∧ Adjacent r ⟨true, false, false⟩ i j := by
    intro k v hm
    obtain ⟨i, hi, he⟩ := (g2 k).1 (List.mem_map.2 ⟨_, hm, rfl⟩)
    subst he
    exact ⟨i, hi, rfl, g3 i v hi hm⟩
  obtain ⟨l, hl', hx⟩ := transparentLoop_spec (graphPolygon h r ⟨true, false, false⟩ b) []
    (by
      rintro ⟨k, v⟩ hm
      obtain ⟨i, hi, he, hn, hq⟩ := key k v hm
      subst he
      obtain ⟨z, o, ho, hko, hwz, hzi, hzo, _⟩ := hzone i hi
      refine ⟨?_, o.name, hzo⟩
      by_contra hlen
      match v, hlen, hn, hq with
      | [], hlen, _, _ => simp at hlen
      | [_], hlen, _, _ => simp at hlen
      | a :: a' :: t, _, hn, hq =>
        obtain ⟨j, hj, hje, hja⟩ := (hq a).1 (by simp)
        obtain ⟨j', hj', hje', hja'⟩ := (hq a').1 (by simp)
        have := hone i j j' hi hj hj' hja hja'
        subst this
        rw [← hje, ← hje'] at hn
        simp at hn)
    (by
      rintro ⟨k, v⟩ hm q hqv
      obtain ⟨i, hi, he, hn, hq⟩ := key k v hm
      obtain ⟨j, hj, hje, _⟩ := (hq q).1 hqv
      subst hje
      obtain ⟨z, o, ho, hko, hwz, hzi, hzo, _⟩ := hzone j hj
      exact ⟨o.name, hzo⟩)
  have hmem : ∀ s, s ∈ l ↔ ∃ i j, IsPolygonOf h b i ∧ path h i = s ∧ IsPolygonOf h b j ∧
      Adjacent r ⟨true, false, false⟩ i j ∧ zoneOf (path h i) = zoneOf (path h j) := by
    intro s
    rw [hx]
    constructor
    · rintro (h | ⟨k, q, hm, he, hs⟩)
      · cases h
      · obtain ⟨i, hi, hie, hn, hq⟩ := key k [q] hm
        obtain ⟨j, hj, hje, hja⟩ := (hq q).1 (by simp)
        subst hie; subst hje
        rcases hs with rfl | rfl
        · exact ⟨i, j, hi, rfl, hj, hja, he⟩
        · exact ⟨j, i, hj, rfl, hi, ⟨hja.1.symm, hja.2.symm⟩, he.symm⟩
    · rintro ⟨i, j, hi, rfl, hj, hja, he⟩
      right
      obtain ⟨⟨k, v⟩, hm, hke⟩ := List.mem_map.1 ((g2 (path h i)).2 ⟨i, hi, rfl⟩)
      simp only [] at hke
      subst hke
      obtain ⟨hn, hq⟩ := g3 i v hi hm
      have hv : v = [path h j] := by
        have hjv : path h j ∈ v := (hq _).2 ⟨j, hj, rfl, hja⟩
        have hall : ∀ x ∈ v, x = path h j := by
          intro x hxv
          obtain ⟨j', hj', rfl, hja'⟩ := (hq x).1 hxv
          rw [hone i j j' hi hj hj' hja hja']
        match v, hn, hjv, hall with
        | [], _, hjv, _ => cases hjv
        | [a], _, _, hall => rw [hall a (by simp)]
        | a :: a' :: t, hn, _, hall =>
          rw [hall a (by simp), hall a' (by simp)] at hn
          simp at hn
      rw [hv] at hm
      exact ⟨path h i, path h j, hm, he, Or.inl rfl⟩
  refine ⟨l, ?_, ?_, ?_⟩
  · unfold findTransparent
    rw [hcache]
    simp only [hl']
  · intro s
    rw [hmem]
    constructor
    · rintro ⟨i, j, hi, hs, hj, ha, he⟩
      obtain ⟨z, hz, h1, h2, h3⟩ := (hsame i j hi hj).1 he
      exact ⟨i, j, z, hi, hs, hj, ha, hz, h1, h2, h3⟩
    · rintro ⟨i, j, z, hi, hs, hj, ha, hz, h1, h2, h3⟩
      exact ⟨i, j, hi, hs, hj, ha, (hsame i j hi hj).2 ⟨z, hz, h1, h2, h3⟩⟩
  · intro i hi hil
    obtain ⟨i', j, hi', he, hj, ha, hz⟩ := (hmem _).1 hil
    have := c.path_inj hi'.1 hi.1 he
    subst this
    exact ⟨j, hj, (hmem _).2 ⟨j, i', hj, rfl, hi, ⟨ha.1.symm, ha.2.symm⟩, hz.symm⟩, ha⟩

/-- C56 fails after an edit: the cached answer of the first call is returned although the polygons
do not face each other any more. -/
theorem C56_cached_result_is_stale :
    ∃ (ops : List (Op Nat)) (b : Nat) (r r' : Rels),
      let h := exec ops
      let c := (findTransparent h r [] b).1
      (findTransparent h r' c b).2 ≠ (findTransparent h r' [] b).2 ∧
      (findTransparent h r' [] b).2 = .ok [] := by
  refine ⟨twoOps, 7, twoRels, ⟨fun _ _ => false, fun _ _ => false, fun _ _ => false,
    fun _ _ => false⟩, ?_⟩
  decide +kernel

/-- Two facing polygons of one solid (a thin slab) are reported as transparent although they do not
separate two solids. -/
theorem C56_same_solid_reported :
    ∃ (ops : List (Op Nat)) (b : Nat) (r : Rels), LinearFrom [] ops ∧
      (findTransparent (exec ops) r [] b).2 =
        .ok ["b/z/s/w/p".toList, "b/z/s/w/q".toList] := by
  refine ⟨[ .construct .polygon ['p'] [] none [], .construct .polygon ['q'] [] none [],
    .construct .wall ['w'] [] none [0, 1], .construct .solid ['s'] [] none [2],
    .construct .zone ['z'] [] none [3], .construct .building ['b'] [] none [4] ], 5,
    ⟨fun _ _ => true, fun i j => i == 0 && j == 1, fun _ _ => false, fun _ _ => false⟩, ?_,
    by decide +kernel⟩
  refine ⟨?_, ?_, ?_, ?_, ?_, ?_, trivial⟩ <;> intro x hx <;>
    apply notElsewhere_of_all <;> simp at hx
  · rcases hx with rfl | rfl <;> decide +kernel
  · subst hx; decide +kernel
  · subst hx; decide +kernel
  · subst hx; decide +kernel

example : (findTransparent (exec twoOps) twoRels [] 7).2 =
    .ok ["b/z/s/w/p".toList, "b/z/t/w/q".toList] := by decide +kernel

end B3d.Hier
