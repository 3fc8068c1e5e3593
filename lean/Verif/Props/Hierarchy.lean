import Verif.Proofs.Hierarchy

/-!
# C04 - C09: names, adding, replacing, paths and lookup in the object hierarchy
-/

set_option linter.unusedSectionVars false

namespace B3d.Hier
variable {P : Type}

/-- Specification: `i` is `b` itself or nested somewhere below it. -/
inductive Within (h : Heap P) (b : Nat) : Nat → Prop
  | self : Within h b b
  | child {i j : Nat} {o : Obj P} {k : Str} : Within h b i → h[i]? = some o → (k, j) ∈ o.children →
      Within h b j

theorem Within.chain {h : Heap P} {b i : Nat} (wi : Within h b i) : ∃ keys, Chain h b keys i := by
  induction wi with
  | self => exact ⟨[], .nil⟩
  | child _ hi hk ih => obtain ⟨keys, ch⟩ := ih; exact ⟨_, ch.snoc hi hk⟩

theorem Chain.within {h : Heap P} {b i : Nat} {keys : List Str} (ch : Chain h b keys i) :
    Within h b i := by
  induction ch with
  | nil => exact .self
  | snoc _ hi hk ih => exact ih.child hi hk

/-! ### C04 -/

/-- C04: after any history of constructor, add and replace calls, failing ones included, no name
contains the separator, the names of the children of any object are pairwise distinct, every
dictionary key is the name of the object stored under it, and children are exactly one level below
their container. -/
theorem C04_names (ops : List (Op P)) (i : Nat) (o : Obj P) (hi : (exec ops)[i]? = some o) :
    '/' ∉ o.name ∧
    (∀ k j, (k, j) ∈ o.children → ∃ oj : Obj P, (exec ops)[j]? = some oj ∧ oj.name = k ∧
      '/' ∉ k ∧ o.kind.rank = oj.kind.rank + 1) ∧
    (∀ (m n : Nat) (k l : Str) (j j' : Nat), o.children[m]? = some (k, j) → o.children[n]? = some (l, j') → m ≠ n →
      k ≠ l) := by
  have w : WF (exec ops) := WF.exec ops
  refine ⟨w.name i o hi, ?_, ?_⟩
  · intro k j hk
    obtain ⟨oj, h1, h2, h3⟩ := w.child i o k j hi hk
    exact ⟨oj, h1, h2, h2 ▸ w.name j oj h1, h3⟩
  · intro m n k l j j' hm hn hne he
    subst he
    have hnd := w.nodup i o hi
    have h1 : (o.children.map Prod.fst)[m]? = some k := by rw [List.getElem?_map, hm]; rfl
    have h2 : (o.children.map Prod.fst)[n]? = some k := by rw [List.getElem?_map, hn]; rfl
    obtain ⟨hm1, h1⟩ := List.getElem?_eq_some_iff.1 h1
    obtain ⟨hn1, h2⟩ := List.getElem?_eq_some_iff.1 h2
    exact hne ((List.Nodup.getElem_inj_iff hnd).1 (h1.trans h2.symm))

/-- A history used in the examples: polygon, wall, solid, zone and building, then a second wall and
a rejected addition. -/
def demoOps : List (Op Nat) :=
  [ .construct .polygon ['p'] [7, 8, 9] none [],
    .construct .wall ['w'] [] none [0],
    .construct .solid ['s'] [] none [1],
    .construct .zone ['z'] [] none [2],
    .construct .building ['b'] [] none [3],
    .construct .wall ['w'] [] none [],
    .add 2 5,
    .construct .polygon ['q'] [1, 2, 3] none [],
    .replacePolygon 1 ['p'] [6] ]

/-- Non-vacuity: the history reaches a state with five nested objects. -/
example : ((exec demoOps)[1]?).map (fun o => (o.name, o.children)) =
    some (['w'], [(['q'], 6)]) ∧ ((exec demoOps)[2]?).map (·.children) = some [(['w'], 1)] := by
  decide +kernel

/-! ### C05 -/

/-- C05: adding a child whose name is taken raises `GeometryError` and changes nothing, for every
heap. -/
theorem C05_add_rejected (h : Heap P) (c x : Nat) (C X : Obj P) (hc : h[c]? = some C)
    (hx : h[x]? = some X) (hr : C.kind.rank = X.kind.rank + 1)
    (hn : X.name ∈ C.children.map Prod.fst) :
    add h c x = (h, .error .geometryError) := by
  unfold add
  rw [hc, hx]
  simp only [hr, ne_eq, not_true_eq_false, if_false, hn, if_true]

/-- C05: any call of `add` that raises leaves every object as it was. -/
theorem C05_add_error_changes_nothing (h h' : Heap P) (c x : Nat) (e : PyErr)
    (he : add h c x = (h', .error e)) : h' = h := by
  rcases add_cases h c x with ⟨e', he'⟩ | ⟨C, X, _, _, _, _, _, he'⟩
  · rw [he'] at he; cases he; rfl
  · rw [he'] at he; cases he

/-- C05: adding a child with a fresh name succeeds; the child is appended to the container's
children, its parent becomes the container, and every other object is unchanged. -/
theorem C05_add_fresh (h : Heap P) (c x : Nat) (C X : Obj P) (hc : h[c]? = some C)
    (hx : h[x]? = some X) (hr : C.kind.rank = X.kind.rank + 1)
    (hn : X.name ∉ C.children.map Prod.fst) :
    ∃ h', add h c x = (h', .ok ()) ∧
      h'[c]? = some { C with children := C.children ++ [(X.name, x)] } ∧
      h'[x]? = some { X with parent := some c } ∧
      ∀ i, i ≠ c → i ≠ x → h'[i]? = h[i]? := by
  rcases add_cases h c x with ⟨e, he⟩ | ⟨C', X', hc', hx', _, _, hne, he⟩
  · exfalso
    unfold add at he
    rw [hc, hx] at he
    simp [hr, hn] at he
  · rw [hc] at hc'; cases hc'
    rw [hx] at hx'; cases hx'
    refine ⟨_, he, ?_, ?_, ?_⟩
    · rw [added_get hc hx hne, if_pos rfl]
    · rw [added_get hc hx hne, if_neg (fun e => hne e.symm), if_pos rfl]
    · intro i h1 h2
      rw [added_get hc hx hne, if_neg h1, if_neg h2]

/-- Both branches occur: object 5 (a second wall `w`) is rejected by solid 2, object 6 could be
added to it under a fresh name. -/
example : (add (exec demoOps) 2 5).2 = .error .geometryError ∧
    (add ((exec demoOps) ++ [⟨.wall, ['v'], none, [], []⟩]) 2 7).2 = .ok () := by
  decide +kernel

/-! ### C06 -/

theorem addAll_fresh (c : Nat) : ∀ (xs : List Nat) (names : List Str) (h : Heap P) (C : Obj P),
    h[c]? = some C →
    List.Forall₂ (fun x n => ∃ X : Obj P, h[x]? = some X ∧ X.name = n ∧
      C.kind.rank = X.kind.rank + 1) xs names →
    (C.children.map Prod.fst ++ names).Nodup →
    ∃ h', addAll h c xs = (h', .ok ()) ∧
      h'[c]? = some { C with children := C.children ++ names.zip xs } ∧
      ∀ i, i ≠ c → i ∉ xs → h'[i]? = h[i]? := by
  intro xs
  induction xs with
  | nil =>
    intro names h C hc hf _
    cases hf
    exact ⟨h, rfl, by simpa using hc, fun i _ _ => rfl⟩
  | cons x xs ih =>
    intro names h C hc hf hnd
    cases hf with
    | @cons _ n _ names hx hf =>
    obtain ⟨X, hx, hXn, hr⟩ := hx
    have hn : X.name ∉ C.children.map Prod.fst := by
      rw [hXn]
      intro hm
      exact (List.nodup_append.1 hnd).2.2 n hm n (by simp) rfl
    obtain ⟨h1, he, h1c, h1x, h1o⟩ := C05_add_fresh h c x C X hc hx hr hn
    have hcx : c ≠ x := by rintro rfl; rw [hc] at hx; cases hx; omega
    obtain ⟨h', he', hc', ho'⟩ := ih names h1 { C with children := C.children ++ [(X.name, x)] } h1c
      (by
        refine hf.imp ?_
        rintro y m ⟨Y, hY, hYn, hYr⟩
        by_cases e1 : y = c
        · subst e1; rw [hc] at hY; cases hY; omega
        · by_cases e2 : y = x
          · subst e2; rw [hx] at hY; cases hY
            exact ⟨_, h1x, hYn, hYr⟩
          · exact ⟨Y, by rw [h1o y e1 e2]; exact hY, hYn, hYr⟩)
      (by
        simp only [List.map_append, List.map_cons, List.map_nil, hXn, List.append_assoc,
          List.cons_append, List.nil_append]
        exact hnd)
    refine ⟨h', ?_, ?_, ?_⟩
    · unfold addAll; rw [he]; exact he'
    · rw [hc', hXn]; simp
    · intro i hi hix
      simp only [List.mem_cons, not_or] at hix
      rw [ho' i hi hix.2, h1o i hi hix.1]

/-- C06: replacing an existing child by children with pairwise distinct names that do not collide
with the remaining siblings (the old name may be reused) removes exactly the old child, appends the
replacements in order and keeps the other children in order; every object that is neither the
container nor a replacement is unchanged. -/
theorem C06_replace_success (h : Heap P) (c : Nat) (C : Obj P) (old : Str) (news : List Nat)
    (names : List Str) (hc : h[c]? = some C) (hk : C.kind = .wall ∨ C.kind = .solid)
    (hold : old ∈ C.children.map Prod.fst)
    (hnew : List.Forall₂ (fun x n => ∃ X : Obj P, h[x]? = some X ∧ X.name = n ∧
      C.kind.rank = X.kind.rank + 1) news names)
    (hnd : ((C.children.filter (fun kv => kv.1 ≠ old)).map Prod.fst ++ names).Nodup) :
    ∃ h', replace h c old news = (h', .ok ()) ∧
      h'[c]? = some { C with
        children := C.children.filter (fun kv => kv.1 ≠ old) ++ names.zip news } ∧
      ∀ i, i ≠ c → i ∉ news → h'[i]? = h[i]? := by
  have hkk : ¬ (C.kind ≠ .wall ∧ C.kind ≠ .solid) := by
    rintro ⟨h1, h2⟩; rcases hk with h | h
    · exact h1 h
    · exact h2 h
  obtain ⟨h', he, hc', ho⟩ := addAll_fresh c news names (removed h c C old)
    { C with children := C.children.filter (fun kv => kv.1 ≠ old) }
    (by rw [removed_get hc, if_pos rfl])
    (by
      refine hnew.imp ?_
      rintro y m ⟨Y, hY, hYn, hYr⟩
      have : y ≠ c := by rintro rfl; rw [hc] at hY; cases hY; omega
      exact ⟨Y, by rw [removed_get hc, if_neg this]; exact hY, hYn, hYr⟩)
    hnd
  refine ⟨h', ?_, hc', ?_⟩
  · unfold replace
    rw [hc]
    simp only [if_neg hkk, hold, if_true]
    exact he
  · intro i h1 h2
    rw [ho i h1 h2, removed_get hc, if_neg h1]

/-- C06: with an unknown name, `replace` raises `KeyError` and changes nothing. -/
theorem C06_replace_unknown (h : Heap P) (c : Nat) (C : Obj P) (old : Str) (news : List Nat)
    (hc : h[c]? = some C) (hk : C.kind = .wall ∨ C.kind = .solid)
    (hold : old ∉ C.children.map Prod.fst) :
    replace h c old news = (h, .error .keyError) := by
  have hkk : ¬ (C.kind ≠ .wall ∧ C.kind ≠ .solid) := by
    rintro ⟨h1, h2⟩; rcases hk with h | h
    · exact h1 h
    · exact h2 h
  unfold replace
  rw [hc]
  simp only [if_neg hkk, hold, if_false]

/-- C06 (partial): with an existing old name and a collision among the new names, the call raises
`GeometryError`, but the old child is already gone and the replacements before the first collision
have been added.  Atomicity is what is missing, see `C06_replace_not_atomic`. -/
theorem C06_replace_collision_partial (h : Heap P) (c : Nat) (C : Obj P) (old : Str)
    (good : List Nat) (bad : Nat) (rest : List Nat) (names : List Str) (badName : Str)
    (hc : h[c]? = some C) (hk : C.kind = .wall ∨ C.kind = .solid)
    (hold : old ∈ C.children.map Prod.fst)
    (hgood : List.Forall₂ (fun x n => ∃ X : Obj P, h[x]? = some X ∧ X.name = n ∧
      C.kind.rank = X.kind.rank + 1) good names)
    (X : Obj P) (hx : h[bad]? = some X) (hXn : X.name = badName)
    (hXr : C.kind.rank = X.kind.rank + 1)
    (hnd : ((C.children.filter (fun kv => kv.1 ≠ old)).map Prod.fst ++ names).Nodup)
    (hbad : badName ∈ (C.children.filter (fun kv => kv.1 ≠ old)).map Prod.fst ++ names) :
    ∃ h', replace h c old (good ++ bad :: rest) = (h', .error .geometryError) ∧
      h'[c]? = some { C with
        children := C.children.filter (fun kv => kv.1 ≠ old) ++ names.zip good } := by
  have hkk : ¬ (C.kind ≠ .wall ∧ C.kind ≠ .solid) := by
    rintro ⟨h1, h2⟩; rcases hk with h | h
    · exact h1 h
    · exact h2 h
  have hlen : good.length = names.length := hgood.length_eq
  have hxc : bad ≠ c := by rintro rfl; rw [hc] at hx; cases hx; omega
  have hstep : ∀ (xs ys : List Nat) (h : Heap P) (c : Nat) h1, addAll h c xs = (h1, .ok ()) →
      addAll h c (xs ++ ys) = addAll h1 c ys := by
    intro xs
    induction xs with
    | nil => intro ys h c h1 he; cases he; rfl
    | cons x xs ih =>
      intro ys h c h1 he
      rw [List.cons_append]
      rw [addAll] at he ⊢
      cases ha : add h c x with
      | mk h2 r =>
        rw [ha] at he
        cases r with
        | ok u => exact ih ys h2 c h1 he
        | error e => cases he
  obtain ⟨h', he, hc', ho⟩ := addAll_fresh c good names (removed h c C old)
    { C with children := C.children.filter (fun kv => kv.1 ≠ old) }
    (by rw [removed_get hc, if_pos rfl])
    (by
      refine hgood.imp ?_
      rintro y m ⟨Y, hY, hYn, hYr⟩
      have : y ≠ c := by rintro rfl; rw [hc] at hY; cases hY; omega
      exact ⟨Y, by rw [removed_get hc, if_neg this]; exact hY, hYn, hYr⟩)
    hnd
  -- the kind and name of `bad` are unchanged
  have hWF : ∃ X' : Obj P, h'[bad]? = some X' ∧ X'.name = badName ∧
      C.kind.rank = X'.kind.rank + 1 := by
    have keepAdd : ∀ (g : Heap P) (c x i : Nat) (o : Obj P), g[i]? = some o →
        ∃ o' : Obj P, (add g c x).1[i]? = some o' ∧ o'.name = o.name ∧ o'.kind = o.kind := by
      intro g c x i o hi
      rcases add_cases g c x with ⟨e, he⟩ | ⟨C', X', hc', hx', _, _, hne, he⟩
      · rw [he]; exact ⟨o, hi, rfl, rfl⟩
      · rw [he, added_get hc' hx' hne]
        by_cases e1 : i = c
        · rw [if_pos e1]; rw [e1, hc'] at hi; cases hi; exact ⟨_, rfl, rfl, rfl⟩
        · rw [if_neg e1]
          by_cases e2 : i = x
          · rw [if_pos e2]; rw [e2, hx'] at hi; cases hi; exact ⟨_, rfl, rfl, rfl⟩
          · rw [if_neg e2]; exact ⟨o, hi, rfl, rfl⟩
    have keepAll : ∀ (xs : List Nat) (g : Heap P) (c i : Nat) (o : Obj P), g[i]? = some o →
        ∃ o' : Obj P, (addAll g c xs).1[i]? = some o' ∧ o'.name = o.name ∧ o'.kind = o.kind := by
      intro xs
      induction xs with
      | nil => intro g c i o hi; exact ⟨o, hi, rfl, rfl⟩
      | cons x xs ih =>
        intro g c i o hi
        obtain ⟨o1, h1, h2, h3⟩ := keepAdd g c x i o hi
        unfold addAll
        cases ha : add g c x with
        | mk g1 r =>
          rw [ha] at h1
          cases r with
          | ok u =>
            obtain ⟨o2, h4, h5, h6⟩ := ih g1 c i o1 h1
            exact ⟨o2, h4, h5.trans h2, h6.trans h3⟩
          | error e => exact ⟨o1, h1, h2, h3⟩
    obtain ⟨X', h1, h2, h3⟩ := keepAll good (removed h c C old) c bad X
      (by rw [removed_get hc, if_neg hxc]; exact hx)
    rw [he] at h1
    exact ⟨X', h1, by rw [h2, hXn], by rw [h3]; exact hXr⟩
  obtain ⟨X', hx', hXn', hXr'⟩ := hWF
  refine ⟨h', ?_, hc'⟩
  unfold replace
  rw [hc]
  simp only [if_neg hkk, hold, if_true]
  have := hstep good (bad :: rest) _ c h' he
  show addAll (removed h c C old) c (good ++ bad :: rest) = _
  rw [this]
  unfold addAll
  rw [C05_add_rejected h' c bad _ X' hc' hx' hXr' (by
    rw [hXn']
    rw [List.map_append, List.map_fst_zip (by omega)]
    exact hbad)]

/-- C06 fails in general: replacing polygon `p` of a wall with polygons `p`, `q` by one named `q`
raises `GeometryError` and the wall has lost `p`. -/
theorem C06_replace_not_atomic :
    ∃ (h h' : Heap Unit) (c : Nat) (old : Str) (news : List Nat) (e : PyErr),
      replace h c old news = (h', .error e) ∧ h' ≠ h ∧
      (h[c]?).map (fun o => o.children.map Prod.fst) = some [['p'], ['q']] ∧
      (h'[c]?).map (fun o => o.children.map Prod.fst) = some [['q']] := by
  refine ⟨[⟨.polygon, ['p'], some 2, [], []⟩, ⟨.polygon, ['q'], some 2, [], []⟩,
    ⟨.wall, ['w'], none, [(['p'], 0), (['q'], 1)], []⟩, ⟨.polygon, ['q'], none, [], []⟩],
    _, 2, ['p'], [3], .geometryError, rfl, ?_, ?_, ?_⟩
  all_goals decide +kernel

/-- Non-vacuity of `C06_replace_success`: replacing the polygon of wall 1 by two polygons, one of
which takes the old name. -/
example : ((replace ((exec demoOps) ++ [⟨.polygon, ['a'], none, [], []⟩,
    ⟨.polygon, ['q'], none, [], []⟩]) 1 ['q'] [7, 8]).1[1]?).map (·.children) =
    some [(['a'], 7), (['q'], 8)] := by decide +kernel

/-! ### C07 -/

/-- C07 (partial): in every building reached by a history in which no object is put into two containers,
looking up the path of any object of the building returns that object, whether the building or any
of its parts is asked.  Missing: objects put into two containers, where it is false
(`C07_shared_object_lost`). -/
theorem C07_get_own_path_partial (parseInt : Str → Option Int) (ops : List (Op P))
    (hl : LinearFrom [] ops) (b : Nat) (B : Obj P) (hb : (exec ops)[b]? = some B)
    (hk : B.kind = .building) (i : Nat) (hi : Within (exec ops) b i) :
    get parseInt (exec ops) b (path (exec ops) i) = .ok (.obj i) ∧
    ∀ j s, Within (exec ops) b j →
      objGet parseInt (exec ops) 5 j s = get parseInt (exec ops) b s := by
  have w : WF (exec ops) := WF.exec ops
  have q : ParentOK (exec ops) := ParentOK.foldl ops WF.nil ParentOK.nil hl
  have hroot := root_of_building w hb hk
  constructor
  · obtain ⟨keys, ch⟩ := hi.chain
    obtain ⟨o, ho, hr⟩ := ch.rank w hb
    have hlen : keys.length ≤ 4 := by rw [hk] at hr; simp [Kind.rank] at hr; omega
    unfold path
    rw [ch.path w q hb hroot 5 (by omega), get_join parseInt hb (w.name b B hb) keys (ch.no_sep w)
      hlen, ch.items w]
    rfl
  · intro j s hj
    obtain ⟨keys, ch⟩ := hj.chain
    obtain ⟨o, ho, hr⟩ := ch.rank w hb
    have hlen : keys.length < 5 := by rw [hk] at hr; simp [Kind.rank] at hr; omega
    clear ho hr
    have key : ∀ fuel, keys.length < fuel →
        objGet parseInt (exec ops) fuel j s = get parseInt (exec ops) b s := by
      clear hlen
      induction ch with
      | nil =>
        intro fuel hf
        obtain ⟨f, rfl⟩ : ∃ f, fuel = f + 1 := ⟨fuel - 1, by simp at hf; omega⟩
        unfold objGet
        rw [hb]
        simp only [hroot, hk, if_true]
      | snoc ch' hi' hk' ih =>
        intro fuel hf
        obtain ⟨f, rfl⟩ : ∃ f, fuel = f + 1 := ⟨fuel - 1, by simp at hf; omega⟩
        obtain ⟨oj, h1, h2⟩ := q _ _ _ _ hi' hk'
        unfold objGet
        rw [h1]
        simp only [h2]
        exact ih ch'.within f (by simp at hf; omega)
    exact key 5 hlen

/-- Non-vacuity of C07: the demo history is linear and nests five levels. -/
example : LinearFrom [] demoOps := by
  have key : ∀ (h : Heap Nat) (c x : Nat),
      (h.zipIdx.all fun oi => oi.1.children.all fun kv => kv.2 != x || oi.2 == c) = true →
      NotElsewhere h c x := by
    intro h c x hall i o k hi hk
    rw [List.all_eq_true] at hall
    have := hall (o, i) (by rw [List.mem_zipIdx_iff_getElem?]; exact hi)
    rw [List.all_eq_true] at this
    have := this _ hk
    simpa using this
  unfold demoOps
  refine ⟨fun x hx => by simp at hx, ?_, ?_, ?_, ?_, fun x hx => by simp at hx, ?_,
    fun x hx => by simp at hx, ?_, trivial⟩
  · intro x hx; apply key; simp at hx; subst hx; decide +kernel
  · intro x hx; apply key; simp at hx; subst hx; decide +kernel
  · intro x hx; apply key; simp at hx; subst hx; decide +kernel
  · intro x hx; apply key; simp at hx; subst hx; decide +kernel
  · apply key; decide +kernel
  · intro x hx; apply key; simp at hx; subst hx; decide +kernel

example : path (exec demoOps) 6 = "b/z/s/w/q".toList ∧
    get (fun _ => none) (exec demoOps) 4 "b/z/s/w/q".toList = .ok (.obj 6) := by decide +kernel

/-- Without the hypothesis C07 fails: wall 0 is in solid `s` of building `b` (object 3) and is then
also put into another solid; its path now starts with that solid's name and the building cannot
find it. -/
theorem C07_shared_object_lost :
    ∃ (ops : List (Op Unit)) (b : Nat), Within (exec ops) b 0 ∧
      get (fun _ => none) (exec ops) b (path (exec ops) 0) = .error .assertionError := by
  let ops : List (Op Unit) := [ .construct .wall ['w'] [] none [],
    .construct .solid ['s'] [] none [0], .construct .zone ['z'] [] none [1],
    .construct .building ['b'] [] none [2], .construct .solid ['t'] [] none [0] ]
  refine ⟨ops, 3, ?_, by decide +kernel⟩
  have h3 : (exec ops)[3]? = some ⟨.building, ['b'], none, [(['z'], 2)], []⟩ := by decide +kernel
  have h2 : (exec ops)[2]? = some ⟨.zone, ['z'], some 3, [(['s'], 1)], []⟩ := by decide +kernel
  have h1 : (exec ops)[1]? = some ⟨.solid, ['s'], some 2, [(['w'], 0)], []⟩ := by decide +kernel
  exact ((Within.self.child (k := ['z']) (j := 2) h3 (by simp)).child (k := ['s']) (j := 1) h2
    (by simp)).child (k := ['w']) (j := 0) h1 (by simp)

/-- Even a constructor call that raises can have this effect: `Solid([w, w2], name="t")` with two
walls of the same name raises `GeometryError`, but wall 0 already points to the discarded solid. -/
theorem C07_lost_after_failed_constructor :
    ∃ (ops : List (Op Unit)) (b : Nat),
      get (fun _ => none) (exec ops) b (path (exec ops) 0) = .ok (.obj 0) ∧
      (construct (exec ops) .solid ['t'] [] none [0, 4]).2 = .error .geometryError ∧
      get (fun _ => none) (construct (exec ops) .solid ['t'] [] none [0, 4]).1 b
        (path (construct (exec ops) .solid ['t'] [] none [0, 4]).1 0) =
          .error .assertionError := by
  refine ⟨[ .construct .wall ['w'] [] none [],
    .construct .solid ['s'] [] none [0], .construct .zone ['z'] [] none [1],
    .construct .building ['b'] [] none [2], .construct .wall ['w'] [] none [] ], 3, ?_⟩
  decide +kernel

/-! ### C08 -/

/-- C08: if a lookup returns an object then that object is in the building and its path is the
string that was looked up. -/
theorem C08_get_sound (parseInt : Str → Option Int) (ops : List (Op P))
    (hl : LinearFrom [] ops) (b : Nat) (B : Obj P) (hb : (exec ops)[b]? = some B)
    (hk : B.kind = .building) (s : Str) (i : Nat)
    (h : get parseInt (exec ops) b s = .ok (.obj i)) :
    Within (exec ops) b i ∧ path (exec ops) i = s := by
  have w : WF (exec ops) := WF.exec ops
  have q : ParentOK (exec ops) := ParentOK.foldl ops WF.nil ParentOK.nil hl
  have hroot := root_of_building w hb hk
  have fin : ∀ keys, keys.length ≤ 4 → Str.split PATH_SEP s = B.name :: keys →
      items (exec ops) b keys = .ok i → Within (exec ops) b i ∧ path (exec ops) i = s := by
    intro keys hlen hs hit
    have ch : Chain (exec ops) b ([] ++ keys) i := chain_of_items keys [] b i .nil hit
    rw [List.nil_append] at ch
    refine ⟨ch.within, ?_⟩
    unfold path
    rw [ch.path w q hb hroot 5 (by omega), ← hs, Str.join_split]
  unfold get at h
  rw [hb] at h
  simp only [] at h
  split at h
  · cases h
  next building rest hs =>
    split at h
    · cases h
    next hbn =>
    rw [ne_eq, not_not] at hbn
    subst hbn
    have mapOk : ∀ (r : Except PyErr Nat), r.map (Found.obj (P := P)) = .ok (.obj i) → r = .ok i := by
      intro r hr
      cases r with
      | error e => cases hr
      | ok j => cases hr; rfl
    split at h
    · cases h; exact fin [] (by simp) hs rfl
    · exact fin _ (by simp) hs (mapOk _ h)
    · exact fin _ (by simp) hs (mapOk _ h)
    · exact fin _ (by simp) hs (mapOk _ h)
    · exact fin _ (by simp) hs (mapOk _ h)
    · split at h
      · cases h
      · split at h
        · cases h
        · split at h
          · cases h
          · exfalso
            have : ∀ r : Except PyErr P, r.map (Found.point (P := P)) ≠ .ok (.obj i) := by
              intro r; cases r <;> simp [Except.map]
            exact this _ h
    · cases h

/-- C08: two different objects of a building never have the same path. -/
theorem C08_paths_unique (ops : List (Op P)) (hl : LinearFrom [] ops) (b : Nat) (B : Obj P)
    (hb : (exec ops)[b]? = some B) (hk : B.kind = .building) (i j : Nat)
    (hi : Within (exec ops) b i) (hj : Within (exec ops) b j)
    (h : path (exec ops) i = path (exec ops) j) : i = j := by
  have h1 := (C07_get_own_path_partial (fun _ => none) ops hl b B hb hk i hi).1
  have h2 := (C07_get_own_path_partial (fun _ => none) ops hl b B hb hk j hj).1
  rw [h, h2] at h1
  cases h1
  rfl

/-- C08: errors.  For every string, with `first` its first component and `rest` the others: a wrong
building name is an `AssertionError`; more than six components are a `ValueError`; up to five
components either find an object or raise `KeyError`. -/
theorem C08_get_errors (parseInt : Str → Option Int) (ops : List (Op P)) (b : Nat) (B : Obj P)
    (hb : (exec ops)[b]? = some B) (s : Str) (first : Str) (rest : List Str)
    (hs : Str.split '/' s = first :: rest) :
    (first ≠ B.name → get parseInt (exec ops) b s = .error .assertionError) ∧
    (first = B.name → 5 < rest.length → get parseInt (exec ops) b s = .error .valueError) ∧
    (first = B.name → rest.length ≤ 4 →
      get parseInt (exec ops) b s = .error .keyError ∨
      ∃ i, Chain (exec ops) b rest i ∧ get parseInt (exec ops) b s = .ok (.obj i)) := by
  have w : WF (exec ops) := WF.exec ops
  refine ⟨?_, ?_, ?_⟩
  · intro hne
    unfold get
    rw [hb]
    simp only []
    rw [show PATH_SEP = '/' from rfl, hs]
    simp only [ne_eq, hne, not_false_eq_true, if_true]
  · intro he hlen
    unfold get
    rw [hb]
    simp only []
    rw [show PATH_SEP = '/' from rfl, hs]
    simp only [he, ne_eq, not_true_eq_false, if_false]
    split <;> first | rfl | (simp at hlen)
  · intro he hlen
    have hg : get parseInt (exec ops) b s = (items (exec ops) b rest).map .obj := by
      have hj : s = Str.join PATH_SEP (B.name :: rest) := by
        rw [← he, ← hs]; exact (Str.join_split '/' s).symm
      have hns := Str.split_no_sep '/' s
      rw [hs] at hns
      rw [hj]
      exact get_join parseInt hb (he ▸ hns first (by simp)) rest
        (fun k hk => hns k (List.mem_cons_of_mem _ hk)) hlen
    rw [hg]
    -- lookups fail only with `KeyError`
    have key : ∀ (ks : List Str) (c : Nat) (C : Obj P), (exec ops)[c]? = some C →
        items (exec ops) c ks = .error .keyError ∨ ∃ i, items (exec ops) c ks = .ok i := by
      intro ks
      induction ks with
      | nil => intro c C _; exact Or.inr ⟨c, rfl⟩
      | cons k ks ih =>
        intro c C hc
        unfold items item
        rw [hc]
        simp only []
        cases hlk : C.children.lookup k with
        | none => exact Or.inl rfl
        | some j =>
          obtain ⟨oj, hj, _⟩ := w.child c C k j hc (mem_of_lookup hlk)
          exact ih j oj hj
    rcases key rest b B hb with h | ⟨i, h⟩
    · left; rw [h]; rfl
    · right
      refine ⟨i, ?_, by rw [h]; rfl⟩
      have := chain_of_items rest [] b i .nil h
      simpa using this

/-- C08: a sixth component that is an integer selects that vertex of the polygon with the path
given by the first five components. -/
theorem C08_get_vertex (parseInt : Str → Option Int) (ops : List (Op P))
    (hl : LinearFrom [] ops) (b : Nat) (B : Obj P) (hb : (exec ops)[b]? = some B)
    (hk : B.kind = .building) (i : Nat) (o : Obj P) (hi : Within (exec ops) b i)
    (ho : (exec ops)[i]? = some o) (hp : o.kind = .polygon) (digits : Str) (n : Nat) (p : P)
    (hd : '/' ∉ digits) (hpi : parseInt digits = some (n : Int)) (hn : o.pts[n]? = some p) :
    get parseInt (exec ops) b (path (exec ops) i ++ '/' :: digits) = .ok (.point p) := by
  have w : WF (exec ops) := WF.exec ops
  have q : ParentOK (exec ops) := ParentOK.foldl ops WF.nil ParentOK.nil hl
  have hroot := root_of_building w hb hk
  obtain ⟨keys, ch⟩ := hi.chain
  obtain ⟨o', ho', hr⟩ := ch.rank w hb
  rw [ho] at ho'; cases ho'
  have hlen : keys.length = 4 := by rw [hk, hp] at hr; simp [Kind.rank] at hr; omega
  match keys, hlen with
  | [z, s, wl, pg], _ =>
  have hpath : path (exec ops) i = Str.join PATH_SEP [B.name, z, s, wl, pg] :=
    ch.path w q hb hroot 5 (by simp)
  have hsep : ∀ k ∈ [B.name, z, s, wl, pg, digits], PATH_SEP ∉ k := by
    intro k hk'
    simp only [List.mem_cons, List.not_mem_nil, or_false] at hk'
    have hns := ch.no_sep w
    rcases hk' with rfl | rfl | rfl | rfl | rfl | rfl
    · exact w.name b B hb
    · exact hns _ (by simp)
    · exact hns _ (by simp)
    · exact hns _ (by simp)
    · exact hns _ (by simp)
    · exact hd
  have hjoin : path (exec ops) i ++ '/' :: digits =
      Str.join PATH_SEP [B.name, z, s, wl, pg, digits] := by
    rw [hpath]; simp [Str.join, PATH_SEP]
  rw [hjoin]
  unfold get
  rw [hb]
  simp only []
  rw [Str.split_join _ _ (by simp) hsep]
  simp only [ne_eq, not_true_eq_false, if_false, hpi]
  have hit := ch.items w
  rw [hit]
  simp only [ho]
  unfold pyIndex
  have h0 : ¬ ((n : Int) < 0) := by omega
  simp only [h0, if_false, Int.toNat_natCast, hn]
  rfl

example : get (fun s => if s = ['1'] then some 1 else none) (exec demoOps) 4
    "b/z/s/w/q/1".toList = .ok (.point 2) := by decide +kernel

/-! ### C09 -/

theorem mem_leafKeys {h : Heap P} (w : WF h) : ∀ (d : Nat) (i : Nat) (keys : List Str),
    keys ∈ leafKeys h d i ↔ keys.length = d ∧ ∃ j, items h i keys = .ok j := by
  intro d
  induction d with
  | zero =>
    intro i keys
    simp only [leafKeys, List.mem_singleton]
    constructor
    · rintro rfl; exact ⟨rfl, i, rfl⟩
    · rintro ⟨hl, _⟩; exact List.length_eq_zero_iff.1 hl
  | succ d ih =>
    intro i keys
    unfold leafKeys
    cases hi : h[i]? with
    | none =>
      simp only [List.not_mem_nil, false_iff]
      rintro ⟨hl, j, hj⟩
      match keys, hl with
      | k :: ks, _ =>
        unfold items item at hj
        rw [hi] at hj
        cases hj
    | some o =>
      simp only [List.mem_flatMap, List.mem_map]
      constructor
      · rintro ⟨⟨k, j⟩, hk, ks, hks, rfl⟩
        obtain ⟨hl, j', hj'⟩ := (ih j ks).1 hks
        refine ⟨by simp [hl], j', ?_⟩
        unfold items
        rw [item_of_mem w hi hk]
        exact hj'
      · rintro ⟨hl, j, hj⟩
        match keys, hl with
        | k :: ks, hl =>
          unfold items item at hj
          rw [hi] at hj
          simp only [] at hj
          cases hlk : o.children.lookup k with
          | none => rw [hlk] at hj; cases hj
          | some m =>
            rw [hlk] at hj
            refine ⟨(k, m), mem_of_lookup hlk, ks, (ih m ks).2 ⟨by simpa using hl, j, hj⟩, rfl⟩

theorem leafKeys_nodup {h : Heap P} (w : WF h) : ∀ (d : Nat) (i : Nat), (leafKeys h d i).Nodup := by
  intro d
  induction d with
  | zero => intro i; simp [leafKeys]
  | succ d ih =>
    intro i
    unfold leafKeys
    cases hi : h[i]? with
    | none => exact List.nodup_nil
    | some o =>
      simp only []
      have hnd := w.nodup i o hi
      generalize o.children = l at hnd
      clear hi
      induction l with
      | nil => exact List.nodup_nil
      | cons kv l ihl =>
        simp only [List.map_cons, List.nodup_cons] at hnd
        rw [List.flatMap_cons, List.nodup_append]
        refine ⟨?_, ihl hnd.2, ?_⟩
        · exact (ih kv.2).map (fun a b h => by simpa using h)
        · intro a ha b hb he
          subst he
          obtain ⟨ks, _, rfl⟩ := List.mem_map.1 ha
          obtain ⟨kv', hkv', hb⟩ := List.mem_flatMap.1 hb
          obtain ⟨ks', _, he⟩ := List.mem_map.1 hb
          simp only [List.cons.injEq] at he
          exact hnd.1 (he.1 ▸ List.mem_map_of_mem (f := Prod.fst) hkv')

theorem prefixNames_chain {h : Heap P} (q : ParentOK h) (w : WF h) {b : Nat} {B : Obj P}
    (hb : h[b]? = some B) {keys : List Str} {i : Nat} (ch : Chain h b keys i) :
    prefixNames h keys.length i = .ok (B.name :: keys) := by
  induction ch with
  | nil => simp only [List.length_nil, prefixNames, hb]
  | snoc _ hi hk ih =>
    obtain ⟨oj, h1, h2⟩ := q _ _ _ _ hi hk
    obtain ⟨oj', h3, h4, _⟩ := w.child _ _ _ _ hi hk
    rw [h1] at h3; cases h3
    simp only [List.length_append, List.length_cons, List.length_nil, Nat.zero_add, prefixNames,
      h1, h2, ih, h4, List.cons_append]

theorem getPolygonPaths_eq {h : Heap P} (q : ParentOK h) (w : WF h) {b : Nat} {B : Obj P}
    (hb : h[b]? = some B) (hB : B.kind = .building) {keys : List Str} {i : Nat} {o : Obj P}
    (ch : Chain h b keys i) (ho : h[i]? = some o) (hk : o.kind ≠ .polygon) :
    getPolygonPaths h i = .ok ((leafKeys h o.kind.rank i).map
      fun ks => Str.join PATH_SEP (B.name :: keys ++ ks)) := by
  obtain ⟨o', ho', hr⟩ := ch.rank w hb
  rw [ho] at ho'; cases ho'
  have hlen : 4 - o.kind.rank = keys.length := by rw [hB] at hr; simp [Kind.rank] at hr ⊢; omega
  unfold getPolygonPaths
  rw [ho]
  simp only [if_neg hk, hlen, prefixNames_chain q w hb ch]

/-- C09: `get_polygon_paths` of a building succeeds, contains no duplicates, and contains exactly
the paths of the polygons of the building; each listed path resolves to a polygon with that
path. -/
theorem C09_building_polygon_paths (parseInt : Str → Option Int) (ops : List (Op P))
    (hl : LinearFrom [] ops) (b : Nat) (B : Obj P) (hb : (exec ops)[b]? = some B)
    (hk : B.kind = .building) :
    ∃ l, getPolygonPaths (exec ops) b = .ok l ∧ l.Nodup ∧
      (∀ s, s ∈ l ↔ ∃ (i : Nat) (o : Obj P), Within (exec ops) b i ∧ (exec ops)[i]? = some o ∧
        o.kind = .polygon ∧ path (exec ops) i = s) ∧
      (∀ s ∈ l, ∃ i, get parseInt (exec ops) b s = .ok (.obj i) ∧ path (exec ops) i = s) := by
  have w : WF (exec ops) := WF.exec ops
  have q : ParentOK (exec ops) := ParentOK.foldl ops WF.nil ParentOK.nil hl
  have hroot := root_of_building w hb hk
  have hrank : B.kind.rank = 4 := by rw [hk]; rfl
  have heq := getPolygonPaths_eq q w hb hk .nil hb (by rw [hk]; decide)
  rw [hrank] at heq
  refine ⟨_, heq, ?_, ?_, ?_⟩
  · apply List.Nodup.map_on _ (leafKeys_nodup w 4 b)
    intro x hx y hy he
    have sep : ∀ ks, ks ∈ leafKeys (exec ops) 4 b → ∀ p ∈ B.name :: [] ++ ks, PATH_SEP ∉ p := by
      intro ks hks p hp
      obtain ⟨_, j, hj⟩ := (mem_leafKeys w 4 b ks).1 hks
      have ch : Chain (exec ops) b ([] ++ ks) j := chain_of_items ks [] b j .nil hj
      rw [List.nil_append] at ch
      rcases List.mem_append.1 hp with hp | hp
      · rw [List.mem_singleton] at hp; subst hp; exact w.name b B hb
      · exact ch.no_sep w p hp
    have := Str.join_injective PATH_SEP _ _ (by simp) (by simp) (sep x hx) (sep y hy) he
    simpa using this
  · intro s
    rw [List.mem_map]
    constructor
    · rintro ⟨ks, hks, rfl⟩
      obtain ⟨hlen, j, hj⟩ := (mem_leafKeys w 4 b ks).1 hks
      have ch : Chain (exec ops) b ([] ++ ks) j := chain_of_items ks [] b j .nil hj
      rw [List.nil_append] at ch
      obtain ⟨o, ho, hr⟩ := ch.rank w hb
      refine ⟨j, o, ch.within, ho, ?_, ?_⟩
      · rw [hrank, hlen] at hr
        cases hko : o.kind <;> rw [hko] at hr <;> simp [Kind.rank] at hr ⊢
      · exact ch.path w q hb hroot 5 (by omega)
    · rintro ⟨i, o, hw, ho, hp, rfl⟩
      obtain ⟨keys, ch⟩ := hw.chain
      obtain ⟨o', ho', hr⟩ := ch.rank w hb
      rw [ho] at ho'; cases ho'
      have hlen : keys.length = 4 := by rw [hrank, hp] at hr; simp [Kind.rank] at hr; omega
      refine ⟨keys, (mem_leafKeys w 4 b keys).2 ⟨hlen, i, ch.items w⟩, ?_⟩
      exact (ch.path w q hb hroot 5 (by omega)).symm
  · intro s hs
    obtain ⟨ks, hks, rfl⟩ := List.mem_map.1 hs
    obtain ⟨hlen, j, hj⟩ := (mem_leafKeys w 4 b ks).1 hks
    have ch : Chain (exec ops) b ([] ++ ks) j := chain_of_items ks [] b j .nil hj
    rw [List.nil_append] at ch
    refine ⟨j, ?_, ch.path w q hb hroot 5 (by omega)⟩
    have := get_join parseInt hb (w.name b B hb) ks (ch.no_sep w) (by omega)
    rw [hj] at this
    exact this

/-- C09: the listing of a building, zone or solid is the concatenation, in order, of the listings
of its children; so the listing of a part is a contiguous section of the listing of the whole. -/
theorem C09_listing_is_concatenation (ops : List (Op P)) (hl : LinearFrom [] ops) (b : Nat)
    (B : Obj P) (hb : (exec ops)[b]? = some B) (hk : B.kind = .building) (i : Nat) (o : Obj P)
    (hw : Within (exec ops) b i) (ho : (exec ops)[i]? = some o)
    (hr : o.kind = .building ∨ o.kind = .zone ∨ o.kind = .solid) :
    ∃ ls : List (List Str),
      List.Forall₂ (fun kv l => getPolygonPaths (exec ops) kv.2 = .ok l) o.children ls ∧
      getPolygonPaths (exec ops) i = .ok ls.flatten := by
  have w : WF (exec ops) := WF.exec ops
  have q : ParentOK (exec ops) := ParentOK.foldl ops WF.nil ParentOK.nil hl
  obtain ⟨keys, ch⟩ := hw.chain
  have hnp : o.kind ≠ .polygon := by
    rcases hr with h | h | h <;> rw [h] <;> decide
  obtain ⟨r, hrr⟩ : ∃ r, o.kind.rank = r + 1 + 1 := by
    rcases hr with h | h | h <;> rw [h] <;> exact ⟨_, rfl⟩
  rw [getPolygonPaths_eq q w hb hk ch ho hnp, hrr]
  have hcs : ∀ kv ∈ o.children, ∃ oj : Obj P, (exec ops)[kv.2]? = some oj ∧ oj.kind.rank = r + 1 := by
    intro kv hkv
    obtain ⟨oj, h1, _, h3⟩ := w.child i o kv.1 kv.2 ho hkv
    exact ⟨oj, h1, by omega⟩
  refine ⟨o.children.map fun kv => (leafKeys (exec ops) (r + 1) kv.2).map
    fun ks => Str.join PATH_SEP (B.name :: (keys ++ [kv.1]) ++ ks), ?_, ?_⟩
  · rw [List.forall₂_map_right_iff]
    rw [List.forall₂_same]
    intro kv hkv
    obtain ⟨oj, h1, h2⟩ := hcs kv hkv
    have := getPolygonPaths_eq q w hb hk (ch.snoc (k := kv.1) (j := kv.2) ho hkv) h1 (by
      intro e; rw [e] at h2; simp [Kind.rank] at h2)
    rw [h2] at this
    exact this
  · rw [leafKeys, ho]
    simp only [List.flatMap_def]
    congr 1
    rw [List.map_flatten, List.map_map]
    congr 1
    apply List.map_congr_left
    intro kv _
    simp only [Function.comp_apply, List.map_map]
    apply List.map_congr_left
    intro ks _
    simp

example : getPolygonPaths (exec demoOps) 4 = .ok ["b/z/s/w/q".toList] ∧
    getPolygonPaths (exec demoOps) 1 = .ok ["b/z/s/w/q".toList] ∧
    getPolygonPaths (exec demoOps) 5 = .error .assertionError := by decide +kernel

end B3d.Hier
