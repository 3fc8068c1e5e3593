import Verif.Model.Graph
import Verif.Props.Hierarchy

/-!
# Lemmas about the adjacency graphs
-/

set_option linter.unusedSectionVars false

namespace B3d.Hier
variable {P : Type}

/-! ### Dictionaries -/

theorem mem_setDefault {g : GDict} {k0 k : Str} {v : List Str} :
    (k, v) ∈ g.setDefault k0 ↔ (k, v) ∈ g ∨ (k0 ∉ g.map Prod.fst ∧ k = k0 ∧ v = []) := by
  unfold GDict.setDefault
  split
  · next h => simp [h]
  · next h => simp [h]

theorem keys_setDefault {g : GDict} {k0 : Str} (hn : (g.map Prod.fst).Nodup) :
    ((g.setDefault k0).map Prod.fst).Nodup ∧
    ∀ k, k ∈ (g.setDefault k0).map Prod.fst ↔ k ∈ g.map Prod.fst ∨ k = k0 := by
  unfold GDict.setDefault
  split
  · next h =>
    refine ⟨hn, fun k => ⟨Or.inl, ?_⟩⟩
    rintro (hk | rfl)
    · exact hk
    · exact h
  · next h =>
    constructor
    · rw [List.map_append, List.nodup_append]
      refine ⟨hn, by simp, ?_⟩
      intro a ha b hb he
      simp at hb
      subst hb; subst he
      exact h ha
    · intro k; simp

theorem keys_push (g : GDict) (k0 v0 : Str) :
    (g.push k0 v0).map Prod.fst = g.map Prod.fst := by
  unfold GDict.push
  rw [List.map_map]
  apply List.map_congr_left
  intro kv _
  simp only [Function.comp_apply]
  split <;> rfl

theorem mem_push {g : GDict} {k0 v0 k : Str} {v : List Str} :
    (k, v) ∈ g.push k0 v0 ↔ ∃ v', (k, v') ∈ g ∧ v = if k = k0 then v' ++ [v0] else v' := by
  unfold GDict.push
  rw [List.mem_map]
  constructor
  · rintro ⟨⟨k', v'⟩, hm, he⟩
    simp only [] at he
    split at he
    · next h =>
      cases he
      exact ⟨v', hm, by rw [if_pos h]⟩
    · next h =>
      cases he
      exact ⟨v, hm, by rw [if_neg h]⟩
  · rintro ⟨v', hm, rfl⟩
    refine ⟨(k, v'), hm, ?_⟩
    simp only []
    split <;> rfl

theorem glookup_of_mem {l : GDict} (hn : (l.map Prod.fst).Nodup) {k : Str} {v : List Str}
    (hm : (k, v) ∈ l) : l.lookup k = some v := by
  induction l with
  | nil => cases hm
  | cons a l ih =>
    simp only [List.map_cons, List.nodup_cons] at hn
    rw [List.lookup_cons]
    rcases List.mem_cons.1 hm with rfl | hm
    · simp
    · have : k ≠ a.1 := by
        rintro rfl
        exact hn.1 (List.mem_map.2 ⟨_, hm, rfl⟩)
      have hb : (k == a.1) = false := by simp [this]
      rw [hb]
      exact ih hn.2 hm

/-! ### The pair loop -/

section loop
variable (S : List Nat) (name : Nat → Str) (r : Rels) (f : Flags)

/-- The relation recorded by one visit of the ordered pair. -/
def conn (i j : Nat) : Bool := r.bb i j && r.cond f i j

/-- Adjacency established by the visited pairs `L`. -/
def EdgeIn (L : List (Nat × Nat)) (i j : Nat) : Prop :=
  i ≠ j ∧ (((i, j) ∈ L ∧ conn r f i j = true) ∨ ((j, i) ∈ L ∧ conn r f j i = true))

/-- Polygon met in a visited pair of different polygons. -/
def TouchIn (L : List (Nat × Nat)) (i : Nat) : Prop :=
  ∃ j, i ≠ j ∧ ((i, j) ∈ L ∨ (j, i) ∈ L)

structure GInv (st : GState) (L : List (Nat × Nat)) : Prop where
  nodup : (st.g.map Prod.fst).Nodup
  keys : ∀ p, p ∈ st.g.map Prod.fst ↔ ∃ i ∈ S, name i = p ∧ TouchIn L i
  entries : ∀ (k : Str) (v : List Str), (k, v) ∈ st.g → ∀ i ∈ S, name i = k →
    v.Nodup ∧ ∀ q, q ∈ v ↔ ∃ j ∈ S, name j = q ∧ EdgeIn r f L i j
  checked : ∀ i ∈ S, ∀ j ∈ S, (name i, name j) ∈ st.checked ↔ EdgeIn r f L i j

variable {S name r f}

theorem EdgeIn.symm {L : List (Nat × Nat)} {i j : Nat} (h : EdgeIn r f L i j) :
    EdgeIn r f L j i := ⟨h.1.symm, h.2.symm⟩

theorem EdgeIn.touch {L : List (Nat × Nat)} {i j : Nat} (h : EdgeIn r f L i j) :
    TouchIn L i := ⟨j, h.1, h.2.imp And.left And.left⟩

theorem edgeIn_append {L : List (Nat × Nat)} {i j a b : Nat} (hne : i ≠ j) :
    EdgeIn r f (L ++ [(i, j)]) a b ↔ EdgeIn r f L a b ∨
      (conn r f i j = true ∧ ((a = i ∧ b = j) ∨ (a = j ∧ b = i))) := by
  unfold EdgeIn
  simp only [List.mem_append, List.mem_singleton, Prod.mk.injEq]
  constructor
  · rintro ⟨h, (⟨h1 | ⟨rfl, rfl⟩, h2⟩ | ⟨h1 | ⟨rfl, rfl⟩, h2⟩)⟩
    · exact Or.inl ⟨h, Or.inl ⟨h1, h2⟩⟩
    · exact Or.inr ⟨h2, Or.inl ⟨rfl, rfl⟩⟩
    · exact Or.inl ⟨h, Or.inr ⟨h1, h2⟩⟩
    · exact Or.inr ⟨h2, Or.inr ⟨rfl, rfl⟩⟩
  · rintro (⟨h, h1 | h1⟩ | ⟨h2, (⟨rfl, rfl⟩ | ⟨rfl, rfl⟩)⟩)
    · exact ⟨h, Or.inl ⟨Or.inl h1.1, h1.2⟩⟩
    · exact ⟨h, Or.inr ⟨Or.inl h1.1, h1.2⟩⟩
    · exact ⟨hne, Or.inl ⟨Or.inr ⟨rfl, rfl⟩, h2⟩⟩
    · exact ⟨hne.symm, Or.inr ⟨Or.inr ⟨rfl, rfl⟩, h2⟩⟩

theorem touchIn_append {L : List (Nat × Nat)} {i j a : Nat} (hne : i ≠ j) :
    TouchIn (L ++ [(i, j)]) a ↔ TouchIn L a ∨ a = i ∨ a = j := by
  unfold TouchIn
  simp only [List.mem_append, List.mem_singleton, Prod.mk.injEq]
  constructor
  · rintro ⟨b, h, (h1 | ⟨rfl, rfl⟩) | (h1 | ⟨rfl, rfl⟩)⟩
    · exact Or.inl ⟨b, h, Or.inl h1⟩
    · exact Or.inr (Or.inl rfl)
    · exact Or.inl ⟨b, h, Or.inr h1⟩
    · exact Or.inr (Or.inr rfl)
  · rintro (⟨b, h, h1 | h1⟩ | rfl | rfl)
    · exact ⟨b, h, Or.inl (Or.inl h1)⟩
    · exact ⟨b, h, Or.inr (Or.inl h1)⟩
    · exact ⟨j, hne, Or.inl (Or.inr ⟨rfl, rfl⟩)⟩
    · exact ⟨i, hne.symm, Or.inr (Or.inr ⟨rfl, rfl⟩)⟩

theorem edgeIn_append_same {L : List (Nat × Nat)} {i a b : Nat} :
    EdgeIn r f (L ++ [(i, i)]) a b ↔ EdgeIn r f L a b := by
  unfold EdgeIn
  simp only [List.mem_append, List.mem_singleton, Prod.mk.injEq]
  constructor
  · rintro ⟨h, (⟨h1 | ⟨rfl, rfl⟩, h2⟩ | ⟨h1 | ⟨rfl, rfl⟩, h2⟩)⟩
    · exact ⟨h, Or.inl ⟨h1, h2⟩⟩
    · exact absurd rfl h
    · exact ⟨h, Or.inr ⟨h1, h2⟩⟩
    · exact absurd rfl h
  · rintro ⟨h, h1 | h1⟩
    · exact ⟨h, Or.inl ⟨Or.inl h1.1, h1.2⟩⟩
    · exact ⟨h, Or.inr ⟨Or.inl h1.1, h1.2⟩⟩

theorem touchIn_append_same {L : List (Nat × Nat)} {i a : Nat} :
    TouchIn (L ++ [(i, i)]) a ↔ TouchIn L a := by
  unfold TouchIn
  simp only [List.mem_append, List.mem_singleton, Prod.mk.injEq]
  constructor
  · rintro ⟨b, h, (h1 | ⟨rfl, rfl⟩) | (h1 | ⟨rfl, rfl⟩)⟩
    · exact ⟨b, h, Or.inl h1⟩
    · exact absurd rfl h
    · exact ⟨b, h, Or.inr h1⟩
    · exact absurd rfl h
  · rintro ⟨b, h, h1 | h1⟩
    · exact ⟨b, h, Or.inl (Or.inl h1)⟩
    · exact ⟨b, h, Or.inr (Or.inl h1)⟩

theorem GInv.congr {st : GState} {L L' : List (Nat × Nat)} (I : GInv S name r f st L)
    (he : ∀ a b, EdgeIn r f L' a b ↔ EdgeIn r f L a b) (ht : ∀ a, TouchIn L' a ↔ TouchIn L a) :
    GInv S name r f st L' := by
  refine ⟨I.nodup, ?_, ?_, ?_⟩
  · intro p; rw [I.keys p]; simp only [ht]
  · intro k v hm i hi hk
    obtain ⟨h1, h2⟩ := I.entries k v hm i hi hk
    exact ⟨h1, fun q => by rw [h2 q]; simp only [he]⟩
  · intro i hi j hj; rw [he]; exact I.checked i hi j hj

/-- The state after the keys of the pair have been created. -/
theorem GInv.withKeys {st : GState} {L : List (Nat × Nat)} (I : GInv S name r f st L) {i j : Nat} (hi : i ∈ S) (hj : j ∈ S) :
    let g := (st.g.setDefault (name i)).setDefault (name j)
    (g.map Prod.fst).Nodup ∧
    (∀ p, p ∈ g.map Prod.fst ↔ ∃ a ∈ S, name a = p ∧ (TouchIn L a ∨ a = i ∨ a = j)) ∧
    (∀ (k : Str) (v : List Str), (k, v) ∈ g → ∀ a ∈ S, name a = k →
      v.Nodup ∧ ∀ q, q ∈ v ↔ ∃ b ∈ S, name b = q ∧ EdgeIn r f L a b) := by
  intro g
  obtain ⟨n1, k1⟩ := keys_setDefault (k0 := name i) I.nodup
  obtain ⟨n2, k2⟩ := keys_setDefault (k0 := name j) n1
  refine ⟨n2, ?_, ?_⟩
  · intro p
    rw [k2, k1, I.keys]
    constructor
    · rintro ((⟨a, ha, h1, h2⟩ | rfl) | rfl)
      · exact ⟨a, ha, h1, Or.inl h2⟩
      · exact ⟨i, hi, rfl, Or.inr (Or.inl rfl)⟩
      · exact ⟨j, hj, rfl, Or.inr (Or.inr rfl)⟩
    · rintro ⟨a, ha, rfl, h | rfl | rfl⟩
      · exact Or.inl (Or.inl ⟨a, ha, rfl, h⟩)
      · exact Or.inl (Or.inr rfl)
      · exact Or.inr rfl
  · have fresh : ∀ a ∈ S, name a ∉ st.g.map Prod.fst →
        ([] : List Str).Nodup ∧ ∀ q, q ∈ ([] : List Str) ↔ ∃ b ∈ S, name b = q ∧ EdgeIn r f L a b := by
      intro a ha hna
      refine ⟨List.nodup_nil, fun q => ⟨by simp, ?_⟩⟩
      rintro ⟨b, hb, rfl, he⟩
      exact absurd ((I.keys _).2 ⟨a, ha, rfl, he.touch⟩) hna
    intro k v hm a ha hk
    rcases mem_setDefault.1 hm with hm | ⟨hn, rfl, rfl⟩
    · rcases mem_setDefault.1 hm with hm | ⟨hn, rfl, rfl⟩
      · exact I.entries k v hm a ha hk
      · rw [← hk] at hn; exact fresh a ha hn
    · rw [← hk] at hn
      exact fresh a ha (fun h => hn ((k1 _).2 (Or.inl h)))

theorem GInv.step {st : GState} {L : List (Nat × Nat)} (I : GInv S name r f st L)
    (hinj : ∀ i ∈ S, ∀ j ∈ S, name i = name j → i = j) {i j : Nat} (hi : i ∈ S) (hj : j ∈ S) :
    GInv S name r f (graphStep name r f st (i, j)) (L ++ [(i, j)]) := by
  unfold graphStep
  simp only []
  by_cases hij : i = j
  · subst hij
    rw [if_pos rfl]
    exact I.congr (fun a b => edgeIn_append_same) (fun a => touchIn_append_same)
  rw [if_neg hij]
  by_cases hc : (name i, name j) ∈ st.checked
  · rw [if_pos hc]
    have he := (I.checked i hi j hj).1 hc
    refine I.congr (fun a b => ?_) (fun a => ?_)
    · rw [edgeIn_append hij]
      constructor
      · rintro (h | ⟨_, ⟨rfl, rfl⟩ | ⟨rfl, rfl⟩⟩)
        · exact h
        · exact he
        · exact he.symm
      · exact Or.inl
    · rw [touchIn_append hij]
      constructor
      · rintro (h | rfl | rfl)
        · exact h
        · exact he.touch
        · exact he.symm.touch
      · exact Or.inl
  rw [if_neg hc]
  obtain ⟨n, hk, hen⟩ := I.withKeys hi hj
  have noconn : conn r f i j = false →
      GInv S name r f { st with g := (st.g.setDefault (name i)).setDefault (name j) }
        (L ++ [(i, j)]) := by
    intro hcn
    have hE : ∀ a b, EdgeIn r f (L ++ [(i, j)]) a b ↔ EdgeIn r f L a b := by
      intro a b
      rw [edgeIn_append hij, hcn]; simp
    refine ⟨n, ?_, ?_, ?_⟩
    · intro p; rw [hk p]; simp only [touchIn_append hij]
    · intro k v hm a ha hka
      obtain ⟨h1, h2⟩ := hen k v hm a ha hka
      exact ⟨h1, fun q => by rw [h2 q]; simp only [hE]⟩
    · intro a ha b hb; rw [hE]; exact I.checked a ha b hb
  by_cases hbb : r.bb i j = false
  · rw [if_pos hbb]
    exact noconn (by simp [conn, hbb])
  rw [if_neg hbb]
  have hbb' : r.bb i j = true := by simpa using hbb
  by_cases hcd : r.cond f i j = true
  swap
  · rw [if_neg hcd]
    exact noconn (by simp [conn, hcd])
  rw [if_pos hcd]
  have hcn : conn r f i j = true := by simp [conn, hbb', hcd]
  have hE : ∀ a b, EdgeIn r f (L ++ [(i, j)]) a b ↔ EdgeIn r f L a b ∨
      ((a = i ∧ b = j) ∨ (a = j ∧ b = i)) := by
    intro a b; rw [edgeIn_append hij, hcn]; simp
  have hnE : ¬ EdgeIn r f L i j := fun h => hc ((I.checked i hi j hj).2 h)
  refine ⟨?_, ?_, ?_, ?_⟩
  · rw [keys_push, keys_push]; exact n
  · intro p
    show p ∈ List.map Prod.fst (GDict.push _ _ _) ↔ _
    rw [keys_push, keys_push, hk p]; simp only [touchIn_append hij]
  · intro k v hm a ha hka
    obtain ⟨v2, hm2, hv2⟩ := mem_push.1 hm
    obtain ⟨v1, hm1, hv1⟩ := mem_push.1 hm2
    rw [hv2, hv1]
    obtain ⟨h1, h2⟩ := hen k v1 hm1 a ha hka
    subst hka
    by_cases hai : a = i
    · subst hai
      have hne' : name a ≠ name j := fun e => hij (hinj a hi j hj e)
      rw [if_neg hne', if_pos rfl]
      constructor
      · rw [List.nodup_append]
        refine ⟨h1, by simp, ?_⟩
        intro x hx y hy hxy
        simp at hy
        subst hy; subst hxy
        obtain ⟨b, hb, hbn, hbe⟩ := (h2 _).1 hx
        have := hinj b hb j hj hbn
        subst this
        exact hnE hbe
      · intro q
        rw [List.mem_append, h2 q, List.mem_singleton]
        constructor
        · rintro (⟨b, hb, hbq, hbe⟩ | rfl)
          · exact ⟨b, hb, hbq, (hE a b).2 (Or.inl hbe)⟩
          · exact ⟨j, hj, rfl, (hE a j).2 (Or.inr (Or.inl ⟨rfl, rfl⟩))⟩
        · rintro ⟨b, hb, rfl, hbe⟩
          rcases (hE a b).1 hbe with h | ⟨_, rfl⟩ | ⟨rfl, rfl⟩
          · exact Or.inl ⟨b, hb, rfl, h⟩
          · exact Or.inr rfl
          · exact absurd rfl hij
    · by_cases haj : a = j
      · subst haj
        have hne' : name a ≠ name i := fun e => hij (hinj a ha i hi e).symm
        rw [if_pos rfl, if_neg hne']
        constructor
        · rw [List.nodup_append]
          refine ⟨h1, by simp, ?_⟩
          intro x hx y hy hxy
          simp at hy
          subst hy; subst hxy
          obtain ⟨b, hb, hbn, hbe⟩ := (h2 _).1 hx
          have := hinj b hb i hi hbn
          subst this
          exact hnE hbe.symm
        · intro q
          rw [List.mem_append, h2 q, List.mem_singleton]
          constructor
          · rintro (⟨b, hb, hbq, hbe⟩ | rfl)
            · exact ⟨b, hb, hbq, (hE a b).2 (Or.inl hbe)⟩
            · exact ⟨i, hi, rfl, (hE a i).2 (Or.inr (Or.inr ⟨rfl, rfl⟩))⟩
          · rintro ⟨b, hb, rfl, hbe⟩
            rcases (hE a b).1 hbe with h | ⟨rfl, rfl⟩ | ⟨_, rfl⟩
            · exact Or.inl ⟨b, hb, rfl, h⟩
            · exact absurd rfl hai
            · exact Or.inr rfl
      · have hne1 : name a ≠ name i := fun e => hai (hinj a ha i hi e)
        have hne2 : name a ≠ name j := fun e => haj (hinj a ha j hj e)
        rw [if_neg hne2, if_neg hne1]
        refine ⟨h1, fun q => ?_⟩
        rw [h2 q]
        constructor
        · rintro ⟨b, hb, hbq, hbe⟩
          exact ⟨b, hb, hbq, (hE a b).2 (Or.inl hbe)⟩
        · rintro ⟨b, hb, hbq, hbe⟩
          rcases (hE a b).1 hbe with h | ⟨rfl, rfl⟩ | ⟨rfl, rfl⟩
          · exact ⟨b, hb, hbq, h⟩
          · exact absurd rfl hai
          · exact absurd rfl haj
  · intro a ha b hb
    rw [hE]
    simp only [List.mem_cons, Prod.mk.injEq]
    rw [I.checked a ha b hb]
    constructor
    · rintro (⟨h1, h2⟩ | ⟨h1, h2⟩ | h)
      · exact Or.inr (Or.inr ⟨hinj a ha j hj h1, hinj b hb i hi h2⟩)
      · exact Or.inr (Or.inl ⟨hinj a ha i hi h1, hinj b hb j hj h2⟩)
      · exact Or.inl h
    · rintro (h | ⟨rfl, rfl⟩ | ⟨rfl, rfl⟩)
      · exact Or.inr (Or.inr h)
      · exact Or.inr (Or.inl ⟨rfl, rfl⟩)
      · exact Or.inl ⟨rfl, rfl⟩

theorem GInv.foldl (hinj : ∀ i ∈ S, ∀ j ∈ S, name i = name j → i = j) :
    ∀ (M : List (Nat × Nat)) (st : GState) (L : List (Nat × Nat)),
      (∀ ij ∈ M, ij.1 ∈ S ∧ ij.2 ∈ S) → GInv S name r f st L →
      GInv S name r f (M.foldl (graphStep name r f) st) (L ++ M) := by
  intro M
  induction M with
  | nil => intro st L _ I; simpa using I
  | cons ij M ih =>
    intro st L hM I
    have h := hM ij (by simp)
    have := ih (graphStep name r f st ij) (L ++ [ij]) (fun x hx => hM x (by simp [hx]))
      (I.step hinj h.1 h.2)
    rw [List.append_assoc] at this
    exact this

theorem GInv.nil : GInv S name r f ⟨[], []⟩ [] := by
  refine ⟨List.nodup_nil, ?_, ?_, ?_⟩
  · intro p
    simp [TouchIn]
  · intro k v hm; cases hm
  · intro i _ j _; simp [EdgeIn]

end loop

/-! ### Leaves -/

theorem leafIds_eq {h : Heap P} (w : WF h) : ∀ (d i : Nat),
    leafIds h d i = (leafKeys h d i).filterMap fun ks => (items h i ks).toOption := by
  intro d
  induction d with
  | zero => intro i; rfl
  | succ d ih =>
    intro i
    unfold leafIds leafKeys
    cases hi : h[i]? with
    | none => rfl
    | some o =>
      simp only []
      rw [List.filterMap_flatMap]
      rw [List.flatMap_def, List.flatMap_def]
      congr 1
      apply List.map_congr_left
      intro kv hkv
      rw [ih, List.filterMap_map]
      congr 1
      funext ks
      simp only [Function.comp_apply]
      rw [items, item_of_mem w hi hkv]

/-- Facts about a reachable building used throughout. -/
structure BCtx (h : Heap P) (b : Nat) (B : Obj P) : Prop where
  w : WF h
  q : ParentOK h
  hb : h[b]? = some B
  hk : B.kind = .building

theorem BCtx.root {h : Heap P} {b : Nat} {B : Obj P} (c : BCtx h b B) : B.parent = none :=
  root_of_building c.w c.hb c.hk

theorem BCtx.of_ops {ops : List (Op P)} (hl : LinearFrom [] ops) {b : Nat} {B : Obj P}
    (hb : (exec ops)[b]? = some B) (hk : B.kind = .building) : BCtx (exec ops) b B :=
  ⟨WF.exec ops, ParentOK.foldl ops WF.nil ParentOK.nil hl, hb, hk⟩

theorem BCtx.len {h : Heap P} {b : Nat} {B : Obj P} (c : BCtx h b B) {keys : List Str} {i : Nat}
    (ch : Chain h b keys i) : ∃ o : Obj P, h[i]? = some o ∧ o.kind.rank + keys.length = 4 := by
  obtain ⟨o, ho, hr⟩ := ch.rank c.w c.hb
  rw [c.hk] at hr
  exact ⟨o, ho, hr⟩

theorem BCtx.path {h : Heap P} {b : Nat} {B : Obj P} (c : BCtx h b B) {keys : List Str} {i : Nat}
    (ch : Chain h b keys i) : path h i = Str.join PATH_SEP (B.name :: keys) := by
  obtain ⟨o, ho, hr⟩ := c.len ch
  exact ch.path c.w c.q c.hb c.root 5 (by omega)

theorem BCtx.sep {h : Heap P} {b : Nat} {B : Obj P} (c : BCtx h b B) {keys : List Str} {i : Nat}
    (ch : Chain h b keys i) : ∀ k ∈ B.name :: keys, PATH_SEP ∉ k := by
  intro k hk
  rcases List.mem_cons.1 hk with rfl | hk
  · exact c.w.name b B c.hb
  · exact ch.no_sep c.w k hk

theorem BCtx.keys_inj {h : Heap P} {b : Nat} {B : Obj P} (c : BCtx h b B) {k1 k2 : List Str}
    {i j : Nat} (c1 : Chain h b k1 i) (c2 : Chain h b k2 j) (he : Hier.path h i = Hier.path h j) :
    k1 = k2 := by
  rw [c.path c1, c.path c2] at he
  have := Str.join_injective PATH_SEP _ _ (by simp) (by simp) (c.sep c1) (c.sep c2) he
  simpa using this

theorem BCtx.path_inj {h : Heap P} {b : Nat} {B : Obj P} (c : BCtx h b B) {i j : Nat}
    (hi : Within h b i) (hj : Within h b j) (he : Hier.path h i = Hier.path h j) : i = j := by
  obtain ⟨k1, c1⟩ := hi.chain
  obtain ⟨k2, c2⟩ := hj.chain
  have := c.keys_inj c1 c2 he
  subst this
  have h1 := c1.items c.w
  rw [c2.items c.w] at h1
  cases h1; rfl

theorem chain_iff {h : Heap P} (w : WF h) {c i : Nat} {keys : List Str} :
    Chain h c keys i ↔ items h c keys = .ok i :=
  ⟨fun ch => ch.items w, fun hi => by simpa using chain_of_items keys [] c i .nil hi⟩

theorem BCtx.mem_leafIds {h : Heap P} {b : Nat} {B : Obj P} (c : BCtx h b B) (d i : Nat) :
    i ∈ leafIds h d b ↔ Within h b i ∧ ∃ o : Obj P, h[i]? = some o ∧ o.kind.rank + d = 4 := by
  rw [leafIds_eq c.w, List.mem_filterMap]
  constructor
  · rintro ⟨ks, hks, hi⟩
    obtain ⟨hl, j, hj⟩ := (mem_leafKeys c.w d b ks).1 hks
    rw [hj] at hi
    cases hi
    have ch := (chain_iff c.w).2 hj
    obtain ⟨o, ho, hr⟩ := c.len ch
    exact ⟨ch.within, o, ho, by omega⟩
  · rintro ⟨hw, o, ho, hr⟩
    obtain ⟨keys, ch⟩ := hw.chain
    obtain ⟨o', ho', hr'⟩ := c.len ch
    rw [ho] at ho'; cases ho'
    have hit := ch.items c.w
    refine ⟨keys, (mem_leafKeys c.w d b keys).2 ⟨by omega, i, hit⟩, by rw [hit]; rfl⟩

theorem BCtx.leafIds_nodup {h : Heap P} {b : Nat} {B : Obj P} (c : BCtx h b B) (d : Nat) :
    (leafIds h d b).Nodup := by
  rw [leafIds_eq c.w]
  apply List.Nodup.filterMap _ (leafKeys_nodup c.w d b)
  intro k1 k2 i h1 h2
  have get : ∀ ks, i ∈ (items h b ks).toOption → items h b ks = .ok i := by
    intro ks hks
    cases hit : items h b ks with
    | error e => rw [hit] at hks; cases hks
    | ok j => rw [hit] at hks; cases hks; rfl
  exact c.keys_inj ((chain_iff c.w).2 (get _ h1)) ((chain_iff c.w).2 (get _ h2)) rfl

/-! ### Removing path components -/

theorem removeLast_join : ∀ (n : Nat) (a : Str) (keys : List Str),
    (∀ k ∈ a :: keys, PATH_SEP ∉ k) → n ≤ keys.length →
    removeLast (Str.join PATH_SEP (a :: keys)) n =
      Str.join PATH_SEP (a :: keys.take (keys.length - n)) := by
  intro n
  induction n with
  | zero => intro a keys _ _; simp [removeLast]
  | succ n ih =>
    intro a keys hs hn
    rw [removeLast, Str.split_join _ _ (by simp) hs]
    have hne : keys ≠ [] := by rintro rfl; simp at hn
    rw [List.dropLast_cons_of_ne_nil hne, ih a keys.dropLast ?_ ?_]
    · congr 2
      rw [List.length_dropLast, List.dropLast_eq_take, List.take_take]
      congr 1
      omega
    · intro k hk
      apply hs
      rcases List.mem_cons.1 hk with rfl | hk
      · simp
      · exact List.mem_cons_of_mem _ (List.dropLast_subset _ hk)
    · rw [List.length_dropLast]; omega

theorem Chain.append {h : Heap P} {a m i : Nat} {k1 k2 : List Str} (c1 : Chain h a k1 m)
    (c2 : Chain h m k2 i) : Chain h a (k1 ++ k2) i := by
  induction c2 with
  | nil => simpa using c1
  | snoc _ hi hk ih => rw [← List.append_assoc]; exact ih.snoc hi hk

theorem Within.trans {h : Heap P} {a m i : Nat} (h1 : Within h a m) (h2 : Within h m i) :
    Within h a i := by
  obtain ⟨_, c1⟩ := h1.chain
  obtain ⟨_, c2⟩ := h2.chain
  exact (c1.append c2).within

/-- A polygon of the building has an ancestor on every level. -/
theorem BCtx.ancestor {h : Heap P} {b : Nat} {B : Obj P} (c : BCtx h b B) {p : Nat}
    {op : Obj P} (hp : Within h b p) (hop : h[p]? = some op) (hkp : op.kind = .polygon) (n : Nat)
    (hn : n ≤ 4) : ∃ (A : Nat) (oA : Obj P), Within h b A ∧ h[A]? = some oA ∧ oA.kind.rank = n ∧
      Within h A p := by
  obtain ⟨keys, ch⟩ := hp.chain
  obtain ⟨o, ho, hr⟩ := c.len ch
  rw [hop] at ho; cases ho
  rw [hkp] at hr
  simp only [Kind.rank, Nat.zero_add] at hr
  have hit := ch.items c.w
  have hsplit : items h b (keys.take (4 - n) ++ keys.drop (4 - n)) = .ok p := by
    rw [List.take_append_drop]; exact hit
  rw [items_append] at hsplit
  cases h1 : items h b (keys.take (4 - n)) with
  | error e => rw [h1] at hsplit; cases hsplit
  | ok A =>
    rw [h1] at hsplit
    have cA := (chain_iff c.w).2 h1
    have cp := (chain_iff c.w).2 (show items h A (keys.drop (4 - n)) = .ok p from hsplit)
    obtain ⟨oA, hoA, hrA⟩ := c.len cA
    rw [List.length_take] at hrA
    exact ⟨A, oA, cA.within, hoA, by omega, cp.within⟩

theorem BCtx.removeLast_path {h : Heap P} {b : Nat} {B : Obj P} (c : BCtx h b B) {p A n : Nat}
    {op oA : Obj P} (hop : h[p]? = some op) (hkp : op.kind = .polygon)
    (hA : Within h b A) (hoA : h[A]? = some oA) (hrA : oA.kind.rank = n) (hAp : Within h A p) :
    removeLast (Hier.path h p) n = Hier.path h A := by
  obtain ⟨k1, c1⟩ := hA.chain
  obtain ⟨k2, c2⟩ := hAp.chain
  have c3 := c1.append c2
  obtain ⟨o1, ho1, hr1⟩ := c.len c1
  rw [hoA] at ho1; cases ho1
  obtain ⟨o3, ho3, hr3⟩ := c.len c3
  rw [hop] at ho3; cases ho3
  rw [hkp] at hr3
  simp only [Kind.rank, Nat.zero_add, List.length_append] at hr3
  rw [c.path c1, c.path c3, removeLast_join _ _ _ (c.sep c3) (by rw [List.length_append]; omega)]
  congr 2
  rw [List.length_append, show k1.length + k2.length - n = k1.length by omega]
  simp

theorem BCtx.within_iff {h : Heap P} {b : Nat} {B : Obj P} (c : BCtx h b B) {p A n : Nat}
    {op oA : Obj P} (hp : Within h b p) (hop : h[p]? = some op) (hkp : op.kind = .polygon)
    (hA : Within h b A) (hoA : h[A]? = some oA) (hrA : oA.kind.rank = n) :
    removeLast (Hier.path h p) n = Hier.path h A ↔ Within h A p := by
  constructor
  · intro he
    have hn : n ≤ 4 := by
      obtain ⟨k, ck⟩ := hA.chain
      obtain ⟨o, ho, hr⟩ := c.len ck
      rw [hoA] at ho; cases ho
      omega
    obtain ⟨A', oA', hA', hoA', hrA', hA'p⟩ := c.ancestor hp hop hkp n hn
    have := c.removeLast_path hop hkp hA' hoA' hrA' hA'p
    rw [he] at this
    rw [c.path_inj hA hA' this]
    exact hA'p
  · exact c.removeLast_path hop hkp hA hoA hrA

/-! ### Stripping a graph -/

structure SInv (n : Nat) (gnew : GDict) (done : GDict) : Prop where
  nodup : (gnew.map Prod.fst).Nodup
  keys : ∀ K, K ∈ gnew.map Prod.fst ↔ ∃ kv ∈ done, removeLast kv.1 n = K
  entries : ∀ (K : Str) (V : List Str), (K, V) ∈ gnew → ∀ x, x ∈ V ↔ x ≠ K ∧
    ∃ kv ∈ done, removeLast kv.1 n = K ∧ ∃ y ∈ kv.2, removeLast y n = x

theorem SInv.step {n : Nat} {gnew done : GDict} (I : SInv n gnew done) (kv : Str × List Str) :
    SInv n (stripStep n gnew kv) (done ++ [kv]) := by
  unfold stripStep
  simp only []
  have hv : ∀ x, x ∈ (kv.2.map fun x => removeLast x n).filter (· ≠ removeLast kv.1 n) ↔
      x ≠ removeLast kv.1 n ∧ ∃ y ∈ kv.2, removeLast y n = x := by
    intro x
    rw [List.mem_filter, List.mem_map]
    simp only [decide_eq_true_eq]
    tauto
  by_cases hk : removeLast kv.1 n ∈ gnew.map Prod.fst
  · rw [if_pos hk]
    have hkeys : (gnew.map fun e => if e.1 = removeLast kv.1 n then
        (e.1, e.2 ++ (kv.2.map fun x => removeLast x n).filter (· ≠ removeLast kv.1 n))
        else e).map Prod.fst = gnew.map Prod.fst := by
      rw [List.map_map]
      apply List.map_congr_left
      intro e _
      simp only [Function.comp_apply]
      split <;> rfl
    refine ⟨by rw [hkeys]; exact I.nodup, ?_, ?_⟩
    · intro K
      rw [hkeys, I.keys]
      constructor
      · rintro ⟨e, he, rfl⟩; exact ⟨e, by simp [he], rfl⟩
      · rintro ⟨e, he, rfl⟩
        rcases List.mem_append.1 he with he | he
        · exact ⟨e, he, rfl⟩
        · rw [List.mem_singleton] at he
          subst he
          exact (I.keys _).1 hk
    · intro K V hm x
      obtain ⟨⟨K', V'⟩, hm', he⟩ := List.mem_map.1 hm
      simp only [] at he
      have hI := I.entries K' V' hm'
      split at he
      · next hK =>
        cases he
        rw [List.mem_append, hI, hv]
        constructor
        · rintro (⟨h1, e, he, h2, h3⟩ | ⟨h1, h2⟩)
          · exact ⟨h1, e, by simp [he], h2, h3⟩
          · exact ⟨by rw [hK]; exact h1, kv, by simp, hK.symm, h2⟩
        · rintro ⟨h1, e, he, h2, h3⟩
          rcases List.mem_append.1 he with he | he
          · exact Or.inl ⟨h1, e, he, h2, h3⟩
          · rw [List.mem_singleton] at he
            subst he
            exact Or.inr ⟨by rw [h2]; exact h1, h3⟩
      · next hK =>
        cases he
        rw [hI]
        constructor
        · rintro ⟨h1, e, he, h2, h3⟩; exact ⟨h1, e, by simp [he], h2, h3⟩
        · rintro ⟨h1, e, he, h2, h3⟩
          rcases List.mem_append.1 he with he | he
          · exact ⟨h1, e, he, h2, h3⟩
          · rw [List.mem_singleton] at he
            subst he
            exact absurd h2.symm hK
  · rw [if_neg hk]
    refine ⟨?_, ?_, ?_⟩
    · rw [List.map_append, List.nodup_append]
      refine ⟨I.nodup, by simp, ?_⟩
      intro a ha b' hb he
      simp at hb
      subst hb; subst he
      exact hk ha
    · intro K
      rw [List.map_append, List.mem_append, I.keys]
      constructor
      · rintro (⟨e, he, rfl⟩ | h)
        · exact ⟨e, by simp [he], rfl⟩
        · simp at h; subst h; exact ⟨kv, by simp, rfl⟩
      · rintro ⟨e, he, rfl⟩
        rcases List.mem_append.1 he with he | he
        · exact Or.inl ⟨e, he, rfl⟩
        · rw [List.mem_singleton] at he; subst he; right; simp
    · intro K V hm x
      rcases List.mem_append.1 hm with hm' | hm'
      · rw [I.entries K V hm']
        constructor
        · rintro ⟨h1, e, he, h2, h3⟩; exact ⟨h1, e, by simp [he], h2, h3⟩
        · rintro ⟨h1, e, he, h2, h3⟩
          rcases List.mem_append.1 he with he | he
          · exact ⟨h1, e, he, h2, h3⟩
          · rw [List.mem_singleton] at he
            subst he
            exact absurd (h2 ▸ List.mem_map_of_mem (f := Prod.fst) hm') hk
      · rw [List.mem_singleton] at hm'
        cases hm'
        rw [hv]
        constructor
        · rintro ⟨h1, h2⟩; exact ⟨h1, kv, by simp, rfl, h2⟩
        · rintro ⟨h1, e, he, h2, h3⟩
          rcases List.mem_append.1 he with he | he
          · exact absurd ((I.keys _).2 ⟨e, he, h2⟩) hk
          · rw [List.mem_singleton] at he
            subst he
            exact ⟨h1, h3⟩

theorem SInv.foldl {n : Nat} : ∀ (M gnew done : GDict), SInv n gnew done →
    SInv n (M.foldl (stripStep n) gnew) (done ++ M) := by
  intro M
  induction M with
  | nil => intro g d I; simpa using I
  | cons kv M ih =>
    intro g d I
    have := ih _ _ (I.step kv)
    rw [List.append_assoc] at this
    exact this

theorem SInv.strip (n : Nat) (g : GDict) : SInv n (g.foldl (stripStep n) []) g := by
  have := SInv.foldl g [] [] (n := n) ⟨List.nodup_nil, by simp, by simp⟩
  simpa using this

end B3d.Hier
