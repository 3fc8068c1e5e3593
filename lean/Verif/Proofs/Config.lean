import Verif.Spec.Config
import Verif.Props.Hierarchy

/-! # Proofs about surface parameters -/

namespace B3d.Config

open Hier

variable {P V : Type}

theorem dGet_eq {α : Type} (d : Dict α) (k : Str) :
    dGet d k = (d.find? fun e => e.1 = k).map Prod.snd := rfl

theorem dGet_cons {α : Type} (d : Dict α) (k k' : Str) (v : α) :
    dGet ((k, v) :: d) k' = if k = k' then some v else dGet d k' := by
  unfold dGet
  rw [List.find?_cons]
  by_cases h : k = k' <;> simp [h]

theorem dGet_dSet {α : Type} (d : Dict α) (k k' : Str) (v : α) :
    dGet (dSet d k v) k' = if k' = k then some v else dGet d k' := by
  induction d with
  | nil =>
    rw [dSet, dGet_cons]
    by_cases h : k' = k
    · rw [if_pos h, if_pos h.symm]
    · rw [if_neg h, if_neg (fun e => h e.symm)]
  | cons e d ih =>
    obtain ⟨k1, v1⟩ := e
    rw [dSet, dGet_cons]
    by_cases h : k = k1
    · subst h
      rw [if_pos rfl, dGet_cons]
      by_cases h : k' = k
      · rw [if_pos h, if_pos h.symm]
      · rw [if_neg h, if_neg (fun e => h e.symm), if_neg (fun e => h e.symm)]
    · rw [if_neg h, dGet_cons, ih]
      by_cases h1 : k1 = k'
      · rw [if_pos h1, if_pos h1, if_neg (fun e => h (h1.trans e).symm)]
      · rw [if_neg h1, if_neg h1]

theorem value_eq (s : Surfaces V) (param path : Str) :
    value s param path = (dGet s param).bind fun d => dGet d path := by
  unfold value
  rw [dGet_eq]
  cases s.find? (fun e => e.1 = param) with
  | none => rfl
  | some e => simp [dGet_eq]

theorem known_iff (s : Surfaces V) (param : Str) : Known s param ↔ ∃ d, dGet s param = some d := by
  rw [dGet_eq]
  unfold Known
  constructor
  · rintro ⟨e, he, rfl⟩
    cases hf : s.find? (fun e' => e'.1 = e.1) with
    | none =>
      have := List.find?_eq_none.1 hf e he
      simp at this
    | some e' => exact ⟨e'.2, by simp⟩
  · rintro ⟨d, hd⟩
    cases hf : s.find? (fun e' => e'.1 = param) with
    | none => rw [hf] at hd; cases hd
    | some e' =>
      have := List.find?_some hf
      exact ⟨e', List.mem_of_find?_eq_some hf, by simpa using this⟩

theorem assign_spec {s : Surfaces V} {param : Str} (hk : Known s param) (path : Str) (v : V) :
    ∃ s', assign s param path v = .ok s' ∧ (∀ p, Known s' p ↔ Known s p) ∧
      ∀ p q, value s' p q = if p = param ∧ q = path then some v else value s p q := by
  obtain ⟨d, hd⟩ := (known_iff s param).1 hk
  refine ⟨dSet s param (dSet d path v), by rw [assign, hd], ?_, ?_⟩
  · intro p
    rw [known_iff, known_iff, dGet_dSet]
    by_cases h : p = param
    · subst h; simp [hd]
    · rw [if_neg h]
  · intro p q
    rw [value_eq, value_eq, dGet_dSet]
    by_cases h : p = param
    · subst h
      rw [if_pos rfl, hd]
      simp only [Option.bind_some, dGet_dSet, true_and]
    · rw [if_neg h, if_neg (fun hh => h hh.1)]

theorem assign_unknown {s : Surfaces V} {param : Str} (hk : ¬ Known s param) (path : Str) (v : V) :
    assign s param path v = .error .keyError := by
  unfold assign
  cases hd : dGet s param with
  | none => rfl
  | some d => exact absurd ((known_iff s param).2 ⟨d, hd⟩) hk

theorem assignAll_spec (param : Str) (v : V) : ∀ (paths : List Str) (s : Surfaces V), Known s param →
    ∃ s', assignAll s param v paths = (s', .ok ()) ∧ (∀ p, Known s' p ↔ Known s p) ∧
      ∀ p q, value s' p q = if p = param ∧ q ∈ paths then some v else value s p q := by
  intro paths
  induction paths with
  | nil => intro s _; exact ⟨s, rfl, fun _ => Iff.rfl, fun p q => by simp⟩
  | cons a paths ih =>
    intro s hk
    obtain ⟨s1, h1, h2, h3⟩ := assign_spec hk a v
    obtain ⟨s2, g1, g2, g3⟩ := ih s1 ((h2 param).2 hk)
    refine ⟨s2, by rw [assignAll, h1]; exact g1, fun p => (g2 p).trans (h2 p), ?_⟩
    intro p q
    rw [g3, h3]
    by_cases hp : p = param
    · subst hp
      by_cases hq : q ∈ paths
      · simp [hq]
      · by_cases hqa : q = a <;> simp [hq, hqa]
    · simp [hp]

theorem assignAll_unknown (param : Str) (v : V) (paths : List Str) (s : Surfaces V)
    (hk : ¬ Known s param) :
    assignAll s param v paths = if paths = [] then (s, .ok ()) else (s, .error .keyError) := by
  cases paths with
  | nil => rfl
  | cons a paths => rw [assignAll, assign_unknown hk]; rfl

theorem Below.polygon {h : Heap P} {i j : Nat} (hb : Below h i j) :
    ∃ o : Obj P, h[j]? = some o ∧ o.kind = .polygon := by
  induction hb with
  | self i o ho hp => exact ⟨o, ho, hp⟩
  | child _ _ _ _ _ _ _ _ ih => exact ih

theorem Chain.trans {h : Heap P} {a b c : Nat} {k1 k2 : List Str} (h1 : Chain h a k1 b)
    (h2 : Chain h b k2 c) : Chain h a (k1 ++ k2) c := by
  induction h2 with
  | nil => simpa using h1
  | snoc _ hi hk ih => rw [← List.append_assoc]; exact ih.snoc hi hk

theorem below_iff {h : Heap P} {i j : Nat} :
    Below h i j ↔ Within h i j ∧ ∃ o : Obj P, h[j]? = some o ∧ o.kind = .polygon := by
  constructor
  · intro hb
    refine ⟨?_, hb.polygon⟩
    induction hb with
    | self => exact .self
    | child i j k name o ho hm _ ih =>
      obtain ⟨keys, ch⟩ := ih.chain
      exact (Chain.trans (Chain.nil.snoc ho hm) ch).within
  · rintro ⟨hw, o, ho, hp⟩
    have key : ∀ k, Below h j k → Below h i k := by
      clear ho hp
      induction hw with
      | self => exact fun k hk => hk
      | child _ hi hk ih => exact fun k hb => ih k (.child _ _ _ _ _ hi hk hb)
    exact key j (.self j o ho hp)

/-- Paths listed below an object of the building. -/
theorem mem_polygonPaths {h : Heap P} (q : ParentOK h) (w : WF h) {b : Nat} {B : Obj P}
    (hb : h[b]? = some B) (hB : B.kind = .building) {i : Nat} {o : Obj P} (hw : Within h b i)
    (ho : h[i]? = some o) (hk : o.kind ≠ .polygon) :
    ∃ l, getPolygonPaths h i = .ok l ∧
      ∀ s, s ∈ l ↔ ∃ j, Below h i j ∧ Hier.path h j = s := by
  obtain ⟨keys, ch⟩ := hw.chain
  have hroot := root_of_building w hb hB
  refine ⟨_, getPolygonPaths_eq q w hb hB ch ho hk, ?_⟩
  intro s
  obtain ⟨o', ho', hr⟩ := ch.rank w hb
  rw [ho] at ho'; cases ho'
  have hB4 : B.kind.rank = 4 := by rw [hB]; rfl
  rw [List.mem_map]
  constructor
  · rintro ⟨ks, hks, rfl⟩
    obtain ⟨hlen, j, hj⟩ := (mem_leafKeys w _ i ks).1 hks
    have chj : Chain h i ([] ++ ks) j := chain_of_items ks [] i j .nil hj
    rw [List.nil_append] at chj
    obtain ⟨oj, hoj, hrj⟩ := chj.rank w ho
    have full := Chain.trans ch chj
    refine ⟨j, below_iff.2 ⟨chj.within, oj, hoj, ?_⟩, ?_⟩
    · have hz : oj.kind.rank = 0 := by omega
      cases hko : oj.kind <;> rw [hko] at hz <;> simp [Kind.rank] at hz ⊢
    · have := full.path w q hb hroot 5 (by rw [List.length_append, hlen]; omega)
      rw [← List.cons_append] at this
      exact this
  · rintro ⟨j, hbj, rfl⟩
    obtain ⟨hwj, oj, hoj, hpj⟩ := below_iff.1 hbj
    obtain ⟨ks, chj⟩ := hwj.chain
    obtain ⟨oj', hoj', hrj⟩ := chj.rank w ho
    rw [hoj] at hoj'; cases hoj'
    have hz : oj.kind.rank = 0 := by rw [hpj]; rfl
    refine ⟨ks, (mem_leafKeys w _ i ks).2 ⟨by omega, j, chj.items w⟩, ?_⟩
    have full := Chain.trans ch chj
    have := full.path w q hb hroot 5 (by rw [List.length_append]; omega)
    rw [← List.cons_append] at this
    exact this.symm

/-- A polygon has nothing below it. -/
theorem below_polygon {h : Heap P} (w : WF h) {i j : Nat} {o : Obj P} (ho : h[i]? = some o)
    (hk : o.kind = .polygon) (hb : Below h i j) : j = i := by
  cases hb with
  | self => rfl
  | child _ j' _ name o' ho' hm _ =>
    rw [ho] at ho'; cases ho'
    obtain ⟨oj, _, _, hr⟩ := w.child i o name j' ho hm
    rw [hk] at hr
    simp [Kind.rank] at hr

end B3d.Config
