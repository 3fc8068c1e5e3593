import Verif.Proofs.Config

/-! # Properties C54, C55 and C68: surface parameters and the start of a simulation -/

namespace B3d.Config

open Hier

variable {P V : Type}

/-! ### C54 -/

/-- **C54.**  Setting a known parameter for the path of any object of the building (building, zone, solid,
wall or polygon) succeeds; afterwards exactly the polygons at or below that object have the new value, and
every other stored value is what it was. -/
theorem C54_set (parseInt : Str → Option Int) (ops : List (Op P)) (hl : LinearFrom [] ops) (b : Nat)
    (B : Obj P) (hb : (exec ops)[b]? = some B) (hk : B.kind = .building) (s : Surfaces V)
    (param : Str) (v : V) (hp : Known s param) (i : Nat) (hi : Within (exec ops) b i) :
    ∃ s', setSurfaceParam parseInt (exec ops) b s param (path (exec ops) i) v = (s', .ok ()) ∧
      (∀ p, Known s' p ↔ Known s p) ∧
      (∀ j, Below (exec ops) i j → value s' param (path (exec ops) j) = some v) ∧
      (∀ p q, (p ≠ param ∨ ¬ ∃ j, Below (exec ops) i j ∧ path (exec ops) j = q) →
        value s' p q = value s p q) := by
  have w : WF (exec ops) := WF.exec ops
  have q : ParentOK (exec ops) := ParentOK.foldl ops WF.nil ParentOK.nil hl
  have hget := (C07_get_own_path_partial parseInt ops hl b B hb hk i hi).1
  obtain ⟨keys, ch⟩ := hi.chain
  obtain ⟨o, ho, _⟩ := ch.rank w hb
  unfold setSurfaceParam
  rw [hget]
  simp only [ho]
  by_cases hpoly : o.kind = .polygon
  · rw [if_pos hpoly]
    obtain ⟨s', h1, h2, h3⟩ := assign_spec hp (path (exec ops) i) v
    rw [h1]
    refine ⟨s', rfl, h2, ?_, ?_⟩
    · intro j hj
      rw [below_polygon w ho hpoly hj, h3, if_pos ⟨rfl, rfl⟩]
    · intro p q' hn
      rw [h3, if_neg]
      rintro ⟨rfl, rfl⟩
      rcases hn with hn | hn
      · exact hn rfl
      · exact hn ⟨i, .self i o ho hpoly, rfl⟩
  · rw [if_neg hpoly]
    obtain ⟨l, hlist, hmem⟩ := mem_polygonPaths q w hb hk hi ho hpoly
    rw [hlist]
    obtain ⟨s', h1, h2, h3⟩ := assignAll_spec param v l s hp
    refine ⟨s', h1, h2, ?_, ?_⟩
    · intro j hj
      rw [h3, if_pos ⟨rfl, (hmem _).2 ⟨j, hj, rfl⟩⟩]
    · intro p q' hn
      rw [h3, if_neg]
      rintro ⟨rfl, hq⟩
      rcases hn with hn | hn
      · exact hn rfl
      · exact hn ((hmem _).1 hq)

/-- **C54, unknown paths.**  If no object of the building has the path, an exception is raised and
nothing changes. -/
theorem C54_unknown_path (parseInt : Str → Option Int) (ops : List (Op P)) (hl : LinearFrom [] ops)
    (b : Nat) (B : Obj P) (hb : (exec ops)[b]? = some B) (hk : B.kind = .building) (s : Surfaces V)
    (param : Str) (v : V) (p : Str) (hn : ¬ ∃ i, Within (exec ops) b i ∧ path (exec ops) i = p) :
    ∃ e, setSurfaceParam parseInt (exec ops) b s param p v = (s, .error e) := by
  unfold setSurfaceParam
  cases hget : Hier.get parseInt (exec ops) b p with
  | error e => exact ⟨e, rfl⟩
  | ok f =>
    cases f with
    | point x => exact ⟨_, rfl⟩
    | obj i => exact absurd ⟨i, C08_get_sound parseInt ops hl b B hb hk p i hget⟩ hn

/-- **C54, unknown parameters.**  Nothing changes; `KeyError` is raised if there is a polygon at or below
the object.  If there is none, the call silently succeeds. -/
theorem C54_unknown_param (parseInt : Str → Option Int) (ops : List (Op P)) (hl : LinearFrom [] ops)
    (b : Nat) (B : Obj P) (hb : (exec ops)[b]? = some B) (hk : B.kind = .building) (s : Surfaces V)
    (param : Str) (v : V) (hp : ¬ Known s param) (i : Nat) (hi : Within (exec ops) b i) :
    ((∃ j, Below (exec ops) i j) →
      setSurfaceParam parseInt (exec ops) b s param (path (exec ops) i) v = (s, .error .keyError)) ∧
    ((¬ ∃ j, Below (exec ops) i j) →
      setSurfaceParam parseInt (exec ops) b s param (path (exec ops) i) v = (s, .ok ())) := by
  have w : WF (exec ops) := WF.exec ops
  have q : ParentOK (exec ops) := ParentOK.foldl ops WF.nil ParentOK.nil hl
  have hget := (C07_get_own_path_partial parseInt ops hl b B hb hk i hi).1
  obtain ⟨keys, ch⟩ := hi.chain
  obtain ⟨o, ho, _⟩ := ch.rank w hb
  unfold setSurfaceParam
  rw [hget]
  simp only [ho]
  by_cases hpoly : o.kind = .polygon
  · rw [if_pos hpoly, assign_unknown hp]
    exact ⟨fun _ => rfl, fun hn => absurd ⟨i, .self i o ho hpoly⟩ hn⟩
  · rw [if_neg hpoly]
    obtain ⟨l, hlist, hmem⟩ := mem_polygonPaths q w hb hk hi ho hpoly
    rw [hlist]
    simp only []
    rw [assignAll_unknown param v l s hp]
    constructor
    · rintro ⟨j, hj⟩
      rw [if_neg]
      rintro rfl
      exact absurd ((hmem _).2 ⟨j, hj, rfl⟩) (by simp)
    · intro hn
      rw [if_pos]
      cases l with
      | nil => rfl
      | cons a l =>
        obtain ⟨j, hj, _⟩ := (hmem a).1 (by simp)
        exact absurd ⟨j, hj⟩ hn

/-- A failed call changes nothing, whatever the reason. -/
theorem C54_failure (parseInt : Str → Option Int) (h : Heap P) (b : Nat) (s s' : Surfaces V)
    (param p : Str) (v : V) (e : PyErr)
    (he : setSurfaceParam parseInt h b s param p v = (s', .error e)) : s' = s := by
  have key : ∀ l, assignAll s param v l = (s', .error e) → s' = s := by
    intro l hl
    by_cases hk : Known s param
    · obtain ⟨s1, h1, _⟩ := assignAll_spec param v l s hk
      rw [h1] at hl
      simp only [Prod.mk.injEq, reduceCtorEq, and_false] at hl
    · rw [assignAll_unknown param v l s hk] at hl
      split at hl <;> simp only [Prod.mk.injEq] at hl <;> exact hl.1.symm
  unfold setSurfaceParam at he
  split at he
  · cases he; rfl
  · cases he; rfl
  · split at he
    · cases he; rfl
    · split at he
      · split at he
        · cases he; rfl
        · cases he
      · split at he
        · cases he; rfl
        · exact key _ he

/-- Paths of polygons are not the key of the default value. -/
theorem path_ne_default {h : Heap P} (q : ParentOK h) (w : WF h) {b : Nat} {B : Obj P}
    (hb : h[b]? = some B) (hB : B.kind = .building) {j : Nat} (hj : Below h b j) :
    path h j ≠ defaultKey := by
  obtain ⟨hw, o, ho, hp⟩ := below_iff.1 hj
  obtain ⟨keys, ch⟩ := hw.chain
  obtain ⟨o', ho', hr⟩ := ch.rank w hb
  rw [ho] at ho'; cases ho'
  have hB4 : B.kind.rank = 4 := by rw [hB]; rfl
  have hz : o.kind.rank = 0 := by rw [hp]; rfl
  have hroot := root_of_building w hb hB
  unfold path
  rw [ch.path w q hb hroot 5 (by omega)]
  intro e
  have hs := Str.split_join PATH_SEP (B.name :: keys) (by simp) (by
    intro p hp
    rcases List.mem_cons.1 hp with rfl | hp
    · exact w.name b B hb
    · exact ch.no_sep w p hp)
  rw [e] at hs
  have hd : Str.split PATH_SEP defaultKey = [defaultKey] := by decide
  rw [hd] at hs
  have := congrArg List.length hs
  simp only [List.length_cons, List.length_nil] at this
  omega

theorem defaultStep_spec (paths : List Str) (s : Surfaces V) (key : Str)
    (hk : (value s key defaultKey).isSome) :
    (∀ p, Known (defaultStep paths s key) p ↔ Known s p) ∧
    ∀ p q, value (defaultStep paths s key) p q
      = if p = key ∧ q ∈ paths then value s p defaultKey else value s p q := by
  obtain ⟨v, hv⟩ := Option.isSome_iff_exists.1 hk
  have hkn : Known s key := by
    rw [known_iff]
    rw [value_eq] at hv
    cases h : dGet s key with
    | none => rw [h] at hv; cases hv
    | some d => exact ⟨d, rfl⟩
  obtain ⟨d, hdd⟩ := (known_iff s key).1 hkn
  have hdv : dGet d defaultKey = some v := by
    rw [value_eq, hdd] at hv
    exact hv
  obtain ⟨s', h1, h2, h3⟩ := assignAll_spec key v paths s hkn
  have e : defaultStep paths s key = s' := by
    unfold defaultStep
    rw [hdd]
    simp only [hdv, h1]
  rw [e]
  refine ⟨h2, fun p q => ?_⟩
  rw [h3]
  by_cases hpq : p = key ∧ q ∈ paths
  · rw [if_pos hpq, if_pos hpq, hpq.1, hv]
  · rw [if_neg hpq, if_neg hpq]

theorem defaults_fold (paths : List Str) (hd : defaultKey ∉ paths) : ∀ (keys : List Str)
    (s : Surfaces V), (∀ k ∈ keys, (value s k defaultKey).isSome) →
    (∀ p, Known (keys.foldl (defaultStep paths) s) p ↔ Known s p) ∧
    ∀ p q, value (keys.foldl (defaultStep paths) s) p q
      = if p ∈ keys ∧ q ∈ paths then value s p defaultKey else value s p q := by
  intro keys
  induction keys with
  | nil => intro s _; exact ⟨fun _ => Iff.rfl, fun p q => by simp⟩
  | cons k keys ih =>
    intro s hs
    obtain ⟨h1, h2⟩ := defaultStep_spec paths s k (hs k (by simp))
    have hdef : ∀ p, value (defaultStep paths s k) p defaultKey = value s p defaultKey := by
      intro p
      rw [h2, if_neg (fun h => hd h.2)]
    obtain ⟨g1, g2⟩ := ih (defaultStep paths s k) (fun k' hk' => by
      rw [hdef]; exact hs k' (by simp [hk']))
    rw [List.foldl_cons]
    refine ⟨fun p => (g1 p).trans (h1 p), fun p q => ?_⟩
    rw [g2, hdef, h2]
    by_cases hq : q ∈ paths
    · by_cases hp : p ∈ keys
      · simp [hp, hq]
      · by_cases hpk : p = k <;> simp [hp, hq, hpk]
    · simp [hq]

/-- A new configuration: every polygon of the building has the default value, for every parameter. -/
theorem C54_initial (ops : List (Op P)) (hl : LinearFrom [] ops) (b : Nat)
    (B : Obj P) (hb : (exec ops)[b]? = some B) (hk : B.kind = .building) (initial : Dict V) :
    ∃ s, initConfig (exec ops) b initial = .ok s ∧ ∀ param v0, dGet initial param = some v0 →
      Known s param ∧ value s param defaultKey = some v0 ∧
      ∀ j, Below (exec ops) b j → value s param (path (exec ops) j) = some v0 := by
  have w : WF (exec ops) := WF.exec ops
  have q : ParentOK (exec ops) := ParentOK.foldl ops WF.nil ParentOK.nil hl
  obtain ⟨l, hlist, hmem⟩ := mem_polygonPaths q w hb hk .self hb (by rw [hk]; decide)
  have hd : defaultKey ∉ l := by
    intro h
    obtain ⟨j, hj, he⟩ := (hmem _).1 h
    exact path_ne_default q w hb hk hj he
  unfold initConfig
  rw [hlist]
  refine ⟨_, rfl, ?_⟩
  intro param v0 hv0
  obtain ⟨s0, hs0⟩ : ∃ s0 : Surfaces V, s0 = initial.map fun kv => (kv.1, [(defaultKey, kv.2)]) := ⟨_, rfl⟩
  rw [← hs0]
  have hget : ∀ k, dGet s0 k = (dGet initial k).map fun v => [(defaultKey, v)] := by
    intro k
    rw [hs0]
    clear hs0 hv0
    induction initial with
    | nil => rfl
    | cons e t ih =>
      obtain ⟨k', v'⟩ := e
      rw [List.map_cons, dGet_cons, dGet_cons, ih]
      by_cases h : k' = k <;> simp [h]
  have hval : ∀ k, value s0 k defaultKey = dGet initial k := by
    intro k
    rw [value_eq, hget]
    cases dGet initial k with
    | none => rfl
    | some v => simp [dGet_cons]
  have hkeys : s0.map Prod.fst = initial.map Prod.fst := by
    rw [hs0, List.map_map]; rfl
  have hsome : ∀ k ∈ s0.map Prod.fst, (value s0 k defaultKey).isSome := by
    intro k hk'
    rw [hval]
    rw [hkeys] at hk'
    obtain ⟨e, he, rfl⟩ := List.mem_map.1 hk'
    unfold dGet
    rw [Option.isSome_map, List.find?_isSome]
    exact ⟨e, he, by simp⟩
  obtain ⟨f1, f2⟩ := defaults_fold l hd (s0.map Prod.fst) s0 hsome
  have hkn : Known s0 param := (known_iff _ _).2 ⟨_, by rw [hget, hv0]; rfl⟩
  unfold setDefaults
  refine ⟨(f1 param).2 hkn, ?_, ?_⟩
  · rw [f2, if_neg (fun h => hd h.2), hval, hv0]
  · intro j hj
    have hin : param ∈ s0.map Prod.fst := by
      obtain ⟨e, he, rfl⟩ := hkn
      exact List.mem_map.2 ⟨e, he, rfl⟩
    rw [f2, if_pos ⟨hin, (hmem _).2 ⟨j, hj, rfl⟩⟩, hval, hv0]

theorem lastValue_append (p : Call V → Prop) (calls : List (Call V)) (c : Call V) :
    (p c → lastValue p (calls ++ [c]) = some c.value) ∧
    (¬ p c → lastValue p (calls ++ [c]) = lastValue p calls) := by
  unfold lastValue
  rw [List.filter_append]
  constructor
  · intro h
    simp [h]
  · intro h
    simp [h]

theorem lastValue_none {p : Call V → Prop} {calls : List (Call V)} (h : ∀ c ∈ calls, ¬ p c) :
    lastValue p calls = none := by
  unfold lastValue
  rw [List.filter_eq_nil_iff.2]
  · rfl
  · intro c hc
    simpa using h c hc

/-- One call, seen from one polygon. -/
theorem set_value (parseInt : Str → Option Int) (ops : List (Op P)) (hl : LinearFrom [] ops) (b : Nat)
    (B : Obj P) (hb : (exec ops)[b]? = some B) (hk : B.kind = .building) (s : Surfaces V) (c : Call V)
    (param q : Str) (hp : Known s param) :
    Known (setSurfaceParam parseInt (exec ops) b s c.param c.path c.value).1 param ∧
    ((∃ i j, c.param = param ∧ Within (exec ops) b i ∧ path (exec ops) i = c.path ∧
      Below (exec ops) i j ∧ path (exec ops) j = q) →
      value (setSurfaceParam parseInt (exec ops) b s c.param c.path c.value).1 param q = some c.value) ∧
    ((¬ ∃ i j, c.param = param ∧ Within (exec ops) b i ∧ path (exec ops) i = c.path ∧
      Below (exec ops) i j ∧ path (exec ops) j = q) →
      value (setSurfaceParam parseInt (exec ops) b s c.param c.path c.value).1 param q
        = value s param q) := by
  by_cases hi : ∃ i, Within (exec ops) b i ∧ path (exec ops) i = c.path
  · obtain ⟨i, hi, hpath⟩ := hi
    have uniq : ∀ i', Within (exec ops) b i' → path (exec ops) i' = c.path → i' = i := fun i' hi' he =>
      C08_paths_unique ops hl b B hb hk i' i hi' hi (he.trans hpath.symm)
    by_cases hkn : Known s c.param
    · obtain ⟨s', h1, h2, h3, h4⟩ := C54_set parseInt ops hl b B hb hk s c.param c.value hkn i hi
      rw [hpath] at h1
      rw [h1]
      refine ⟨(h2 param).2 hp, ?_, ?_⟩
      · rintro ⟨i', j, rfl, hw', hp', hj, rfl⟩
        rw [uniq i' hw' hp'] at hj
        exact h3 j hj
      · intro hn
        apply h4
        by_cases he : c.param = param
        · right
          rintro ⟨j, hj, hjq⟩
          exact hn ⟨i, j, he, hi, hpath, hj, hjq⟩
        · left
          exact fun h => he h.symm
    · have hne : c.param ≠ param := fun h => hkn (h ▸ hp)
      have := C54_unknown_param parseInt ops hl b B hb hk s c.param c.value hkn i hi
      rw [hpath] at this
      have hs : (setSurfaceParam parseInt (exec ops) b s c.param c.path c.value).1 = s := by
        by_cases hj : ∃ j, Below (exec ops) i j
        · rw [this.1 hj]
        · rw [this.2 hj]
      rw [hs]
      refine ⟨hp, ?_, fun _ => rfl⟩
      rintro ⟨_, _, he, _⟩
      exact absurd he hne
  · obtain ⟨e, he⟩ := C54_unknown_path parseInt ops hl b B hb hk s c.param c.value c.path hi
    rw [he]
    refine ⟨hp, ?_, fun _ => rfl⟩
    rintro ⟨i, _, _, hw, hpi, _⟩
    exact absurd ⟨i, hw, hpi⟩ hi

/-- **C54, histories.**  After any sequence of calls on a new configuration, failing calls included, the
value of a polygon of the building is that of the last call which named the parameter and the path of the
polygon or of an object that contains it, and the default value if there was no such call. -/
theorem C54_history (parseInt : Str → Option Int) (ops : List (Op P)) (hl : LinearFrom [] ops) (b : Nat)
    (B : Obj P) (hb : (exec ops)[b]? = some B) (hk : B.kind = .building) (initial : Dict V)
    (param : Str) (v0 : V) (hv0 : dGet initial param = some v0) (calls : List (Call V)) :
    ∃ s, initConfig (exec ops) b initial = .ok s ∧
      Known (settings parseInt (exec ops) b s calls) param ∧
      value (settings parseInt (exec ops) b s calls) param defaultKey = some v0 ∧
      ∀ j, Below (exec ops) b j →
        value (settings parseInt (exec ops) b s calls) param (path (exec ops) j)
          = some ((lastValue (Addresses (exec ops) (Within (exec ops) b) param j) calls).getD v0) := by
  have w : WF (exec ops) := WF.exec ops
  have q : ParentOK (exec ops) := ParentOK.foldl ops WF.nil ParentOK.nil hl
  obtain ⟨s, hs, hall⟩ := C54_initial ops hl b B hb hk initial
  obtain ⟨hkn, hdef, hval⟩ := hall param v0 hv0
  refine ⟨s, hs, ?_⟩
  induction calls using List.reverseRecOn with
  | nil => exact ⟨hkn, hdef, fun j hj => by rw [settings, List.foldl_nil, hval j hj]; rfl⟩
  | append_singleton calls c ih =>
    obtain ⟨ih1, ih2, ih3⟩ := ih
    have e : settings parseInt (exec ops) b s (calls ++ [c])
        = (setSurfaceParam parseInt (exec ops) b (settings parseInt (exec ops) b s calls) c.param c.path
            c.value).1 := by
      unfold settings
      rw [List.foldl_append]
      rfl
    rw [e]
    have hsv := fun q => set_value parseInt ops hl b B hb hk (settings parseInt (exec ops) b s calls) c
      param q ih1
    refine ⟨(hsv []).1, ?_, ?_⟩
    · rw [(hsv defaultKey).2.2 ?_, ih2]
      rintro ⟨i, j, _, hw, _, hj, hjd⟩
      obtain ⟨hwj, o, ho, hpo⟩ := below_iff.1 hj
      obtain ⟨k1, c1⟩ := hw.chain
      obtain ⟨k2, c2⟩ := hwj.chain
      exact path_ne_default q w hb hk (below_iff.2 ⟨(Chain.trans c1 c2).within, o, ho, hpo⟩) hjd
    · intro j hj
      have hwj := (below_iff.1 hj).1
      by_cases ha : Addresses (exec ops) (Within (exec ops) b) param j c
      · obtain ⟨hpar, i, hi, hpath, hij⟩ := ha
        rw [(lastValue_append _ calls c).1 ⟨hpar, i, hi, hpath, hij⟩,
          (hsv _).2.1 ⟨i, j, hpar, hi, hpath, hij, rfl⟩]
        rfl
      · rw [(lastValue_append _ calls c).2 ha, (hsv _).2.2 ?_, ih3 j hj]
        rintro ⟨i, j', hpar, hi, hpath, hij, hjj⟩
        obtain ⟨hwj', _⟩ := below_iff.1 hij
        obtain ⟨k1, c1⟩ := hi.chain
        obtain ⟨k2, c2⟩ := hwj'.chain
        have : j' = j := C08_paths_unique ops hl b B hb hk j' j (Chain.trans c1 c2).within hwj hjj
        subst this
        exact ha ⟨hpar, i, hi, hpath, hij⟩

/-! ### The array of values -/

theorem arrayLoop_ok (parseInt : Str → Option Int) (num : Nat → Option Int) (h : Heap P) (b : Nat)
    (s : Surfaces V) (param : Str) (n : Nat) (pos : Str → Nat) (val : Str → V) :
    ∀ (pps : List Str) (values : List V), values.length = n →
    (∀ pp ∈ pps, ∀ values, arrayStep parseInt num h b s param n values pp
      = .ok (values.set (pos pp) (val pp))) →
    (∀ pp ∈ pps, pos pp < n) → (pps.map pos).Nodup →
    ∃ r, arrayLoop parseInt num h b s param n values pps = .ok r ∧ r.length = n ∧
      (∀ pp ∈ pps, r[pos pp]? = some (val pp)) ∧
      ∀ k, k ∉ pps.map pos → r[k]? = values[k]? := by
  intro pps
  induction pps with
  | nil => intro values hv _ _ _; exact ⟨values, rfl, hv, by simp, fun _ _ => rfl⟩
  | cons pp pps ih =>
    intro values hv hstep hpos hnd
    rw [List.map_cons, List.nodup_cons] at hnd
    obtain ⟨r, h1, h2, h3, h4⟩ := ih (values.set (pos pp) (val pp)) (by rw [List.length_set, hv])
      (fun x hx => hstep x (by simp [hx])) (fun x hx => hpos x (by simp [hx])) hnd.2
    refine ⟨r, ?_, h2, ?_, ?_⟩
    · rw [arrayLoop, hstep pp (by simp)]
      exact h1
    · intro x hx
      rcases List.mem_cons.1 hx with rfl | hx
      · rw [h4 _ hnd.1, List.getElem?_set_self]
        rw [hv]; exact hpos _ (by simp)
      · exact h3 x hx
    · intro k hk'
      rw [List.map_cons, List.mem_cons, not_or] at hk'
      rw [h4 k hk'.2, List.getElem?_set_ne (fun e => hk'.1 e.symm)]

/-- **C54, the array.**  If the polygons of the building are numbered from `0` to `N - 1`, each number
used once, then `surface_params_to_array` returns an array of length `N` which has, at the number of every
polygon, the value set for it (the default value if there is none). -/
theorem C54_array [Zero V] (parseInt : Str → Option Int) (ops : List (Op P)) (hl : LinearFrom [] ops)
    (b : Nat) (B : Obj P) (hb : (exec ops)[b]? = some B) (hk : B.kind = .building) (s : Surfaces V)
    (param : Str) (v0 : V) (hdef : value s param defaultKey = some v0) (num : Nat → Option Int)
    (paths : List Str) (hpaths : getPolygonPaths (exec ops) b = .ok paths)
    (hnum : ∀ j, Below (exec ops) b j → ∃ k : Nat, num j = some (k : Int) ∧ k < paths.length)
    (hinj : ∀ i j, Below (exec ops) b i → Below (exec ops) b j → num i = num j → i = j) :
    ∃ values, surfaceParamsToArray parseInt num (exec ops) b s param = .ok values ∧
      values.length = paths.length ∧
      ∀ j (k : Nat), Below (exec ops) b j → num j = some (k : Int) →
        values[k]? = some ((value s param (path (exec ops) j)).getD v0) := by
  have w : WF (exec ops) := WF.exec ops
  have q : ParentOK (exec ops) := ParentOK.foldl ops WF.nil ParentOK.nil hl
  obtain ⟨l, hlist, hmem⟩ := mem_polygonPaths q w hb hk .self hb (by rw [hk]; decide)
  rw [hpaths] at hlist
  cases hlist
  obtain ⟨l', hl', hnd, _⟩ := C09_building_polygon_paths parseInt ops hl b B hb hk
  rw [hpaths] at hl'
  cases hl'
  -- the polygon of a path
  have hpoly : ∀ pp, ∃ j, pp ∈ paths → Below (exec ops) b j ∧ path (exec ops) j = pp := by
    intro pp
    by_cases hp : pp ∈ paths
    · obtain ⟨j, hj⟩ := (hmem pp).1 hp
      exact ⟨j, fun _ => hj⟩
    · exact ⟨0, fun h => absurd h hp⟩
  choose poly hpoly using hpoly
  have hk' : ∀ pp, ∃ k : Nat, pp ∈ paths → num (poly pp) = some (k : Int) ∧ k < paths.length := by
    intro pp
    by_cases hp : pp ∈ paths
    · obtain ⟨k, hk⟩ := hnum _ (hpoly pp hp).1
      exact ⟨k, fun _ => hk⟩
    · exact ⟨0, fun h => absurd h hp⟩
  choose pos hpos using hk'
  have hkn : ∃ d, dGet s param = some d := by
    rw [value_eq] at hdef
    cases hd : dGet s param with
    | none => rw [hd] at hdef; cases hdef
    | some d => exact ⟨d, rfl⟩
  obtain ⟨d, hd⟩ := hkn
  have hd0 : dGet d defaultKey = some v0 := by rw [value_eq, hd] at hdef; exact hdef
  have hval : ∀ pp, valueOf d pp = .ok ((value s param pp).getD v0) := by
    intro pp
    rw [value_eq, hd]
    unfold valueOf
    simp only [Option.bind_some]
    cases dGet d pp with
    | some v => rfl
    | none => simp only [hd0, Option.getD_none]
  obtain ⟨r, r1, r2, r3, _⟩ := arrayLoop_ok parseInt num (exec ops) b s param paths.length pos
    (fun pp => (value s param pp).getD v0) paths (List.replicate paths.length 0) (by simp) (by
      intro pp hpp values
      obtain ⟨hj, hjp⟩ := hpoly pp hpp
      obtain ⟨hn, hlt⟩ := hpos pp hpp
      have hget := (C07_get_own_path_partial parseInt ops hl b B hb hk (poly pp) (below_iff.1 hj).1).1
      rw [hjp] at hget
      obtain ⟨o, ho, hop⟩ := hj.polygon
      unfold arrayStep
      rw [hget]
      simp only [ho]
      rw [if_neg (by simp [hop]), hn]
      simp only []
      rw [if_pos ⟨Int.natCast_nonneg _, by exact_mod_cast hlt⟩, hd]
      simp only [hval, Int.toNat_natCast]) (fun pp hpp => (hpos pp hpp).2) (by
      apply List.Nodup.map_on _ hnd
      intro x hx y hy he
      have e1 := (hpos x hx).1
      have e2 := (hpos y hy).1
      rw [he] at e1
      have := hinj _ _ (hpoly x hx).1 (hpoly y hy).1 (e1.trans e2.symm)
      rw [← (hpoly x hx).2, ← (hpoly y hy).2, this])
  refine ⟨r, ?_, r2, ?_⟩
  · unfold surfaceParamsToArray
    rw [hpaths]
    exact r1
  · intro j k hj hnj
    have hin : path (exec ops) j ∈ paths := (hmem _).2 ⟨j, hj, rfl⟩
    obtain ⟨hj', hjp⟩ := hpoly _ hin
    have : poly (path (exec ops) j) = j :=
      C08_paths_unique ops hl b B hb hk _ j (below_iff.1 hj').1 (below_iff.1 hj).1 hjp
    have hk2 := (hpos _ hin).1
    rw [this, hnj] at hk2
    simp only [Option.some.injEq, Nat.cast_inj] at hk2
    rw [hk2]
    exact r3 _ hin

/-- A polygon without a number is noticed. -/
theorem C54_array_unnumbered [Zero V] (parseInt : Str → Option Int) (ops : List (Op P))
    (hl : LinearFrom [] ops) (b : Nat) (B : Obj P) (hb : (exec ops)[b]? = some B)
    (hk : B.kind = .building) (s : Surfaces V) (param : Str) (num : Nat → Option Int) (j : Nat)
    (hj : Below (exec ops) b j) (hn : num j = none) :
    ∃ e, surfaceParamsToArray parseInt num (exec ops) b s param = .error e := by
  have w : WF (exec ops) := WF.exec ops
  have q : ParentOK (exec ops) := ParentOK.foldl ops WF.nil ParentOK.nil hl
  obtain ⟨l, hlist, hmem⟩ := mem_polygonPaths q w hb hk .self hb (by rw [hk]; decide)
  have hin : path (exec ops) j ∈ l := (hmem _).2 ⟨j, hj, rfl⟩
  have hget := (C07_get_own_path_partial parseInt ops hl b B hb hk j (below_iff.1 hj).1).1
  obtain ⟨o, ho, hop⟩ := hj.polygon
  have key : ∀ (pps : List Str) (n : Nat) (values : List V), path (exec ops) j ∈ pps →
      ∃ e, arrayLoop parseInt num (exec ops) b s param n values pps = .error e := by
    intro pps
    induction pps with
    | nil => intro n values h; cases h
    | cons pp pps ih =>
      intro n values h
      rw [arrayLoop]
      cases hst : arrayStep parseInt num (exec ops) b s param n values pp with
      | error e => exact ⟨e, rfl⟩
      | ok values' =>
        rcases List.mem_cons.1 h with h | h
        · exfalso
          subst h
          unfold arrayStep at hst
          rw [hget] at hst
          simp only [ho, hop, ne_eq, not_true_eq_false, if_false, hn] at hst
          cases hst
        · exact ih n values' h
  unfold surfaceParamsToArray
  rw [hlist]
  exact key l _ _ hin

/-! ### C55 -/

/-- **C55 is false.**  The values set with `set_surface_param` are never used: whatever calls are made,
the simulation uses the default value for every polygon. -/
theorem C55_settings_ignored (parseInt : Str → Option Int) (ops : List (Op P))
    (hl : LinearFrom [] ops) (b : Nat) (B : Obj P) (hb : (exec ops)[b]? = some B)
    (hk : B.kind = .building) (initial : Dict V) (v0 : V)
    (hv0 : dGet initial "absorption".toList = some v0) (calls : List (Call V)) (numFaces : Nat) :
    ∃ s, initConfig (exec ops) b initial = .ok s ∧
      simAbsorption (settings parseInt (exec ops) b s calls) numFaces
        = .ok (List.replicate numFaces v0) := by
  obtain ⟨s, hs, _, hdef, _⟩ := C54_history parseInt ops hl b B hb hk initial _ v0 hv0 calls
  refine ⟨s, hs, ?_⟩
  rw [value_eq] at hdef
  unfold simAbsorption
  cases hd : dGet (settings parseInt (exec ops) b s calls) "absorption".toList with
  | none => rw [hd] at hdef; cases hdef
  | some d =>
    rw [hd, Option.bind_some] at hdef
    simp only [hdef]

/-- **C55, what is left of it.**  A polygon for which no call was made (nor for an object that contains
it) has, at its number, the value of the configuration.  Missing: the same for polygons with a value set,
which is false. -/
theorem C55_unset_partial (parseInt : Str → Option Int) (ops : List (Op P))
    (hl : LinearFrom [] ops) (b : Nat) (B : Obj P) (hb : (exec ops)[b]? = some B)
    (hk : B.kind = .building) (initial : Dict V) (v0 : V)
    (hv0 : dGet initial "absorption".toList = some v0) (calls : List (Call V)) (numFaces : Nat)
    (j k : Nat) (hj : Below (exec ops) b j) (hkf : k < numFaces)
    (hn : ∀ c ∈ calls, ¬ Addresses (exec ops) (Within (exec ops) b) "absorption".toList j c) :
    ∃ s arr, initConfig (exec ops) b initial = .ok s ∧
      simAbsorption (settings parseInt (exec ops) b s calls) numFaces = .ok arr ∧
      arr[k]? = value (settings parseInt (exec ops) b s calls) "absorption".toList (path (exec ops) j) := by
  obtain ⟨s, hs, _, _, hval⟩ := C54_history parseInt ops hl b B hb hk initial _ v0 hv0 calls
  obtain ⟨s', hs', harr⟩ := C55_settings_ignored parseInt ops hl b B hb hk initial v0 hv0 calls numFaces
  rw [hs] at hs'
  cases hs'
  refine ⟨s, _, hs, harr, ?_⟩
  rw [hval j hj, List.getElem?_replicate, if_pos hkf]
  congr 1
  rw [lastValue_none hn]
  rfl

/-! ### Examples -/

/-- Two walls with one polygon each, and a third wall without polygons. -/
def cfgOps : List (Op Nat) :=
  [ .construct .polygon "p".toList [] none [],
    .construct .polygon "q".toList [] none [],
    .construct .wall "w".toList [] none [0],
    .construct .wall "x".toList [] none [1],
    .construct .wall "y".toList [] none [],
    .construct .solid "s".toList [] none [2, 3, 4],
    .construct .zone "z".toList [] none [5],
    .construct .building "b".toList [] none [6] ]

/-- The hypotheses are met: no object is in two containers, and 7 is a building with two polygons. -/
example : LinearFrom [] cfgOps ∧ ((exec cfgOps)[7]?).map (fun o => o.kind) = some .building ∧
    Below (exec cfgOps) 7 0 ∧ Below (exec cfgOps) 7 1 ∧
    getPolygonPaths (exec cfgOps) 7 = .ok ["b/z/s/w/p".toList, "b/z/s/x/q".toList] := by
  have leaf : ∀ i o, (exec cfgOps)[i]? = some o → o.kind = .polygon → Below (exec cfgOps) i i :=
    fun i o h1 h2 => .self i o h1 h2
  refine ⟨?_, by decide +kernel, ?_, ?_, by decide +kernel⟩
  · have nope : ∀ (h : Heap Nat) (c x : Nat), (h.all fun o => o.children.all fun kv => kv.2 != x) = true →
        NotElsewhere h c x := by
      intro h c x hall i o k hi hk
      rw [List.all_eq_true] at hall
      have := hall o (List.mem_of_getElem? hi)
      rw [List.all_eq_true] at this
      simpa using this _ hk
    have many : ∀ (h : Heap Nat) (c : Nat) (xs : List Nat),
        (xs.all fun x => h.all fun o => o.children.all fun kv => kv.2 != x) = true →
        ∀ x ∈ xs, NotElsewhere h c x := by
      intro h c xs hall x hx
      rw [List.all_eq_true] at hall
      exact nope h c x (hall x hx)
    unfold cfgOps
    exact ⟨many _ _ _ (by decide +kernel), many _ _ _ (by decide +kernel), many _ _ _ (by decide +kernel),
      many _ _ _ (by decide +kernel), many _ _ _ (by decide +kernel), many _ _ _ (by decide +kernel),
      many _ _ _ (by decide +kernel), many _ _ _ (by decide +kernel), trivial⟩
  · refine .child 7 6 0 "z".toList _ rfl (by decide +kernel) (.child 6 5 0 "s".toList _ rfl (by decide +kernel)
      (.child 5 2 0 "w".toList _ rfl (by decide +kernel) (.child 2 0 0 "p".toList _ rfl (by decide +kernel)
        (leaf 0 _ rfl rfl))))
  · refine .child 7 6 1 "z".toList _ rfl (by decide +kernel) (.child 6 5 1 "s".toList _ rfl (by decide +kernel)
      (.child 5 3 1 "x".toList _ rfl (by decide +kernel) (.child 3 1 1 "q".toList _ rfl (by decide +kernel)
        (leaf 1 _ rfl rfl))))

/-- The configuration of the code: one parameter with default 0.2 (here 20). -/
def cfgInit : Dict Nat := [("absorption".toList, 20)]

/-- A wall is set to 70, then the array for the numbers 1 and 0 is made; the simulation uses 20. -/
example : ∃ s, initConfig (exec cfgOps) 7 cfgInit = .ok s ∧
    surfaceParamsToArray (fun _ => none) (fun i => some (1 - (i : Int))) (exec cfgOps) 7
      (settings (fun _ => none) (exec cfgOps) 7 s [⟨"absorption".toList, "b/z/s/x".toList, 70⟩])
      "absorption".toList = .ok [70, 20] ∧
    simAbsorption
      (settings (fun _ => none) (exec cfgOps) 7 s [⟨"absorption".toList, "b/z/s/x".toList, 70⟩]) 4
      = .ok [20, 20, 20, 20] :=
  ⟨_, rfl, by decide +kernel, by decide +kernel⟩

/-- An unknown parameter raises for a wall with a polygon and is accepted for one without. -/
example : ∃ s, initConfig (exec cfgOps) 7 cfgInit = .ok s ∧
    (setSurfaceParam (fun _ => none) (exec cfgOps) 7 s "colour".toList "b/z/s/w".toList 1).2
      = .error .keyError ∧
    (setSurfaceParam (fun _ => none) (exec cfgOps) 7 s "colour".toList "b/z/s/y".toList 1).2
      = .ok () ∧
    (setSurfaceParam (fun _ => none) (exec cfgOps) 7 s "absorption".toList "b/z/t".toList 1).2
      = .error .keyError :=
  ⟨_, rfl, by decide +kernel, by decide +kernel, by decide +kernel⟩

/-! ### C68 -/

/-- **C68.**  A simulation object can be made only for a number of steps that is a positive multiple of
the batch size and a buffer directory which does not exist; the directory is then there and empty, so the
buffers of two simulations are never mixed. -/
theorem C68_start (numSteps batchSize : Nat) (project buffer : Dir) :
    ((∃ r, prepare numSteps batchSize project buffer = .ok r) ↔
      (∃ batches, 0 < batches ∧ 0 < batchSize ∧ numSteps = batches * batchSize) ∧
        buffer = .missing) ∧
    ∀ r, prepare numSteps batchSize project buffer = .ok r →
      r.2 = .present 0 ∧ r.1 ≠ .missing ∧ (project ≠ .missing → r.1 = project) := by
  have hc : checkSteps numSteps batchSize = .ok () ↔
      ∃ batches, 0 < batches ∧ 0 < batchSize ∧ numSteps = batches * batchSize := by
    unfold checkSteps
    split
    · rename_i h
      constructor
      · intro h; cases h
      · rintro ⟨n, hn, hb, rfl⟩
        exact absurd h (Nat.not_lt.2 (Nat.le_mul_of_pos_left _ hn))
    · rename_i h
      split
      · rename_i h0
        constructor
        · intro h; cases h
        · rintro ⟨n, hn, hb, _⟩; omega
      · rename_i h0
        split
        · rename_i hm
          constructor
          · intro h; cases h
          · rintro ⟨n, hn, hb, rfl⟩
            simp at hm
        · rename_i hm
          simp only [true_iff]
          rw [ne_eq, not_not] at hm
          refine ⟨numSteps / batchSize, Nat.div_pos (by omega) (by omega), by omega, ?_⟩
          exact (Nat.div_mul_cancel (Nat.dvd_of_mod_eq_zero hm)).symm
  have hm : ∀ r, makeDirs project buffer = .ok r ↔ buffer = .missing ∧
      r = (match project with | .missing => Dir.present 0 | d => d, .present 0) := by
    intro r
    unfold makeDirs makedirs
    cases buffer with
    | missing =>
      simp only [true_and, Except.ok.injEq]
      exact eq_comm
    | present n => cases n <;> simp
  constructor
  · unfold prepare
    cases h : checkSteps numSteps batchSize with
    | error e =>
      simp only [reduceCtorEq, exists_false, false_iff, not_and]
      intro hb
      rw [← hc, h] at hb
      cases hb
    | ok u =>
      cases u
      simp only [hm]
      constructor
      · rintro ⟨r, hr, _⟩
        exact ⟨hc.1 h, hr⟩
      · rintro ⟨_, hr⟩
        exact ⟨_, hr, rfl⟩
  · intro r hr
    unfold prepare at hr
    cases h : checkSteps numSteps batchSize with
    | error e => rw [h] at hr; cases hr
    | ok u =>
      rw [h] at hr
      obtain ⟨_, rfl⟩ := (hm r).1 hr
      cases project <;> simp

/-- **C68, errors.**  A directory with files gives `RuntimeError`; an existing empty directory gives
`FileExistsError`, although the code means to accept it. -/
theorem C68_existing (numSteps batchSize : Nat) (project : Dir) (n : Nat)
    (h : checkSteps numSteps batchSize = .ok ()) :
    prepare numSteps batchSize project (.present n)
      = .error (if n = 0 then .fileExistsError else .runtimeError) := by
  unfold prepare
  rw [h]
  cases n <;> rfl

example : prepare 1000 100 .missing .missing = .ok (.present 0, .present 0) ∧
    prepare 1000 300 .missing .missing = .error .assertionError ∧
    prepare 0 0 .missing .missing = .error .zeroDivisionError ∧
    prepare 10 100 .missing .missing = .error .assertionError := by decide +kernel

end B3d.Config
