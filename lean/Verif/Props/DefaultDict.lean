import Verif.Proofs.Wildcard
import Verif.Spec.DefaultDict

/-! # C97: nested default dictionaries -/

namespace B3d.DefaultDict

open Spec

/-! ### Keys -/

theorem same_iff {k k' : Key} : k.same k' = true ↔ keyId k = keyId k' := by
  rcases k with _ | _ | (_ | _) | _ <;> rcases k' with _ | _ | (_ | _) | _ <;> simp [Key.same, Key.norm, keyId]

theorem get_put (k k' : Key) (v : Val) (es : Entries) :
    (es.put k v).get k' = if keyId k = keyId k' then some v else es.get k' := by
  induction es using Entries.rec (motive_1 := fun _ => True) with
  | leaf => trivial
  | dict => trivial
  | nil => simp only [Entries.put, Entries.get, same_iff]
  | cons k0 v0 rest _ ih =>
    unfold Entries.put
    split
    · rename_i h
      rw [same_iff] at h
      unfold Entries.get
      simp only [same_iff, h]
      split <;> rfl
    · rename_i h
      rw [same_iff] at h
      unfold Entries.get
      rw [ih]
      simp only [same_iff]
      split
      · rename_i h'
        rw [if_neg (fun e => h (h'.trans e.symm))]
      · rfl

theorem get_congr {k k' : Key} (h : keyId k = keyId k') (es : Entries) : es.get k = es.get k' := by
  induction es using Entries.rec (motive_1 := fun _ => True) with
  | leaf => trivial
  | dict => trivial
  | nil => rfl
  | cons k0 v0 rest _ ih =>
    unfold Entries.get
    simp only [same_iff, h, ih]

/-- Storing what is there changes nothing. -/
theorem put_get {k : Key} {v : Val} (es : Entries) (h : es.get k = some v) : es.put k v = es := by
  induction es using Entries.rec (motive_1 := fun _ => True) with
  | leaf => trivial
  | dict => trivial
  | nil => cases h
  | cons k0 v0 rest _ ih =>
    unfold Entries.get at h
    unfold Entries.put
    split at h
    · rename_i h'
      rw [if_pos h', Option.some.inj h]
    · rename_i h'
      rw [if_neg h', ih h]

/-! ### What is stored -/

/-- The value found by looking for the keys one after the other, without changing anything. -/
def leafAt : List Key → Val → Option Leaf
  | [], .leaf l => some l
  | [], .dict _ _ => none
  | _ :: _, .leaf _ => none
  | k :: ks, .dict _ es =>
    match es.get k with
    | some v => leafAt ks v
    | none => none

theorem leafAt_new (p : List Key) : leafAt p new = none := by
  cases p <;> rfl

theorem leafAt_congr : ∀ {p q : List Key}, keysOf p = keysOf q → ∀ v, leafAt p v = leafAt q v
  | [], [], _, _ => rfl
  | [], _ :: _, h, _ => by simp [keysOf] at h
  | _ :: _, [], h, _ => by simp [keysOf] at h
  | k :: p, k' :: q, h, v => by
    simp only [keysOf, List.map_cons, List.cons.injEq] at h
    cases v with
    | leaf l => rfl
    | dict a es =>
      unfold leafAt
      rw [get_congr h.1]
      cases es.get k' with
      | none => rfl
      | some v => exact leafAt_congr h.2 v

mutual
/-- Every dictionary in the tree is a `defaultdict`. -/
def Auto : Val → Prop
  | .leaf _ => True
  | .dict a es => a = true ∧ AutoL es

/-- The same for entries. -/
def AutoL : Entries → Prop
  | .nil => True
  | .cons _ v rest => Auto v ∧ AutoL rest
end

theorem AutoL.get {k : Key} {v : Val} {es : Entries} (h : AutoL es) (hg : es.get k = some v) : Auto v := by
  induction es using Entries.rec (motive_1 := fun _ => True) with
  | leaf => trivial
  | dict => trivial
  | nil => cases hg
  | cons k0 v0 rest _ ih =>
    unfold Entries.get at hg
    unfold AutoL at h
    split at hg
    · rw [← Option.some.inj hg]; exact h.1
    · exact ih h.2 hg

theorem AutoL.put {k : Key} {v : Val} {es : Entries} (h : AutoL es) (hv : Auto v) : AutoL (es.put k v) := by
  induction es using Entries.rec (motive_1 := fun _ => True) with
  | leaf => trivial
  | dict => trivial
  | nil => exact ⟨hv, trivial⟩
  | cons k0 v0 rest _ ih =>
    unfold AutoL at h
    unfold Entries.put
    split
    · exact ⟨hv, h.2⟩
    · exact ⟨h.1, ih h.2⟩

theorem auto_new : Auto new := ⟨rfl, trivial⟩

/-- The value under a key, or the new dictionary made for it. -/
def child (k : Key) (es : Entries) : Val := (es.get k).getD new

theorem leafAt_cons (k : Key) (q : List Key) (a : Bool) (es : Entries) :
    leafAt (k :: q) (.dict a es) = leafAt q (child k es) := by
  rw [leafAt, child]
  cases es.get k with
  | none => exact (leafAt_new q).symm
  | some v => rfl

theorem getPath_cons (k : Key) (p : List Key) (es : Entries) : getPath (k :: p) (.dict true es) =
    match getPath p (child k es) with
    | .ok (v', r) => .ok (.dict true (es.put k v'), r)
    | .error e => .error e := by
  rw [getPath, child]
  cases es.get k with
  | none => simp only [if_true, Option.getD_none]; rfl
  | some v => simp only [Option.getD_some]; rfl

theorem setPath_cons (k k' : Key) (p : List Key) (v : Val) (es : Entries) : setPath (k :: k' :: p) v (.dict true es) =
    match setPath (k' :: p) v (child k es) with
    | .ok w => .ok (.dict true (es.put k w))
    | .error e => .error e := by
  rw [setPath, child]
  cases es.get k with
  | none => simp only [if_true, Option.getD_none]; rfl
  | some v => simp only [Option.getD_some]; rfl

theorem child_put (k k' : Key) (v : Val) (es : Entries) :
    child k' (es.put k v) = if keyId k = keyId k' then v else child k' es := by
  rw [child, get_put]
  split <;> rfl

theorem auto_child {es : Entries} (h : AutoL es) (k : Key) : Auto (child k es) := by
  rw [child]
  cases hg : es.get k with
  | none => exact auto_new
  | some v => exact h.get hg

theorem blocked_cons {k : Key} {p : List Key} {a : Bool} {es : Entries} :
    Blocked (fun q => leafAt q (.dict a es)) (k :: p) ↔ Blocked (fun q => leafAt q (child k es)) p := by
  constructor
  · rintro ⟨q, k', r, e, hq⟩
    cases q with
    | nil => simp [leafAt] at hq
    | cons k0 q =>
      simp only [List.cons_append, List.cons.injEq] at e
      rw [← e.1] at hq
      replace hq : leafAt (k :: q) (.dict a es) ≠ none := hq
      rw [leafAt_cons] at hq
      exact ⟨q, k', r, e.2, hq⟩
  · rintro ⟨q, k', r, e, hq⟩
    exact ⟨k :: q, k', r, by rw [e]; rfl, by
      show leafAt (k :: q) (.dict a es) ≠ none
      rwa [leafAt_cons]⟩

/-! ### Reading -/

/-- Reading raises exactly if a value is in the way, and stores nothing. -/
theorem getPath_spec : ∀ (p : List Key) {d : Val}, Auto d →
    (Blocked (fun q => leafAt q d) p → getPath p d = .error .typeError) ∧
    (¬ Blocked (fun q => leafAt q d) p → ∃ d' r, getPath p d = .ok (d', r) ∧ Auto d' ∧ (∀ q, leafAt q d' = leafAt q d) ∧
      (∀ q, leafAt q r = leafAt (p ++ q) d))
  | [], d, h => ⟨fun ⟨q, k, r, e, _⟩ => by simp at e, fun _ => ⟨d, d, rfl, h, fun _ => rfl, fun _ => rfl⟩⟩
  | k :: p, .leaf l, h => ⟨fun _ => rfl, fun hb => absurd ⟨[], k, p, rfl, by simp [leafAt]⟩ hb⟩
  | k :: p, .dict a es, h => by
    rw [Auto] at h
    obtain ⟨rfl, hes⟩ := h
    obtain ⟨i1, i2⟩ := getPath_spec p (auto_child hes k)
    rw [blocked_cons, getPath_cons]
    refine ⟨fun h => by rw [i1 h], fun h => ?_⟩
    obtain ⟨d', r, e, ha, hl, hr⟩ := i2 h
    rw [e]
    refine ⟨_, _, rfl, ⟨rfl, hes.put ha⟩, fun q => ?_, fun q => by rw [hr]; exact (leafAt_cons ..).symm⟩
    cases q with
    | nil => rfl
    | cons k' q =>
      rw [leafAt_cons, leafAt_cons, child_put]
      split
      · rename_i hk
        rw [hl, ← leafAt_cons k q true, ← leafAt_cons k' q true, leafAt_congr]
        simp [keysOf, hk]
      · rfl

/-! ### Writing -/

theorem setPath_spec : ∀ (p : List Key) {d v : Val}, Auto d → Auto v → p ≠ [] →
    (Blocked (fun q => leafAt q d) p → setPath p v d = .error .typeError) ∧
    (¬ Blocked (fun q => leafAt q d) p → ∃ d', setPath p v d = .ok d' ∧ Auto d' ∧ getPath p d' = .ok (d', v) ∧
      (∀ q, leafAt (p ++ q) d' = leafAt q v) ∧ (∀ q, ¬ keysOf p <+: keysOf q → leafAt q d' = leafAt q d))
  | [], _, _, _, _, h => absurd rfl h
  | k :: p, .leaf l, v, h, hv, _ =>
    ⟨fun _ => by unfold setPath; cases p <;> rfl, fun hb => absurd ⟨[], k, p, rfl, by simp [leafAt]⟩ hb⟩
  | [k], .dict a es, v, h, hv, _ => by
    rw [Auto] at h
    obtain ⟨rfl, hes⟩ := h
    refine ⟨fun ⟨q, k', r, e, hq⟩ => ?_, fun _ => ⟨_, rfl, ⟨rfl, hes.put hv⟩, ?_, fun q => ?_, fun q hq => ?_⟩⟩
    · cases q with
      | nil => simp [leafAt] at hq
      | cons k0 q => simp at e
    · have := get_put k k v es
      rw [if_pos rfl] at this
      rw [getPath_cons, child, this]
      simp only [Option.getD_some, getPath]
      rw [put_get _ this]
    · rw [List.singleton_append, leafAt_cons, child_put, if_pos rfl]
    · cases q with
      | nil => rfl
      | cons k' q =>
        rw [leafAt_cons, leafAt_cons, child_put, if_neg]
        intro e
        exact hq ⟨keysOf q, by simp [keysOf, e]⟩
  | k :: k1 :: p, .dict a es, v, h, hv, _ => by
    rw [Auto] at h
    obtain ⟨rfl, hes⟩ := h
    obtain ⟨i1, i2⟩ := setPath_spec (k1 :: p) (auto_child hes k) hv (by simp)
    rw [blocked_cons, setPath_cons]
    refine ⟨fun h => by rw [i1 h], fun h => ?_⟩
    obtain ⟨d', e, ha, hg, hl, hr⟩ := i2 h
    rw [e]
    refine ⟨_, rfl, ⟨rfl, hes.put ha⟩, ?_, fun q => ?_, fun q hq => ?_⟩
    · have := get_put k k d' es
      rw [if_pos rfl] at this
      rw [getPath_cons, child, this, Option.getD_some, hg]
      simp only []
      rw [put_get _ this]
    · rw [List.cons_append, leafAt_cons, child_put, if_pos rfl, hl]
    · cases q with
      | nil => rfl
      | cons k' q =>
        rw [leafAt_cons, leafAt_cons, child_put]
        split
        · rename_i hk
          rw [hr q fun hp => hq ?_, ← leafAt_cons k q true, ← leafAt_cons k' q true, leafAt_congr]
          · simp [keysOf, hk]
          · obtain ⟨t, ht⟩ := hp
            exact ⟨t, by simp only [keysOf, List.map_cons, List.cons_append, List.cons.injEq] at ht ⊢; exact ⟨hk, ht⟩⟩
        · rfl

/-! ### Any use -/

/-- Uses of a dictionary one after the other. -/
def exec : List Use → Val → Except PyErr Val
  | [], d => .ok d
  | .write p l :: us, d =>
    match setPath p (.leaf l) d with
    | .ok d' => exec us d'
    | .error e => .error e
  | .read p :: us, d =>
    match getPath p d with
    | .ok (d', _) => exec us d'
    | .error e => .error e

theorem exec_append : ∀ (us vs : List Use) (d : Val), exec (us ++ vs) d = match exec us d with
    | .ok d' => exec vs d'
    | .error e => .error e
  | [], _, _ => rfl
  | .write p l :: us, vs, d => by
    simp only [List.cons_append, exec]
    cases setPath p (.leaf l) d with
    | error e => rfl
    | ok d' => exact exec_append us vs d'
  | .read p :: us, vs, d => by
    simp only [List.cons_append, exec]
    cases getPath p d with
    | error e => rfl
    | ok d' => exact exec_append us vs d'.1

theorem exec_uses {us : List Use} {c : Stored} (h : Uses us c) :
    ∃ d, exec us new = .ok d ∧ Auto d ∧ ∀ q, leafAt q d = c q := by
  induction h with
  | start => exact ⟨new, rfl, auto_new, leafAt_new⟩
  | @write us c p l _ hp hb ih =>
    obtain ⟨d, e, ha, hl⟩ := ih
    have hc : (fun q => leafAt q d) = c := funext hl
    obtain ⟨-, i2⟩ := setPath_spec p (v := .leaf l) ha trivial hp
    obtain ⟨d', e', ha', -, h1, h2⟩ := i2 (by rw [hc]; exact hb)
    refine ⟨d', by rw [exec_append, e]; simp [exec, e'], ha', fun q => ?_⟩
    unfold stored
    split
    · rename_i hq
      rw [leafAt_congr hq]
      have := h1 []
      rwa [List.append_nil] at this
    · split
      · rename_i hq hpre
        have hlen : p.length ≤ q.length := by simpa [keysOf] using hpre.length_le
        have e2 : keysOf q = keysOf (p ++ q.drop p.length) := by
          rw [keysOf, keysOf, List.map_append, List.map_drop]
          obtain ⟨t, ht⟩ := hpre
          rw [show q.map keyId = p.map keyId ++ t from ht.symm]
          simp
        rw [leafAt_congr e2, h1]
        cases hd : q.drop p.length with
        | nil =>
          rw [hd, List.append_nil] at e2
          exact absurd e2 hq
        | cons => rfl
      · rename_i hq
        rw [h2 q hq, hl]
  | @read us c p _ hb ih =>
    obtain ⟨d, e, ha, hl⟩ := ih
    have hc : (fun q => leafAt q d) = c := funext hl
    obtain ⟨d', r, e', ha', h1, -⟩ := (getPath_spec p ha).2 (by rw [hc]; exact hb)
    exact ⟨d', by rw [exec_append, e]; simp [exec, e'], ha', fun q => by rw [h1, hl]⟩

/-- **C97.**  After any sequence of assignments and look-ups that do not go through a stored value, a look-up finds exactly
what was stored last: the value if there is one, otherwise a dictionary.  Looking up stores nothing. -/
theorem C97_history {us : List Use} {c : Stored} (h : Uses us c) :
    ∃ d, exec us new = .ok d ∧ ∀ p, ¬ Blocked c p → ∃ d' r, getPath p d = .ok (d', r) ∧
      (∀ l, r = .leaf l ↔ c p = some l) ∧ exec (us ++ [.read p]) new = .ok d' ∧ Uses (us ++ [.read p]) c := by
  obtain ⟨d, e, ha, hl⟩ := exec_uses h
  have hc : (fun q => leafAt q d) = c := funext hl
  refine ⟨d, e, fun p hb => ?_⟩
  obtain ⟨d', r, e', -, -, h2⟩ := (getPath_spec p ha).2 (by rw [hc]; exact hb)
  refine ⟨d', r, e', fun l => ?_, by rw [exec_append, e]; simp [exec, e'], .read h hb⟩
  have := h2 []
  rw [List.append_nil, hl] at this
  rw [← this]
  cases r with
  | leaf l' => simp [leafAt]
  | dict => simp [leafAt]

/-- **C97, exceptions.**  An assignment or look-up raises `TypeError` exactly if it goes through a stored value. -/
theorem C97_raises {us : List Use} {c : Stored} (h : Uses us c) (p : List Key) (hp : p ≠ []) (l : Leaf) :
    (Blocked c p → exec (us ++ [.write p l]) new = .error .typeError ∧ exec (us ++ [.read p]) new = .error .typeError) ∧
    (¬ Blocked c p → (∃ d, exec (us ++ [.write p l]) new = .ok d) ∧ ∃ d, exec (us ++ [.read p]) new = .ok d) := by
  obtain ⟨d, e, ha, hl⟩ := exec_uses h
  have hc : (fun q => leafAt q d) = c := funext hl
  constructor
  · intro hb
    rw [← hc] at hb
    constructor
    · rw [exec_append, e]
      simp [exec, (setPath_spec p (v := .leaf l) ha trivial hp).1 hb]
    · rw [exec_append, e]
      simp [exec, (getPath_spec p ha).1 hb]
  · intro hb
    obtain ⟨d1, h1, -⟩ := exec_uses (.write (l := l) h hp hb)
    obtain ⟨d2, h2, -⟩ := exec_uses (.read h hb)
    exact ⟨⟨d1, h1⟩, d2, h2⟩

/-- **C97, reading back.**  What was assigned, also a dictionary, is what is read, and reading it changes nothing. -/
theorem C97_read_back {us : List Use} {c : Stored} (h : Uses us c) {p : List Key} (hp : p ≠ []) (hb : ¬ Blocked c p)
    {v : Val} (hv : Auto v) : ∃ d d', exec us new = .ok d ∧ setPath p v d = .ok d' ∧ getPath p d' = .ok (d', v) := by
  obtain ⟨d, e, ha, hl⟩ := exec_uses h
  have hc : (fun q => leafAt q d) = c := funext hl
  obtain ⟨d', h1, -, h2, -⟩ := (setPath_spec p ha hv hp).2 (by rw [hc]; exact hb)
  exact ⟨d, d', e, h1, h2⟩

/-! ### Conversion -/

mutual
/-- All keys are strings, and no key occurs twice in a dictionary (as always in Python). -/
def StrKeys : Val → Prop
  | .leaf _ => True
  | .dict _ es => StrKeysL es

/-- The same for entries. -/
def StrKeysL : Entries → Prop
  | .nil => True
  | .cons k v rest => (∃ s, k = .str s) ∧ rest.get k = none ∧ StrKeys v ∧ StrKeysL rest
end

mutual
/-- Every dictionary in the tree is a plain one. -/
def Plain : Val → Prop
  | .leaf _ => True
  | .dict a es => a = false ∧ PlainL es

/-- The same for entries. -/
def PlainL : Entries → Prop
  | .nil => True
  | .cons _ v rest => Plain v ∧ PlainL rest
end

theorem PlainL.put {k : Key} {v : Val} {es : Entries} (h : PlainL es) (hv : Plain v) : PlainL (es.put k v) := by
  induction es using Entries.rec (motive_1 := fun _ => True) with
  | leaf => trivial
  | dict => trivial
  | nil => exact ⟨hv, trivial⟩
  | cons k0 v0 rest _ ih =>
    unfold PlainL at h
    unfold Entries.put
    split
    · exact ⟨hv, h.2⟩
    · exact ⟨h.1, ih h.2⟩

theorem PlainL.get {k : Key} {v : Val} {es : Entries} (h : PlainL es) (hg : es.get k = some v) : Plain v := by
  induction es using Entries.rec (motive_1 := fun _ => True) with
  | leaf => trivial
  | dict => trivial
  | nil => cases hg
  | cons k0 v0 rest _ ih =>
    unfold Entries.get at hg
    unfold PlainL at h
    split at hg
    · rw [← Option.some.inj hg]; exact h.1
    · exact ih h.2 hg

mutual
theorem toDict_plain : ∀ v : Val, Plain (toDict v)
  | .leaf _ => trivial
  | .dict _ es => ⟨rfl, readEntries_plain es .nil trivial⟩

theorem readEntries_plain : ∀ (es acc : Entries), PlainL acc → PlainL (readEntries es acc)
  | .nil, _, h => h
  | .cons k v rest, acc, h => by
    unfold readEntries
    exact readEntries_plain rest _ (h.put (toDict_plain v))
end

/-- What the entries give for a key, with string keys. -/
theorem readEntries_get : ∀ (es acc : Entries), StrKeysL es → ∀ k,
    (readEntries es acc).get k = match es.get k with
      | some v => some (toDict v)
      | none => acc.get k
  | .nil, _, _, _ => rfl
  | .cons k0 v rest, acc, h, k => by
    unfold StrKeysL at h
    obtain ⟨⟨s, rfl⟩, hn, -, hr⟩ := h
    rw [readEntries, readEntries_get rest _ hr k, get_put, Entries.get]
    simp only [jsonKey, same_iff]
    by_cases hk : keyId (Key.str s) = keyId k
    · rw [get_congr hk] at hn
      rw [hn]
      simp only [hk, if_true]
    · cases rest.get k <;> simp [hk]

theorem StrKeysL.get {k : Key} {v : Val} {es : Entries} (h : StrKeysL es) (hg : es.get k = some v) : StrKeys v := by
  induction es using Entries.rec (motive_1 := fun _ => True) with
  | leaf => trivial
  | dict => trivial
  | nil => cases hg
  | cons k0 v0 rest _ ih =>
    unfold Entries.get at hg
    unfold StrKeysL at h
    split at hg
    · rw [← Option.some.inj hg]; exact h.2.2.1
    · exact ih h.2.2.2 hg

/-- Looking for the keys one after the other, without making dictionaries. -/
def find : List Key → Val → Option Val
  | [], v => some v
  | _ :: _, .leaf _ => none
  | k :: ks, .dict _ es =>
    match es.get k with
    | some v => find ks v
    | none => none

theorem find_toDict : ∀ (p : List Key) {d : Val}, StrKeys d → find p (toDict d) = (find p d).map toDict
  | [], _, _ => rfl
  | _ :: _, .leaf _, _ => rfl
  | k :: p, .dict a es, h => by
    unfold StrKeys at h
    rw [toDict, find, find, readEntries_get es .nil h k]
    cases hg : es.get k with
    | none => rfl
    | some v => exact find_toDict p (h.get hg)

theorem getPath_plain : ∀ (p : List Key) {d : Val}, Plain d →
    (∀ v, find p d = some v → getPath p d = .ok (d, v)) ∧
    (find p d = none → getPath p d = .error .keyError ∨ getPath p d = .error .typeError)
  | [], d, _ => ⟨fun v h => by rw [find] at h; rw [← Option.some.inj h, getPath], fun h => nomatch h⟩
  | k :: p, .leaf l, _ => ⟨fun v h => (nomatch h), fun _ => .inr rfl⟩
  | k :: p, .dict a es, h => by
    rw [Plain] at h
    obtain ⟨rfl, hes⟩ := h
    rw [find, getPath]
    cases hg : es.get k with
    | none => exact ⟨fun v h => (nomatch h), fun _ => .inl rfl⟩
    | some w =>
      obtain ⟨i1, i2⟩ := getPath_plain p (hes.get hg)
      refine ⟨fun v hv => ?_, fun hv => ?_⟩
      · simp only [i1 v hv, put_get _ hg]
      · rcases i2 hv with e | e
        · exact .inl (by simp only [e])
        · exact .inr (by simp only [e])

/-- **C97, conversion.**  The conversion gives plain dictionaries all the way down.  If all keys are strings, it has the
same content: a value is found in it exactly where it was before, and a look-up of anything that was not there raises
and changes nothing. -/
theorem C97_convert_partial {d : Val} (hs : StrKeys d) (p : List Key) :
    Plain (toDict d) ∧ (∀ l, getPath p (toDict d) = .ok (toDict d, .leaf l) ↔ leafAt p d = some l) ∧
    (∀ v, find p d = some v → getPath p (toDict d) = .ok (toDict d, toDict v)) ∧
    (find p d = none → getPath p (toDict d) = .error .keyError ∨ getPath p (toDict d) = .error .typeError) := by
  obtain ⟨g1, g2⟩ := getPath_plain p (toDict_plain d)
  rw [find_toDict p hs] at g1 g2
  have hl : ∀ (p : List Key) (d : Val) l, leafAt p d = some l ↔ find p d = some (.leaf l) := by
    intro p
    induction p with
    | nil => intro d l; cases d <;> simp [leafAt, find]
    | cons k p ih =>
      intro d l
      cases d with
      | leaf => simp [leafAt, find]
      | dict a es =>
        rw [leafAt, find]
        cases es.get k with
        | none => simp
        | some v => exact ih v l
  refine ⟨toDict_plain d, fun l => ?_, fun v hv => g1 _ (by rw [hv]; rfl), fun hn => g2 (by rw [hn]; rfl)⟩
  rw [hl]
  cases hf : find p d with
  | none =>
    rcases g2 (by rw [hf]; rfl) with e | e <;> rw [e] <;> simp
  | some v =>
    rw [g1 _ (by rw [hf]; rfl)]
    cases v with
    | leaf l' => simp [toDict]
    | dict => simp [toDict]

theorem jsonKey_eq (k : Key) : jsonKey k = keyText k := by
  cases k with
  | str s => rfl
  | int i =>
    cases i with
    | ofNat n =>
      rw [jsonKey, if_neg (by simp), keyText, Wildcard.natStr_eq]
      rfl
    | negSucc n =>
      rw [jsonKey, if_pos (Int.negSucc_lt_zero n), keyText, Wildcard.natStr_eq]
      show _ = ("-" ++ (n + 1).repr).toList
      rw [String.toList_append]
      rfl
  | bool b => cases b <;> rfl
  | none => rfl

theorem readEntries_text (k : Key) : ∀ es acc : Entries, (readEntries es acc).get k =
    match (pairs es).reverse.find? fun e => k = .str (keyText e.1) with
    | some e => some (toDict e.2)
    | none => acc.get k
  | .nil, _ => rfl
  | .cons k0 v rest, acc => by
    rw [readEntries, readEntries_text k rest, pairs, List.reverse_cons, List.find?_append]
    cases (pairs rest).reverse.find? fun e => k = .str (keyText e.1) with
    | some e => rfl
    | none =>
      rw [get_put, jsonKey_eq, List.find?_singleton]
      have : keyId (.str (keyText k0)) = keyId k ↔ k = .str (keyText k0) := by
        cases k with
        | bool b => cases b <;> simp [keyId]
        | _ => simp [keyId, eq_comm]
      by_cases h : k = .str (keyText k0)
      · simp [h]
      · simp [this, h]

/-- **C97, conversion of any keys.**  What the converted dictionary holds under a string is what was last put under a key which
JSON writes as that string (a number in decimal notation, `true`, `false`, `null`), converted; it holds nothing under keys that
are not strings. -/
theorem C97_convert_keys (a : Bool) (es : Entries) : ∃ es', toDict (.dict a es) = .dict false es' ∧
    (∀ s, es'.get (.str s) = ((pairs es).reverse.find? fun e => s = keyText e.1).map fun e => toDict e.2) ∧
    ∀ k, (∀ s, k ≠ .str s) → es'.get k = none := by
  refine ⟨_, rfl, fun s => ?_, fun k hk => ?_⟩
  · rw [readEntries_text]
    simp only [Key.str.injEq]
    cases (pairs es).reverse.find? fun e => s = keyText e.1 <;> rfl
  · rw [readEntries_text, List.find?_eq_none.2]
    · rfl
    · intro e _
      simpa using hk _

-- The keys `0`, `-12`, `True` and `None`.
example : ([.int 0, .int (-12), .bool true, .none] : List Key).map keyText =
    ["0".toList, "-12".toList, "true".toList, "null".toList] := by decide +kernel

theorem StrKeysL.put {k : Key} {v : Val} {es : Entries} (h : StrKeysL es) (hk : ∃ s, k = .str s) (hv : StrKeys v) :
    StrKeysL (es.put k v) := by
  induction es using Entries.rec (motive_1 := fun _ => True) with
  | leaf => trivial
  | dict => trivial
  | nil => exact ⟨hk, rfl, hv, trivial⟩
  | cons k0 v0 rest _ ih =>
    unfold StrKeysL at h
    unfold Entries.put
    split
    · exact ⟨h.1, h.2.1, hv, h.2.2.2⟩
    · rename_i hs
      refine ⟨h.1, ?_, h.2.2.1, ih h.2.2.2⟩
      rw [get_put, if_neg, h.2.1]
      exact fun e => hs (same_iff.2 e.symm)

theorem strKeys_child {es : Entries} (h : StrKeysL es) (k : Key) : StrKeys (child k es) := by
  rw [child]
  cases hg : es.get k with
  | none => exact trivial
  | some v => exact h.get hg

/-- The keys of a use are strings. -/
def StrUse : Use → Prop
  | .write p _ => ∀ k ∈ p, ∃ s, k = .str s
  | .read p => ∀ k ∈ p, ∃ s, k = .str s

theorem getPath_strKeys : ∀ (p : List Key) {d d' r : Val}, (∀ k ∈ p, ∃ s, k = .str s) → Auto d → StrKeys d →
    getPath p d = .ok (d', r) → StrKeys d'
  | [], d, d', r, _, _, hs, h => by
    rw [getPath, Except.ok.injEq, Prod.mk.injEq] at h
    rw [← h.1]; exact hs
  | k :: p, .leaf l, d', r, _, _, _, h => nomatch h
  | k :: p, .dict a es, d', r, hp, ha, hs, h => by
    rw [Auto] at ha
    obtain ⟨rfl, hes⟩ := ha
    rw [StrKeys] at hs
    rw [getPath_cons] at h
    split at h
    · rename_i v' r' e
      rw [Except.ok.injEq, Prod.mk.injEq] at h
      rw [← h.1, StrKeys]
      exact hs.put (hp k (by simp)) (getPath_strKeys p (fun k hk => hp k (by simp [hk])) (auto_child hes k)
        (strKeys_child hs k) e)
    · cases h

theorem setPath_strKeys : ∀ (p : List Key) {d d' v : Val}, (∀ k ∈ p, ∃ s, k = .str s) → Auto d → StrKeys d → StrKeys v →
    setPath p v d = .ok d' → StrKeys d'
  | [], d, d', v, _, _, _, _, h => by unfold setPath at h; cases h
  | k :: p, .leaf l, d', v, _, _, _, _, h => by unfold setPath at h; cases p <;> cases h
  | [k], .dict a es, d', v, hp, ha, hs, hv, h => by
    rw [setPath, Except.ok.injEq] at h
    rw [StrKeys] at hs
    rw [← h, StrKeys]
    exact hs.put (hp k (by simp)) hv
  | k :: k1 :: p, .dict a es, d', v, hp, ha, hs, hv, h => by
    rw [Auto] at ha
    obtain ⟨rfl, hes⟩ := ha
    rw [StrKeys] at hs
    rw [setPath_cons] at h
    split at h
    · rename_i v' e
      rw [Except.ok.injEq] at h
      rw [← h, StrKeys]
      exact hs.put (hp k (by simp)) (setPath_strKeys (k1 :: p) (fun k hk => hp k (by simp [hk])) (auto_child hes k)
        (strKeys_child hs k) hv e)
    · cases h

theorem exec_strKeys {us : List Use} {c : Stored} (h : Uses us c) (hu : ∀ u ∈ us, StrUse u) :
    ∀ d, exec us new = .ok d → StrKeys d := by
  induction h with
  | start =>
    intro d hd
    rw [exec, Except.ok.injEq] at hd
    rw [← hd]; exact trivial
  | @write us c p l h' hp hb ih =>
    intro d hd
    obtain ⟨d0, e, ha, -⟩ := exec_uses h'
    rw [exec_append, e] at hd
    simp only [exec] at hd
    split at hd
    · rename_i d1 e1
      cases hd
      exact setPath_strKeys p (hu (.write p l) (by simp)) ha (ih (fun u hu' => hu u (by simp [hu'])) d0 e)
        (v := .leaf l) trivial e1
    · cases hd
  | @read us c p h' hb ih =>
    intro d hd
    obtain ⟨d0, e, ha, -⟩ := exec_uses h'
    rw [exec_append, e] at hd
    simp only [exec] at hd
    split at hd
    · rename_i d1 r e1
      cases hd
      exact getPath_strKeys p (hu (.read p) (by simp)) ha (ih (fun u hu' => hu u (by simp [hu'])) d0 e) e1
    · cases hd

/-- **C97, conversion of what was stored.**  After any sequence of assignments and look-ups with strings as keys, the
plain dictionary has exactly the stored values. -/
theorem C97_convert_history_partial {us : List Use} {c : Stored} (h : Uses us c) (hu : ∀ u ∈ us, StrUse u) :
    ∃ d, exec us new = .ok d ∧ Plain (toDict d) ∧
      ∀ p l, getPath p (toDict d) = .ok (toDict d, .leaf l) ↔ c p = some l := by
  obtain ⟨d, e, -, hl⟩ := exec_uses h
  have hs := exec_strKeys h hu d e
  exact ⟨d, e, toDict_plain d, fun p l => by rw [← hl]; exact (C97_convert_partial hs p).2.1 l⟩

/-- **C97, conversion with other keys.**  Numbers become strings: the stored value is not found any more under its key,
and one of two values stored under `1` and `"1"` is lost. -/
theorem C97_convert_numbers : ∃ d, exec [.write [.int 1] (.num 10), .write [.str ['1']] (.num 20)] new = .ok d ∧
    leafAt [.int 1] d = some (.num 10) ∧ leafAt [.str ['1']] d = some (.num 20) ∧
    getPath [.int 1] (toDict d) = .error .keyError ∧
    toDict d = .dict false (.cons (.str ['1']) (.leaf (.num 20)) .nil) := by
  refine ⟨_, rfl, rfl, rfl, rfl, rfl⟩

/-- Non-vacuity: `d['a']['b'] = 1; d['x']; d[True] = 2; d[1] = 3`, after which `d['x']['y']` is a new dictionary, `d[1]` is
`3` and `d['a']['b']['c']` raises. -/
example : ∃ c, Uses [.write [.str ['a'], .str ['b']] (.num 1), .read [.str ['x']], .write [.bool true] (.num 2),
      .write [.int 1] (.num 3)] c ∧ ¬ Blocked c [.str ['x'], .str ['y']] ∧ c [.str ['x'], .str ['y']] = none ∧
      c [.bool true] = some (.num 3) ∧ Blocked c [.str ['a'], .str ['b'], .str ['c']] := by
  have free : ∀ (c : Stored) (k : Key), c [] = none → ¬ Blocked c [k] := by
    rintro c k h ⟨q, k', r, e, hq⟩
    cases q with
    | nil => exact hq h
    | cons => simp at e
  have u1 := Uses.write (p := [.str ['a'], .str ['b']]) (l := .num 1) .start (by simp)
    (by rintro ⟨q, k, r, e, hq⟩; exact hq rfl)
  have u2 := Uses.read (p := [.str ['x']]) u1 (free _ _ (by simp [stored, keysOf]))
  have u3 := Uses.write (p := [.bool true]) (l := .num 2) u2 (by simp) (free _ _ (by simp [stored, keysOf]))
  have u4 := Uses.write (p := [.int 1]) (l := .num 3) u3 (by simp) (free _ _ (by simp [stored, keysOf]))
  refine ⟨_, u4, ?_, by simp [stored, keysOf, keyId], by simp [stored, keysOf, keyId], ?_⟩
  · rintro ⟨q, k, r, e, hq⟩
    match q with
    | [] => simp [stored, keysOf] at hq
    | [k0] =>
      simp only [List.cons_append, List.nil_append, List.cons.injEq] at e
      rw [← e.1] at hq
      simp [stored, keysOf, keyId] at hq
    | [_, _] => simp at e
    | _ :: _ :: _ :: _ => simp at e
  · exact ⟨[.str ['a'], .str ['b']], .str ['c'], [], rfl, by simp [stored, keysOf, keyId]⟩

/-- Non-vacuity: `d['a']['b'] = 1; d['x']['y']` has only strings as keys, and is converted to `{'a': {'b': 1}, 'x': {'y': {}}}`. -/
example : ∃ c, Uses [.write [.str ['a'], .str ['b']] (.num 1), .read [.str ['x'], .str ['y']]] c ∧
    (∀ u ∈ [Use.write [.str ['a'], .str ['b']] (.num 1), .read [.str ['x'], .str ['y']]], StrUse u) ∧
    c [.str ['a'], .str ['b']] = some (.num 1) ∧
    ∃ d, exec [.write [.str ['a'], .str ['b']] (.num 1), .read [.str ['x'], .str ['y']]] new = .ok d ∧
      toDict d = .dict false (.cons (.str ['a']) (.dict false (.cons (.str ['b']) (.leaf (.num 1)) .nil))
        (.cons (.str ['x']) (.dict false (.cons (.str ['y']) (.dict false .nil) .nil)) .nil)) := by
  have u1 := Uses.write (p := [.str ['a'], .str ['b']]) (l := .num 1) .start (by simp)
    (by rintro ⟨q, k, r, e, hq⟩; exact hq rfl)
  refine ⟨_, Uses.read (p := [.str ['x'], .str ['y']]) u1 ?_, by simp [StrUse], by simp [stored, keysOf], _, rfl, rfl⟩
  rintro ⟨q, k, r, e, hq⟩
  match q with
  | [] => simp [stored, keysOf] at hq
  | [k0] =>
    simp only [List.cons_append, List.nil_append, List.cons.injEq] at e
    rw [← e.1] at hq
    simp [stored, keysOf, keyId] at hq
  | [_, _] => simp at e
  | _ :: _ :: _ :: _ => simp at e

end B3d.DefaultDict
