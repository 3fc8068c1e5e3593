import Verif.Model.Hierarchy
import Verif.Proofs.Str
import Mathlib.Data.List.Basic
import Mathlib.Data.List.Nodup
import Mathlib.Tactic.Common

set_option linter.unusedSectionVars false

namespace B3d.Hier
variable {P : Type}

/-- Structural invariant of every reachable heap. -/
structure WF (h : Heap P) : Prop where
  name : ∀ (i : Nat) (o : Obj P), h[i]? = some o → PATH_SEP ∉ o.name
  nodup : ∀ (i : Nat) (o : Obj P), h[i]? = some o → (o.children.map Prod.fst).Nodup
  child : ∀ (i : Nat) (o : Obj P) (k : Str) (j : Nat), h[i]? = some o → (k, j) ∈ o.children →
    ∃ oj : Obj P, h[j]? = some oj ∧ oj.name = k ∧ o.kind.rank = oj.kind.rank + 1
  parent : ∀ (i : Nat) (o : Obj P) (p : Nat), h[i]? = some o → o.parent = some p →
    ∃ op : Obj P, h[p]? = some op ∧ op.kind.rank = o.kind.rank + 1

/-- Every listed child points back to the container listing it. -/
def ParentOK (h : Heap P) : Prop :=
  ∀ (i : Nat) (o : Obj P) (k : Str) (j : Nat), h[i]? = some o → (k, j) ∈ o.children → ∃ oj : Obj P, h[j]? = some oj ∧ oj.parent = some i

theorem WF.nil : WF ([] : Heap P) := by
  constructor <;> intro i o <;> simp

theorem ParentOK.nil : ParentOK ([] : Heap P) := by
  intro i o k j h; simp at h

/-- Heap after a successful `add`. -/
def added (h : Heap P) (c x : Nat) (C X : Obj P) : Heap P :=
  (h.set x { X with parent := some c }).set c { C with children := C.children ++ [(X.name, x)] }

theorem added_get {h : Heap P} {c x : Nat} {C X : Obj P} (hc : h[c]? = some C)
    (hx : h[x]? = some X) (hne : c ≠ x) (i : Nat) :
    (added h c x C X)[i]? =
      if i = c then some { C with children := C.children ++ [(X.name, x)] }
      else if i = x then some { X with parent := some c } else h[i]? := by
  unfold added
  have hcl : c < h.length := (List.getElem?_eq_some_iff.1 hc).1
  have hxl : x < h.length := (List.getElem?_eq_some_iff.1 hx).1
  rw [List.getElem?_set, List.getElem?_set]
  simp only [List.length_set]
  by_cases h1 : i = c
  · subst h1; simp [hcl]
  · have h1' : ¬ c = i := fun e => h1 e.symm
    by_cases h2 : i = x
    · subst h2; simp [h1, h1', hxl]
    · have h2' : ¬ x = i := fun e => h2 e.symm
      simp [h1, h1', h2, h2']

/-- The outcomes of `add`. -/
theorem add_cases (h : Heap P) (c x : Nat) :
    (∃ e, add h c x = (h, .error e)) ∨
    (∃ C X : Obj P, h[c]? = some C ∧ h[x]? = some X ∧ C.kind.rank = X.kind.rank + 1 ∧
      X.name ∉ C.children.map Prod.fst ∧ c ≠ x ∧ add h c x = (added h c x C X, .ok ())) := by
  unfold add
  cases hc : h[c]? with
  | none => simp
  | some C =>
    cases hx : h[x]? with
    | none => simp
    | some X =>
      simp only []
      by_cases h1 : C.kind.rank = X.kind.rank + 1
      · by_cases h2 : X.name ∈ C.children.map Prod.fst
        · left; simp only [h1, ne_eq, not_true_eq_false, if_false, h2, if_true]; exact ⟨_, rfl⟩
        · right
          have hne : c ≠ x := by
            rintro rfl
            rw [hc] at hx; cases hx; omega
          refine ⟨C, X, rfl, rfl, h1, h2, hne, ?_⟩
          simp only [h1, ne_eq, not_true_eq_false, if_false, h2]
          rfl
      · left; simp only [ne_eq, h1, not_false_eq_true, if_true]; exact ⟨_, rfl⟩

theorem WF.added {h : Heap P} (w : WF h) {c x : Nat} {C X : Obj P} (hc : h[c]? = some C)
    (hx : h[x]? = some X) (hr : C.kind.rank = X.kind.rank + 1)
    (hn : X.name ∉ C.children.map Prod.fst) (hne : c ≠ x) : WF (added h c x C X) := by
  -- every object keeps kind and name
  have keep : ∀ (j : Nat) (oj : Obj P), h[j]? = some oj → ∃ oj' : Obj P, (Hier.added h c x C X)[j]? = some oj' ∧
      oj'.name = oj.name ∧ oj'.kind = oj.kind := by
    intro j oj hj
    rw [added_get hc hx hne]
    by_cases h1 : j = c
    · subst h1; rw [hc] at hj; cases hj; simp
    · by_cases h2 : j = x
      · subst h2; rw [hx] at hj; cases hj; simp [h1]
      · exact ⟨oj, by simp [h1, h2, hj], rfl, rfl⟩
  constructor
  · intro i o hi
    rw [added_get hc hx hne] at hi
    split at hi
    · cases hi; exact w.name c C hc
    · split at hi
      · cases hi; exact w.name x X hx
      · exact w.name i o hi
  · intro i o hi
    rw [added_get hc hx hne] at hi
    split at hi
    · cases hi
      simp only [List.map_append, List.map_cons, List.map_nil]
      rw [List.nodup_append]
      refine ⟨w.nodup c C hc, by simp, ?_⟩
      intro a ha b hb
      simp only [List.mem_singleton] at hb
      subst hb
      intro e; subst e; exact hn ha
    · split at hi
      · cases hi; exact w.nodup x X hx
      · exact w.nodup i o hi
  · intro i o k j hi hk
    rw [added_get hc hx hne] at hi
    split at hi
    · cases hi
      simp only [List.mem_append, List.mem_singleton, Prod.mk.injEq] at hk
      rcases hk with hk | ⟨rfl, rfl⟩
      · obtain ⟨oj, h1, h2, h3⟩ := w.child c C k j hc hk
        obtain ⟨oj', h4, h5, h6⟩ := keep j oj h1
        exact ⟨oj', h4, by rw [h5, h2], by rw [h6]; exact h3⟩
      · obtain ⟨oj', h4, h5, h6⟩ := keep j X hx
        exact ⟨oj', h4, h5, by rw [h6]; exact hr⟩
    · split at hi
      · cases hi
        obtain ⟨oj, h1, h2, h3⟩ := w.child x X k j hx hk
        obtain ⟨oj', h4, h5, h6⟩ := keep j oj h1
        exact ⟨oj', h4, by rw [h5, h2], by rw [h6]; exact h3⟩
      · obtain ⟨oj, h1, h2, h3⟩ := w.child i o k j hi hk
        obtain ⟨oj', h4, h5, h6⟩ := keep j oj h1
        exact ⟨oj', h4, by rw [h5, h2], by rw [h6]; exact h3⟩
  · intro i o p hi hp
    rw [added_get hc hx hne] at hi
    split at hi
    · cases hi
      obtain ⟨op, h1, h2⟩ := w.parent c C p hc hp
      obtain ⟨op', h4, h5, h6⟩ := keep p op h1
      exact ⟨op', h4, by rw [h6]; exact h2⟩
    · split at hi
      · cases hi
        simp only [Option.some.injEq] at hp
        subst hp
        obtain ⟨oj', h4, h5, h6⟩ := keep c C hc
        exact ⟨oj', h4, by rw [h6]; exact hr⟩
      · obtain ⟨op, h1, h2⟩ := w.parent i o p hi hp
        obtain ⟨op', h4, h5, h6⟩ := keep p op h1
        exact ⟨op', h4, by rw [h6]; exact h2⟩

theorem WF.add {h : Heap P} (w : WF h) (c x : Nat) : WF (add h c x).1 := by
  rcases add_cases h c x with ⟨e, he⟩ | ⟨C, X, hc, hx, hr, hn, hne, he⟩
  · rw [he]; exact w
  · rw [he]; exact w.added hc hx hr hn hne

theorem WF.addAll (c : Nat) : ∀ (xs : List Nat) {h : Heap P}, WF h → WF (addAll h c xs).1 := by
  intro xs
  induction xs with
  | nil => intro h w; exact w
  | cons x xs ih =>
    intro h w
    have w' := w.add c x
    unfold Hier.addAll
    cases ha : Hier.add h c x with
    | mk h' r =>
      rw [ha] at w'
      cases r with
      | ok u => exact ih w'
      | error e => exact w'

theorem alloc_cases (h : Heap P) (kind : Kind) (name : Str) (pts : List P) (geom : Option PyErr) :
    (∃ e, alloc h kind name pts geom = (h, .error e)) ∨
    (PATH_SEP ∉ name ∧ geom = none ∧
      alloc h kind name pts geom = (h ++ [⟨kind, name, none, [], pts⟩], .ok h.length)) := by
  unfold alloc validateName
  cases geom with
  | some e => exact Or.inl ⟨e, rfl⟩
  | none =>
    by_cases hn : PATH_SEP ∈ name
    · simp [hn]
    · right; simp [hn]

theorem getElem?_concat {α : Type} (l : List α) (a : α) (i : Nat) :
    (l ++ [a])[i]? = if i = l.length then some a else l[i]? := by
  by_cases h : i < l.length
  · rw [List.getElem?_append_left h, if_neg (by omega)]
  · by_cases h2 : i = l.length
    · subst h2; simp
    · rw [if_neg h2, List.getElem?_eq_none (by simp; omega), List.getElem?_eq_none (by omega)]

theorem WF.append {h : Heap P} (w : WF h) (o : Obj P) (hn : PATH_SEP ∉ o.name)
    (hc : o.children = []) (hp : o.parent = none) : WF (h ++ [o]) := by
  have keep : ∀ (j : Nat) (oj : Obj P), h[j]? = some oj → (h ++ [o])[j]? = some oj := by
    intro j oj hj
    rw [getElem?_concat, if_neg]
    · exact hj
    · have := (List.getElem?_eq_some_iff.1 hj).1; omega
  constructor
  · intro i o' hi
    rw [getElem?_concat] at hi
    split at hi
    · cases hi; exact hn
    · exact w.name i o' hi
  · intro i o' hi
    rw [getElem?_concat] at hi
    split at hi
    · cases hi; rw [hc]; exact List.nodup_nil
    · exact w.nodup i o' hi
  · intro i o' k j hi hk
    rw [getElem?_concat] at hi
    split at hi
    · cases hi; rw [hc] at hk; cases hk
    · obtain ⟨oj, h1, h2⟩ := w.child i o' k j hi hk
      exact ⟨oj, keep j oj h1, h2⟩
  · intro i o' p hi hp'
    rw [getElem?_concat] at hi
    split at hi
    · cases hi; rw [hp] at hp'; cases hp'
    · obtain ⟨oj, h1, h2⟩ := w.parent i o' p hi hp'
      exact ⟨oj, keep p oj h1, h2⟩

theorem WF.construct {h : Heap P} (w : WF h) (kind : Kind) (name : Str) (pts : List P)
    (geom : Option PyErr) (children : List Nat) :
    WF (construct h kind name pts geom children).1 := by
  unfold Hier.construct
  rcases alloc_cases h kind name pts geom with ⟨e, he⟩ | ⟨hn, _, he⟩
  · rw [he]; exact w
  · rw [he]
    simp only []
    have w1 : WF (h ++ [⟨kind, name, none, [], pts⟩]) := w.append _ hn rfl rfl
    have w2 := WF.addAll h.length children w1
    cases ha : Hier.addAll (h ++ [⟨kind, name, none, [], pts⟩]) h.length children with
    | mk h' r => rw [ha] at w2; cases r <;> exact w2

/-- Heap after the deletion of a key. -/
def removed (h : Heap P) (c : Nat) (C : Obj P) (key : Str) : Heap P :=
  h.set c { C with children := C.children.filter (fun kv => kv.1 ≠ key) }

theorem removed_get {h : Heap P} {c : Nat} {C : Obj P} (hc : h[c]? = some C) (key : Str) (i : Nat) :
    (removed h c C key)[i]? =
      if i = c then some { C with children := C.children.filter (fun kv => kv.1 ≠ key) }
      else h[i]? := by
  unfold removed
  have hcl : c < h.length := (List.getElem?_eq_some_iff.1 hc).1
  rw [List.getElem?_set]
  by_cases h1 : i = c
  · subst h1; simp [hcl]
  · have h1' : ¬ c = i := fun e => h1 e.symm
    simp [h1, h1']

theorem WF.removed {h : Heap P} (w : WF h) {c : Nat} {C : Obj P} (hc : h[c]? = some C)
    (key : Str) : WF (removed h c C key) := by
  have keep : ∀ (j : Nat) (oj : Obj P), h[j]? = some oj → ∃ oj' : Obj P, (Hier.removed h c C key)[j]? = some oj' ∧
      oj'.name = oj.name ∧ oj'.kind = oj.kind := by
    intro j oj hj
    rw [removed_get hc]
    by_cases h1 : j = c
    · subst h1; rw [hc] at hj; cases hj; simp
    · exact ⟨oj, by simp [h1, hj], rfl, rfl⟩
  constructor
  · intro i o hi
    rw [removed_get hc] at hi
    split at hi
    · cases hi; exact w.name c C hc
    · exact w.name i o hi
  · intro i o hi
    rw [removed_get hc] at hi
    split at hi
    · cases hi
      exact (w.nodup c C hc).sublist (List.Sublist.map _ List.filter_sublist)
    · exact w.nodup i o hi
  · intro i o k j hi hk
    rw [removed_get hc] at hi
    split at hi
    · cases hi
      obtain ⟨oj, h1, h2, h3⟩ := w.child c C k j hc (List.mem_filter.1 hk).1
      obtain ⟨oj', h4, h5, h6⟩ := keep j oj h1
      exact ⟨oj', h4, by rw [h5, h2], by rw [h6]; exact h3⟩
    · obtain ⟨oj, h1, h2, h3⟩ := w.child i o k j hi hk
      obtain ⟨oj', h4, h5, h6⟩ := keep j oj h1
      exact ⟨oj', h4, by rw [h5, h2], by rw [h6]; exact h3⟩
  · intro i o p hi hp
    rw [removed_get hc] at hi
    split at hi
    · cases hi
      obtain ⟨op, h1, h2⟩ := w.parent c C p hc hp
      obtain ⟨op', h4, h5, h6⟩ := keep p op h1
      exact ⟨op', h4, by rw [h6]; exact h2⟩
    · obtain ⟨op, h1, h2⟩ := w.parent i o p hi hp
      obtain ⟨op', h4, h5, h6⟩ := keep p op h1
      exact ⟨op', h4, by rw [h6]; exact h2⟩

theorem WF.replace {h : Heap P} (w : WF h) (c : Nat) (old : Str) (news : List Nat) :
    WF (replace h c old news).1 := by
  unfold Hier.replace
  cases hc : h[c]? with
  | none => exact w
  | some C =>
    simp only []
    split
    · exact w
    · split
      · exact WF.addAll c news (w.removed hc old)
      · exact w

theorem WF.opExec {h : Heap P} (w : WF h) (op : Op P) : WF (op.exec h) := by
  cases op with
  | construct => exact w.construct ..
  | add => exact w.add ..
  | replacePolygon => exact w.replace ..
  | replaceWall => exact w.replace ..

theorem WF.foldl (ops : List (Op P)) : ∀ {h : Heap P}, WF h → WF (ops.foldl Op.exec h) := by
  induction ops with
  | nil => intro h w; exact w
  | cons op ops ih => intro h w; exact ih (w.opExec op)

theorem WF.exec (ops : List (Op P)) : WF (exec ops) := WF.foldl ops WF.nil

/-! ### Parent pointers -/

/-- `x` is not listed in a container other than `c`. -/
def NotElsewhere (h : Heap P) (c x : Nat) : Prop :=
  ∀ (i : Nat) (o : Obj P) (k : Str), h[i]? = some o → (k, x) ∈ o.children → i = c

theorem ParentOK.added {h : Heap P} (_w : WF h) (q : ParentOK h) {c x : Nat} {C X : Obj P}
    (hc : h[c]? = some C) (hx : h[x]? = some X) (hne : c ≠ x)
    (hel : NotElsewhere h c x) : ParentOK (added h c x C X) := by
  intro i o k j hi hk
  have key : ∀ (i : Nat) (o : Obj P), h[i]? = some o → (k, j) ∈ o.children →
      ∃ oj : Obj P, (Hier.added h c x C X)[j]? = some oj ∧ oj.parent = some i := by
    intro i' o' hi' hk'
    obtain ⟨oj, h1, h2⟩ := q i' o' k j hi' hk'
    rw [added_get hc hx hne]
    by_cases e1 : j = c
    · rw [if_pos e1]; rw [e1, hc] at h1; cases h1; exact ⟨_, rfl, h2⟩
    · rw [if_neg e1]
      by_cases e2 : j = x
      · rw [if_pos e2]
        have e3 : i' = c := hel i' o' k hi' (by rw [← e2]; exact hk')
        exact ⟨_, rfl, by rw [e3]⟩
      · rw [if_neg e2]; exact ⟨oj, h1, h2⟩
  rw [added_get hc hx hne] at hi
  split at hi
  next e =>
    cases hi
    subst e
    simp only [List.mem_append, List.mem_singleton, Prod.mk.injEq] at hk
    rcases hk with hk | ⟨rfl, rfl⟩
    · exact key i C hc hk
    · rw [added_get hc hx hne, if_neg (fun e => hne e.symm), if_pos rfl]
      exact ⟨_, rfl, rfl⟩
  next =>
    split at hi
    next e => cases hi; subst e; exact key i X hx hk
    next => exact key i o hi hk

theorem ParentOK.removed {h : Heap P} (q : ParentOK h) {c : Nat} {C : Obj P}
    (hc : h[c]? = some C) (key : Str) : ParentOK (removed h c C key) := by
  intro i o k j hi hk
  have main : ∀ (i : Nat) (o : Obj P), h[i]? = some o → (k, j) ∈ o.children →
      ∃ oj : Obj P, (Hier.removed h c C key)[j]? = some oj ∧ oj.parent = some i := by
    intro i o hi hk
    obtain ⟨oj, h1, h2⟩ := q i o k j hi hk
    rw [removed_get hc]
    by_cases e1 : j = c
    · rw [if_pos e1]; rw [e1, hc] at h1; cases h1; exact ⟨_, rfl, h2⟩
    · rw [if_neg e1]; exact ⟨oj, h1, h2⟩
  rw [removed_get hc] at hi
  split at hi
  next e => cases hi; subst e; exact main i C hc (List.mem_filter.1 hk).1
  next => exact main i o hi hk

theorem ParentOK.append {h : Heap P} (q : ParentOK h) (o : Obj P) (hc : o.children = []) :
    ParentOK (h ++ [o]) := by
  intro i o' k j hi hk
  rw [getElem?_concat] at hi
  split at hi
  · cases hi; rw [hc] at hk; cases hk
  · obtain ⟨oj, h1, h2⟩ := q i o' k j hi hk
    refine ⟨oj, ?_, h2⟩
    rw [getElem?_concat, if_neg]
    · exact h1
    · have := (List.getElem?_eq_some_iff.1 h1).1; omega

/-- Adding to `c` does not make an object listed elsewhere. -/
theorem NotElsewhere.add {h : Heap P} {c x y : Nat} (hn : NotElsewhere h c y) :
    NotElsewhere (add h c x).1 c y := by
  rcases add_cases h c x with ⟨e, he⟩ | ⟨C, X, hc, hx, hr, hn', hne, he⟩
  · rw [he]; exact hn
  · rw [he]
    intro i o k hi hk
    rw [added_get hc hx hne] at hi
    split at hi
    next e => exact e
    next =>
      split at hi
      next e => cases hi; subst e; exact hn i X k hx hk
      next => exact hn i o k hi hk

theorem ParentOK.addAll (c : Nat) : ∀ (xs : List Nat) {h : Heap P}, WF h → ParentOK h →
    (∀ x ∈ xs, NotElsewhere h c x) → ParentOK (addAll h c xs).1 := by
  intro xs
  induction xs with
  | nil => intro h _ q _; exact q
  | cons x xs ih =>
    intro h w q hel
    have w' := w.add c x
    have hel' : ∀ y ∈ xs, NotElsewhere (Hier.add h c x).1 c y :=
      fun y hy => (hel y (List.mem_cons_of_mem _ hy)).add
    have q' : ParentOK (Hier.add h c x).1 := by
      rcases add_cases h c x with ⟨e, he⟩ | ⟨C, X, hc, hx, hr, hn, hne, he⟩
      · rw [he]; exact q
      · rw [he]; exact q.added w hc hx hne (hel x (by simp))
    unfold Hier.addAll
    cases ha : Hier.add h c x with
    | mk h' r =>
      rw [ha] at w' q' hel'
      cases r with
      | ok u => exact ih w' q' hel'
      | error e => exact q'

/-- Calls that do not put one object into two containers: every object handed over is not listed
in a container other than the target. -/
def Op.Linear (h : Heap P) : Op P → Prop
  | .construct _ _ _ _ children => ∀ x ∈ children, NotElsewhere h h.length x
  | .add c x => NotElsewhere h c x
  | .replacePolygon c _ news => ∀ x ∈ news, NotElsewhere h c x
  | .replaceWall c _ new => NotElsewhere h c new

/-- All calls of a history are `Linear` in the state in which they happen. -/
def LinearFrom : Heap P → List (Op P) → Prop
  | _, [] => True
  | h, op :: ops => op.Linear h ∧ LinearFrom (op.exec h) ops

theorem ParentOK.opExec {h : Heap P} (w : WF h) (q : ParentOK h) (op : Op P)
    (hl : op.Linear h) : ParentOK (op.exec h) := by
  have hrep : ∀ c old (news : List Nat), (∀ x ∈ news, NotElsewhere h c x) →
      ParentOK (Hier.replace h c old news).1 := by
    intro c old news hl
    unfold Hier.replace
    cases hc : h[c]? with
    | none => exact q
    | some C =>
      simp only []
      split
      · exact q
      · split
        · refine ParentOK.addAll c news (w.removed hc old) (q.removed hc old) ?_
          intro x hx i o k hi hk
          change (Hier.removed h c C old)[i]? = some o at hi
          rw [removed_get hc] at hi
          split at hi
          next e => exact e
          next => exact hl x hx i o k hi hk
        · exact q
  cases op with
  | construct kind name pts geom children =>
    show ParentOK (Hier.construct h kind name pts geom children).1
    unfold Hier.construct
    rcases alloc_cases h kind name pts geom with ⟨e, he⟩ | ⟨hn, _, he⟩
    · rw [he]; exact q
    · rw [he]
      simp only []
      have w1 : WF (h ++ [⟨kind, name, none, [], pts⟩]) := w.append _ hn rfl rfl
      have q1 : ParentOK (h ++ [⟨kind, name, none, [], pts⟩]) := q.append _ rfl
      have q2 := ParentOK.addAll h.length children w1 q1 (by
        intro x hx i o k hi hk
        rw [getElem?_concat] at hi
        split at hi
        · next e => exact e
        · exact hl x hx i o k hi hk)
      cases ha : Hier.addAll (h ++ [⟨kind, name, none, [], pts⟩]) h.length children with
      | mk h' r => rw [ha] at q2; cases r <;> exact q2
  | add c x =>
    show ParentOK (Hier.add h c x).1
    rcases add_cases h c x with ⟨e, he⟩ | ⟨C, X, hc, hx, hr, hn, hne, he⟩
    · rw [he]; exact q
    · rw [he]; exact q.added w hc hx hne hl
  | replacePolygon c old news => exact hrep c old news hl
  | replaceWall c old new =>
    refine hrep c old [new] ?_
    intro x hx; rw [List.mem_singleton] at hx; subst hx; exact hl

theorem ParentOK.foldl (ops : List (Op P)) : ∀ {h : Heap P}, WF h → ParentOK h →
    LinearFrom h ops → ParentOK (ops.foldl Op.exec h) := by
  induction ops with
  | nil => intro h _ q _; exact q
  | cons op ops ih =>
    intro h w q hl
    exact ih (w.opExec op) (q.opExec w op hl.1) hl.2

/-! ### Lookup -/

theorem lookup_of_mem {l : List (Str × Nat)} (hn : (l.map Prod.fst).Nodup) {k : Str} {j : Nat}
    (hm : (k, j) ∈ l) : l.lookup k = some j := by
  induction l with
  | nil => cases hm
  | cons a l ih =>
    obtain ⟨ka, ja⟩ := a
    simp only [List.map_cons, List.nodup_cons] at hn
    rcases List.mem_cons.1 hm with h | h
    · cases h; simp [List.lookup]
    · have hne : ¬ k = ka := by
        rintro rfl
        exact hn.1 (List.mem_map_of_mem (f := Prod.fst) h)
      have hb : (k == ka) = false := by simpa using hne
      rw [List.lookup, hb]
      exact ih hn.2 h

theorem mem_of_lookup {l : List (Str × Nat)} {k : Str} {j : Nat}
    (h : l.lookup k = some j) : (k, j) ∈ l := by
  induction l with
  | nil => simp at h
  | cons a l ih =>
    obtain ⟨ka, ja⟩ := a
    by_cases e : k = ka
    · subst e; simp [List.lookup] at h; subst h; simp
    · have hb : (k == ka) = false := by simpa using e
      rw [List.lookup, hb] at h
      exact List.mem_cons_of_mem _ (ih h)

/-- `Chain h c keys i`: following `keys` through the dictionaries leads from `c` to `i`. -/
inductive Chain (h : Heap P) (c : Nat) : List Str → Nat → Prop
  | nil : Chain h c [] c
  | snoc {keys : List Str} {i j : Nat} {o : Obj P} {k : Str} : Chain h c keys i →
      h[i]? = some o → (k, j) ∈ o.children → Chain h c (keys ++ [k]) j

theorem items_append (h : Heap P) : ∀ (a b : List Str) (c : Nat),
    items h c (a ++ b) = (items h c a).bind (fun j => items h j b) := by
  intro a
  induction a with
  | nil => intro b c; rfl
  | cons k a ih =>
    intro b c
    rw [List.cons_append, items, items]
    cases item h c k with
    | error e => rfl
    | ok j => exact ih b j

theorem item_of_mem {h : Heap P} (w : WF h) {i j : Nat} {o : Obj P} {k : Str}
    (hi : h[i]? = some o) (hk : (k, j) ∈ o.children) : item h i k = .ok j := by
  unfold item
  rw [hi]
  simp only []
  rw [lookup_of_mem (w.nodup i o hi) hk]

theorem Chain.items {h : Heap P} (w : WF h) {c i : Nat} {keys : List Str}
    (ch : Chain h c keys i) : items h c keys = .ok i := by
  induction ch with
  | nil => rfl
  | snoc _ hi hk ih =>
    rw [items_append, ih]
    show Hier.items h _ [_] = _
    rw [Hier.items, item_of_mem w hi hk]
    rfl

theorem chain_of_items {h : Heap P} {c : Nat} : ∀ (keys : List Str) (pre : List Str) (m i : Nat),
    Chain h c pre m → items h m keys = .ok i → Chain h c (pre ++ keys) i := by
  intro keys
  induction keys with
  | nil => intro pre m i ch hi; cases hi; simpa using ch
  | cons k keys ih =>
    intro pre m i ch hi
    unfold items at hi
    cases hit : item h m k with
    | error e => rw [hit] at hi; cases hi
    | ok j =>
      rw [hit] at hi
      simp only [] at hi
      have hch : Chain h c (pre ++ [k]) j := by
        unfold item at hit
        cases hm : h[m]? with
        | none => rw [hm] at hit; cases hit
        | some o =>
          rw [hm] at hit
          simp only [] at hit
          cases hl : o.children.lookup k with
          | none => rw [hl] at hit; cases hit
          | some j' =>
            rw [hl] at hit
            cases hit
            exact ch.snoc hm (mem_of_lookup hl)
      have := ih (pre ++ [k]) j i hch hi
      rwa [List.append_assoc] at this

/-- A chain goes down one level per key. -/
theorem Chain.rank {h : Heap P} (w : WF h) {c i : Nat} {keys : List Str} (ch : Chain h c keys i)
    {C : Obj P} (hc : h[c]? = some C) :
    ∃ o : Obj P, h[i]? = some o ∧ o.kind.rank + keys.length = C.kind.rank := by
  induction ch with
  | nil => exact ⟨C, hc, by simp⟩
  | snoc _ hi hk ih =>
    obtain ⟨o', h1, h2⟩ := ih
    rw [hi] at h1; cases h1
    obtain ⟨oj, h3, h4, h5⟩ := w.child _ _ _ _ hi hk
    exact ⟨oj, h3, by simp; omega⟩

theorem Chain.no_sep {h : Heap P} (w : WF h) {c i : Nat} {keys : List Str} (ch : Chain h c keys i) :
    ∀ k ∈ keys, PATH_SEP ∉ k := by
  induction ch with
  | nil => simp
  | snoc _ hi hk ih =>
    intro k hk'
    rcases List.mem_append.1 hk' with hk' | hk'
    · exact ih k hk'
    · rw [List.mem_singleton] at hk'
      subst hk'
      obtain ⟨oj, h3, h4, _⟩ := w.child _ _ _ _ hi hk
      rw [← h4]; exact w.name _ _ h3

/-- The path of an object below the root `c` lists the keys leading to it. -/
theorem Chain.path {h : Heap P} (w : WF h) (q : ParentOK h) {c i : Nat} {keys : List Str}
    (ch : Chain h c keys i) {C : Obj P} (hc : h[c]? = some C) (hroot : C.parent = none) :
    ∀ fuel, keys.length < fuel → pathAux h fuel i = Str.join PATH_SEP (C.name :: keys) := by
  induction ch with
  | nil =>
    intro fuel hf
    obtain ⟨f, rfl⟩ : ∃ f, fuel = f + 1 := ⟨fuel - 1, by simp at hf; omega⟩
    unfold pathAux
    rw [hc]
    simp only [hroot]
    rfl
  | @snoc keys i j o k _ hi hk ih =>
    intro fuel hf
    obtain ⟨f, rfl⟩ : ∃ f, fuel = f + 1 := ⟨fuel - 1, by simp at hf; omega⟩
    obtain ⟨oj, h1, h2⟩ := q _ _ _ _ hi hk
    obtain ⟨oj', h3, h4, h5⟩ := w.child _ _ _ _ hi hk
    rw [h1] at h3; cases h3
    unfold pathAux
    rw [h1]
    simp only [h2]
    rw [ih f (by simp at hf; omega), h4, Str.join_join _ _ (by simp)]
    rfl

theorem root_of_building {h : Heap P} (w : WF h) {b : Nat} {B : Obj P} (hb : h[b]? = some B)
    (hk : B.kind = .building) : B.parent = none := by
  cases hp : B.parent with
  | none => rfl
  | some p =>
    obtain ⟨op, _, h2⟩ := w.parent b B p hb hp
    rw [hk] at h2
    exfalso
    cases ho : op.kind <;> rw [ho] at h2 <;> simp [Kind.rank] at h2

/-- `get` on a path with one to five components is a chain of lookups. -/
theorem get_join (parseInt : Str → Option Int) {h : Heap P} {b : Nat} {B : Obj P}
    (hb : h[b]? = some B) (hB : PATH_SEP ∉ B.name) (keys : List Str)
    (hs : ∀ k ∈ keys, PATH_SEP ∉ k) (hl : keys.length ≤ 4) :
    get parseInt h b (Str.join PATH_SEP (B.name :: keys)) = (items h b keys).map .obj := by
  unfold get
  rw [hb]
  simp only []
  rw [Str.split_join _ _ (by simp) (by
    intro p hp
    rcases List.mem_cons.1 hp with rfl | hp
    · exact hB
    · exact hs p hp)]
  simp only [ne_eq, not_true_eq_false, if_false]
  match keys, hl with
  | [], _ => rfl
  | [_], _ => rfl
  | [_, _], _ => rfl
  | [_, _, _], _ => rfl
  | [_, _, _, _], _ => rfl

end B3d.Hier
