import Verif.Spec.FileSystem
import Verif.Proofs.Str
import Verif.Proofs.Wildcard

/-! # Lemmas about files and directories -/

namespace B3d.FileSystem

open Spec Wildcard

variable {C : Type}

/-! ### Looking up -/

theorem look_append (fs : FS C) (n : Str) (p : Loc) (v : Node C) (h : look fs (n :: p) = none) (q : Loc) :
    look (fs ++ [(n :: p, v)]) q = if q = n :: p then some v else look fs q := by
  cases q with
  | nil => simp [look]
  | cons m q =>
    simp only [look, List.find?_append] at h ⊢
    by_cases e : m :: q = n :: p
    · rw [if_pos e]
      rw [List.cons.injEq] at e
      obtain ⟨rfl, rfl⟩ := e
      rw [Option.map_eq_none_iff] at h
      rw [h]
      simp
    · rw [if_neg e]
      have : List.find? (fun e => decide (e.1 = m :: q)) [(n :: p, v)] = none := by
        simp only [List.find?_cons, List.find?_nil]
        rw [decide_eq_false (fun h => e h.symm)]
      rw [this, Option.or_none]

theorem look_ne_none {fs : FS C} {n : Str} {p : Loc} : look fs (n :: p) ≠ none ↔ ∃ e ∈ fs, e.1 = n :: p := by
  rw [look, Ne, Option.map_eq_none_iff, List.find?_eq_none]
  simp

theorem look_set (fs : FS C) (n : Str) (p : Loc) (v : Node C) (h : look fs (n :: p) ≠ none) (q : Loc) :
    look (fs.map fun e => if e.1 = n :: p then (n :: p, v) else e) q = if q = n :: p then some v else look fs q := by
  cases q with
  | nil => simp [look]
  | cons m q =>
    rw [look_ne_none] at h
    obtain ⟨e, he, he'⟩ := h
    rw [look, look]
    by_cases hq : m :: q = n :: p
    · rw [if_pos hq]
      rw [List.cons.injEq] at hq
      obtain ⟨rfl, rfl⟩ := hq
      induction fs with
      | nil => cases he
      | cons e0 fs ih =>
        rw [List.map_cons, List.find?_cons]
        by_cases h0 : e0.1 = m :: q
        · simp [h0]
        · rw [if_neg h0, decide_eq_false h0]
          rcases List.mem_cons.1 he with rfl | he
          · exact absurd he' h0
          · exact ih he
    · rw [if_neg hq]
      congr 1
      clear he he' e
      induction fs with
      | nil => rfl
      | cons e0 fs ih =>
        rw [List.map_cons, List.find?_cons, List.find?_cons, ih]
        by_cases h0 : e0.1 = n :: p
        · rw [if_pos h0, h0, decide_eq_false (fun h => hq h.symm)]
        · rw [if_neg h0]

theorem _root_.B3d.Spec.Tree.above {fs : FS C} (ht : Tree fs) {p q : Loc} (h : look fs p ≠ none) (hq : q <:+ p) (hne : q ≠ p) :
    look fs q = some .dir := by
  induction p with
  | nil => exact absurd (List.suffix_nil.1 hq) hne
  | cons n p ih =>
    rcases List.suffix_cons_iff.1 hq with rfl | hq
    · exact absurd rfl hne
    · have hp := ht n p h
      by_cases e : q = p
      · rw [e]; exact hp
      · exact ih (by rw [hp]; simp) hq e

theorem fileAbove_iff {fs : FS C} {p : Loc} : fileAbove fs p = true ↔ ∃ q c, q <:+ p ∧ q ≠ p ∧ look fs q = some (.file c) := by
  induction p with
  | nil =>
    simp only [fileAbove, Bool.false_eq_true, false_iff]
    rintro ⟨q, c, h1, h2, -⟩
    exact h2 (List.suffix_nil.1 h1)
  | cons n p ih =>
    rw [fileAbove]
    have key : ∀ {q : Loc}, (q <:+ n :: p ∧ q ≠ n :: p) ↔ q <:+ p := by
      intro q
      constructor
      · rintro ⟨h1, h2⟩
        rcases List.suffix_cons_iff.1 h1 with h | h
        · exact absurd h h2
        · exact h
      · intro h
        refine ⟨h.trans (List.suffix_cons n p), ?_⟩
        rintro rfl
        have := h.length_le
        simp at this
    split
    · rename_i c hc
      simp only [true_iff]
      exact ⟨p, c, (key.2 List.suffix_rfl).1, (key.2 List.suffix_rfl).2, hc⟩
    · rename_i hn
      rw [ih]
      constructor
      · rintro ⟨q, c, h1, h2, h3⟩
        exact ⟨q, c, (key.2 h1).1, (key.2 h1).2, h3⟩
      · rintro ⟨q, c, h1, h2, h3⟩
        refine ⟨q, c, key.1 ⟨h1, h2⟩, ?_, h3⟩
        rintro rfl
        exact hn c h3

theorem not_suffix_tail (n : Str) (p : Loc) : ¬ n :: p <:+ p := fun h => by
  have := h.length_le
  simp at this

theorem withDir_self {fs : FS C} (ht : Tree fs) {p : Loc} (h : look fs p = some .dir) : WithDir fs p fs := by
  intro q
  refine ⟨fun hq => ?_, fun _ => rfl⟩
  by_cases e : q = p
  · rw [e]; exact h
  · exact ht.above (by rw [h]; simp) hq e

theorem withDir_append {fs : FS C} {n : Str} {p : Loc} (hn : look fs (n :: p) = none)
    (h : WithDir fs p fs) : WithDir fs (n :: p) (fs ++ [(n :: p, .dir)]) := by
  intro q
  rw [look_append fs n p _ hn]
  constructor
  · intro hq
    rcases List.suffix_cons_iff.1 hq with rfl | hq
    · rw [if_pos rfl]
    · rw [(h q).1 hq]; simp
  · intro hq
    have : q ≠ n :: p := by rintro rfl; exact hq List.suffix_rfl
    rw [if_neg this]

theorem _root_.B3d.Spec.WithDir.trans {fs fs1 fs2 : FS C} {n : Str} {p : Loc} (h1 : WithDir fs p fs1) (h2 : WithDir fs1 (n :: p) fs2) :
    WithDir fs (n :: p) fs2 := by
  intro q
  refine ⟨(h2 q).1, fun hq => ?_⟩
  rw [(h2 q).2 hq, (h1 q).2 (fun h => hq (h.trans (List.suffix_cons n p)))]

theorem _root_.B3d.Spec.WithDir.tree {fs fs' : FS C} {p : Loc} (ht : Tree fs) (h : WithDir fs p fs') : Tree fs' := by
  intro n q hq
  by_cases h1 : q <:+ p
  · exact (h q).1 h1
  · have h2 : ¬ n :: q <:+ p := fun h' => h1 ((List.suffix_cons n q).trans h')
    rw [(h _).2 h2] at hq
    rw [(h q).2 h1]
    exact ht n q hq

theorem isDir_iff {fs : FS C} {p : Loc} : isDir fs p = true ↔ look fs p = some .dir := by
  rw [isDir]
  split <;> simp_all

/-! ### Making directories -/

theorem osMkdir_new {fs : FS C} {n : Str} {p : Loc} (hn : look fs (n :: p) = none) (hp : look fs p = some .dir) :
    osMkdir fs (n :: p) = (fs ++ [(n :: p, .dir)], none) := by
  rw [osMkdir, hn]
  simp only [List.tail_cons, isDir_iff.2 hp, if_true]

theorem osMkdir_there {fs : FS C} {p : Loc} {v : Node C} (h : look fs p = some v) :
    osMkdir fs p = (fs, some .fileExistsError) := by
  rw [osMkdir, h]

theorem osMkdir_file {fs : FS C} (ht : Tree fs) {p : Loc} (h : fileAbove fs p = true) :
    osMkdir fs p = (fs, some .notADirectoryError) := by
  obtain ⟨q, c, h1, h2, h3⟩ := fileAbove_iff.1 h
  have hn : look fs p = none := by
    by_contra hc
    rw [ht.above hc h1 h2] at h3
    cases h3
  rw [osMkdir, hn]
  have hd : ¬ isDir fs p.tail = true := by
    rw [isDir_iff]
    intro hd
    cases p with
    | nil => cases h
    | cons n p =>
      rw [List.tail_cons] at hd
      have h4 : q <:+ p := by
        rcases List.suffix_cons_iff.1 h1 with h | h
        · exact absurd h h2
        · exact h
      by_cases e : q = p
      · rw [e, hd] at h3; cases h3
      · rw [ht.above (by rw [hd]; simp) h4 e] at h3
        cases h3
  simp only [hd, h, if_true, Bool.false_eq_true, if_false]

/-- `Path.mkdir` without a file in the way makes the directory and those above it, and nothing else. -/
theorem pathMkdir_ok : ∀ (existOk : Bool) {fs : FS C} (_ : Tree fs) (p : Loc), ¬ InTheWay fs p →
    (existOk = true ∨ look fs p = none) → ∃ fs', pathMkdir existOk fs p = (fs', none) ∧ WithDir fs p fs'
  | existOk, fs, ht, [], _, he => by
    refine ⟨fs, ?_, withDir_self ht rfl⟩
    rcases he with rfl | h
    · rfl
    · cases h
  | existOk, fs, ht, n :: p, hw, he => by
    have hw' : ¬ InTheWay fs p := fun ⟨q, c, h1, h2⟩ => hw ⟨q, c, h1.trans (List.suffix_cons n p), h2⟩
    have hfa : fileAbove fs (n :: p) = false := by
      rw [Bool.eq_false_iff, Ne, fileAbove_iff]
      rintro ⟨q, c, h1, -, h2⟩
      exact hw ⟨q, c, h1, h2⟩
    rw [pathMkdir]
    cases hl : look fs (n :: p) with
    | some v =>
      cases v with
      | file c => exact absurd ⟨_, c, List.suffix_rfl, hl⟩ hw
      | dir =>
        rcases he with rfl | h
        · refine ⟨fs, ?_, withDir_self ht hl⟩
          rw [osMkdir_there hl]
          simp [unlessDir, isDir_iff.2 hl]
        · rw [hl] at h; cases h
    | none =>
      by_cases hp : look fs p = some .dir
      · refine ⟨_, ?_, withDir_append hl (withDir_self ht hp)⟩
        rw [osMkdir_new hl hp]
        simp [unlessDir]
      · obtain ⟨fs1, h1, h2⟩ := pathMkdir_ok true ht p hw' (.inl rfl)
        have hl' : look fs1 (n :: p) = none := by
          rw [(h2 _).2 (not_suffix_tail n p), hl]
        have hp' := (h2 p).1 List.suffix_rfl
        refine ⟨_, ?_, h2.trans (withDir_append hl' (withDir_self (h2.tree ht) hp'))⟩
        have : osMkdir fs (n :: p) = (fs, some .fileNotFoundError) := by
          rw [osMkdir, hl]
          have hd : ¬ isDir fs p = true := fun h => hp (isDir_iff.1 h)
          simp only [List.tail_cons, hd, hfa, if_false, Bool.false_eq_true]
        rw [this]
        simp only [h1, osMkdir_new hl' hp', unlessDir]

/-- `Path.mkdir` with a file in the way raises and makes nothing. -/
theorem pathMkdir_error (existOk : Bool) {fs : FS C} (ht : Tree fs) (p : Loc) (h : InTheWay fs p) :
    pathMkdir existOk fs p = (fs, some (if fileAbove fs p then .notADirectoryError else .fileExistsError)) := by
  obtain ⟨q, c, h1, h2⟩ := h
  cases p with
  | nil =>
    rw [List.suffix_nil.1 h1] at h2
    cases h2
  | cons n p =>
    rw [pathMkdir]
    by_cases hf : fileAbove fs (n :: p) = true
    · rw [osMkdir_file ht hf]
      have hd : isDir fs (n :: p) = false := by
        rw [Bool.eq_false_iff, Ne, isDir_iff]
        obtain ⟨q, c, h1, h2, h3⟩ := fileAbove_iff.1 hf
        intro hd
        rw [ht.above (by rw [hd]; simp) h1 h2] at h3
        cases h3
      simp [unlessDir, hd, hf]
    · have e : q = n :: p := by
        by_contra e
        exact hf (fileAbove_iff.2 ⟨q, c, h1, e, h2⟩)
      rw [e] at h2
      rw [osMkdir_there h2]
      have hd : isDir fs (n :: p) = false := by
        rw [Bool.eq_false_iff, Ne, isDir_iff, h2]
        simp
      simp [unlessDir, hd, hf]

/-- `os.makedirs` of a path that is not there. -/
theorem makedirs_ok : ∀ {fs : FS C} (_ : Tree fs) (p : Loc), ¬ InTheWay fs p → look fs p = none →
    ∃ fs', makedirs fs p = (fs', none) ∧ WithDir fs p fs'
  | fs, ht, [], _, h => by cases h
  | fs, ht, n :: p, hw, hl => by
    have hw' : ¬ InTheWay fs p := fun ⟨q, c, h1, h2⟩ => hw ⟨q, c, h1.trans (List.suffix_cons n p), h2⟩
    rw [makedirs]
    cases hp : look fs p with
    | some v =>
      cases v with
      | file c => exact absurd ⟨_, c, List.suffix_rfl, hp⟩ hw'
      | dir =>
        refine ⟨_, ?_, withDir_append hl (withDir_self ht hp)⟩
        simp only [exists', hp, Option.isSome_some, if_true]
        exact osMkdir_new hl hp
    | none =>
      obtain ⟨fs1, h1, h2⟩ := makedirs_ok ht p hw' hp
      have hl' : look fs1 (n :: p) = none := by
        rw [(h2 _).2 (not_suffix_tail n p), hl]
      have hp' := (h2 p).1 List.suffix_rfl
      refine ⟨_, ?_, h2.trans (withDir_append hl' (withDir_self (h2.tree ht) hp'))⟩
      simp only [exists', hp, Option.isSome_none, Bool.false_eq_true, if_false, h1]
      exact osMkdir_new hl' hp'

/-- `os.makedirs` with a file in the way, or of a directory that is there, raises and makes nothing. -/
theorem makedirs_error : ∀ {fs : FS C} (_ : Tree fs) (p : Loc), (InTheWay fs p ∨ look fs p ≠ none) →
    makedirs fs p = (fs, some (if fileAbove fs p then .notADirectoryError else .fileExistsError))
  | fs, ht, [], _ => rfl
  | fs, ht, n :: p, h => by
    have key : osMkdir fs (n :: p) = (fs, some (if fileAbove fs (n :: p) then .notADirectoryError else .fileExistsError)) := by
      by_cases hf : fileAbove fs (n :: p) = true
      · rw [osMkdir_file ht hf, if_pos hf]
      · have : look fs (n :: p) ≠ none := by
          rcases h with ⟨q, c, h1, h2⟩ | h
          · have e : q = n :: p := by
              by_contra e
              exact hf (fileAbove_iff.2 ⟨q, c, h1, e, h2⟩)
            rw [← e, h2]
            simp
          · exact h
        obtain ⟨v, hv⟩ := Option.ne_none_iff_exists'.1 this
        rw [osMkdir_there hv, if_neg hf]
    rw [makedirs]
    split
    · exact key
    · rename_i hp
      have hp' : look fs p = none := by simpa [exists'] using hp
      have hf : fileAbove fs (n :: p) = true := by
        rcases h with ⟨q, c, h1, h2⟩ | h
        · rw [fileAbove_iff]
          refine ⟨q, c, h1, ?_, h2⟩
          rintro rfl
          rw [ht n p (by rw [h2]; simp)] at hp'
          cases hp'
        · rw [ht n p h] at hp'
          cases hp'
      have hf' : fileAbove fs p = true := by
        rw [fileAbove, hp'] at hf
        exact hf
      obtain ⟨q, c, h1, h2, h3⟩ := fileAbove_iff.1 hf'
      rw [makedirs_error ht p (.inl ⟨q, c, h1, h3⟩), if_pos hf', if_pos hf]

/-! ### Paths as text -/

theorem split_append_sep (sep : Char) (a s : Str) : Str.split sep (a ++ sep :: s) = Str.split sep a ++ Str.split sep s := by
  induction a with
  | nil => simp [Str.split]
  | cons c t ih =>
    rw [List.cons_append, Str.split, Str.split, ih]
    split
    · rfl
    · cases h : Str.split sep t with
      | nil => exact absurd h (Str.split_ne_nil sep t)
      | cons x r => rfl

theorem components_append (a s : Str) : components (a ++ '/' :: s) = components a ++ components s := by
  rw [components, split_append_sep, List.filter_append]
  rfl

theorem join_append_ne (sep : Char) (a b : List Str) (ha : a ≠ []) (hb : b ≠ []) :
    Str.join sep (a ++ b) = Str.join sep a ++ sep :: Str.join sep b := by
  induction a with
  | nil => exact absurd rfl ha
  | cons x a ih =>
    cases a with
    | nil =>
      cases b with
      | nil => exact absurd rfl hb
      | cons y b => rfl
    | cons y a =>
      have := ih (by simp)
      simp only [List.cons_append, Str.join] at this ⊢
      rw [this]
      simp

/-- Putting a directory in front of a relative path. -/
theorem parse_join (parent f : Str) (hf : f.head? ≠ some '/') :
    parse (if parent = [] then f else osJoin parent f) = (parse parent).append (components f) := by
  by_cases hp : parent = []
  · subst hp
    rw [if_pos rfl]
    simp [parse, Path.append, components, Str.split, hf]
  · rw [if_neg hp, osJoin, if_neg hf]
    split
    · rename_i h
      rcases h with h | h
      · exact absurd h hp
      · obtain ⟨a, rfl⟩ : ∃ a, parent = a ++ ['/'] := by
          rw [List.getLast?_eq_some_iff] at h
          exact h
        rw [List.append_assoc, List.singleton_append, parse, parse, Path.append]
        rw [components_append, components_append]
        have h0 : components ([] : Str) = [] := by simp [components, Str.split]
        rw [h0, List.append_nil]
        congr 1
        cases a <;> simp
    · rw [parse, parse, Path.append, components_append]
      congr 1
      cases parent with
      | nil => exact absurd rfl hp
      | cons c t => rfl

theorem components_no_newline {s : Str} {c : Char} (h : c ∉ s) : ∀ x ∈ components s, c ∉ x := by
  intro x hx hc
  rw [components, List.mem_filter] at hx
  apply h
  have : ∀ (s : Str), ∀ x ∈ Str.split '/' s, ∀ c ∈ x, c ∈ s := by
    intro s
    induction s with
    | nil => intro x hx c hc; simp [Str.split] at hx; subst hx; cases hc
    | cons d t ih =>
      intro x hx c hc
      rw [Str.split] at hx
      split at hx
      · rcases List.mem_cons.1 hx with rfl | hx
        · cases hc
        · exact List.mem_cons_of_mem _ (ih x hx c hc)
      · split at hx
        · rename_i h0; exact absurd h0 (Str.split_ne_nil _ t)
        · rename_i a r h0
          rcases List.mem_cons.1 hx with rfl | hx
          · rcases List.mem_cons.1 hc with rfl | hc
            · simp
            · exact List.mem_cons_of_mem _ (ih a (by rw [h0]; simp) c hc)
          · exact List.mem_cons_of_mem _ (ih x (by rw [h0]; simp [hx]) c hc)
  exact this s x hx.1 c hc

theorem join_no_newline {c : Char} (hc : c ≠ '/') {l : List Str} (h : ∀ x ∈ l, c ∉ x) : c ∉ Str.join '/' l := by
  induction l with
  | nil => simp [Str.join]
  | cons a l ih =>
    cases l with
    | nil => exact h a (by simp)
    | cons b l =>
      rw [Str.join, List.mem_append, List.mem_cons]
      rintro (h1 | h1 | h1)
      · exact h a (by simp) h1
      · exact hc h1
      · exact ih (fun x hx => h x (by simp [hx])) h1

/-- The text of a path below another one ends with the text of the relative path. -/
theorem str_append (p : Path) (rel : List Str) (hr : rel ≠ []) (hp : ∀ x ∈ p.parts, '\n' ∉ x) :
    ∃ pre, '\n' ∉ pre ∧ (p.append rel).str = pre ++ Str.join '/' rel := by
  obtain ⟨a, ps⟩ := p
  have hne : ps ++ rel ≠ [] := fun h => hr (List.append_eq_nil_iff.1 h).2
  rw [Path.str, Path.append]
  simp only [hne, if_false]
  by_cases h0 : ps = []
  · subst h0
    rw [List.nil_append]
    cases a
    · exact ⟨[], by simp, by simp⟩
    · exact ⟨['/'], by simp, by simp⟩
  · rw [join_append_ne '/' ps rel h0 hr]
    have hn := join_no_newline (c := '\n') (by decide) hp
    cases a
    · exact ⟨Str.join '/' ps ++ ['/'], by simp [hn], by simp⟩
    · exact ⟨'/' :: Str.join '/' ps ++ ['/'], by simp [hn], by simp⟩

theorem mem_glob {fs : FS C} {cwd : Loc} {parent : Str} {f : Str} : f ∈ glob fs cwd parent ↔
    ∃ rel, rel ≠ [] ∧ look fs (rel.reverse ++ (parse parent).loc cwd) ≠ none ∧ f = ((parse parent).append rel).str := by
  rw [glob, List.mem_filterMap]
  constructor
  · rintro ⟨e, he, h⟩
    split at h
    · rename_i hb
      obtain ⟨hb1, r, hr⟩ := hb
      rw [Option.some.injEq] at h
      have hr0 : r ≠ [] := by
        rintro rfl
        exact hb1 (by rw [← hr]; rfl)
      refine ⟨r.reverse, by simpa using hr0, ?_, ?_⟩
      · rw [List.reverse_reverse, hr]
        cases hl : e.1 with
        | nil => rw [hl] at hr; exact absurd (List.append_eq_nil_iff.1 hr).1 hr0
        | cons n p => exact look_ne_none.2 ⟨e, he, hl⟩
      · rw [← h, ← hr]
        simp
    · cases h
  · rintro ⟨rel, h1, h2, rfl⟩
    have h3 : rel.reverse ++ (parse parent).loc cwd ≠ [] := fun h => h1 (by simpa using (List.append_eq_nil_iff.1 h).1)
    obtain ⟨n, p, hnp⟩ := List.exists_cons_of_ne_nil h3
    rw [hnp, look_ne_none] at h2
    obtain ⟨e, he, hl⟩ := h2
    refine ⟨e, he, ?_⟩
    rw [hl, ← hnp, if_pos]
    · simp
    · refine ⟨fun h => ?_, List.suffix_append _ _⟩
      have := congrArg List.length h
      rw [List.length_append, List.length_reverse] at this
      have : rel.length = 0 := by omega
      exact h1 (List.length_eq_zero_iff.1 this)

/-! ### Wildcard paths -/

theorem filled_append (val : Str → Nat) (a b : List Part) : filled val (a ++ b) = filled val a ++ filled val b := by
  induction a with
  | nil => rfl
  | cons p a ih => cases p <;> simp [filled, ih]

/-- A text without digits comes only from itself. -/
theorem filled_literal {val : Str → Nat} {c : List Part} {s : Str} (h : filled val c = s)
    (hs : ∀ x ∈ s, isDigit x = false) : c = s.map Part.lit := by
  induction c generalizing s with
  | nil => rw [← h]; rfl
  | cons p c ih =>
    cases p with
    | lit d =>
      rw [← h, filled, List.map_cons, ← ih rfl]
      intro x hx
      exact hs x (by rw [← h, filled]; simp [hx])
    | wild n =>
      exfalso
      obtain ⟨d, t, hd⟩ := List.exists_cons_of_ne_nil (natStr_ne_nil (val n))
      have h1 := natStr_digits (val n) d (by rw [hd]; simp)
      rw [hs d (by rw [← h, filled, hd]; simp)] at h1
      cases h1

theorem slash_filled {val : Str → Nat} {c : List Part} (h : .lit '/' ∉ c) : '/' ∉ filled val c := by
  induction c with
  | nil => simp [filled]
  | cons p c ih =>
    have ih := ih (fun hm => h (by simp [hm]))
    cases p with
    | lit d =>
      rw [filled, List.mem_cons]
      rintro (rfl | h')
      · exact h (by simp)
      · exact ih h'
    | wild n =>
      rw [filled, List.mem_append]
      rintro (h' | h')
      · have := natStr_digits (val n) _ h'
        revert this
        decide
      · exact ih h'

theorem filled_slashed (val : Str → Nat) (cs : List (List Part)) :
    filled val (slashed cs) = Str.join '/' (cs.map (filled val)) := by
  induction cs with
  | nil => rfl
  | cons c cs ih =>
    cases cs with
    | nil => rfl
    | cons c' cs =>
      rw [slashed, filled_append, filled, ih]
      rfl

/-- `pathlib` keeps the components of a proper path. -/
theorem components_filled (val : Str → Nat) {cs : List (List Part)} (hne : cs ≠ []) (h : ∀ c ∈ cs, Proper c) :
    components (filled val (slashed cs)) = cs.map (filled val) ∧ ['.', '.'] ∉ cs.map (filled val) ∧
      (filled val (slashed cs)).head? ≠ some '/' := by
  have hs : Str.split '/' (filled val (slashed cs)) = cs.map (filled val) := by
    rw [filled_slashed, Str.split_join]
    · simpa using hne
    · intro p hp
      obtain ⟨c, hc, rfl⟩ := List.mem_map.1 hp
      exact slash_filled (h c hc).2.2.2
  refine ⟨?_, ?_, ?_⟩
  · rw [components, hs, List.filter_eq_self]
    intro p hp
    obtain ⟨c, hc, rfl⟩ := List.mem_map.1 hp
    rw [decide_eq_true_iff]
    refine ⟨fun e => (h c hc).1 ?_, fun e => (h c hc).2.1 ?_⟩
    · exact filled_literal e (by simp)
    · exact filled_literal e (by decide)
  · intro hm
    obtain ⟨c, hc, e⟩ := List.mem_map.1 hm
    exact (h c hc).2.2.1 (filled_literal e (by decide))
  · intro hh
    obtain ⟨c, cs', rfl⟩ := List.exists_cons_of_ne_nil hne
    obtain ⟨t, ht⟩ : ∃ t, filled val (slashed (c :: cs')) = '/' :: t := by
      cases hf : filled val (slashed (c :: cs')) with
      | nil => rw [hf] at hh; cases hh
      | cons x t =>
        rw [hf] at hh
        simp only [List.head?_cons, Option.some.injEq] at hh
        exact ⟨t, by rw [hh]⟩
    rw [ht] at hs
    simp only [Str.split, if_true, List.map_cons, List.cons.injEq] at hs
    exact (h c (by simp)).1 (filled_literal hs.1.symm (by simp))

end B3d.FileSystem
