import Verif.Model.Logger
import Verif.Props.FileSystem

/-! # C108: the log file -/

namespace B3d.Logger

open FileSystem Spec

theorem parent_tail (cwd : Loc) {p : Path} (h : p.parts ≠ []) : (parent p).loc cwd = (p.loc cwd).tail := by
  obtain ⟨l, x, hl⟩ : ∃ l x, p.parts = l ++ [x] := ⟨_, _, (List.dropLast_append_getLast h).symm⟩
  simp [parent, Path.loc, hl]

theorem look_append_line (fs : FS (List Str)) (p q : Loc) (line : Str) :
    look (appendLine fs p line) q =
      match look fs q with
      | some (.file c) => if q = p then some (.file (c ++ [line])) else some (.file c)
      | v => v := by
  cases q with
  | nil => simp [look]
  | cons n q =>
    simp only [look, appendLine]
    induction fs with
    | nil => simp
    | cons e fs ih =>
      obtain ⟨r, v⟩ := e
      cases v with
      | dir =>
        by_cases hr : r = n :: q
        · simp [hr]
        · simpa [List.find?_cons, hr] using ih
      | file c =>
        by_cases hr : r = n :: q
        · by_cases hp : n :: q = p
          · simp [hr, hp]
          · simp [hr, hp]
        · by_cases hp : r = p
          · have := ih
            simp only [List.map_cons, if_pos hp, List.find?_cons, hr, decide_false] at this ⊢
            exact this
          · simpa [List.find?_cons, hr, hp] using ih

/-- From one file system to the next: what there is stays, except for a file at `p`; what is new is at `p` or above. -/
def Grew (p : Loc) (fs fs' : FS (List Str)) : Prop :=
  Tree fs' ∧ (∀ q v, look fs q = some v → (q = p → v = .dir) → look fs' q = some v) ∧
    ∀ q, look fs q = none → look fs' q ≠ none → q <:+ p

theorem Grew.refl {p : Loc} {fs : FS (List Str)} (ht : Tree fs) : Grew p fs fs :=
  ⟨ht, fun _ _ h _ => h, fun _ h1 h2 => absurd h1 h2⟩

theorem Grew.trans {p : Loc} {a b c : FS (List Str)} (h1 : Grew p a b) (h2 : Grew p b c) : Grew p a c := by
  refine ⟨h2.1, fun q v h hd => h2.2.1 q v (h1.2.1 q v h hd) hd, fun q h hn => ?_⟩
  by_cases hb : look b q = none
  · exact h2.2.2 q hb hn
  · exact h1.2.2 q h hb

theorem grew_withDir {p r : Loc} {fs fs' : FS (List Str)} (ht : Tree fs) (hr : r <:+ p) (hw : ¬ InTheWay fs r)
    (h : WithDir fs r fs') : Grew p fs fs' := by
  refine ⟨h.tree ht, fun q v hv _ => ?_, fun q h1 h2 => ?_⟩
  · by_cases hq : q <:+ r
    · rw [(h q).1 hq]
      cases v with
      | dir => rfl
      | file c => exact absurd ⟨q, c, hq, hv⟩ hw
    · rw [(h q).2 hq, hv]
  · by_cases hq : q <:+ r
    · exact hq.trans hr
    · rw [(h q).2 hq] at h2
      exact absurd h1 h2

theorem parent_suffix (cwd : Loc) (p : Path) : (parent p).loc cwd <:+ p.loc cwd := by
  by_cases h : p.parts = []
  · rw [show parent p = p by cases p; simp_all [parent]]
  · rw [parent_tail cwd h]
    exact List.tail_suffix _

theorem makeParents_cases {fs : FS (List Str)} (ht : Tree fs) (cwd : Loc) (f : Option Str) :
    (∃ e, makeParents fs cwd f = (fs, some e)) ∨
    ∃ fs', makeParents fs cwd f = (fs', none) ∧ Grew (place cwd f) fs fs' := by
  cases f with
  | none => exact .inr ⟨fs, rfl, .refl ht⟩
  | some f =>
    rw [makeParents]
    cases hl : look fs ((parent (parse f)).loc cwd) with
    | some v => exact .inr ⟨fs, by simp [exists', hl], .refl ht⟩
    | none =>
      by_cases hw : InTheWay fs ((parent (parse f)).loc cwd)
      · rw [pathMkdir_error false ht _ hw, exists', hl]
        exact .inl ⟨_, rfl⟩
      · obtain ⟨fs', h1, h2⟩ := pathMkdir_ok false ht _ hw (.inr hl)
        refine .inr ⟨fs', ?_, grew_withDir ht (parent_suffix cwd _) hw h2⟩
        rw [h1, exists', hl]
        rfl

theorem writeFile_cases {fs : FS (List Str)} (ht : Tree fs) (p : Loc) :
    (∃ e, writeFile fs p [] = (fs, some e)) ∨
    ∃ fs', writeFile fs p [] = (fs', none) ∧ Grew p fs fs' ∧ look fs' p = some (.file []) := by
  cases p with
  | nil => exact .inl ⟨_, rfl⟩
  | cons n p =>
    by_cases hp : look fs p = some .dir
    · by_cases hd : look fs (n :: p) = some .dir
      · exact .inl ⟨.isADirectoryError, by rw [writeFile, hd]⟩
      · obtain ⟨fs', h1, h2, h3⟩ := writeFile_ok ht hp hd []
        refine .inr ⟨fs', h1, ⟨h2, fun q v hv hq => ?_, fun q hq hn => ?_⟩, by rw [h3, if_pos rfl]⟩
        · rw [h3]
          by_cases e : q = n :: p
          · rw [hq e, e] at hv
            exact absurd hv hd
          · rw [if_neg e, hv]
        · rw [h3] at hn
          by_cases e : q = n :: p
          · rw [e]
          · rw [if_neg e] at hn
            exact absurd hq hn
    · have hl : look fs (n :: p) = none := by
        by_contra h
        exact hp (ht n p h)
      have hd : ¬ isDir fs p = true := fun h => hp (isDir_iff.1 h)
      refine .inl ?_
      rw [writeFile, hl]
      simp only [List.tail_cons, hd, if_false, Bool.false_eq_true]
      split
      · exact ⟨_, rfl⟩
      · exact ⟨_, rfl⟩

/-- The outcome of `init_logger`. -/
theorem init_cases {s : State} (ht : Tree s.fs) (cwd : Loc) (f : Option Str) :
    Grew (place cwd f) s.fs (initLogger s cwd f).1.fs ∧
    (∀ h ∈ (initLogger s cwd f).1.handlers, h ∈ s.handlers ∨ h = .stderr ∨ h = .file (place cwd f)) ∧
    ((initLogger s cwd f).2 = none → f ≠ some [] →
      look (initLogger s cwd f).1.fs (place cwd f) = some (.file []) ∧
      (initLogger s cwd f).1.handlers = [.file (place cwd f)] ∧ (initLogger s cwd f).1.level = DEBUG) ∧
    ((initLogger s cwd f).2 = none → ∀ h ∈ (initLogger s cwd f).1.handlers, h = .stderr ∨ h = .file (place cwd f)) := by
  rw [initLogger]
  split
  · exact ⟨.refl ht, fun h hh => .inl hh, fun h => (by cases h), fun h => (by cases h)⟩
  · rcases makeParents_cases ht cwd f with ⟨e, h1⟩ | ⟨fs1, h1, h2⟩
    · simp only [h1]
      exact ⟨.refl ht, fun h hh => .inl hh, fun h => (by cases h), fun h => (by cases h)⟩
    · simp only [h1]
      split
      · rename_i hn
        refine ⟨h2, fun h hh => ?_, fun _ hf => ?_, fun _ h hh => ?_⟩
        · exact .inr (.inl (by simpa using hh))
        · cases f with
          | none => cases hn
          | some f => exact absurd (by rw [show f = [] from hn]) hf
        · exact .inl (by simpa using hh)
      · rcases writeFile_cases h2.1 (place cwd f) with ⟨e, h3⟩ | ⟨fs2, h3, h4, h5⟩
        · simp only [h3]
          exact ⟨h2, fun h hh => absurd hh List.not_mem_nil, fun h => (by cases h), fun h => (by cases h)⟩
        · simp only [h3]
          exact ⟨h2.trans h4, fun h hh => .inr (.inr (by simpa using hh)), fun _ _ => ⟨h5, by simp, by simp⟩,
            fun _ h hh => .inr (by simpa using hh)⟩

theorem foldl_look (hs : List Handler) (line : Str) (q : Loc) (hq : Handler.file q ∉ hs) (fs : FS (List Str)) :
    look (hs.foldl (fun fs h =>
        match h with
        | .stderr => fs
        | .file p => appendLine fs p line) fs) q = look fs q := by
  induction hs generalizing fs with
  | nil => rfl
  | cons h hs ih =>
    rw [List.foldl_cons, ih (fun h' => hq (List.mem_cons_of_mem _ h'))]
    cases h with
    | stderr => rfl
    | file p =>
      have hp : q ≠ p := fun e => hq (by rw [e]; exact List.mem_cons_self)
      rw [look_append_line]
      cases look fs q with
      | none => rfl
      | some v => cases v <;> simp [hp]

/-- A message changes only files which are logged to, and makes nothing new. -/
theorem message_look (s : State) (l : Nat) (t : Str) (q : Loc) (hq : Handler.file q ∉ s.handlers) :
    look (message s l t).fs q = look s.fs q := by
  rw [message]
  split
  · exact foldl_look _ _ _ hq _
  · rfl

theorem message_handlers (s : State) (l : Nat) (t : Str) : (message s l t).handlers = s.handlers ∧
    (message s l t).level = s.level := by
  rw [message]
  split <;> exact ⟨rfl, rfl⟩

theorem foldl_dir (hs : List Handler) (line : Str) (q : Loc) (fs : FS (List Str)) :
    (look (hs.foldl (fun fs h =>
        match h with
        | .stderr => fs
        | .file p => appendLine fs p line) fs) q = some .dir ↔ look fs q = some .dir) ∧
    (look (hs.foldl (fun fs h =>
        match h with
        | .stderr => fs
        | .file p => appendLine fs p line) fs) q = none ↔ look fs q = none) := by
  induction hs generalizing fs with
  | nil => exact ⟨Iff.rfl, Iff.rfl⟩
  | cons h hs ih =>
    rw [List.foldl_cons, (ih _).1, (ih _).2]
    cases h with
    | stderr => exact ⟨Iff.rfl, Iff.rfl⟩
    | file p =>
      simp only [look_append_line]
      cases look fs q with
      | none => simp
      | some v => cases v <;> by_cases hp : q = p <;> simp [hp]

theorem message_tree {s : State} (ht : Tree s.fs) (l : Nat) (t : Str) : Tree (message s l t).fs ∧
    (∀ q, look s.fs q = some .dir → look (message s l t).fs q = some .dir) ∧
    ∀ q, look s.fs q = none → look (message s l t).fs q = none := by
  rw [message]
  split
  · refine ⟨fun n p h => ?_, fun q h => ?_, fun q h => ?_⟩
    · refine (foldl_dir _ _ _ _).1.2 ?_
      exact ht n p fun h' => h ((foldl_dir _ _ _ _).2.2 h')
    · exact (foldl_dir _ _ _ _).1.2 h
    · exact (foldl_dir _ _ _ _).2.2 h
  · exact ⟨ht, fun _ h => h, fun _ h => h⟩

theorem run_tree {s : State} (ht : Tree s.fs) (cwd : Loc) (cs : List Call) : Tree (run cwd s cs).fs := by
  induction cs generalizing s with
  | nil => exact ht
  | cons c cs ih =>
    refine ih ?_
    cases c with
    | init f => exact (init_cases ht cwd f).1.1
    | message l t => exact (message_tree ht l t).1

theorem run_append (cwd : Loc) (s : State) (a b : List Call) : run cwd s (a ++ b) = run cwd (run cwd s a) b :=
  List.foldl_append

/-- The lines of the messages that are important enough (`DEBUG`, which is 10, or more). -/
def lines : List Call → List Str
  | [] => []
  | .message l t :: cs => if 10 ≤ l then t :: lines cs else lines cs
  | .init _ :: cs => lines cs

theorem run_messages (cwd : Loc) (p : Loc) (mid : List Call) (hmid : ∀ c ∈ mid, ∃ l t, c = .message l t) (s : State)
    (hh : s.handlers = [.file p]) (hl : s.level = DEBUG) (c : List Str) (hc : look s.fs p = some (.file c)) :
    look (run cwd s mid).fs p = some (.file (c ++ lines mid)) ∧ (run cwd s mid).handlers = [.file p] := by
  induction mid generalizing s c with
  | nil => exact ⟨by simpa [lines, run] using hc, hh⟩
  | cons x mid ih =>
    obtain ⟨l, t, rfl⟩ := hmid x List.mem_cons_self
    have hm := message_handlers s l t
    have key : look (message s l t).fs p = some (.file (c ++ if 10 ≤ l then [t] else [])) := by
      rw [message, hl]
      by_cases h : 10 ≤ l
      · rw [if_pos (by exact h), if_pos h, hh]
        simp only [List.foldl_cons, List.foldl_nil]
        rw [look_append_line, hc]
        simp
      · rw [if_neg (by exact h), if_neg h, hc]
        simp
    have := ih (fun y hy => hmid y (List.mem_cons_of_mem _ hy)) (message s l t) (hm.1.trans hh) (hm.2.trans hl) _ key
    refine ⟨?_, this.2⟩
    rw [show run cwd s (.message l t :: mid) = run cwd (message s l t) mid from rfl, this.1, lines]
    split <;> simp

theorem run_other {s : State} (ht : Tree s.fs) (cwd : Loc) (p : Loc) (c : List Str) (cs : List Call)
    (hp : ∀ g, .init g ∈ cs → place cwd g ≠ p) (hh : .file p ∉ s.handlers) (hc : look s.fs p = some (.file c)) :
    look (run cwd s cs).fs p = some (.file c) := by
  induction cs generalizing s with
  | nil => exact hc
  | cons x cs ih =>
    have hp' : ∀ g, .init g ∈ cs → place cwd g ≠ p := fun g hg => hp g (List.mem_cons_of_mem _ hg)
    cases x with
    | init g =>
      have hg := hp g List.mem_cons_self
      have h := init_cases ht cwd g
      refine ih h.1.1 hp' (fun hm => ?_) (h.1.2.1 p _ hc fun e => absurd e.symm hg)
      rcases h.2.1 _ hm with h' | h' | h'
      · exact hh h'
      · cases h'
      · rw [Handler.file.injEq] at h'
        exact hg h'.symm
    | message l t =>
      refine ih (message_tree ht l t).1 hp' ?_ ?_
      · exact fun hm => hh ((message_handlers s l t).1 ▸ hm)
      · exact (message_look s l t p hh).trans hc

/-- **C108.**  After `init_logger(f)` has succeeded, the log file holds exactly the messages logged from then until the
next successful call of `init_logger`, in the order of logging, whatever was in the file, however the logger had been
used before, and whatever is logged to other files afterwards. -/
theorem C108_content {s : State} (ht : Tree s.fs) (cwd : Loc) (f : Option Str) (hf : f ≠ some [])
    (pre mid post : List Call) (hok : (initLogger (run cwd s pre) cwd f).2 = none)
    (hmid : ∀ c ∈ mid, ∃ l t, c = .message l t)
    (hpost : post = [] ∨ ∃ g rest, post = .init g :: rest ∧
      (initLogger (run cwd s (pre ++ .init f :: mid)) cwd g).2 = none)
    (hother : ∀ g, .init g ∈ post → place cwd g ≠ place cwd f) :
    readFrom (run cwd s (pre ++ .init f :: mid ++ post)).fs (place cwd f) = .ok (lines mid) := by
  have h0 := run_tree ht cwd pre
  have h1 := init_cases h0 cwd f
  obtain ⟨h2, h3, h4⟩ := h1.2.2.1 hok hf
  have h5 := run_messages cwd (place cwd f) mid hmid _ h3 h4 _ h2
  have e : run cwd s (pre ++ .init f :: mid) = run cwd (initLogger (run cwd s pre) cwd f).1 mid := by
    rw [run_append]; rfl
  rw [← e, List.nil_append] at h5
  have key : look (run cwd s (pre ++ .init f :: mid ++ post)).fs (place cwd f) = some (.file (lines mid)) := by
    rw [run_append]
    rcases hpost with rfl | ⟨g, rest, rfl, hg⟩
    · exact h5.1
    · have ht' := run_tree ht cwd (pre ++ .init f :: mid)
      have hg' := hother g List.mem_cons_self
      have h6 := init_cases ht' cwd g
      refine run_other (s := (initLogger (run cwd s (pre ++ .init f :: mid)) cwd g).1) h6.1.1 cwd _ _ rest
        (fun g' hg' => hother g' (List.mem_cons_of_mem _ hg')) (fun hm => ?_)
        (h6.1.2.1 _ _ h5.1 fun e => absurd e.symm hg')
      rcases h6.2.2.2 hg _ hm with h' | h'
      · cases h'
      · rw [Handler.file.injEq] at h'
        exact hg' h'.symm
  rw [readFrom, key]

/-- **C108, nothing else.**  Logging and choosing log files changes no other file, keeps all directories, and makes
nothing but the log files and the directories above them. -/
theorem C108_rest {s : State} (ht : Tree s.fs) (hs : s.handlers = []) (cwd : Loc) (cs : List Call) (q : Loc) :
    (∀ v, look s.fs q = some v → (∀ f, .init f ∈ cs → place cwd f = q → v = .dir) →
      look (run cwd s cs).fs q = some v) ∧
    (look s.fs q = none → look (run cwd s cs).fs q ≠ none → ∃ f, .init f ∈ cs ∧ q <:+ place cwd f) := by
  have gen : ∀ (cs : List Call) (s : State), Tree s.fs →
      (∀ v, look s.fs q = some v → (.file q ∈ s.handlers → v = .dir) → (∀ f, .init f ∈ cs → place cwd f = q → v = .dir) →
        look (run cwd s cs).fs q = some v) ∧
      (look s.fs q = none → look (run cwd s cs).fs q ≠ none → ∃ f, .init f ∈ cs ∧ q <:+ place cwd f) := by
    intro cs
    induction cs with
    | nil => exact fun s _ => ⟨fun v h _ _ => h, fun h1 h2 => absurd h1 h2⟩
    | cons x cs ih =>
      intro s ht
      cases x with
      | init g =>
        have h := init_cases ht cwd g
        obtain ⟨i1, i2⟩ := ih _ h.1.1
        refine ⟨fun v hv hm hc => ?_, fun hn hl => ?_⟩
        · refine i1 v (h.1.2.1 q v hv fun e => hc g List.mem_cons_self e.symm) (fun hm' => ?_)
            fun f hf => hc f (List.mem_cons_of_mem _ hf)
          rcases h.2.1 _ hm' with h' | h' | h'
          · exact hm h'
          · cases h'
          · rw [Handler.file.injEq] at h'
            exact hc g List.mem_cons_self h'.symm
        · by_cases h' : look (initLogger s cwd g).1.fs q = none
          · obtain ⟨f, h1, h2⟩ := i2 h' hl
            exact ⟨f, List.mem_cons_of_mem _ h1, h2⟩
          · exact ⟨g, List.mem_cons_self, h.1.2.2 q hn h'⟩
      | message l t =>
        have h := message_tree ht l t
        obtain ⟨i1, i2⟩ := ih _ h.1
        refine ⟨fun v hv hm hc => ?_, fun hn hl => ?_⟩
        · refine i1 v ?_ (fun hm' => hm ((message_handlers s l t).1 ▸ hm')) fun f hf => hc f (List.mem_cons_of_mem _ hf)
          by_cases hq : .file q ∈ s.handlers
          · rw [hm hq] at hv ⊢
            exact h.2.1 q hv
          · exact (message_look s l t q hq).trans hv
        · obtain ⟨f, h1, h2⟩ := i2 (h.2.2 q hn) hl
          exact ⟨f, List.mem_cons_of_mem _ h1, h2⟩
  exact ⟨fun v hv => (gen cs s ht).1 v hv (by rw [hs]; exact fun h => absurd h List.not_mem_nil), (gen cs s ht).2⟩

/-- **C108, when it works.**  A log file given by name is set up exactly if its place is not a directory and no file
stands where a directory is needed; missing directories are made. -/
theorem C108_succeeds {s : State} (ht : Tree s.fs) (cwd : Loc) (f : Str) (hn : (parse f).parts ≠ [])
    (hd : ['.', '.'] ∉ components f) :
    (initLogger s cwd (some f)).2 = none ↔
      look s.fs (place cwd (some f)) ≠ some .dir ∧ ¬ InTheWay s.fs (place cwd (some f)).tail := by
  have hp := parent_tail cwd hn
  obtain ⟨n, p, hnp⟩ : ∃ n p, place cwd (some f) = n :: p := by
    refine List.exists_cons_of_ne_nil ?_
    simp [place, Path.loc, hn]
  have hne : f ≠ [] := fun e => hn (by rw [e]; rfl)
  have hw : (initLogger s cwd (some f)).2 = (writeTo true s.fs (n :: p) []).2 := by
    rw [initLogger, if_neg (by exact hd), writeTo, makeParents, hp]
    change _ = n :: p at hnp
    rw [show (parse f).loc cwd = n :: p from hnp, List.tail_cons]
    simp only [Bool.true_and]
    rw [show place cwd (some f) = n :: p from hnp]
    have hne' : ¬ (some f).getD LOG_FILE = [] := hne
    simp only [if_neg hne']
    cases hx : (if (!exists' s.fs p) = true then pathMkdir false s.fs p else (s.fs, none)) with
    | mk fs1 r =>
      by_cases he : (!exists' s.fs p) = true
      · rw [if_pos he] at hx ⊢
        rw [hx]
        cases r with
        | some e => rfl
        | none =>
          simp only []
          cases writeFile fs1 (n :: p) [] with
          | mk a b => cases b <;> rfl
      · rw [if_neg he] at hx ⊢
        cases hx
        simp only []
        cases writeFile s.fs (n :: p) [] with
        | mk a b => cases b <;> rfl
  rw [hw, hnp, List.tail_cons]
  have h := (C99_raises ht true n p []).1
  simp only [Bool.true_eq_false, false_and, or_false] at h
  cases hr : writeTo true s.fs (n :: p) [] with
  | mk fs' r =>
    rw [hr] at h
    cases r with
    | none =>
      simp only [true_iff]
      have : ¬ (InTheWay s.fs p ∨ look s.fs (n :: p) = some .dir) := by
        rw [← h]
        rintro ⟨_, _, h'⟩
        cases h'
      push Not at this
      exact ⟨this.2, this.1⟩
    | some e =>
      simp only [reduceCtorEq, false_iff]
      have := h.1 ⟨fs', e, rfl⟩
      tauto

/-- **A failed call can end the logging.**  If the new log file is a directory, the exception comes after the handlers
have been closed: the old log file gets no more messages, and neither does any other file. -/
theorem C108_failed_call_ends_logging {s : State} (cwd : Loc) (f : Str) (hd : ['.', '.'] ∉ components f) (hf : f ≠ [])
    (hdir : look s.fs (place cwd (some f)) = some .dir)
    (hpar : look s.fs ((parent (parse f)).loc cwd) ≠ none) (msgs : List Call)
    (hm : ∀ c ∈ msgs, ∃ l t, c = .message l t) :
    (initLogger s cwd (some f)).2 = some .isADirectoryError ∧
      (run cwd s (.init (some f) :: msgs)).fs = s.fs := by
  have hi : initLogger s cwd (some f) = (⟨s.fs, [], s.level⟩, some .isADirectoryError) := by
    rw [initLogger, if_neg (by exact hd), makeParents]
    have he : exists' s.fs ((parent (parse f)).loc cwd) = true := by
      rw [exists', Option.isSome_iff_ne_none]
      exact hpar
    rw [he]
    simp only [Bool.not_true, Bool.false_eq_true, if_false, Option.getD_some]
    rw [if_neg hf, writeFile, hdir]
  refine ⟨by rw [hi], ?_⟩
  have : ∀ (msgs : List Call), (∀ c ∈ msgs, ∃ l t, c = .message l t) → ∀ s : State, s.handlers = [] →
      (run cwd s msgs).fs = s.fs := by
    intro msgs
    induction msgs with
    | nil => exact fun _ _ _ => rfl
    | cons x msgs ih =>
      intro hm s hs
      obtain ⟨l, t, rfl⟩ := hm x List.mem_cons_self
      refine (ih (fun y hy => hm y (List.mem_cons_of_mem _ hy)) (message s l t) ?_).trans ?_
      · rw [(message_handlers s l t).1, hs]
      · rw [message, hs]
        split <;> rfl
  have h2 := this msgs hm (initLogger s cwd (some f)).1 (by rw [hi])
  rw [hi] at h2
  change (run cwd (initLogger s cwd (some f)).1 msgs).fs = _
  rw [hi]
  exact h2

/-- **C108, a file in the way of a directory.**  Then nothing has changed: logging goes on as before. -/
theorem C108_failed_directory {s : State} (ht : Tree s.fs) (cwd : Loc) (f : Str) (hd : ['.', '.'] ∉ components f)
    (hn : look s.fs ((parent (parse f)).loc cwd) = none) (hw : InTheWay s.fs ((parent (parse f)).loc cwd)) :
    (initLogger s cwd (some f)).2 ≠ none ∧ (initLogger s cwd (some f)).1 = s := by
  rw [initLogger, if_neg (by exact hd), makeParents, exists', hn, pathMkdir_error false ht _ hw]
  exact ⟨by simp, rfl⟩

/-- Non-vacuity: the working directory `/w` with an old log and a directory `d`; a log in a new directory, then the
default log, and a message that is not important enough in between; a call for the directory `d`. -/
example :
    let s : State := ⟨[(["w".toList], .dir), (["b3d.log".toList, "w".toList], .file ["old".toList]),
      (["d".toList, "w".toList], .dir)], [], 30⟩
    let cwd : Loc := ["w".toList]
    let r := run cwd s [.message 50 "x".toList, .init (some "logs/a.log".toList), .message 20 "m1".toList,
      .message 5 "m2".toList, .message 10 "m3".toList, .init none, .message 30 "m4".toList]
    readFrom r.fs (place cwd (some "logs/a.log".toList)) = .ok ["m1".toList, "m3".toList] ∧
    readFrom r.fs (place cwd none) = .ok ["m4".toList] ∧
    (initLogger r cwd (some "d".toList)).2 = some .isADirectoryError ∧
    (initLogger r cwd (some "logs/a.log/b/c".toList)).2 = some .notADirectoryError ∧
    look r.fs ["logs".toList, "w".toList] = some .dir := by
  decide +kernel

theorem exState_tree : Tree (C := List Str) [(["w".toList], .dir), (["b3d.log".toList, "w".toList], .file ["old".toList]),
    (["d".toList, "w".toList], .dir)] := by
  intro n p h
  rw [look_ne_none] at h
  obtain ⟨e, h1, h2⟩ := h
  simp only [List.mem_cons, List.not_mem_nil, or_false] at h1
  rcases h1 with rfl | rfl | rfl <;> (simp only [List.cons.injEq] at h2; obtain ⟨-, rfl⟩ := h2; decide +kernel)

end B3d.Logger
