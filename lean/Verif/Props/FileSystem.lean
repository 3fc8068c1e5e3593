import Verif.Proofs.FileSystem
import Verif.Props.Wildcard
import Verif.Props.Files

/-! # C98, C99: directories made and files written -/

namespace B3d.FileSystem

open Spec Wildcard

variable {C : Type}

/-! ### C98 -/

theorem pathMkdir_there {fs : FS C} {p : Loc} (h : look fs p = some .dir) : pathMkdir true fs p = (fs, none) := by
  cases p with
  | nil => rfl
  | cons n p =>
    rw [pathMkdir, osMkdir_there h]
    simp [unlessDir, isDir_iff.2 h]

/-- **C98.**  `mkdir` makes the directory named by the filled path and the missing directories above it, and changes
nothing else.  Doing it again changes nothing.  It raises exactly if a file is in the way (or the names of the wildcards
are wrong, `C59_names`), and then makes nothing. -/
theorem C98_mkdir (w : WPath) {fs : FS C} (ht : Tree fs) (cwd : Loc) (parent : Str) (kw : List (Str × Str)) :
    (∀ path, fill w parent kw = .ok path → ['.', '.'] ∉ components path →
      (¬ InTheWay fs ((parse path).loc cwd) → ∃ fs', mkdir w fs cwd parent kw = (fs', .ok (parse path).str) ∧
        WithDir fs ((parse path).loc cwd) fs' ∧ Tree fs' ∧
        mkdir w fs' cwd parent kw = (fs', .ok (parse path).str)) ∧
      (InTheWay fs ((parse path).loc cwd) → ∃ e, mkdir w fs cwd parent kw = (fs, .error e) ∧
        (e = .fileExistsError ∨ e = .notADirectoryError))) ∧
    (∀ e, fill w parent kw = .error e → mkdir w fs cwd parent kw = (fs, .error e)) := by
  refine ⟨fun path hp hd => ⟨fun hw => ?_, fun hw => ?_⟩, fun e he => by rw [mkdir, he]⟩
  · obtain ⟨fs', h1, h2⟩ := pathMkdir_ok true ht _ hw (.inl rfl)
    refine ⟨fs', ?_, h2, h2.tree ht, ?_⟩
    · rw [mkdir, hp]
      simp only [if_neg hd, h1]
    · rw [mkdir, hp]
      simp only [if_neg hd, pathMkdir_there ((h2 _).1 List.suffix_rfl)]
  · rw [mkdir, hp]
    simp only [if_neg hd, pathMkdir_error true ht _ hw]
    split
    · exact ⟨_, rfl, .inr rfl⟩
    · exact ⟨_, rfl, .inl rfl⟩

theorem getDict_error {ps : List Part} (h : Good ps) {w : WPath} (hw : mkPath (render ps) = .ok w) (files : List Str) :
    getDict w files = .error .assertionError ∨ ∃ r, getDict w files = .ok r := by
  obtain ⟨w', h1, h2⟩ := C60_complete h
  rw [hw] at h1
  cases h1
  rcases h2 files with h | ⟨r, h, -⟩
  · exact .inl h
  · exact .inr ⟨r, h⟩

/-- What is found depends on each path alone. -/
theorem getDict_mem {w : WPath} {files files' : List Str} {r r' : List (Str × List (Str × Nat))}
    (h : getDict w files = .ok r) (h' : getDict w files' = .ok r') {e : Str × List (Str × Nat)} (he : e ∈ r)
    (hf : e.1 ∈ files') : e ∈ r' := by
  obtain ⟨ts, hts, hm⟩ := getDict_ok h
  obtain ⟨ts', hts', hm'⟩ := getDict_ok h'
  rw [hts] at hts'
  cases hts'
  obtain ⟨gs, g1, g2⟩ := (mem_matchFiles hm).2 e he
  have : e.1 ∈ r'.map Prod.fst := by
    rw [(mem_matchFiles hm').1, List.mem_filter]
    exact ⟨hf, by rw [g1]; rfl⟩
  obtain ⟨e', he', h1⟩ := List.mem_map.1 this
  obtain ⟨gs', g1', g2'⟩ := (mem_matchFiles hm').2 e' he'
  rw [h1, g1] at g1'
  cases g1'
  rw [g2] at g2'
  have : e' = e := Prod.ext h1 (by injection g2' with h; exact h.symm)
  rw [← this]
  exact he'

/-- **C98, finding what was made.**  For a good wildcard path of proper components, the directory made is found again
below the same parent directory, with exactly the values it was made for, and everything found before is still found.
(`AssertionError` is raised if some other path has two values for one wildcard.)

Missing from the full property: paths that are not good (C59), and paths with empty or `.` components or a final slash
(`C98_trailing_slash`). -/
theorem C98_found_partial {cs : List (List Part)} (hne : cs ≠ []) (hc : ∀ c ∈ cs, Proper c) (hg : Good (slashed cs))
    (val : Str → Nat) {fs : FS C} (ht : Tree fs) (cwd : Loc) (parent : Str) (hn : '\n' ∉ parent)
    (hdd : ['.', '.'] ∉ components parent) :
    ∃ w, mkPath (render (slashed cs)) = .ok w ∧ ∀ ks : List Str, ks.Perm w.wildcards →
      ¬ InTheWay fs ((cs.map (filled val)).reverse ++ (parse parent).loc cwd) →
      ∃ fs' s, mkdir w fs cwd parent (ks.map fun k => (k, natStr (val k))) = (fs', .ok s) ∧
        WithDir fs ((cs.map (filled val)).reverse ++ (parse parent).loc cwd) fs' ∧
        (findPaths w fs' cwd parent = .error .assertionError ∨ ∃ r d, findPaths w fs' cwd parent = .ok r ∧ (s, d) ∈ r ∧
          (∀ n, dictGet d n = if Part.wild n ∈ slashed cs then some (val n) else none) ∧
          ∀ r0, findPaths w fs cwd parent = .ok r0 → ∀ e ∈ r0, e ∈ r) := by
  obtain ⟨w, h1, -, -, hfill⟩ := C59_fill hg val parent
  obtain ⟨w', h1', h5⟩ : ∃ w', mkPath (render (slashed cs)) = .ok w' ∧ compile w'.body = .ok (toks (fun _ => 0) (slashed cs)) := by
    obtain ⟨w, h1, h2, h3, h4, h5⟩ := mkPath_good hg
    exact ⟨w, h1, h5⟩
  rw [h1] at h1'
  cases h1'
  refine ⟨w, h1, fun ks hks hw => ?_⟩
  obtain ⟨c1, c2, c3⟩ := components_filled val hne hc
  have hparse := parse_join parent (filled val (slashed cs)) c3
  rw [c1] at hparse
  have hloc : (parse (if parent = [] then filled val (slashed cs) else osJoin parent (filled val (slashed cs)))).loc cwd
      = (cs.map (filled val)).reverse ++ (parse parent).loc cwd := by
    rw [hparse, Path.loc, Path.append, Path.loc]
    simp
  have hdots : ['.', '.'] ∉ components (if parent = [] then filled val (slashed cs) else osJoin parent (filled val (slashed cs))) := by
    have := congrArg Path.parts hparse
    simp only [parse, Path.append] at this
    rw [this, List.mem_append]
    rintro (h | h)
    · exact hdd h
    · exact c2 h
  obtain ⟨fs', m1, m2, m3, -⟩ := ((C98_mkdir w ht cwd parent _).1 _ (hfill ks hks) hdots).1 (by rw [hloc]; exact hw)
  rw [hloc] at m2
  refine ⟨fs', _, m1, m2, ?_⟩
  rcases getDict_error hg h1 (glob fs' cwd parent) with h | ⟨r, hr⟩
  · exact .inl h
  · refine .inr ?_
    have hs : (parse (if parent = [] then filled val (slashed cs) else osJoin parent (filled val (slashed cs)))).str
        ∈ glob fs' cwd parent := by
      rw [hparse, mem_glob]
      refine ⟨cs.map (filled val), by simpa using hne, ?_, rfl⟩
      rw [(m2 _).1 List.suffix_rfl]
      simp
    obtain ⟨pre, hpre, e⟩ := str_append (parse parent) (cs.map (filled val)) (by simpa using hne)
      (components_no_newline hn)
    rw [← hparse, ← filled_slashed] at e
    obtain ⟨d, hd1, hd2⟩ := collect_groupVals val (fun _ => 0) (slashed cs) [] (by simp [dictGet])
    have one : getDict w [pre ++ filled val (slashed cs)] = .ok [(pre ++ filled val (slashed cs), d)] := by
      unfold getDict
      rw [h5]
      simp only [matchFiles]
      rw [reMatch_filled hg val pre hpre]
      simp only [hd1]
    refine ⟨r, d, hr, ?_, ?_, ?_⟩
    · rw [e] at hs ⊢
      exact getDict_mem one hr (by simp) hs
    · intro n
      rw [hd2 n]
      simp only [mem_names]
      rfl
    · intro r0 hr0 e0 he0
      refine getDict_mem hr0 hr he0 ?_
      obtain ⟨ts, -, hm⟩ := getDict_ok hr0
      have hin : e0.1 ∈ glob fs cwd parent := by
        have : e0.1 ∈ r0.map Prod.fst := List.mem_map.2 ⟨e0, he0, rfl⟩
        rw [(mem_matchFiles hm).1, List.mem_filter] at this
        exact this.1
      rw [mem_glob] at hin ⊢
      obtain ⟨rel, g1, g2, g3⟩ := hin
      refine ⟨rel, g1, ?_, g3⟩
      by_cases hq : rel.reverse ++ (parse parent).loc cwd <:+ (cs.map (filled val)).reverse ++ (parse parent).loc cwd
      · rw [(m2 _).1 hq]; simp
      · rw [(m2 _).2 hq]; exact g2

/-- **C98 is false for a path with a slash at the end**: the directory is made, but never found. -/
theorem C98_trailing_slash : ∃ w, mkPath "case_<job>/".toList = .ok w ∧
    ∃ fs', mkdir w ([] : FS Unit) [] "out".toList [("job".toList, natStr 7)] = (fs', .ok "out/case_7".toList) ∧
      look fs' ["case_7".toList, "out".toList] = some .dir ∧ findPaths w fs' [] "out".toList = .ok [] :=
  ⟨_, rfl, [(["out".toList], .dir), (["case_7".toList, "out".toList], .dir)], by decide +kernel, by decide +kernel, by decide +kernel⟩

/-- **C98, the path returned is not absolute**, contrary to the documentation of `mkdir`, if the parent directory is
given relative to the working directory. -/
theorem C98_relative : ∃ w, mkPath "case_<job>".toList = .ok w ∧
    (mkdir w ([(["tmp".toList], .dir)] : FS Unit) ["tmp".toList] "out".toList [("job".toList, natStr 7)]).2
      = .ok "out/case_7".toList ∧
    look (mkdir w ([(["tmp".toList], .dir)] : FS Unit) ["tmp".toList] "out".toList [("job".toList, natStr 7)]).1
      ["case_7".toList, "out".toList, "tmp".toList] = some .dir :=
  ⟨_, rfl, by decide +kernel, by decide +kernel⟩

/-- A working directory `/tmp` with the directory `out/case_3` and the file `out/log`. -/
def exFS : FS Nat :=
  [(["tmp".toList], .dir), (["out".toList, "tmp".toList], .dir), (["case_3".toList, "out".toList, "tmp".toList], .dir),
    (["log".toList, "out".toList, "tmp".toList], .file 5)]

theorem exFS_tree : Tree exFS := by
  intro n p h
  rw [look_ne_none] at h
  obtain ⟨e, he, h⟩ := h
  simp only [exFS, List.mem_cons, List.not_mem_nil, or_false] at he
  rcases he with rfl | rfl | rfl | rfl <;> (simp only [List.cons.injEq] at h; obtain ⟨rfl, rfl⟩ := h; decide +kernel)

theorem exFS_free (p : Loc) (h : ["log".toList, "out".toList, "tmp".toList] ∉ p.tails) : ¬ InTheWay exFS p := by
  rintro ⟨q, c, h1, h2⟩
  cases q with
  | nil => cases h2
  | cons n q =>
    have h3 : look exFS (n :: q) ≠ none := by rw [h2]; simp
    rw [look_ne_none] at h3
    obtain ⟨e, he, h3⟩ := h3
    simp only [exFS, List.mem_cons, List.not_mem_nil, or_false] at he
    rcases he with rfl | rfl | rfl | rfl
    · rw [← h3] at h2; revert h2; simp [look, exFS]
    · rw [← h3] at h2; revert h2; simp [look, exFS]
    · rw [← h3] at h2; revert h2; simp [look, exFS]
    · exact h ((List.mem_tails _ _).2 (by rw [← h3] at h1; exact h1))

/-- Non-vacuity: `WildcardPath("case_<job>/run_<step>").mkdir("./out", job=4, step=20)` in this directory. -/
example : ∃ w, mkPath "case_<job>/run_<step>".toList = .ok w ∧
    ∃ fs', mkdir w exFS ["tmp".toList] "./out/".toList [("step".toList, natStr 20), ("job".toList, natStr 4)]
      = (fs', .ok "out/case_4/run_20".toList) ∧
    findPaths w fs' ["tmp".toList] "./out/".toList
      = .ok [("out/case_4/run_20".toList, [("job".toList, 4), ("step".toList, 20)])] ∧
    (mkdir w exFS ["tmp".toList] "out/log".toList [("step".toList, natStr 20), ("job".toList, natStr 4)]).2
      = .error .notADirectoryError :=
  ⟨_, rfl, exFS ++ [(["case_4".toList, "out".toList, "tmp".toList], .dir),
    (["run_20".toList, "case_4".toList, "out".toList, "tmp".toList], .dir)], by decide +kernel, by decide +kernel,
    by decide +kernel⟩

/-- The hypotheses of `C98_found_partial` for this call. -/
example : ∃ cs, slashed cs = ("case_".toList.map Part.lit ++ [.wild "job".toList]) ++ .lit '/' ::
      ("run_".toList.map Part.lit ++ [.wild "step".toList]) ∧ cs ≠ [] ∧ (∀ c ∈ cs, Proper c) ∧ Good (slashed cs) ∧
      Tree exFS ∧ '\n' ∉ "./out/".toList ∧ ['.', '.'] ∉ components "./out/".toList ∧
      ∀ val, ¬ InTheWay exFS ((cs.map (filled val)).reverse ++ (parse "./out/".toList).loc ["tmp".toList]) := by
  refine ⟨["case_".toList.map Part.lit ++ [.wild "job".toList], "run_".toList.map Part.lit ++ [.wild "step".toList]], rfl,
    by simp, ?_, ?_, exFS_tree, by decide, by decide +kernel, ?_⟩
  · intro c hc
    simp only [List.mem_cons, List.not_mem_nil, or_false] at hc
    rcases hc with rfl | rfl <;> (unfold Proper; decide)
  · refine ⟨⟨'c', _, rfl, by decide, by decide⟩, ?_, ?_, ?_, ?_⟩
    · intro c hc
      simp [slashed] at hc
      rcases hc with rfl | rfl | rfl | rfl | rfl | rfl | rfl | rfl | rfl | rfl <;> decide
    · intro n hn
      simp [slashed] at hn
      rcases hn with rfl | rfl <;> decide
    · simp [slashed, Separated]
      decide
    · intro n m hn hm i h
      simp [slashed] at hn hm
      have : '_' ∈ n := by rw [h]; simp
      rcases hn with rfl | rfl <;> (revert this; decide)
  · intro val
    refine exFS_free _ ?_
    rw [List.mem_tails]
    intro h
    have h1 : (parse "./out/".toList).loc ["tmp".toList] = ["out".toList, "tmp".toList] := by decide +kernel
    rw [h1] at h
    have h2 := h.eq_of_length
    simp only [List.map_cons, List.map_nil, List.reverse_cons, List.reverse_nil, List.nil_append, List.cons_append] at h
    rcases List.suffix_cons_iff.1 h with h | h
    · simp at h
    · rw [List.suffix_iff_eq_drop] at h
      simp [filled] at h

/-! ### C99 -/

theorem writeFile_ok {fs : FS C} (ht : Tree fs) {n : Str} {p : Loc} (hp : look fs p = some .dir)
    (hd : look fs (n :: p) ≠ some .dir) (c : C) :
    ∃ fs', writeFile fs (n :: p) c = (fs', none) ∧ Tree fs' ∧
      ∀ q, look fs' q = if q = n :: p then some (.file c) else look fs q := by
  have tree : ∀ fs' : FS C, (∀ q, look fs' q = if q = n :: p then some (.file c) else look fs q) → Tree fs' := by
    intro fs' h m q hq
    rw [h] at hq ⊢
    have hne : q ≠ n :: p → look fs q = some .dir := by
      intro hne
      by_cases e : m :: q = n :: p
      · rw [List.cons.injEq] at e
        rw [e.2]; exact hp
      · rw [if_neg e] at hq
        exact ht m q hq
    by_cases e : q = n :: p
    · exfalso
      rw [e] at hq
      have : m :: n :: p ≠ n :: p := fun h => by simpa using congrArg List.length h
      rw [if_neg this] at hq
      exact hd (ht m _ hq)
    · rw [if_neg e]
      exact hne e
  cases hl : look fs (n :: p) with
  | none =>
    refine ⟨fs ++ [(n :: p, .file c)], ?_, tree _ (look_append fs n p _ hl), look_append fs n p _ hl⟩
    rw [writeFile, hl]
    simp [isDir_iff.2 hp]
  | some v =>
    cases v with
    | dir => exact absurd hl hd
    | file c0 =>
      have := look_set fs n p (.file c) (by rw [hl]; simp)
      refine ⟨_, ?_, tree _ this, this⟩
      rw [writeFile, hl]

/-- **C99.**  Writing with `parent_dirs` succeeds if no file is in the way and the path is not a directory.  Then the file
has the new content, the directories above it are there, and nothing else has changed. -/
theorem C99_write {fs : FS C} (ht : Tree fs) (n : Str) (p : Loc) (hw : ¬ InTheWay fs p) (hd : look fs (n :: p) ≠ some .dir)
    (c : C) : ∃ fs', writeTo true fs (n :: p) c = (fs', none) ∧ Tree fs' ∧ readFrom fs' (n :: p) = .ok c ∧
      ∀ q, q ≠ n :: p → (q <:+ p → look fs' q = some .dir) ∧ (¬ q <:+ p → look fs' q = look fs q) := by
  have fin : ∀ fs1 : FS C, WithDir fs p fs1 → ∃ fs', writeFile fs1 (n :: p) c = (fs', none) ∧ Tree fs' ∧
      readFrom fs' (n :: p) = .ok c ∧
      ∀ q, q ≠ n :: p → (q <:+ p → look fs' q = some .dir) ∧ (¬ q <:+ p → look fs' q = look fs q) := by
    intro fs1 h
    obtain ⟨fs', h1, h2, h3⟩ := writeFile_ok (h.tree ht) ((h p).1 List.suffix_rfl)
      (by rw [(h _).2 (not_suffix_tail n p)]; exact hd) c
    refine ⟨fs', h1, h2, by rw [readFrom, h3, if_pos rfl], fun q hq => ?_⟩
    rw [h3, if_neg hq]
    exact h q
  rw [writeTo]
  cases hp : look fs p with
  | none =>
    obtain ⟨fs1, h1, h2⟩ := pathMkdir_ok false ht p hw (.inr hp)
    simp only [List.tail_cons, exists', hp, Option.isSome_none, Bool.not_false, Bool.and_self, if_true, h1]
    exact fin fs1 h2
  | some v =>
    cases v with
    | file c0 => exact absurd ⟨p, c0, List.suffix_rfl, hp⟩ hw
    | dir =>
      simp only [List.tail_cons, exists', hp, Option.isSome_some, Bool.not_true, Bool.and_false, Bool.false_eq_true, if_false]
      exact fin fs (withDir_self ht hp)

/-- **C99, exceptions.**  Writing raises exactly if a file is in the way, the path is a directory, or the parent directory
is missing and not to be made; then nothing has changed. -/
theorem C99_raises {fs : FS C} (ht : Tree fs) (parentDirs : Bool) (n : Str) (p : Loc) (c : C) :
    ((∃ fs' e, writeTo parentDirs fs (n :: p) c = (fs', some e)) ↔
      InTheWay fs p ∨ look fs (n :: p) = some .dir ∨ (parentDirs = false ∧ look fs p = none)) ∧
    ∀ fs' e, writeTo parentDirs fs (n :: p) c = (fs', some e) → fs' = fs := by
  have err : InTheWay fs p → ∃ e, writeTo parentDirs fs (n :: p) c = (fs, some e) := by
    rintro ⟨q, c0, h1, h2⟩
    have hfa : fileAbove fs (n :: p) = true := by
      refine fileAbove_iff.2 ⟨q, c0, h1.trans (List.suffix_cons n p), ?_, h2⟩
      rintro rfl
      exact not_suffix_tail n p h1
    have hnp : look fs p ≠ some .dir := by
      intro hp
      by_cases e : q = p
      · rw [e, hp] at h2; cases h2
      · rw [ht.above (by rw [hp]; simp) h1 e] at h2; cases h2
    have hn : look fs (n :: p) = none := by
      by_contra h
      exact hnp (ht n p h)
    rw [writeTo]
    split
    · rw [List.tail_cons, pathMkdir_error false ht p ⟨q, c0, h1, h2⟩]
      exact ⟨_, rfl⟩
    · rw [writeFile, hn]
      have : ¬ isDir fs p = true := fun h => hnp (isDir_iff.1 h)
      simp [this, hfa]
  have dirCase : look fs (n :: p) = some .dir → ∃ e, writeTo parentDirs fs (n :: p) c = (fs, some e) := by
    intro h
    have hp := ht n p (by rw [h]; simp)
    rw [writeTo]
    simp [exists', hp, writeFile, h]
  have missing : parentDirs = false → look fs p = none → ∃ e, writeTo parentDirs fs (n :: p) c = (fs, some e) := by
    rintro rfl h
    have hn : look fs (n :: p) = none := by
      by_contra h'
      rw [ht n p h'] at h
      cases h
    have hd : isDir fs p = false := by rw [Bool.eq_false_iff, Ne, isDir_iff, h]; simp
    rw [writeTo]
    simp only [Bool.false_and, Bool.false_eq_true, if_false]
    rw [writeFile, hn]
    simp only [List.tail_cons, hd, Bool.false_eq_true, if_false]
    split <;> exact ⟨_, rfl⟩
  have okCase : ¬ InTheWay fs p → look fs (n :: p) ≠ some .dir → ¬ (parentDirs = false ∧ look fs p = none) →
      ∃ fs', writeTo parentDirs fs (n :: p) c = (fs', none) := by
    intro h1 h2 h3
    cases parentDirs with
    | true =>
      obtain ⟨fs', h, -⟩ := C99_write ht n p h1 h2 c
      exact ⟨fs', h⟩
    | false =>
      have hp : look fs p = some .dir := by
        cases hp : look fs p with
        | none => exact absurd ⟨rfl, hp⟩ h3
        | some v =>
          cases v with
          | dir => rfl
          | file c0 => exact absurd ⟨p, c0, List.suffix_rfl, hp⟩ h1
      obtain ⟨fs', h, -⟩ := writeFile_ok ht hp h2 c
      exact ⟨fs', by rw [writeTo]; simpa using h⟩
  by_cases h : InTheWay fs p ∨ look fs (n :: p) = some .dir ∨ (parentDirs = false ∧ look fs p = none)
  · obtain ⟨e, he⟩ : ∃ e, writeTo parentDirs fs (n :: p) c = (fs, some e) := by
      rcases h with h | h | ⟨h1, h2⟩
      · exact err h
      · exact dirCase h
      · exact missing h1 h2
    refine ⟨⟨fun _ => h, fun _ => ⟨fs, e, he⟩⟩, fun fs' e' h' => ?_⟩
    rw [he, Prod.mk.injEq] at h'
    exact h'.1.symm
  · push Not at h
    obtain ⟨fs', hok⟩ := okCase h.1 h.2.1 (fun h' => h.2.2 h'.1 h'.2)
    refine ⟨⟨fun ⟨fs1, e, h1⟩ => ?_, fun h' => ?_⟩, fun fs1 e h1 => ?_⟩
    · rw [hok] at h1; cases h1
    · rcases h' with h' | h' | ⟨h1, h2⟩
      · exact absurd h' h.1
      · exact absurd h' h.2.1
      · exact absurd h2 (h.2.2 h1)
    · rw [hok] at h1; cases h1

/-- Writing files one after the other: `(parent_dirs, place, content)`; an exception ends nothing (the caller may go on). -/
def writeAll : FS C → List (Bool × Loc × C) → FS C
  | fs, [] => fs
  | fs, (b, p, c) :: ws => writeAll (writeTo b fs p c).1 ws

/-- After a write the file system is a tree, what was there is there, and other files have not changed. -/
theorem writeTo_keeps {fs : FS C} (ht : Tree fs) (b : Bool) (p : Loc) (c : C) :
    Tree (writeTo b fs p c).1 ∧ ∀ q v, q ≠ p → look fs q = some v → look (writeTo b fs p c).1 q = some v := by
  cases hp : p with
  | nil =>
    have : writeTo b fs [] c = (fs, some .isADirectoryError) := by
      rw [writeTo]
      simp [exists', look, writeFile]
    rw [this]
    exact ⟨ht, fun q v _ h => h⟩
  | cons n p =>
    cases hr : writeTo b fs (n :: p) c with
    | mk fs' r =>
      cases r with
      | some e =>
        rw [(C99_raises ht b n p c).2 fs' e hr]
        exact ⟨ht, fun q v _ h => h⟩
      | none =>
        have hno : ¬ (InTheWay fs p ∨ look fs (n :: p) = some .dir ∨ (b = false ∧ look fs p = none)) := by
          intro h
          obtain ⟨fs1, e, h1⟩ := (C99_raises ht b n p c).1.2 h
          rw [hr] at h1
          cases h1
        push Not at hno
        cases b with
        | true =>
          obtain ⟨fs1, h1, h2, -, h3⟩ := C99_write ht n p hno.1 hno.2.1 c
          rw [hr] at h1
          cases h1
          refine ⟨h2, fun q v hq hv => ?_⟩
          by_cases hs : q <:+ p
          · rw [(h3 q hq).1 hs]
            cases v with
            | dir => rfl
            | file c0 => exact absurd ⟨q, c0, hs, hv⟩ hno.1
          · rw [(h3 q hq).2 hs]; exact hv
        | false =>
          have hd : look fs p = some .dir := by
            cases hl : look fs p with
            | none => exact absurd hl (hno.2.2 rfl)
            | some v =>
              cases v with
              | dir => rfl
              | file c0 => exact absurd ⟨p, c0, List.suffix_rfl, hl⟩ hno.1
          obtain ⟨fs1, h1, h2, h3⟩ := writeFile_ok ht hd hno.2.1 c
          have h4 : writeTo false fs (n :: p) c = (fs1, none) := by rw [writeTo]; simpa using h1
          rw [hr] at h4
          cases h4
          exact ⟨h2, fun q v hq hv => by rw [h3, if_neg hq]; exact hv⟩

/-- **C99, reading back.**  After a file has been written, whatever else is written to other places, whether or not this
succeeds, the content of the file is what was written to it. -/
theorem C99_read_back {fs : FS C} (ht : Tree fs) {b : Bool} {p : Loc} {c : C} {fs' : FS C}
    (h : writeTo b fs p c = (fs', none)) (ws : List (Bool × Loc × C)) (hws : ∀ x ∈ ws, x.2.1 ≠ p) :
    readFrom (writeAll fs' ws) p = .ok c := by
  have h0 : Tree fs' ∧ look fs' p = some (.file c) := by
    have ht' := (writeTo_keeps ht b p c).1
    rw [h] at ht'
    refine ⟨ht', ?_⟩
    have : ∀ fs1 : FS C, writeFile fs1 p c = (fs', none) → look fs' p = some (.file c) := by
      intro fs1 hw
      cases p with
      | nil => cases hw
      | cons n p =>
        rw [writeFile] at hw
        split at hw
        · cases hw
        · rename_i c0 hl
          rw [Prod.mk.injEq] at hw
          rw [← hw.1, look_set fs1 n p _ (by rw [hl]; simp), if_pos rfl]
        · rename_i hl
          split at hw
          · rw [Prod.mk.injEq] at hw
            rw [← hw.1, look_append fs1 n p _ hl, if_pos rfl]
          · split at hw <;> cases hw
    rw [writeTo] at h
    split at h
    · split at h
      · cases h
      · exact this _ h
    · exact this _ h
  clear h
  obtain ⟨ht', hl⟩ := h0
  induction ws generalizing fs' with
  | nil => rw [writeAll, readFrom, hl]
  | cons x ws ih =>
    obtain ⟨b', q, c'⟩ := x
    rw [writeAll]
    obtain ⟨k1, k2⟩ := writeTo_keeps ht' b' q c'
    exact ih (fun y hy => hws y (by simp [hy])) k1 (k2 p _ (fun e => hws (b', q, c') (by simp) e.symm) hl)

open B3d.Tree Files in
/-- **C99 for B3D files.**  What `write_b3d` has put into a file, `read_b3d` gets from it, also if other files have been
written in the meantime. -/
theorem C99_b3d {P : Type} (geom : List P → List Triangles.Tri → Option PyErr) (uid : Str) (b : Bldg P)
    (hd : Distinct b) (hv : ValidNames b) (hg : Accepted geom b) (hne : leaves b ≠ [])
    {fs : FS (B3dDoc P)} (ht : Spec.Tree fs) {pd : Bool} {p : Loc} {fs' : FS (B3dDoc P)}
    (h : writeTo pd fs p (writeB3d b) = (fs', none)) (ws : List (Bool × Loc × B3dDoc P)) (hws : ∀ x ∈ ws, x.2.1 ≠ p) :
    ∃ doc b', readFrom (writeAll fs' ws) p = .ok doc ∧ readB3d geom uid doc = .ok b' ∧ view b' = view (prune b) := by
  obtain ⟨b', h1, h2⟩ := C16_round_trip geom uid b hd hv hg hne
  exact ⟨_, b', C99_read_back ht h ws hws, h1, h2⟩

/-- Non-vacuity: a new file in a new directory, an existing file, a file in the way, a missing directory. -/
example :
    ¬ InTheWay exFS ["new".toList, "out".toList, "tmp".toList] ∧
    look exFS ["a.b3d".toList, "new".toList, "out".toList, "tmp".toList] ≠ some .dir ∧
    readFrom (writeAll exFS [(true, ["a.b3d".toList, "new".toList, "out".toList, "tmp".toList], 7),
      (false, ["log".toList, "out".toList, "tmp".toList], 8), (true, ["x".toList, "log".toList, "out".toList, "tmp".toList], 9)])
      ["a.b3d".toList, "new".toList, "out".toList, "tmp".toList] = .ok 7 ∧
    (writeTo true exFS ["x".toList, "log".toList, "out".toList, "tmp".toList] 9).2 = some .notADirectoryError ∧
    (writeTo false exFS ["x".toList, "y".toList, "tmp".toList] 9).2 = some .fileNotFoundError ∧
    (writeTo true exFS ["out".toList, "tmp".toList] 9).2 = some .isADirectoryError :=
  ⟨exFS_free _ (by decide +kernel), by decide +kernel, by decide +kernel, by decide +kernel, by decide +kernel,
    by decide +kernel⟩

/-! ### C68 over the whole file system -/

theorem makedirs_cases {fs : FS C} (ht : Tree fs) (p : Loc) :
    (¬ InTheWay fs p ∧ look fs p = none ∧ ∃ fs', makedirs fs p = (fs', none) ∧ WithDir fs p fs') ∨
    ((InTheWay fs p ∨ look fs p ≠ none) ∧ ∃ e, makedirs fs p = (fs, some e)) := by
  by_cases h : InTheWay fs p ∨ look fs p ≠ none
  · exact .inr ⟨h, _, makedirs_error ht p h⟩
  · push Not at h
    exact .inl ⟨h.1, h.2, makedirs_ok ht p h.1 h.2⟩

/-- The project directory. -/
theorem project_cases {fs : FS C} (ht : Tree fs) (p : Loc) :
    (look fs p ≠ none ∧ (if exists' fs p then (fs, none) else makedirs fs p) = (fs, none)) ∨
    (¬ InTheWay fs p ∧ look fs p = none ∧
      ∃ fs', (if exists' fs p then (fs, none) else makedirs fs p) = (fs', none) ∧ WithDir fs p fs') ∨
    (InTheWay fs p ∧ look fs p = none ∧ ∃ e, (if exists' fs p then (fs, none) else makedirs fs p) = (fs, some e)) := by
  cases hl : look fs p with
  | some v => exact .inl ⟨by simp, by simp [exists', hl]⟩
  | none =>
    have he : exists' fs p = false := by simp [exists', hl]
    simp only [he, Bool.false_eq_true, if_false]
    rcases makedirs_cases ht p with ⟨h1, h2, h3⟩ | ⟨h1, h2⟩
    · exact .inr (.inl ⟨h1, trivial, h3⟩)
    · rcases h1 with h1 | h1
      · exact .inr (.inr ⟨h1, trivial, h2⟩)
      · exact absurd hl h1

/-- The buffer directory. -/
theorem buffer_cases {fs : FS C} (ht : Tree fs) (p : Loc) :
    let r := match look fs p with
      | some (.file _) => (fs, some .notADirectoryError)
      | some .dir => if hasEntries fs p then (fs, some .runtimeError) else makedirs fs p
      | none => makedirs fs p
    (¬ InTheWay fs p ∧ look fs p = none ∧ ∃ fs', r = (fs', none) ∧ WithDir fs p fs') ∨
    ((InTheWay fs p ∨ look fs p ≠ none) ∧ ∃ e, r = (fs, some e)) := by
  cases hl : look fs p with
  | none =>
    have := makedirs_cases ht p
    rw [hl] at this
    exact this
  | some v =>
    refine .inr ⟨.inr (by simp), ?_⟩
    cases v with
    | file c => exact ⟨_, rfl⟩
    | dir =>
      simp only []
      split
      · exact ⟨_, rfl⟩
      · exact ⟨_, makedirs_error ht p (.inr (by rw [hl]; simp))⟩

/-- **C68 over the whole file system.**  Preparing the directories of a simulation leaves everything that exists as it is,
whether or not an exception is raised, and makes at most directories on the way to the two paths.  It succeeds exactly if
the buffer directory is not there, also not after the project directory has been made, and no file is in the way; then
the buffer directory is empty. -/
theorem C68_directories {fs : FS C} (ht : Tree fs) (project buffer : Loc) :
    ∃ fs' r, makeDirs fs project buffer = (fs', r) ∧
      (∀ q v, look fs q = some v → look fs' q = some v) ∧
      (∀ q, look fs q = none → look fs' q ≠ none → look fs' q = some .dir ∧ (q <:+ project ∨ q <:+ buffer)) ∧
      (r = none ↔ look fs buffer = none ∧ ¬ buffer <:+ project ∧ ¬ InTheWay fs buffer ∧
        (look fs project ≠ none ∨ ¬ InTheWay fs project)) ∧
      (r = none → look fs' buffer = some .dir ∧ (∀ n, look fs' (n :: buffer) = none) ∧ look fs' project ≠ none) := by
  have keep : ∀ {fs fs' : FS C} {p : Loc}, ¬ InTheWay fs p → WithDir fs p fs' →
      ∀ q v, look fs q = some v → look fs' q = some v := by
    intro fs fs' p hw h q v hv
    by_cases hq : q <:+ p
    · rw [(h q).1 hq]
      cases v with
      | dir => rfl
      | file c => exact absurd ⟨q, c, hq, hv⟩ hw
    · rw [(h q).2 hq]; exact hv
  have fresh : ∀ {fs fs' : FS C} {p : Loc}, WithDir fs p fs' →
      ∀ q, look fs q = none → look fs' q ≠ none → look fs' q = some .dir ∧ q <:+ p := by
    intro fs fs' p h q h1 h2
    by_cases hq : q <:+ p
    · exact ⟨(h q).1 hq, hq⟩
    · rw [(h q).2 hq] at h2
      exact absurd h1 h2
  have empty : ∀ {fs fs' : FS C} {p : Loc}, Tree fs → look fs p = none → WithDir fs p fs' →
      look fs' p = some .dir ∧ ∀ n, look fs' (n :: p) = none := by
    intro fs fs' p ht h1 h
    refine ⟨(h p).1 List.suffix_rfl, fun n => ?_⟩
    rw [(h _).2 (not_suffix_tail n p)]
    by_contra hc
    rw [ht n p hc] at h1
    cases h1
  rw [makeDirs]
  rcases project_cases ht project with ⟨h1, h2⟩ | ⟨h1, h2, fs1, h3, h4⟩ | ⟨h1, h2, e, h3⟩
  · simp only [h2]
    have hbp : look fs buffer = none → ¬ buffer <:+ project := by
      intro hb hs
      by_cases e : buffer = project
      · rw [e] at hb; exact h1 hb
      · rw [ht.above h1 hs e] at hb; cases hb
    rcases buffer_cases ht buffer with ⟨b1, b2, fs', b3, b4⟩ | ⟨b1, e, b2⟩
    · refine ⟨fs', none, b3, keep b1 b4, fun q g1 g2 => ?_, ?_, fun _ => ?_⟩
      · exact ⟨(fresh b4 q g1 g2).1, .inr (fresh b4 q g1 g2).2⟩
      · simp only [true_iff]
        exact ⟨b2, hbp b2, b1, .inl h1⟩
      · obtain ⟨v, hv⟩ := Option.ne_none_iff_exists'.1 h1
        exact ⟨(empty ht b2 b4).1, (empty ht b2 b4).2, by rw [keep b1 b4 _ _ hv]; simp⟩
    · refine ⟨fs, some e, b2, fun q v h => h, fun q g1 g2 => absurd g1 g2, ?_, fun h => by cases h⟩
      simp only [reduceCtorEq, false_iff]
      rintro ⟨g1, -, g2, -⟩
      rcases b1 with b1 | b1
      · exact g2 b1
      · exact b1 g1
  · simp only [h3]
    have hway : InTheWay fs1 buffer ↔ InTheWay fs buffer := by
      constructor
      · rintro ⟨q, c, g1, g2⟩
        refine ⟨q, c, g1, ?_⟩
        by_cases hq : q <:+ project
        · rw [(h4 q).1 hq] at g2; cases g2
        · rw [← (h4 q).2 hq]; exact g2
      · rintro ⟨q, c, g1, g2⟩
        exact ⟨q, c, g1, keep h1 h4 q _ g2⟩
    have hnone : look fs1 buffer = none ↔ look fs buffer = none ∧ ¬ buffer <:+ project := by
      by_cases hq : buffer <:+ project
      · simp [(h4 _).1 hq, hq]
      · simp [(h4 _).2 hq, hq]
    have ht1 := h4.tree ht
    rcases buffer_cases ht1 buffer with ⟨b1, b2, fs', b3, b4⟩ | ⟨b1, e, b2⟩
    · refine ⟨fs', none, b3, fun q v hv => keep b1 b4 q v (keep h1 h4 q v hv), fun q g1 g2 => ?_, ?_, fun _ => ?_⟩
      · by_cases g3 : look fs1 q = none
        · exact ⟨(fresh b4 q g3 g2).1, .inr (fresh b4 q g3 g2).2⟩
        · obtain ⟨g4, g5⟩ := fresh h4 q g1 g3
          exact ⟨keep b1 b4 q _ g4, .inl g5⟩
      · simp only [true_iff]
        exact ⟨(hnone.1 b2).1, (hnone.1 b2).2, fun h => b1 (hway.2 h), .inr h1⟩
      · refine ⟨(empty ht1 b2 b4).1, (empty ht1 b2 b4).2, ?_⟩
        rw [keep b1 b4 project _ ((h4 project).1 List.suffix_rfl)]
        simp
    · refine ⟨fs1, some e, b2, keep h1 h4, fun q g1 g2 => ?_, ?_, fun h => by cases h⟩
      · exact ⟨(fresh h4 q g1 g2).1, .inl (fresh h4 q g1 g2).2⟩
      · simp only [reduceCtorEq, false_iff]
        rintro ⟨g1, g2, g3, -⟩
        rcases b1 with b1 | b1
        · exact g3 (hway.1 b1)
        · exact b1 (hnone.2 ⟨g1, g2⟩)
  · simp only [h3]
    refine ⟨fs, some e, rfl, fun q v h => h, fun q g1 g2 => absurd g1 g2, ?_, fun h => by cases h⟩
    simp only [reduceCtorEq, false_iff]
    rintro ⟨-, -, -, g | g⟩
    · exact g h2
    · exact g h1

/-- **C68 is false if the buffer directory is the project directory** (or one above it) and this does not exist yet: it is
made, and then found to exist. -/
theorem C68_same_directory {fs : FS C} (ht : Tree fs) (project : Loc) (hn : look fs project = none)
    (hw : ¬ InTheWay fs project) :
    ∃ fs', makeDirs fs project project = (fs', some .fileExistsError) ∧ WithDir fs project fs' := by
  obtain ⟨fs1, h1, h2⟩ := makedirs_ok ht project hw hn
  have hd := (h2 project).1 List.suffix_rfl
  have ht1 := h2.tree ht
  refine ⟨fs1, ?_, h2⟩
  rw [makeDirs]
  simp only [exists', hn, Option.isSome_none, Bool.false_eq_true, if_false, h1, hd]
  have hf : fileAbove fs1 project = false := by
    rw [Bool.eq_false_iff, Ne, fileAbove_iff]
    rintro ⟨q, c, g1, g2, g3⟩
    rw [(h2 q).1 g1] at g3
    cases g3
  have he : hasEntries fs1 project = false := by
    rw [Bool.eq_false_iff, Ne, hasEntries, List.any_eq_true]
    rintro ⟨e, g1, g2⟩
    rw [decide_eq_true_iff] at g2
    obtain ⟨n, p, hnp⟩ := List.exists_cons_of_ne_nil g2.1
    have g3 : look fs1 (n :: project) ≠ none := by
      refine look_ne_none.2 ⟨e, g1, ?_⟩
      rw [hnp, ← g2.2, hnp]
      rfl
    rw [(h2 _).2 (not_suffix_tail n project)] at g3
    rw [ht n project g3] at hn
    cases hn
  rw [if_neg (by rw [he]; simp), makedirs_error ht1 project (.inr (by rw [hd]; simp)), hf]
  rfl

/-- Non-vacuity: the default directories `out` and `out/states`; a buffer directory with something in it; an empty one. -/
example : (makeDirs exFS ["out".toList, "tmp".toList] ["states".toList, "out".toList, "tmp".toList]).2 = none ∧
    (makeDirs exFS ["p".toList, "tmp".toList] ["states".toList, "p".toList, "tmp".toList]).2 = none ∧
    (makeDirs exFS ["p".toList, "tmp".toList] ["out".toList, "tmp".toList]).2 = some .runtimeError ∧
    (makeDirs exFS ["p".toList, "tmp".toList] ["case_3".toList, "out".toList, "tmp".toList]).2 = some .fileExistsError ∧
    (makeDirs exFS ["p".toList, "tmp".toList] ["log".toList, "out".toList, "tmp".toList]).2 = some .notADirectoryError ∧
    (makeDirs exFS ["p".toList, "tmp".toList] ["p".toList, "tmp".toList]).2 = some .fileExistsError := by
  decide +kernel

end B3d.FileSystem
