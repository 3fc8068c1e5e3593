import Verif.Proofs.Buffers
import Verif.Props.Wildcard
import Verif.Props.SimBatch

/-! # Property C53: dumped buffers can be read back -/

set_option linter.unusedSectionVars false

namespace B3d.Buffers

open Wildcard Sim

/-! ### The default file names can be used -/

/-- `name_<step>.npy` -/
def stepFile (name : Str) : List Part :=
  name.map Part.lit ++ .wild "step".toList :: ".npy".toList.map Part.lit

theorem fits_lits (seen : Str → Nat) (s : Str) (hs : '.' ∉ s) (ps : List Part)
    (gs : List (Str × Str)) (txt : Str) (h : Fits (toks seen (s.map Part.lit ++ ps)) gs txt) :
    ∃ txt', txt = s ++ txt' ∧ Fits (toks seen ps) gs txt' := by
  induction s generalizing txt with
  | nil => exact ⟨txt, rfl, h⟩
  | cons c s ih =>
    have hc : c ≠ '.' := fun h => hs (by simp [h])
    simp only [List.map_cons, List.cons_append, toks, if_neg hc] at h
    cases h with
    | lit h =>
      obtain ⟨t, h1, h2⟩ := ih (fun h => hs (by simp [h])) _ h
      exact ⟨t, by rw [h1]; rfl, h2⟩

theorem tail_chars {tail : Str} (h : tail.dropWhile (· = '/') = [] ∨ tail.dropWhile (· = '/') = ['\n']) :
    ∀ c ∈ tail, c = '/' ∨ c = '\n' := by
  intro c hc
  rw [← List.takeWhile_append_dropWhile (p := fun c => decide (c = '/')) (l := tail)] at hc
  rcases List.mem_append.1 hc with hc | hc
  · left
    have := List.all_takeWhile (p := fun c => decide (c = '/')) (l := tail)
    rw [List.all_eq_true] at this
    simpa using this c hc
  · right
    rcases h with h | h <;> rw [h] at hc <;> simp at hc
    exact hc

/-- File names of this form whose names end in different letters before the underscore. -/
theorem apart_stepFile (x y : Str) (a b : Char) (hab : a ≠ b) (hy : '.' ∉ y ++ [b, '_'])
    (hb : StepPattern (stepFile (y ++ [b, '_']))) :
    Apart (stepFile (x ++ [a, '_'])) (stepFile (y ++ [b, '_'])) := by
  intro w hw dir n _
  obtain ⟨w', h1, h2, _⟩ := pattern_facts hb
  rw [hw] at h1
  cases h1
  rw [getDict_single h2]
  cases hm : reMatch (toks (fun _ => 0) (stepFile (y ++ [b, '_'])))
      (fileName (stepFile (x ++ [a, '_'])) dir n) with
  | none => rfl
  | some gs =>
    exfalso
    obtain ⟨pre, txt, tail, e, hf, ht⟩ := reMatch_sound hm
    unfold stepFile at hf
    obtain ⟨t1, et, hf1⟩ := fits_lits _ _ hy _ _ _ hf
    clear hf
    subst et
    have hf := hf1
    simp only [toks] at hf
    cases hf with
    | @digits _ ds _ _ s h0 hds hf =>
      have hdot : ∃ c, s = [c, 'n', 'p', 'y'] := by
        have e4 : ".npy".toList.map Part.lit = [Part.lit '.', .lit 'n', .lit 'p', .lit 'y'] := rfl
        rw [e4] at hf
        simp only [toks, if_true] at hf
        cases hf with
        | @any c _ _ _ hc hf =>
          rw [if_neg (by decide), if_neg (by decide), if_neg (by decide)] at hf
          cases hf with
          | lit hf =>
            cases hf with
            | lit hf =>
              cases hf with
              | lit hf =>
                cases hf
                exact ⟨c, rfl⟩
      obtain ⟨c, rfl⟩ := hdot
      have etail : tail = [] := by
        by_contra hne
        have h1 := congrArg List.getLast? e
        rw [List.getLast?_append, List.getLast?_eq_getLast_of_ne_nil hne] at h1
        have h2 : (fileName (stepFile (x ++ [a, '_'])) dir n).getLast? = some 'y' := by
          unfold fileName stepFile
          have e4 : ".npy".toList.map Part.lit = [Part.lit '.', .lit 'n', .lit 'p', .lit 'y'] := rfl
          rw [filled_append, e4]
          simp only [filled]
          rw [show dir ++ '/' :: (filled (fun _ => n) ((x ++ [a, '_']).map Part.lit) ++
            (natStr n ++ ['.', 'n', 'p', 'y'])) = (dir ++ '/' :: (filled (fun _ => n)
              ((x ++ [a, '_']).map Part.lit) ++ (natStr n ++ ['.', 'n', 'p']))) ++ ['y'] by simp]
          rw [List.getLast?_append]
          rfl
        rw [h2] at h1
        simp only [Option.some_or, Option.some.injEq] at h1
        have := tail_chars ht _ (List.getLast_mem hne)
        rw [← h1] at this
        rcases this with h | h <;> exact absurd h (by decide)
      subst etail
      have hr := congrArg List.reverse e
      have lhs : (fileName (stepFile (x ++ [a, '_'])) dir n).reverse
          = 'y' :: 'p' :: 'n' :: '.' :: ((natStr n).reverse ++ '_' :: a :: (x.reverse ++ '/' :: dir.reverse)) := by
        unfold fileName stepFile
        have e4 : ".npy".toList.map Part.lit = [Part.lit '.', .lit 'n', .lit 'p', .lit 'y'] := rfl
        rw [filled_append, filled_lits, e4]
        simp [filled]
      have rhs : (pre ++ (y ++ [b, '_'] ++ (ds ++ [c, 'n', 'p', 'y'])) ++ []).reverse
          = 'y' :: 'p' :: 'n' :: c :: (ds.reverse ++ '_' :: b :: (y.reverse ++ pre.reverse)) := by
        simp
      rw [lhs, rhs] at hr
      simp only [List.cons.injEq, true_and] at hr
      obtain ⟨_, hr⟩ := hr
      have hus : ∀ (l : Str) x, ('_' :: l).head? = some x → isDigit x = false := by
        intro l x hx
        simp only [List.head?_cons, Option.some.injEq] at hx
        subst hx; decide
      have t1 := takeWhile_all (l := (natStr n).reverse)
        (fun c hc => natStr_digits n c (List.mem_reverse.1 hc))
        (hus (a :: (x.reverse ++ '/' :: dir.reverse)))
      have t2 := takeWhile_all (l := ds.reverse) (fun c hc => hds c (List.mem_reverse.1 hc))
        (hus (b :: (y.reverse ++ pre.reverse)))
      rw [hr, t2] at t1
      rw [t1] at hr
      have := List.append_cancel_left hr
      simp only [List.cons.injEq, true_and] at this
      exact hab this.1

theorem stepFile_pattern (c : Char) (name : Str) (hc : isDigit c = false) (hc' : c ≠ '.')
    (hs : c ≠ '/') (hp : ∀ d ∈ c :: name, plain d = true) : StepPattern (stepFile (c :: name)) where
  good :=
    { first := ⟨c, _, rfl, hc, hc'⟩
      chars := by
        intro d hd
        unfold stepFile at hd
        rcases List.mem_append.1 hd with hd | hd
        · obtain ⟨e, he, h⟩ := List.mem_map.1 hd
          cases h
          exact hp _ he
        · have e4 : ".npy".toList.map Part.lit = [Part.lit '.', .lit 'n', .lit 'p', .lit 'y'] := rfl
          rw [e4] at hd
          simp only [List.mem_cons, reduceCtorEq, Part.lit.injEq, List.not_mem_nil, or_false,
            false_or] at hd
          rcases hd with rfl | rfl | rfl | rfl <;> decide
      valid := by
        intro n hn
        have : n = "step".toList := by
          unfold stepFile at hn
          rcases List.mem_append.1 hn with hn | hn
          · obtain ⟨e, _, h⟩ := List.mem_map.1 hn
            cases h
          · rcases List.mem_cons.1 hn with hn | hn
            · cases hn; rfl
            · obtain ⟨e, _, h⟩ := List.mem_map.1 hn
              cases h
        subst this
        decide +kernel
      apart := by
        unfold stepFile
        generalize c :: name = s
        induction s with
        | nil =>
          refine ⟨trivial, ?_⟩
          intro p hp
          have e4 : ".npy".toList.map Part.lit = [Part.lit '.', .lit 'n', .lit 'p', .lit 'y'] := rfl
          rw [e4] at hp
          simp only [List.head?_cons, Option.some.injEq] at hp
          exact ⟨'.', hp.symm, by decide⟩
        | cons d s ih => exact ih
      clash := by
        intro n m hn _ i
        have : n = "step".toList := by
          unfold stepFile at hn
          rcases List.mem_append.1 hn with hn | hn
          · obtain ⟨e, _, h⟩ := List.mem_map.1 hn
            cases h
          · rcases List.mem_cons.1 hn with hn | hn
            · cases hn; rfl
            · obtain ⟨e, _, h⟩ := List.mem_map.1 hn
              cases h
        subst this
        exact no_underscore_clash (by decide) i }
  only := by
    intro n
    unfold stepFile
    constructor
    · intro hn
      rcases List.mem_append.1 hn with hn | hn
      · obtain ⟨e, _, h⟩ := List.mem_map.1 hn
        cases h
      · rcases List.mem_cons.1 hn with hn | hn
        · cases hn; rfl
        · obtain ⟨e, _, h⟩ := List.mem_map.1 hn
          cases h
    · rintro rfl
      simp
  rel := by simpa [stepFile] using hs
  npy := ⟨(c :: name).map Part.lit ++ [.wild "step".toList], by simp [stepFile]⟩

/-- The default file names of the configuration can be used. -/
theorem default_good : GoodPaths defaultPaths (stepFile "position_".toList) (stepFile "energy_".toList)
    (stepFile "hits_".toList) := by
  have pa : StepPattern (stepFile "position_".toList) :=
    stepFile_pattern 'p' "osition_".toList (by decide) (by decide) (by decide) (by decide)
  have pb : StepPattern (stepFile "energy_".toList) :=
    stepFile_pattern 'e' "nergy_".toList (by decide) (by decide) (by decide) (by decide)
  have pc : StepPattern (stepFile "hits_".toList) :=
    stepFile_pattern 'h' "its_".toList (by decide) (by decide) (by decide) (by decide)
  have ea : "position_".toList = "positio".toList ++ ['n', '_'] := rfl
  have eb : "energy_".toList = "energ".toList ++ ['y', '_'] := rfl
  have ec : "hits_".toList = "hit".toList ++ ['s', '_'] := rfl
  have apart : ∀ (x y : Str) (a b : Char), a ≠ b → '.' ∉ y ++ [b, '_'] →
      StepPattern (stepFile (y ++ [b, '_'])) →
      Apart (stepFile (x ++ [a, '_'])) (stepFile (y ++ [b, '_'])) := apart_stepFile
  exact
    { pos := by decide
      enr := by decide
      hit := by decide
      pa := pa
      pb := pb
      pc := pc
      ab := by rw [ea, eb]; exact apart _ _ _ _ (by decide) (by decide) pb
      ac := by rw [ea, ec]; exact apart _ _ _ _ (by decide) (by decide) pc
      ba := by rw [ea, eb]; exact apart _ _ _ _ (by decide) (by decide) pa
      bc := by rw [eb, ec]; exact apart _ _ _ _ (by decide) (by decide) pc
      ca := by rw [ea, ec]; exact apart _ _ _ _ (by decide) (by decide) pa
      cb := by rw [eb, ec]; exact apart _ _ _ _ (by decide) (by decide) pb }

/-! ### C53 -/

variable {K : Type}

theorem isPrefixOf_fileName (parts : List Part) (dir : Str) (n : Nat) :
    (dir ++ ['/']).isPrefixOf (fileName parts dir n) = true := by
  rw [List.isPrefixOf_iff_prefix]
  exact ⟨filled (fun _ => n) parts, by simp [fileName]⟩

theorem mem_listing {order : List Str → List Str} (ho : ∀ l, (order l).Perm l) (fs : FS K) (dir p : Str) :
    p ∈ listing order fs dir ↔ p ∈ fs.map Prod.fst ∧ (dir ++ ['/']).isPrefixOf p = true := by
  unfold listing
  rw [(ho _).mem_iff, List.mem_filter]

/-- The dict of one kind of files. -/
theorem dictOf_kind {parts : List Part} (h : StepPattern parts) {dir : Str} (hd : GoodDir dir)
    {order : List Str → List Str} (ho : ∀ l, (order l).Perm l) (fs : FS K)
    (hf : ∀ p ∈ fs.map Prod.fst, (dir ++ ['/']).isPrefixOf p = true →
      reMatch (toks (fun _ => 0) parts) p = none ∨ ∃ n, p = fileName parts dir n) :
    ∃ r l, dictOf order fs dir (render parts) = .ok r ∧ stepValues r = .ok l ∧
      l.length = r.length ∧ ∀ n, n ∈ l ↔ fileName parts dir n ∈ fs.map Prod.fst := by
  obtain ⟨w, h1, h2, _⟩ := pattern_facts h
  obtain ⟨r, l, m1, m2, m3, m4⟩ := matchFiles_kind h hd.line (listing order fs dir) fun p hp =>
    hf p ((mem_listing ho fs dir p).1 hp).1 ((mem_listing ho fs dir p).1 hp).2
  refine ⟨r, l, ?_, m2, m3, fun n => ?_⟩
  · unfold dictOf getDict
    rw [h1]
    simp only [h2, m1]
  · rw [m4, mem_listing ho]
    exact ⟨fun h => h.1, fun h => ⟨h, isPrefixOf_fileName _ _ _⟩⟩

/-- **C53.**  A sequence of writes of rows to a directory without matching files, covering the steps
`0, ..., M-1` in any order and any number of times, and then a read with the same configuration: the read
returns `M` rows, and row `n` is the one written last for step `n`.  The order in which the directory is
listed does not matter. -/
theorem C53_roundtrip [Zero K] {ps : Paths} {a b c : List Part} (hg : GoodPaths ps a b c) {dir : Str}
    (hd : GoodDir dir) {order : List Str → List Str} (ho : ∀ l, (order l).Perm l) (fs : FS K)
    (ha : NoneMatch fs dir ps.position) (hb : NoneMatch fs dir ps.energy)
    (hc : NoneMatch fs dir ps.hits) (ws : List (Nat × Row K)) (M R A : Nat) (hM : 0 < M)
    (hw : ∀ n, (∃ row, (n, row) ∈ ws) ↔ n < M) (hs : ∀ w ∈ ws, SameShape R A w.2) :
    ∃ fs' rows, saveAll ps dir fs ws = .ok fs' ∧ readBuffers order fs' ps dir = .ok rows ∧
      rows.length = M ∧ ∀ n, n < M → rows[n]? = fileOf ws n ∧ (fileOf ws n).isSome := by
  obtain ⟨fs', h1, h2, h3, h4, h5⟩ := saveAll_spec hg hd ws fs
  have hl := hd.line
  have none_of : ∀ {parts : List Part} {file : Str}, StepPattern parts → file = render parts →
      NoneMatch fs dir file → ∀ p ∈ fs.map Prod.fst, (dir ++ ['/']).isPrefixOf p = true →
        reMatch (toks (fun _ => 0) parts) p = none := by
    intro parts file hp hfile hn p hpm hpre
    obtain ⟨w, w1, w2, _⟩ := pattern_facts hp
    exact (getDict_single w2 p).1 (hn p hpm hpre w (by rw [hfile]; exact w1))
  have kind_a : ∀ p ∈ fs'.map Prod.fst, (dir ++ ['/']).isPrefixOf p = true →
      reMatch (toks (fun _ => 0) a) p = none ∨ ∃ n, p = fileName a dir n := by
    intro p hp hpre
    rcases (h5 p).1 hp with hp | ⟨w, _, rfl | rfl | rfl⟩
    · exact Or.inl (none_of hg.pa hg.pos ha p hp hpre)
    · exact Or.inr ⟨_, rfl⟩
    · exact Or.inl (apart_reMatch hg.pa hg.ba hl _)
    · exact Or.inl (apart_reMatch hg.pa hg.ca hl _)
  have kind_b : ∀ p ∈ fs'.map Prod.fst, (dir ++ ['/']).isPrefixOf p = true →
      reMatch (toks (fun _ => 0) b) p = none ∨ ∃ n, p = fileName b dir n := by
    intro p hp hpre
    rcases (h5 p).1 hp with hp | ⟨w, _, rfl | rfl | rfl⟩
    · exact Or.inl (none_of hg.pb hg.enr hb p hp hpre)
    · exact Or.inl (apart_reMatch hg.pb hg.ab hl _)
    · exact Or.inr ⟨_, rfl⟩
    · exact Or.inl (apart_reMatch hg.pb hg.cb hl _)
  have kind_c : ∀ p ∈ fs'.map Prod.fst, (dir ++ ['/']).isPrefixOf p = true →
      reMatch (toks (fun _ => 0) c) p = none ∨ ∃ n, p = fileName c dir n := by
    intro p hp hpre
    rcases (h5 p).1 hp with hp | ⟨w, _, rfl | rfl | rfl⟩
    · exact Or.inl (none_of hg.pc hg.hit hc p hp hpre)
    · exact Or.inl (apart_reMatch hg.pc hg.ac hl _)
    · exact Or.inl (apart_reMatch hg.pc hg.bc hl _)
    · exact Or.inr ⟨_, rfl⟩
  obtain ⟨ra, la, a1, a2, a3, a4⟩ := dictOf_kind hg.pa hd ho fs' kind_a
  obtain ⟨rb, lb, b1, b2, b3, b4⟩ := dictOf_kind hg.pb hd ho fs' kind_b
  obtain ⟨rc, lc, c1, c2, c3, c4⟩ := dictOf_kind hg.pc hd ho fs' kind_c
  have old : ∀ {parts : List Part} {file : Str}, StepPattern parts → file = render parts →
      NoneMatch fs dir file → ∀ n, fileName parts dir n ∉ fs.map Prod.fst := by
    intro parts file hp hfile hn n hm
    have := none_of hp hfile hn _ hm (isPrefixOf_fileName _ _ _)
    rw [reMatch_fileName hp hl] at this
    cases this
  have steps_a : ∀ n, n ∈ la ↔ n < M := by
    intro n
    rw [a4, ← hw, h5]
    constructor
    · rintro (h | ⟨w, hwm, h | h | h⟩)
      · exact absurd h (old hg.pa hg.pos ha n)
      · exact ⟨w.2, by rw [fileName_inj hg.pa hl h]; exact hwm⟩
      · exact absurd h (apart_ne hg.pb hg.ab hl _ _)
      · exact absurd h (apart_ne hg.pc hg.ac hl _ _)
    · rintro ⟨row, h⟩
      exact Or.inr ⟨_, h, Or.inl rfl⟩
  have steps_b : ∀ n, n ∈ lb ↔ n < M := by
    intro n
    rw [b4, ← hw, h5]
    constructor
    · rintro (h | ⟨w, hwm, h | h | h⟩)
      · exact absurd h (old hg.pb hg.enr hb n)
      · exact absurd h (apart_ne hg.pa hg.ba hl _ _)
      · exact ⟨w.2, by rw [fileName_inj hg.pb hl h]; exact hwm⟩
      · exact absurd h (apart_ne hg.pc hg.bc hl _ _)
    · rintro ⟨row, h⟩
      exact Or.inr ⟨_, h, Or.inr (Or.inl rfl)⟩
  have steps_c : ∀ n, n ∈ lc ↔ n < M := by
    intro n
    rw [c4, ← hw, h5]
    constructor
    · rintro (h | ⟨w, hwm, h | h | h⟩)
      · exact absurd h (old hg.pc hg.hit hc n)
      · exact absurd h (apart_ne hg.pa hg.ca hl _ _)
      · exact absurd h (apart_ne hg.pb hg.cb hl _ _)
      · exact ⟨w.2, by rw [fileName_inj hg.pc hl h]; exact hwm⟩
    · rintro ⟨row, h⟩
      exact Or.inr ⟨_, h, Or.inr (Or.inr rfl)⟩
  have nonempty : ∀ {l : List Nat} {r : List (Str × List (Str × Nat))}, l.length = r.length →
      (∀ n, n ∈ l ↔ n < M) → r.length ≠ 0 := by
    intro l r hlr hl' h0
    have h0 : l = [] := List.length_eq_zero_iff.1 (by omega)
    have := (hl' 0).2 hM
    rw [h0] at this
    cases this
  obtain ⟨dflt, hdflt⟩ : ∃ row, (0, row) ∈ ws := (hw 0).2 hM
  have hsome : ∀ n, n < M → (fileOf ws n).isSome := fun n hn => (fileOf_isSome ws n).2 ((hw n).2 hn)
  have hval : ∀ n, n < M → fileOf ws n = some ((fileOf ws n).getD dflt) := by
    intro n hn
    obtain ⟨x, hx⟩ := Option.isSome_iff_exists.1 (hsome n hn)
    rw [hx]; rfl
  have hread : readLoop fs' ps dir none (List.range M)
      = .ok ((List.range M).map fun n => (fileOf ws n).getD dflt) := by
    apply readLoop_ok hg hd fs' _ R A
    · intro n hn
      rw [h2, hval n (List.mem_range.1 hn)]
      rfl
    · intro n hn
      rw [h3, hval n (List.mem_range.1 hn)]
      rfl
    · intro n hn
      rw [h4, hval n (List.mem_range.1 hn)]
      rfl
    · intro n hn
      exact hs _ (mem_of_fileOf (hval n (List.mem_range.1 hn)))
    · exact Or.inl rfl
  refine ⟨fs', (List.range M).map fun n => (fileOf ws n).getD dflt, h1, ?_, by simp, ?_⟩
  · unfold readBuffers
    rw [hg.pos, hg.enr, hg.hit, a1, b1, c1]
    simp only []
    rw [if_neg (by
      rintro (h | h | h)
      · exact nonempty a3 steps_a h
      · exact nonempty b3 steps_b h
      · exact nonempty c3 steps_c h), a2, b2, c2]
    simp only []
    rw [maxSucc_eq la M hM steps_a, maxSucc_eq lb M hM steps_b, maxSucc_eq lc M hM steps_c,
      if_pos ⟨rfl, rfl⟩, hread]
  · intro n hn
    refine ⟨?_, hsome n hn⟩
    rw [List.getElem?_map, List.getElem?_range hn, Option.map_some, ← hval n hn]

/-- The writes of consecutive batches. -/
def batchWrites (B : Nat) : Nat → List (List (Row K)) → List (Nat × Row K)
  | _, [] => []
  | i, rows :: rest => dumpBuffers i rows ++ batchWrites B (i + B) rest

/-- Consecutive dumps. -/
def dumpBatches (ps : Paths) (dir : Str) (B : Nat) : FS K → Nat → List (List (Row K)) →
    Except PyErr (FS K)
  | fs, _, [] => .ok fs
  | fs, i, rows :: rest =>
    match dump ps dir fs i rows with
    | .error e => .error e
    | .ok fs' => dumpBatches ps dir B fs' (i + B) rest

theorem saveAll_append (ps : Paths) (dir : Str) (fs : FS K) (u v : List (Nat × Row K)) :
    saveAll ps dir fs (u ++ v) = (match saveAll ps dir fs u with
      | .error e => .error e
      | .ok fs' => saveAll ps dir fs' v) := by
  induction u generalizing fs with
  | nil => rfl
  | cons w u ih =>
    obtain ⟨n, row⟩ := w
    rw [List.cons_append, saveAll, saveAll]
    cases saveRow ps dir fs n row with
    | error e => rfl
    | ok fs' => exact ih fs'

theorem dumpBatches_eq (ps : Paths) (dir : Str) (B : Nat) (fs : FS K) (i : Nat)
    (batches : List (List (Row K))) :
    dumpBatches ps dir B fs i batches = saveAll ps dir fs (batchWrites B i batches) := by
  induction batches generalizing fs i with
  | nil => rfl
  | cons rows rest ih =>
    rw [dumpBatches, batchWrites, saveAll_append]
    unfold dump
    cases saveAll ps dir fs (dumpBuffers i rows) with
    | error e => rfl
    | ok fs' => exact ih fs' _

theorem fileOf_append {α : Type} (u v : List (Nat × α)) (n : Nat) :
    fileOf (u ++ v) n = (fileOf v n).or (fileOf u n) := by
  induction u with
  | nil => simp [fileOf]
  | cons w u ih => rw [List.cons_append, fileOf_cons, ih, fileOf_cons, Option.or_assoc]

theorem fileOf_none {α : Type} {ws : List (Nat × α)} {n : Nat} (h : ∀ w ∈ ws, w.1 ≠ n) :
    fileOf ws n = none := by
  cases hf : fileOf ws n with
  | none => rfl
  | some r => exact absurd rfl (h _ (mem_of_fileOf hf))

theorem fileOf_dumpBuffers (i : Nat) (rows : List (Row K)) (n : Nat) :
    fileOf (dumpBuffers i rows) n = if i ≤ n then rows[n - i]? else none := by
  induction rows using List.reverseRecOn with
  | nil => simp [dumpBuffers, fileOf]
  | append_singleton rows r ih =>
    have e : dumpBuffers i (rows ++ [r]) = dumpBuffers i rows ++ [(rows.length + i, r)] := by
      unfold dumpBuffers
      rw [List.length_append, List.length_singleton, List.range_succ, List.zip_append (by simp)]
      simp
    rw [e, fileOf_append, ih]
    have e1 : fileOf [(rows.length + i, r)] n = if rows.length + i = n then some r else none := rfl
    rw [e1]
    by_cases hi : i ≤ n
    · rw [if_pos hi, if_pos hi]
      by_cases hn : rows.length + i = n
      · rw [if_pos hn, List.getElem?_append_right (by omega)]
        have : n - i - rows.length = 0 := by omega
        rw [this]
        rfl
      · rw [if_neg hn, Option.none_or]
        by_cases hlt : n - i < rows.length
        · rw [List.getElem?_append_left hlt]
        · rw [List.getElem?_eq_none (by omega), List.getElem?_eq_none (by simp; omega)]
    · rw [if_neg hi, if_neg hi, if_neg (by omega), Option.none_or]

theorem mem_batchWrites {B i : Nat} {batches : List (List (Row K))} {w : Nat × Row K}
    (h : w ∈ batchWrites B i batches) : i ≤ w.1 ∧ ∃ rows ∈ batches, w.2 ∈ rows := by
  induction batches generalizing i with
  | nil => simp [batchWrites] at h
  | cons rows rest ih =>
    rw [batchWrites, List.mem_append] at h
    rcases h with h | h
    · unfold dumpBuffers at h
      obtain ⟨e, he, rfl⟩ := List.mem_map.1 h
      exact ⟨Nat.le_add_left _ _, rows, by simp, (List.of_mem_zip he).2⟩
    · obtain ⟨h1, r, h2, h3⟩ := ih h
      exact ⟨by omega, r, by simp [h2], h3⟩

/-- Row of a step among consecutive batches of `B` steps: the batch in which the step is not the last
row, or the last row of the last batch. -/
theorem fileOf_batchWrites {B : Nat} (i : Nat) (batches : List (List (Row K)))
    (hlen : ∀ rows ∈ batches, rows.length = B + 1) (k j : Nat) (rows : List (Row K))
    (hk : batches[k]? = some rows) (hj : j < B ∨ (j = B ∧ k + 1 = batches.length)) :
    fileOf (batchWrites B i batches) (i + k * B + j) = rows[j]? := by
  induction batches generalizing i k with
  | nil => simp at hk
  | cons r rest ih =>
    rw [batchWrites, fileOf_append]
    cases k with
    | zero =>
      simp only [List.getElem?_cons_zero, Option.some.injEq] at hk
      subst hk
      have h0 : fileOf (batchWrites B (i + B) rest) (i + 0 * B + j) = none := by
        rcases hj with hj | ⟨hj, hl⟩
        · apply fileOf_none
          intro w hw
          have := (mem_batchWrites hw).1
          omega
        · have : rest = [] := by
            simp only [List.length_cons] at hl
            exact List.length_eq_zero_iff.1 (by omega)
          subst this
          rfl
      rw [h0, Option.none_or, fileOf_dumpBuffers, if_pos (by omega)]
      congr 1
      omega
    | succ k =>
      have hk' : rest[k]? = some rows := by simpa using hk
      have hl' : j < B ∨ (j = B ∧ k + 1 = rest.length) := by
        rcases hj with hj | ⟨hj, hl⟩
        · exact Or.inl hj
        · exact Or.inr ⟨hj, by simpa using hl⟩
      have := ih (i + B) (fun x hx => hlen x (by simp [hx])) k hk' hl'
      have e : i + (k + 1) * B + j = i + B + k * B + j := by ring
      rw [e, this]
      have hjl : j < rows.length := by
        rw [hlen rows (by
          simp only [List.mem_cons]
          right
          exact List.mem_of_getElem? hk')]
        rcases hj with hj | ⟨hj, _⟩ <;> omega
      rw [List.getElem?_eq_getElem hjl]
      rfl

/-- **C53, consecutive batches.**  Dumping `m ≥ 1` batches of `B` steps (each with `B + 1` rows, the first
step of a batch being the last one of the batch before) into a directory without matching files and
reading them back gives `m * B + 1` rows: row `k * B + j` is row `j` of batch `k`, each boundary row
occurring once. -/
theorem C53_batches [Zero K] {ps : Paths} {a b c : List Part} (hg : GoodPaths ps a b c) {dir : Str}
    (hd : GoodDir dir) {order : List Str → List Str} (ho : ∀ l, (order l).Perm l) (fs : FS K)
    (ha : NoneMatch fs dir ps.position) (hb : NoneMatch fs dir ps.energy)
    (hc : NoneMatch fs dir ps.hits) (B R A : Nat) (hB : 0 < B) (batches : List (List (Row K)))
    (hne : batches ≠ []) (hlen : ∀ rows ∈ batches, rows.length = B + 1)
    (hs : ∀ rows ∈ batches, ∀ row ∈ rows, SameShape R A row)
    (hbound : ∀ k r r', batches[k]? = some r → batches[k + 1]? = some r' → r[B]? = r'[0]?) :
    ∃ fs' rows, dumpBatches ps dir B fs 0 batches = .ok fs' ∧
      readBuffers order fs' ps dir = .ok rows ∧ rows.length = batches.length * B + 1 ∧
      ∀ k r, batches[k]? = some r → ∀ j, j ≤ B → rows[k * B + j]? = r[j]? := by
  obtain ⟨m, hm⟩ : ∃ m, batches.length = m + 1 := ⟨batches.length - 1, by
    have := List.length_pos_iff.2 hne; omega⟩
  have cover : ∀ n, (∃ row, (n, row) ∈ batchWrites B 0 batches) ↔ n < batches.length * B + 1 := by
    intro n
    constructor
    · rintro ⟨row, h⟩
      have : ∀ (bs : List (List (Row K))) i, (∀ rows ∈ bs, rows.length = B + 1) →
          (n, row) ∈ batchWrites B i bs → n < i + bs.length * B + 1 := by
        intro bs
        induction bs with
        | nil => intro i _ h; simp [batchWrites] at h
        | cons r bs ih =>
          intro i hl h
          rw [batchWrites, List.mem_append] at h
          rcases h with h | h
          · unfold dumpBuffers at h
            obtain ⟨e, he, heq⟩ := List.mem_map.1 h
            have h1 := List.mem_range.1 (List.of_mem_zip he).1
            rw [hl r (by simp)] at h1
            simp only [Prod.mk.injEq] at heq
            simp only [List.length_cons, Nat.add_mul]
            omega
          · have := ih (i + B) (fun x hx => hl x (by simp [hx])) h
            simp only [List.length_cons, Nat.add_mul]
            omega
      simpa using this batches 0 hlen h
    · intro hn
      have hsome : ∃ k j r, n = 0 + k * B + j ∧ batches[k]? = some r ∧
          (j < B ∨ (j = B ∧ k + 1 = batches.length)) := by
        by_cases hlast : n = batches.length * B
        · refine ⟨m, B, batches[m]'(by omega), ?_, List.getElem?_eq_getElem _, Or.inr ⟨rfl, hm.symm⟩⟩
          rw [hlast, hm]; ring
        · have hk : n / B < batches.length := by
            rw [Nat.div_lt_iff_lt_mul hB]; omega
          refine ⟨n / B, n % B, batches[n / B], ?_, List.getElem?_eq_getElem _,
            Or.inl (Nat.mod_lt _ hB)⟩
          have := Nat.div_add_mod n B
          rw [Nat.mul_comm] at this
          omega
      obtain ⟨k, j, r, rfl, hr, hj⟩ := hsome
      have hf := fileOf_batchWrites 0 batches hlen k j r hr hj
      have hjl : j < r.length := by
        rw [hlen r (List.mem_of_getElem? hr)]
        rcases hj with hj | ⟨hj, _⟩ <;> omega
      rw [List.getElem?_eq_getElem hjl] at hf
      exact ⟨_, mem_of_fileOf hf⟩
  obtain ⟨fs', rows, h1, h2, h3, h4⟩ := C53_roundtrip hg hd ho fs ha hb hc (batchWrites B 0 batches)
    (batches.length * B + 1) R A (by omega) cover (by
      intro w hw
      obtain ⟨_, r, hr, hwr⟩ := mem_batchWrites hw
      exact hs r hr _ hwr)
  refine ⟨fs', rows, by rw [dumpBatches_eq]; exact h1, h2, h3, ?_⟩
  intro k r hk j hj
  have hkl : k < batches.length := by
    by_contra h
    rw [List.getElem?_eq_none (by omega)] at hk
    cases hk
  have hlt : k * B + j < batches.length * B + 1 := by
    have : (k + 1) * B ≤ batches.length * B := Nat.mul_le_mul_right _ hkl
    rw [Nat.add_mul] at this
    omega
  rw [(h4 _ hlt).1]
  by_cases hlast : j < B ∨ (j = B ∧ k + 1 = batches.length)
  · have := fileOf_batchWrites 0 batches hlen k j r hk hlast
    rwa [Nat.zero_add] at this
  · have hjB : j = B := by omega
    subst hjB
    have hk1 : k + 1 < batches.length := by omega
    have hr' := List.getElem?_eq_getElem hk1
    have := fileOf_batchWrites 0 batches hlen (k + 1) 0 _ hr' (Or.inl hB)
    have e : 0 + (k + 1) * j + 0 = k * j + j := by ring
    rw [e] at this
    rw [this, hbound k r _ hk hr']

/-- **C53, incomplete directories.**  If reading succeeds, then the files of all three kinds exist for
every step returned, and there is no file of any kind for a later step.  So a directory in which some
file is missing while a file of the same or a later step (of any kind) is there is never read without an
exception. -/
theorem C53_complete [Zero K] {ps : Paths} {a b c : List Part} (hg : GoodPaths ps a b c) {dir : Str}
    (hd : GoodDir dir) {order : List Str → List Str} (ho : ∀ l, (order l).Perm l) (fs : FS K)
    (rows : List (Row K)) (h : readBuffers order fs ps dir = .ok rows) :
    0 < rows.length ∧
    (∀ n, n < rows.length → fileName a dir n ∈ fs.map Prod.fst ∧ fileName b dir n ∈ fs.map Prod.fst ∧
      fileName c dir n ∈ fs.map Prod.fst) ∧
    (∀ n, (fileName a dir n ∈ fs.map Prod.fst ∨ fileName b dir n ∈ fs.map Prod.fst ∨
      fileName c dir n ∈ fs.map Prod.fst) → n < rows.length) := by
  have key : ∀ {parts : List Part} (_ : StepPattern parts) (r : List (Str × List (Str × Nat)))
      (l : List Nat), dictOf order fs dir (render parts) = .ok r → stepValues r = .ok l →
      (r.length ≠ 0 → 0 < maxSucc l) ∧
        ∀ n, fileName parts dir n ∈ fs.map Prod.fst → n < maxSucc l := by
    intro parts hp r l hr hl
    obtain ⟨w, w1, w2, _⟩ := pattern_facts hp
    unfold dictOf at hr
    rw [w1] at hr
    simp only [] at hr
    obtain ⟨ts, hts, hm⟩ := getDict_ok hr
    rw [w2] at hts
    cases hts
    obtain ⟨hfst, hall⟩ := mem_matchFiles hm
    have hvals : ∀ (r : List (Str × List (Str × Nat))) (l : List Nat), stepValues r = .ok l →
        l.length = r.length ∧ ∀ e ∈ r, ∀ n, dictGet e.2 "step".toList = some n → n ∈ l := by
      intro r
      induction r with
      | nil => intro l h; simp only [stepValues, Except.ok.injEq] at h; subst h; simp
      | cons e r ih =>
        intro l h
        rw [stepValues] at h
        split at h
        · cases h
        · rename_i n hn
          split at h
          · cases h
          · rename_i l' hl'
            simp only [Except.ok.injEq] at h
            subst h
            obtain ⟨i1, i2⟩ := ih l' hl'
            refine ⟨by simp [i1], ?_⟩
            intro e' he' m hm
            rcases List.mem_cons.1 he' with rfl | he'
            · rw [hn] at hm; cases hm; simp
            · simp [i2 e' he' m hm]
    obtain ⟨hlen, hmem⟩ := hvals r l hl
    refine ⟨?_, ?_⟩
    · intro h0
      cases l with
      | nil => simp at hlen; omega
      | cons x l =>
        have := lt_maxSucc (l := x :: l) (n := x) (by simp)
        omega
    · intro n hn
      have hmr := reMatch_fileName hp hd.line n
      have hin : fileName parts dir n ∈ r.map Prod.fst := by
        rw [hfst, List.mem_filter, mem_listing ho, hmr]
        exact ⟨⟨hn, isPrefixOf_fileName _ _ _⟩, rfl⟩
      obtain ⟨e, he, hefst⟩ := List.mem_map.1 hin
      obtain ⟨gs, hg1, hg2⟩ := hall e he
      rw [hefst, hmr] at hg1
      cases hg1
      obtain ⟨d, hd1, hd2⟩ := collect_groupVals (fun _ => n) (fun _ => 0) parts [] (by simp [dictGet])
      rw [hd1] at hg2
      simp only [Except.ok.injEq] at hg2
      apply lt_maxSucc
      apply hmem e he n
      rw [← hg2, hd2, if_pos]
      exact mem_names.2 ((hp.only _).2 rfl)
  unfold readBuffers at h
  rw [hg.pos, hg.enr, hg.hit] at h
  cases hra : dictOf order fs dir (render a) with
  | error e => rw [hra] at h; cases h
  | ok ra =>
  cases hrb : dictOf order fs dir (render b) with
  | error e => rw [hra, hrb] at h; cases h
  | ok rb =>
  cases hrc : dictOf order fs dir (render c) with
  | error e => rw [hra, hrb, hrc] at h; cases h
  | ok rc =>
  rw [hra, hrb, hrc] at h
  simp only [] at h
  split at h
  · cases h
  · rename_i hne
    cases hla : stepValues ra with
    | error e => rw [hla] at h; cases h
    | ok la =>
    cases hlb : stepValues rb with
    | error e => rw [hla, hlb] at h; cases h
    | ok lb =>
    cases hlc : stepValues rc with
    | error e => rw [hla, hlb, hlc] at h; cases h
    | ok lc =>
    rw [hla, hlb, hlc] at h
    simp only [] at h
    split at h
    · rename_i heq
      obtain ⟨hl, hf⟩ := readLoop_sound hg hd fs _ _ _ h
      rw [List.length_range] at hl
      obtain ⟨ka0, ka⟩ := key hg.pa ra la hra hla
      obtain ⟨_, kb⟩ := key hg.pb rb lb hrb hlb
      obtain ⟨_, kc⟩ := key hg.pc rc lc hrc hlc
      refine ⟨by rw [hl]; exact ka0 fun h0 => hne (Or.inl h0), ?_, ?_⟩
      · intro n hn
        have := hf n (List.mem_range.2 (by omega))
        simp only [ne_eq, fsGet_none_iff, not_not] at this
        exact this
      · rintro n (hn | hn | hn)
        · have := ka n hn; omega
        · have := kb n hn; omega
        · have := kc n hn; omega
    · cases h

/-! ### A whole simulation -/

section run

variable {F : Type} [Field F] [LinearOrder F] [IsStrictOrderedRing F] [FloorRing F] {P : Params F}

theorem loop_shape {fuel n : Nat} {a : Arrays F} {rows : List (Row F)} {R : Nat}
    (hr : a.rays.length = R) (hl : a.hits.length = P.absorbers.length)
    (h : simulationLoop P fuel n a = some rows) :
    rows.length = n + 1 ∧ ∀ row ∈ rows, SameShape R P.absorbers.length row := by
  obtain ⟨l, h1, rfl⟩ := simulationLoop_states h
  refine ⟨by rw [List.length_map, steps_length h1], ?_⟩
  have := steps_invariant h1 (fun s => s.rays.length = R ∧ s.hits.length = P.absorbers.length)
    ⟨by simp [start, hr], by simp [start, hl]⟩ (by
      rintro s s' ⟨i1, i2⟩ hst
      refine ⟨?_, by rw [step_hits_length hst, i2]⟩
      have := ((step_iff i2).1 hst).1
      rw [← this.length_eq, i1])
  intro row hrow
  obtain ⟨s, hs, rfl⟩ := List.mem_map.1 hrow
  obtain ⟨i, hi⟩ := List.getElem?_of_mem hs
  obtain ⟨j1, j2⟩ := this i s hi
  exact ⟨by simp [rowOf, j1], by simp [rowOf, j1], j2⟩

theorem next_shape {rows : List (Row F)} {a : Arrays F} {R A B : Nat} (hlen : rows.length = B + 1)
    (hs : ∀ row ∈ rows, SameShape R A row) (h : nextArrays P rows = some a) :
    a.rays.length = R ∧ a.hits.length = A ∧ rows[B]? = some (rowOf (start P a)) := by
  unfold nextArrays at h
  cases hrev : rows.reverse with
  | nil => rw [hrev] at h; cases h
  | cons last t =>
    rw [hrev] at h
    cases t with
    | nil => cases h
    | cons prev t =>
      simp only [Option.some.injEq] at h
      have e : rows = (last :: prev :: t).reverse := by rw [← hrev, List.reverse_reverse]
      have h1 := hs last (by rw [e]; simp)
      have h2 := hs prev (by rw [e]; simp)
      obtain ⟨p1, p2, p3⟩ := h1
      obtain ⟨q1, q2, q3⟩ := h2
      subst h
      refine ⟨by simp [p1, p2, q1], p3, ?_⟩
      have hB : rows[B]? = some last := by
        have : rows[B]? = rows.getLast? := by
          rw [List.getLast?_eq_getElem?, hlen]
          rfl
        rw [this, ← List.head?_reverse, hrev]
        rfl
      rw [hB]
      congr 1
      have hz : ∀ (ps qs : List (Vec3 F)) (es : List F), ps.length = qs.length → ps.length = es.length →
          (((ps.zip (qs.zip es)).map fun r => (r.1, (1 / P.timeStep) • (r.1 - r.2.1), r.2.2)).map
            fun r => r.1) = ps ∧
          (((ps.zip (qs.zip es)).map fun r => (r.1, (1 / P.timeStep) • (r.1 - r.2.1), r.2.2)).map
            fun r => r.2.2) = es := by
        intro ps
        induction ps with
        | nil =>
          intro qs es _ h2
          have : es = [] := List.length_eq_zero_iff.1 (by simpa using h2.symm)
          subst this
          simp
        | cons p ps ih =>
          intro qs es h1 h2
          cases qs with
          | nil => simp at h1
          | cons q qs =>
            cases es with
            | nil => simp at h2
            | cons e es =>
              obtain ⟨i1, i2⟩ := ih qs es (by simpa using h1) (by simpa using h2)
              constructor
              · simp only [List.zip_cons_cons, List.map_cons, i1]
              · simp only [List.zip_cons_cons, List.map_cons, i2]
      obtain ⟨z1, z2⟩ := hz last.pos prev.pos last.energy (by omega) (by omega)
      obtain ⟨lp, le, lh⟩ := last
      simp only [rowOf, start, Row.mk.injEq, List.map_map]
      simp only [List.map_map] at z1 z2
      exact ⟨z1.symm, z2.symm, trivial⟩

theorem runBatches_batches (fuel B R : Nat) : ∀ (n i : Nat) (a : Arrays F)
    (ws : List (Nat × Row F)), a.rays.length = R → a.hits.length = P.absorbers.length →
    runBatches P fuel B n i a = some ws →
    ∃ batches : List (List (Row F)), batches.length = n ∧ ws = batchWrites B i batches ∧
      (∀ rows ∈ batches, rows.length = B + 1) ∧
      (∀ rows ∈ batches, ∀ row ∈ rows, SameShape R P.absorbers.length row) ∧
      (∀ rows, batches[0]? = some rows → rows[0]? = some (rowOf (start P a))) ∧
      ∀ (k : Nat) (r r' : List (Row F)), batches[k]? = some r → batches[k + 1]? = some r' → r[B]? = r'[0]? := by
  intro n
  induction n with
  | zero =>
    intro i a ws _ _ h
    simp only [runBatches, Option.some.injEq] at h
    exact ⟨[], rfl, h.symm, by simp, by simp, by simp, by simp⟩
  | succ n ih =>
    intro i a ws hr hl h
    rw [runBatches] at h
    split at h
    · cases h
    · rename_i rows hrows
      split at h
      · cases h
      · rename_i a' ha'
        split at h
        · cases h
        · rename_i ws' hws'
          simp only [Option.some.injEq] at h
          obtain ⟨l1, l2⟩ := loop_shape hr hl hrows
          obtain ⟨n1, n2, n3⟩ := next_shape l1 l2 ha'
          obtain ⟨batches, b1, b2, b3, b4, b5, b6⟩ := ih (i + B) a' ws' n1 n2 hws'
          refine ⟨rows :: batches, by simp [b1], by rw [← h, b2]; rfl, ?_, ?_, ?_, ?_⟩
          · intro r hr'
            rcases List.mem_cons.1 hr' with rfl | hr'
            · exact l1
            · exact b3 r hr'
          · intro r hr'
            rcases List.mem_cons.1 hr' with rfl | hr'
            · exact l2
            · exact b4 r hr'
          · intro r hr'
            simp only [List.getElem?_cons_zero, Option.some.injEq] at hr'
            subst hr'
            rw [(start_rows hrows).2]
            simp [rowOf, start, Function.comp_def]
          · intro k r r' hk hk'
            cases k with
            | zero =>
              simp only [List.getElem?_cons_zero, Option.some.injEq] at hk
              subst hk
              rw [n3, b5 r' (by simpa using hk')]
            | succ k => exact b6 k r r' (by simpa using hk) (by simpa using hk')

/-- **C53, a whole simulation.**  A simulation of `batches * B` steps whose run ends, and whose buffer
directory had no matching files, leaves files from which exactly `batches * B + 1` rows are read; each is
the row written last for that step, with one entry for every ray and every absorber. -/
theorem C53_run {ps : Paths} {a b c : List Part} (hg : GoodPaths ps a b c) {dir : Str}
    (hd : GoodDir dir) {order : List Str → List Str} (ho : ∀ l, (order l).Perm l) (fs : FS F)
    (ha : NoneMatch fs dir ps.position) (hb : NoneMatch fs dir ps.energy)
    (hc : NoneMatch fs dir ps.hits) (fuel B batches : Nat) (hB : 0 < B) (hbs : 0 < batches)
    (source : Vec3 F) (dirs : List (Vec3 F)) (ws : List (Nat × Row F))
    (h : simulationRun P fuel B batches source dirs = some ws) :
    ∃ fs' rows, saveAll ps dir fs ws = .ok fs' ∧ readBuffers order fs' ps dir = .ok rows ∧
      rows.length = batches * B + 1 ∧
      (∀ n, n < rows.length → rows[n]? = fileOf ws n) ∧
      (∀ row ∈ rows, SameShape dirs.length P.absorbers.length row) ∧
      rows[0]? = some ⟨dirs.map fun _ => source, dirs.map fun _ => 1, P.absorbers.map fun _ => 0⟩ := by
  obtain ⟨bs, b1, b2, b3, b4, b5, b6⟩ := runBatches_batches fuel B dirs.length batches 0 _ ws
    (by simp [initArrays]) (by simp [initArrays]) h
  have hne : bs ≠ [] := by
    rintro rfl
    simp at b1
    omega
  obtain ⟨fs', rows, r1, r2, r3, r4⟩ := C53_batches hg hd ho fs ha hb hc B dirs.length P.absorbers.length hB bs
    hne b3 b4 b6
  rw [dumpBatches_eq, ← b2] at r1
  have hfile : ∀ n, n < rows.length → rows[n]? = fileOf ws n ∧ ∃ row, rows[n]? = some row ∧
      SameShape dirs.length P.absorbers.length row := by
    intro n hn
    rw [r3] at hn
    have hkj : ∃ k j r, n = k * B + j ∧ bs[k]? = some r ∧ j ≤ B ∧
        (j < B ∨ (j = B ∧ k + 1 = bs.length)) := by
      by_cases hlast : n = bs.length * B
      · obtain ⟨m, hm⟩ : ∃ m, bs.length = m + 1 := ⟨bs.length - 1, by
          have := List.length_pos_iff.2 hne; omega⟩
        refine ⟨m, B, bs[m]'(by omega), ?_, List.getElem?_eq_getElem _, le_refl _, Or.inr ⟨rfl, hm.symm⟩⟩
        rw [hlast, hm]; ring
      · have hk : n / B < bs.length := by
          rw [Nat.div_lt_iff_lt_mul hB]; omega
        refine ⟨n / B, n % B, bs[n / B], ?_, List.getElem?_eq_getElem _,
          (Nat.mod_lt _ hB).le, Or.inl (Nat.mod_lt _ hB)⟩
        have := Nat.div_add_mod n B
        rw [Nat.mul_comm] at this
        omega
    obtain ⟨k, j, r, rfl, hr, hj, hj'⟩ := hkj
    have e1 := r4 k r hr j hj
    have e2 := fileOf_batchWrites 0 bs b3 k j r hr hj'
    rw [Nat.zero_add, ← b2] at e2
    have hjl : j < r.length := by rw [b3 r (List.mem_of_getElem? hr)]; omega
    refine ⟨by rw [e1, e2], r[j], by rw [e1, List.getElem?_eq_getElem hjl], ?_⟩
    exact b4 r (List.mem_of_getElem? hr) _ (List.getElem_mem hjl)
  refine ⟨fs', rows, r1, r2, by rw [r3, b1], fun n hn => (hfile n hn).1, ?_, ?_⟩
  · intro row hrow
    obtain ⟨n, hn, rfl⟩ := List.getElem_of_mem hrow
    obtain ⟨_, row, h1, h2⟩ := hfile n hn
    rw [List.getElem?_eq_getElem hn] at h1
    cases h1
    exact h2
  · have h0 : 0 < bs.length := by omega
    have hb0 := List.getElem?_eq_getElem h0
    have e := r4 0 _ hb0 0 (Nat.zero_le _)
    rw [Nat.zero_mul, Nat.zero_add, b5 _ hb0] at e
    rw [e]
    simp [rowOf, start, initArrays, Function.comp_def]

end run

/-- The hypotheses of `C53_roundtrip` and `C53_batches` are met by the default names, an empty file system
and two batches of two steps for one ray. -/
example : GoodDir "out/states".toList ∧ NoneMatch ([] : FS ℚ) "out/states".toList defaultPaths.position ∧
    NoneMatch ([] : FS ℚ) "out/states".toList defaultPaths.energy ∧
    NoneMatch ([] : FS ℚ) "out/states".toList defaultPaths.hits :=
  ⟨⟨by decide, by decide, by decide⟩, by simp [NoneMatch], by simp [NoneMatch], by simp [NoneMatch]⟩

/-- Row of one ray for examples. -/
def exRow (x : ℚ) : Row ℚ := ⟨[⟨x, 0, 0⟩], [1], [0, x]⟩

example : ∃ fs', dumpBatches defaultPaths "out/states".toList 2 [] 0
      [[exRow 0, exRow 1, exRow 2], [exRow 2, exRow 3, exRow 4]] = .ok fs' ∧
    readBuffers List.reverse fs' defaultPaths "out/states".toList
      = .ok [exRow 0, exRow 1, exRow 2, exRow 3, exRow 4] ∧
    fs'.length = 15 :=
  ⟨_, rfl, by decide +kernel, by decide +kernel⟩

/-- A simulation with one ray in two batches of two steps, dumped and read. -/
example : ((simulationRun (slab 10) 10 2 2 ⟨5 / 2, 1, 1⟩ [⟨-1, 0, 0⟩]).map fun ws =>
    match saveAll defaultPaths "out/states".toList [] ws with
    | .error _ => none
    | .ok fs' =>
      match readBuffers List.reverse fs' defaultPaths "out/states".toList with
      | .error _ => none
      | .ok rows => some (rows.map fun r => r.pos.map Vec3.x)) = some (some [[5 / 2], [3 / 2], [1 / 2], [3 / 2], [5 / 2]]) := by
  decide +kernel

/-- A missing file in the middle, and a missing last one. -/
example : ∃ fs', dump defaultPaths "d".toList [] 0 [exRow 0, exRow 1, exRow 2] = .ok fs' ∧
    readBuffers id (fs'.filter fun e => e.1 ≠ "d/energy_1.npy".toList) defaultPaths "d".toList
      = .error .fileNotFoundError ∧
    readBuffers id (fs'.filter fun e => e.1 ≠ "d/energy_2.npy".toList) defaultPaths "d".toList
      = .error .assertionError ∧
    readBuffers id ([] : FS ℚ) defaultPaths "d".toList = .error .runtimeError :=
  ⟨_, rfl, by decide +kernel, by decide +kernel, by decide +kernel⟩

/-- A file of an earlier, longer simulation is not noticed unless the directory was empty: reading then
mixes the two.  (`Simulation` therefore refuses a directory that is not empty.) -/
example : ∃ fs' fs'', dump defaultPaths "d".toList [] 0 [exRow 7, exRow 8, exRow 9] = .ok fs' ∧
    dump defaultPaths "d".toList fs' 0 [exRow 0, exRow 1] = .ok fs'' ∧
    readBuffers id fs'' defaultPaths "d".toList = .ok [exRow 0, exRow 1, exRow 9] :=
  ⟨_, _, rfl, rfl, by decide +kernel⟩

end B3d.Buffers
