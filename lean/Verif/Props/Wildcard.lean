import Verif.Proofs.Wildcard

/-!
# C59, C60, C66: wildcard paths

`fill` and the three ways of listing matching files.
-/

namespace B3d.Wildcard

/-- A directory in front of the path: nothing, or text ending in a slash. -/
def dirPrefix (parent path : Str) : Str := (osJoin parent path).take
  ((osJoin parent path).length - path.length)

theorem osJoin_eq (parent path : Str) : osJoin parent path = dirPrefix parent path ++ path := by
  unfold dirPrefix osJoin
  split
  · simp
  · split
    · simp
    · have : parent ++ '/' :: path = (parent ++ ['/']) ++ path := by simp
      rw [this, List.length_append, Nat.add_sub_cancel, List.take_left]

theorem dirPrefix_no_newline {parent path : Str} (h : '\n' ∉ parent) : '\n' ∉ dirPrefix parent path := by
  unfold dirPrefix osJoin
  split
  · simp
  · split
    · rw [List.length_append, Nat.add_sub_cancel, List.take_left]
      exact h
    · have : parent ++ '/' :: path = (parent ++ ['/']) ++ path := by simp
      rw [this, List.length_append, Nat.add_sub_cancel, List.take_left]
      simp [h]

/-! ### C59 -/

/-- **C59, the numbers.**  Numbers are written in decimal notation, and reading the notation gives the number. -/
theorem C59_numbers (n : Nat) : natStr n = (toString n).toList ∧ parseNat (toString n).toList = n := by
  rw [← natStr_eq]
  exact ⟨rfl, parseNat_natStr n⟩

/-- **C59, filling.**  The path object of a good path can be made, its wildcards are the names in the
path, and giving a number for every name (in any order) puts the numbers in the places of the names,
behind the parent directory. -/
theorem C59_fill {ps : List Part} (h : Good ps) (val : Str → Nat) (parent : Str) :
    ∃ w, mkPath (render ps) = .ok w ∧ w.wildcards.Nodup ∧ (∀ n, n ∈ w.wildcards ↔ Part.wild n ∈ ps) ∧
      ∀ ks : List Str, ks.Perm w.wildcards →
        fill w parent (ks.map fun k => (k, natStr (val k)))
          = .ok (if parent = [] then filled val ps else osJoin parent (filled val ps)) := by
  obtain ⟨w, h1, h2, h3, h4, _⟩ := mkPath_good h
  refine ⟨w, h1, h3, fun n => (h4 n).trans mem_names, ?_⟩
  intro ks hks
  unfold fill
  rw [if_neg (by rw [List.length_map, hks.length_eq]; simp)]
  have := fillLoop_good h w.wildcards (fun n hn => (h4 n).1 hn) val ks []
    (fun k hk => hks.subset hk)
  rw [fillP_nil] at this
  rw [h2, this, List.append_nil, render_fillP_all val _ ps fun n hn => by
    rw [List.mem_reverse]
    exact hks.symm.subset ((h4 n).2 hn)]
  simp only []
  by_cases hp : parent = []
  · simp [hp]
  · rw [if_pos (List.length_pos_iff.2 hp), if_neg hp]

/-- **C59 (round trip), for good paths.**  After filling a path with numbers, matching the same path
object against the file gives back exactly these numbers, whatever the directory (without line feeds in
its name), the order of the arguments and the number of occurrences of a name.

Missing from the full property: paths that are not good, see `C59_wildcard_first`,
`C59_adjacent_wildcards`, `C59_name_clash`. -/
theorem C59_roundtrip_partial {ps : List Part} (h : Good ps) (val : Str → Nat) (parent : Str)
    (hp : '\n' ∉ parent) :
    ∃ w, mkPath (render ps) = .ok w ∧
      ∀ ks : List Str, ks.Perm w.wildcards →
        ∃ f d, fill w parent (ks.map fun k => (k, natStr (val k))) = .ok f ∧
          getDict w [f] = .ok [(f, d)] ∧
          ∀ n, dictGet d n = if Part.wild n ∈ ps then some (val n) else none := by
  obtain ⟨w, h1, h2, h3, h4, h5⟩ := mkPath_good h
  obtain ⟨w', h1', _, _, hfill⟩ := C59_fill h val parent
  rw [h1] at h1'
  cases h1'
  refine ⟨w, h1, ?_⟩
  intro ks hks
  obtain ⟨pre, hpre, e⟩ : ∃ pre, '\n' ∉ pre ∧
      (if parent = [] then filled val ps else osJoin parent (filled val ps)) = pre ++ filled val ps := by
    by_cases hp0 : parent = []
    · exact ⟨[], by simp, by simp [hp0]⟩
    · rw [if_neg hp0]
      exact ⟨_, dirPrefix_no_newline hp, osJoin_eq _ _⟩
  obtain ⟨d, hd1, hd2⟩ := collect_groupVals val (fun _ => 0) ps [] (by simp [dictGet])
  refine ⟨_, d, hfill ks hks, ?_, ?_⟩
  · rw [e]
    unfold getDict
    rw [h5]
    simp only [matchFiles]
    rw [reMatch_filled h val pre hpre]
    simp only [hd1]
  · intro n
    rw [hd2 n]
    simp only [mem_names]
    rfl

/-- **C59, wrong or missing names.**  Filling succeeds exactly if the names given are the wildcards of
the path; otherwise it raises `ValueError` (wrong number) or `KeyError` (unknown name). -/
theorem C59_names (w : WPath) (parent : Str) (kw : List (Str × Str))
    (hk : (kw.map Prod.fst).Nodup) :
    ((∃ f, fill w parent kw = .ok f) ↔ (kw.map Prod.fst).Perm w.wildcards) ∧
    (kw.length ≠ w.wildcards.length → fill w parent kw = .error .valueError) ∧
    (kw.length = w.wildcards.length → ¬ (kw.map Prod.fst).Perm w.wildcards →
      fill w parent kw = .error .keyError) := by
  have loop : ∀ (kw : List (Str × Str)) (p : Str),
      ((∀ k ∈ kw, k.1 ∈ w.wildcards) → ∃ f, fillLoop w.wildcards p kw = .ok f) ∧
      (¬ (∀ k ∈ kw, k.1 ∈ w.wildcards) → fillLoop w.wildcards p kw = .error .keyError) := by
    intro kw
    induction kw with
    | nil => intro p; exact ⟨fun _ => ⟨p, rfl⟩, fun h => absurd (by simp) h⟩
    | cons e kw ih =>
      intro p
      obtain ⟨k, v⟩ := e
      rw [fillLoop]
      by_cases hk : k ∈ w.wildcards
      · rw [if_pos hk]
        refine ⟨fun h => (ih _).1 fun x hx => h x (by simp [hx]), fun h => (ih _).2 fun h' => h ?_⟩
        intro x hx
        rcases List.mem_cons.1 hx with rfl | hx
        · exact hk
        · exact h' x hx
      · rw [if_neg hk]
        exact ⟨fun h => absurd (h _ List.mem_cons_self) hk, fun _ => rfl⟩
  have perm_of : kw.length = w.wildcards.length → (∀ k ∈ kw, k.1 ∈ w.wildcards) →
      (kw.map Prod.fst).Perm w.wildcards := by
    intro hl hsub
    have hsp : (kw.map Prod.fst).Subperm w.wildcards := by
      apply hk.subperm
      intro x hx
      obtain ⟨k, hk', rfl⟩ := List.mem_map.1 hx
      exact hsub k hk'
    exact hsp.perm_of_length_le (by rw [List.length_map, hl])
  have hlen : kw.length ≠ w.wildcards.length → fill w parent kw = .error .valueError := by
    intro h
    unfold fill
    rw [if_pos h]
  have hkey : kw.length = w.wildcards.length → ¬ (kw.map Prod.fst).Perm w.wildcards →
      fill w parent kw = .error .keyError := by
    intro hl hnp
    unfold fill
    rw [if_neg (by simpa using hl), (loop kw _).2 fun h => hnp (perm_of hl h)]
  refine ⟨⟨?_, ?_⟩, hlen, hkey⟩
  · rintro ⟨f, hf⟩
    by_contra hnp
    by_cases hl : kw.length = w.wildcards.length
    · rw [hkey hl hnp] at hf; cases hf
    · rw [hlen hl] at hf; cases hf
  · intro hp
    unfold fill
    rw [if_neg (by have := hp.length_eq; rw [List.length_map] at this; simpa using this)]
    obtain ⟨f, hf⟩ := (loop kw w.path).1 fun k hk' => hp.subset (List.mem_map.2 ⟨k, hk', rfl⟩)
    rw [hf]
    exact ⟨_, rfl⟩

/-- **C59, soundness of matching.**  If a file is listed with values, then its path ends in an instance
of the wildcard path (followed by slashes and possibly a line feed) in which every occurrence of a
wildcard is a string of digits standing for the value listed. -/
theorem C59_sound {ps : List Part} (h : Good ps) :
    ∃ w, mkPath (render ps) = .ok w ∧
      ∀ files r, getDict w files = .ok r → ∀ e ∈ r, e.1 ∈ files ∧
        (∀ n, dictGet e.2 n ≠ none ↔ Part.wild n ∈ ps) ∧
        ∃ pre txt tail, e.1 = pre ++ txt ++ tail ∧ Reads (dictGet e.2) ps txt ∧
          ∃ k, tail = List.replicate k '/' ∨ tail = List.replicate k '/' ++ ['\n'] := by
  obtain ⟨w, h1, h2, h3, h4, h5⟩ := mkPath_good h
  refine ⟨w, h1, ?_⟩
  intro files r hr e he
  obtain ⟨ts, hts, hm⟩ := getDict_ok hr
  rw [h5] at hts
  cases hts
  obtain ⟨hf, hall⟩ := mem_matchFiles hm
  obtain ⟨gs, hg1, hg2⟩ := hall e he
  have hmem : e.1 ∈ files := by
    have : e.1 ∈ r.map Prod.fst := List.mem_map.2 ⟨e, he, rfl⟩
    rw [hf] at this
    exact (List.mem_filter.1 this).1
  obtain ⟨pre, txt, tail, hs1, hs2, hs3⟩ := reMatch_sound hg1
  obtain ⟨_, hv, hback, _⟩ := collect_spec [] gs e.2 hg2
  refine ⟨hmem, ?_, pre, txt, tail, hs1, fits_reads _ ps _ gs txt hs2 hv, ?_⟩
  · have hn : (gs.map Prod.fst).map stripIndex = names ps := by
      rw [fits_names hs2, tokNames_toks]
    intro n
    rw [← mem_names, ← hn]
    constructor
    · intro hne
      rcases hback n hne with hd | ⟨g, hg, hgn⟩
      · exact absurd rfl hd
      · exact List.mem_map.2 ⟨g.1, List.mem_map.2 ⟨g, hg, rfl⟩, hgn⟩
    · intro hmn
      obtain ⟨g1, hg1', rfl⟩ := List.mem_map.1 hmn
      obtain ⟨g, hg, rfl⟩ := List.mem_map.1 hg1'
      rw [hv g hg]
      simp
  · have : ∀ (t rest : Str), t.dropWhile (fun c => decide (c = '/')) = rest →
        ∃ k, t = List.replicate k '/' ++ rest := by
      intro t
      induction t with
      | nil => intro rest hr; exact ⟨0, by simpa using hr⟩
      | cons c t ih =>
        intro rest hr
        by_cases hc : c = '/'
        · subst hc
          rw [List.dropWhile_cons_of_pos (by simp)] at hr
          obtain ⟨k, hk⟩ := ih rest hr
          exact ⟨k + 1, by rw [hk, List.replicate_succ]; rfl⟩
        · rw [List.dropWhile_cons_of_neg (by simpa using hc)] at hr
          exact ⟨0, by simpa using hr⟩
    rcases hs3 with h0 | h0
    · obtain ⟨k, hk⟩ := this _ _ h0
      exact ⟨k, Or.inl (by rw [hk, List.append_nil])⟩
    · obtain ⟨k, hk⟩ := this _ _ h0
      exact ⟨k, Or.inr hk⟩

/-- `x_<a>/y_<b>_<a>.npy` -/
def exPath : List Part :=
  [.lit 'x', .lit '_', .wild ['a'], .lit '/', .lit 'y', .lit '_', .wild ['b'], .lit '_',
    .wild ['a'], .lit '.', .lit 'n', .lit 'p', .lit 'y']

theorem no_underscore_clash {n m : Str} (h : '_' ∉ n) (i : Nat) : n ≠ m ++ '_' :: natStr i := by
  rintro rfl
  simp at h

/-- The hypotheses of `C59_roundtrip_partial` are met by a path with two wildcards, one of them twice. -/
theorem exPath_good : Good exPath where
  first := ⟨'x', _, rfl, by decide, by decide⟩
  chars := by
    intro c hc
    simp only [exPath, List.mem_cons, Part.lit.injEq, reduceCtorEq, List.not_mem_nil, or_false,
      false_or] at hc
    rcases hc with rfl | rfl | rfl | rfl | rfl | rfl | rfl | rfl | rfl | rfl <;> decide
  valid := by
    intro n hn
    simp only [exPath, List.mem_cons, Part.wild.injEq, reduceCtorEq, List.not_mem_nil, or_false,
      false_or] at hn
    rcases hn with rfl | rfl | rfl <;> decide +kernel
  apart := by
    simp only [exPath, Separated, List.head?_cons, Option.some.injEq, true_and]
    refine ⟨⟨?_, ?_⟩, ?_⟩
    all_goals (intro p hp; subst hp; exact ⟨_, rfl, by decide⟩)
  clash := by
    intro n m hn _ i
    simp only [exPath, List.mem_cons, Part.wild.injEq, reduceCtorEq, List.not_mem_nil, or_false,
      false_or] at hn
    rcases hn with rfl | rfl | rfl <;> exact no_underscore_clash (by decide) i

/-- A concrete round trip. -/
example : ∃ w, mkPath "x_<a>/y_<b>_<a>.npy".toList = .ok w ∧
    fill w "dir".toList [("b".toList, natStr 7), ("a".toList, natStr 12)]
      = .ok "dir/x_12/y_7_12.npy".toList ∧
    getDict w ["dir/other".toList, "dir/x_12/y_7_12.npy".toList]
      = .ok [("dir/x_12/y_7_12.npy".toList, [("a".toList, 12), ("b".toList, 7)])] :=
  ⟨_, rfl, by decide +kernel, by decide +kernel⟩

/-- A file with two values for one wildcard raises. -/
example : ∃ w, mkPath "x_<a>/y_<b>_<a>.npy".toList = .ok w ∧
    getDict w ["dir/x_12/y_7_13.npy".toList] = .error .assertionError :=
  ⟨_, rfl, by decide +kernel⟩

/-- **C59 is false for a path that begins with a wildcard**: only the last digit is read. -/
theorem C59_wildcard_first : ∃ w, mkPath "<step>.npy".toList = .ok w ∧
    fill w "d".toList [("step".toList, natStr 12)] = .ok "d/12.npy".toList ∧
    getDict w ["d/12.npy".toList] = .ok [("d/12.npy".toList, [("step".toList, 2)])] :=
  ⟨_, rfl, by decide +kernel, by decide +kernel⟩

/-- **C59 is false for adjacent wildcards.** -/
theorem C59_adjacent_wildcards : ∃ w, mkPath "f<a><b>".toList = .ok w ∧
    fill w [] [("a".toList, natStr 1), ("b".toList, natStr 23)] = .ok "f123".toList ∧
    getDict w ["f123".toList] = .ok [("f123".toList, [("a".toList, 12), ("b".toList, 3)])] :=
  ⟨_, rfl, by decide +kernel, by decide +kernel⟩

/-- **C59 is false if a wildcard is called like another one with a number**: here `a_0` is also the name
of the group for `a`, and the expression cannot be used. -/
theorem C59_name_clash : ∃ w, mkPath "f<a>_<a_0>".toList = .ok w ∧
    fill w [] [("a".toList, natStr 1), ("a_0".toList, natStr 2)] = .ok "f1_2".toList ∧
    getDict w ["f1_2".toList] = .error .notImplementedError ∧
    w.body = "f(?P(?P<a_0_0>\\d+)\\d+)_<a_0>".toList :=
  ⟨_, rfl, by decide +kernel, by decide +kernel, by decide +kernel⟩

/-! ### C60 -/

/-- **C60.**  With filters, the listing consists of the matching files (in listing order) whose value
for every filter name equals the filter value; without filters it consists of all matching files. -/
theorem C60_filter (w : WPath) (files : List Str) (r : List (Str × List (Str × Nat)))
    (h : getDict w files = .ok r) (kw : List (Str × Nat)) :
    getPaths w files kw = .ok ((r.filter fun e =>
      kw.all fun k => decide (dictGet e.2 k.1 = some k.2)).map Prod.fst) := by
  unfold getPaths
  rw [h]
  simp only []
  by_cases hk : kw.length = 0
  · rw [if_pos hk]
    have : kw = [] := List.length_eq_zero_iff.1 hk
    subst this
    simp
  · rw [if_neg hk]
    congr 2
    apply List.filter_congr
    intro e he
    obtain ⟨ts, hts, hm⟩ := getDict_ok h
    obtain ⟨_, hall⟩ := mem_matchFiles hm
    obtain ⟨gs, _, hg⟩ := hall e he
    have hnd := (collect_spec [] gs e.2 hg).2.2.2 (by simp)
    rw [Bool.eq_iff_iff, decide_eq_true_iff, List.all_eq_true, numMatching_iff hnd]
    simp

/-- **C60, failures.**  Filters neither cause nor hide a failure of matching. -/
theorem C60_error (w : WPath) (files : List Str) (e : PyErr) (kw : List (Str × Nat)) :
    getPaths w files kw = .error e ↔ getDict w files = .error e := by
  unfold getPaths
  cases h : getDict w files with
  | error e' => simp
  | ok r => simp only []; split <;> simp

/-- **C60, completeness.**  Every file whose path ends in an instance of the wildcard path (followed by
slashes) is listed, in the order of the directory listing, unless matching raises `AssertionError`
because of two values for one wildcard. -/
theorem C60_complete {ps : List Part} (h : Good ps) :
    ∃ w, mkPath (render ps) = .ok w ∧ ∀ files,
      (getDict w files = .error .assertionError ∨
        ∃ r, getDict w files = .ok r ∧ (r.map Prod.fst).Sublist files ∧
          ∀ f ∈ files, ∀ pre txt val k, f = pre ++ txt ++ List.replicate k '/' → '\n' ∉ f →
            Reads val ps txt → f ∈ r.map Prod.fst) := by
  obtain ⟨w, h1, h2, h3, h4, h5⟩ := mkPath_good h
  refine ⟨w, h1, fun files => ?_⟩
  have herr : ∀ (d : List (Str × Nat)) gs e, collect d gs = .error e → e = .assertionError := by
    intro d gs
    induction gs generalizing d with
    | nil => intro e he; cases he
    | cons g gs ih =>
      intro e he
      obtain ⟨a, b⟩ := g
      simp only [collect] at he
      split at he
      · exact ih _ _ he
      · split at he
        · exact ih _ _ he
        · cases he; rfl
  have herr2 : ∀ (ts : List Tok) files e, matchFiles ts files = .error e → e = .assertionError := by
    intro ts files
    induction files with
    | nil => intro e he; cases he
    | cons f fs ih =>
      intro e he
      rw [matchFiles] at he
      split at he
      · exact ih e he
      · split at he
        · rename_i hc
          cases he
          exact herr _ _ _ hc
        · split at he
          · rename_i hc
            cases he
            exact ih _ hc
          · cases he
  cases hd : getDict w files with
  | error e =>
    left
    unfold getDict at hd
    rw [h5] at hd
    rw [herr2 _ _ _ hd]
  | ok r =>
    right
    obtain ⟨ts, hts, hm⟩ := getDict_ok hd
    rw [h5] at hts
    cases hts
    obtain ⟨hf, _⟩ := mem_matchFiles hm
    refine ⟨r, rfl, by rw [hf]; exact List.filter_sublist, ?_⟩
    intro f hfm pre txt val k hfe hnl hR
    rw [hf, List.mem_filter]
    refine ⟨hfm, ?_⟩
    unfold reMatch
    have htw : f.takeWhile (· ≠ '\n') = f := by
      have := takeWhile_all (p := fun c => decide (c ≠ '\n')) (l := f) (m := [])
        (fun x hx => by simpa using fun e : x = '\n' => hnl (e ▸ hx)) (by simp)
      rwa [List.append_nil] at this
    simp only [htw]
    have hne := matchToks_complete hR (fun _ => 0) k
    obtain ⟨g, hg⟩ := List.exists_mem_of_ne_nil _ hne
    rw [← Option.ne_none_iff_isSome, Ne, List.head?_eq_none_iff]
    intro hnil
    rw [List.flatMap_eq_nil_iff] at hnil
    have hmem : pre.length ∈ countdown f.length ++ [0] := by
      rw [List.mem_append, mem_countdown, List.mem_singleton]
      have : pre.length ≤ f.length := by rw [hfe]; simp
      omega
    have := hnil _ hmem
    rw [hfe, List.append_assoc, List.drop_left] at this
    exact hne this

/-- **C60, unknown names.**  A filter with a name that is not in the path does not raise: the result is
empty, whatever the files (unless matching itself raises). -/
theorem C60_unknown_name {ps : List Part} (h : Good ps) (kw : List (Str × Nat)) (k : Str × Nat)
    (hk : k ∈ kw) (hu : Part.wild k.1 ∉ ps) :
    ∃ w, mkPath (render ps) = .ok w ∧
      ∀ files r, getDict w files = .ok r → getPaths w files kw = .ok [] := by
  obtain ⟨w, h1, hs⟩ := C59_sound h
  refine ⟨w, h1, fun files r hr => ?_⟩
  rw [C60_filter w files r hr kw]
  congr 1
  rw [List.map_eq_nil_iff, List.filter_eq_nil_iff]
  intro e he hall
  rw [List.all_eq_true] at hall
  have := hall k hk
  rw [decide_eq_true_iff] at this
  obtain ⟨_, hn, _⟩ := hs files r hr e he
  exact hu ((hn k.1).1 (by rw [this]; simp))

/-- Concrete filtering: the files of job 1, and an unknown name. -/
example : ∃ w, mkPath "f_<job>_<step>".toList = .ok w ∧
    getPaths w ["f_1_0".toList, "f_2_0".toList, "f_1_5".toList, "g".toList] [("job".toList, 1)]
      = .ok ["f_1_0".toList, "f_1_5".toList] ∧
    getPaths w ["f_1_0".toList, "f_2_0".toList, "f_1_5".toList, "g".toList]
      [("job".toList, 1), ("step".toList, 5)] = .ok ["f_1_5".toList] ∧
    getPaths w ["f_1_0".toList, "f_2_0".toList] [("jobs".toList, 1)] = .ok [] ∧
    getPaths w ["f_1_0".toList, "g".toList] [] = .ok ["f_1_0".toList] :=
  ⟨_, rfl, by decide +kernel, by decide +kernel, by decide +kernel, by decide +kernel⟩

/-! ### C66 -/

/-- **C66.**  The mapping from value tuples to paths has one entry for every tuple of values that occurs
among the matching files, and the path of the entry is the last file listed with these values. -/
theorem C66_named (w : WPath) (files : List Str) (r : List (Str × List (Str × Nat)))
    (h : getDict w files = .ok r) :
    ∃ m, getNamed w files = .ok m ∧ (m.map Prod.fst).Nodup ∧
      ∀ k p, (k, p) ∈ m ↔ lastWith (fun wd => w.wildcards.map (dictGet wd)) r k = some p := by
  refine ⟨_, ?_, (caseFold_spec w r).1, fun k p => ?_⟩
  · unfold getNamed
    rw [h]
  · rw [(caseFold_spec w r).2]
    rfl

/-- Two files with the same values: the later one is kept. -/
example : ∃ w, mkPath "f_<job>".toList = .ok w ∧
    getNamed w ["a/f_1".toList, "f_2".toList, "b/f_01".toList]
      = .ok [([some 1], "b/f_01".toList), ([some 2], "f_2".toList)] :=
  ⟨_, rfl, by decide +kernel⟩

end B3d.Wildcard
