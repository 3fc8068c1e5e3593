import Verif.Spec.Wildcard
import Verif.Proofs.Tactics
import Mathlib.Tactic.IntervalCases
import Mathlib.Algebra.BigOperators.Group.List.Basic

/-! # Helper lemmas: wildcard paths -/

namespace B3d.Wildcard

/-! ### Numbers -/

theorem isDigit_digitChar {n : Nat} (h : n < 10) :
    isDigit (digitChar n) = true ∧ (digitChar n).toNat - 48 = n := by
  interval_cases n <;> decide

theorem natStrAux_digits (fuel n : Nat) : ∀ c ∈ natStrAux fuel n, isDigit c = true := by
  induction fuel generalizing n with
  | zero => simp [natStrAux]
  | succ fuel ih =>
    rw [natStrAux]
    split
    · rename_i h
      intro c hc
      rw [List.mem_singleton] at hc
      rw [hc]; exact (isDigit_digitChar h).1
    · intro c hc
      rcases List.mem_append.1 hc with hc | hc
      · exact ih _ c hc
      · rw [List.mem_singleton] at hc
        rw [hc]; exact (isDigit_digitChar (Nat.mod_lt _ (by omega))).1

theorem natStr_digits (n : Nat) : ∀ c ∈ natStr n, isDigit c = true := natStrAux_digits _ _

theorem natStr_ne_nil (n : Nat) : natStr n ≠ [] := by
  unfold natStr
  rw [natStrAux]
  split <;> simp

theorem parseNat_append (s : Str) (c : Char) : parseNat (s ++ [c]) = 10 * parseNat s + (c.toNat - 48) := by
  unfold parseNat
  rw [List.foldl_append]
  rfl

theorem parseNat_natStrAux (fuel n : Nat) (h : n < fuel) : parseNat (natStrAux fuel n) = n := by
  induction fuel generalizing n with
  | zero => omega
  | succ fuel ih =>
    rw [natStrAux]
    split
    · rename_i hn
      have := parseNat_append [] (digitChar n)
      rw [List.nil_append, (isDigit_digitChar hn).2] at this
      simpa [parseNat] using this
    · rename_i hn
      rw [parseNat_append, ih _ (by omega), (isDigit_digitChar (Nat.mod_lt _ (by omega))).2]
      omega

/-- `int(str(n)) == n`. -/
theorem parseNat_natStr (n : Nat) : parseNat (natStr n) = n := parseNat_natStrAux _ _ (by omega)

theorem digitChar_eq {n : Nat} (h : n < 10) : digitChar n = n.digitChar := by
  interval_cases n <;> decide

theorem natStrAux_toDigits (fuel n : Nat) (h : n < fuel) : natStrAux fuel n = Nat.toDigits 10 n := by
  induction fuel generalizing n with
  | zero => omega
  | succ fuel ih =>
    rw [natStrAux]
    split
    · rename_i hn
      rw [Nat.toDigits_of_lt_base hn, digitChar_eq hn]
    · rename_i hn
      rw [Nat.toDigits_of_base_le (by omega) (by omega), ih _ (by omega), digitChar_eq (Nat.mod_lt _ (by omega))]

/-- `str(n)` is the decimal notation. -/
theorem natStr_eq (n : Nat) : natStr n = (toString n).toList := by
  rw [natStr, natStrAux_toDigits _ _ (by omega), Nat.toString_eq_ofList_toDigits, String.toList_ofList]

theorem natStr_injective {n m : Nat} (h : natStr n = natStr m) : n = m := by
  rw [← parseNat_natStr n, h, parseNat_natStr]

theorem digit_ne {c d : Char} (h : isDigit c = true) (hd : isDigit d = false) : c ≠ d := by
  rintro rfl
  rw [h] at hd
  cases hd

/-! ### Group names -/

theorem takeWhile_all {α : Type} {p : α → Bool} {l m : List α} (h : ∀ x ∈ l, p x = true)
    (hm : ∀ x, m.head? = some x → p x = false) : (l ++ m).takeWhile p = l := by
  induction l with
  | nil =>
    cases m with
    | nil => rfl
    | cons a m => simp [hm a rfl]
  | cons a l ih =>
    rw [List.cons_append, List.takeWhile_cons_of_pos (h a (by simp)), ih fun x hx => h x (by simp [hx])]

theorem dropWhile_all {α : Type} {p : α → Bool} {l m : List α} (h : ∀ x ∈ l, p x = true)
    (hm : ∀ x, m.head? = some x → p x = false) : (l ++ m).dropWhile p = m := by
  induction l with
  | nil =>
    cases m with
    | nil => rfl
    | cons a m => simp [hm a rfl]
  | cons a l ih =>
    rw [List.cons_append, List.dropWhile_cons_of_pos (h a (by simp)), ih fun x hx => h x (by simp [hx])]

/-- `w_i` loses its number. -/
theorem stripIndex_group (w : Str) (i : Nat) : stripIndex (w ++ '_' :: natStr i) = w := by
  unfold stripIndex
  have hr : (w ++ '_' :: natStr i).reverse = (natStr i).reverse ++ '_' :: w.reverse := by simp
  rw [hr]
  simp only []
  rw [dropWhile_all (fun x hx => natStr_digits i x (List.mem_reverse.1 hx)) (by
    intro x hx
    simp only [List.head?_cons, Option.some.injEq] at hx
    subst hx
    decide), takeWhile_all (fun x hx => natStr_digits i x (List.mem_reverse.1 hx)) (by
    intro x hx
    simp only [List.head?_cons, Option.some.injEq] at hx
    subst hx
    decide)]
  simp [natStr_ne_nil]

/-! ### Names -/

theorem isName_chars {n : Str} (h : isName n = true) :
    n ≠ [] ∧ ∀ c ∈ n, c ≠ '<' ∧ c ≠ '>' := by
  cases n with
  | nil => simp [isName] at h
  | cons c t =>
    refine ⟨by simp, ?_⟩
    simp only [isName, Bool.and_eq_true, List.all_eq_true] at h
    obtain ⟨⟨h1, h2⟩, _⟩ := h
    intro d hd
    rcases List.mem_cons.1 hd with rfl | hd
    · constructor <;> rintro rfl <;> exact absurd h1 (by decide)
    · have := h2 d hd
      constructor <;> rintro rfl <;> exact absurd this (by decide)

/-- No angle brackets. -/
def Clean (n : Str) : Prop := ∀ c ∈ n, c ≠ '<' ∧ c ≠ '>'

theorem clean_group {w : Str} (h : Clean w) (i : Nat) : Clean (w ++ '_' :: natStr i) := by
  intro c hc
  rcases List.mem_append.1 hc with hc | hc
  · exact h c hc
  · rcases List.mem_cons.1 hc with rfl | hc
    · decide
    · have := natStr_digits i c hc
      exact ⟨digit_ne this (by decide), digit_ne this (by decide)⟩

/-! ### Finding wildcards -/

theorem findAll_buf (n : Str) (hn : Clean n) (buf s : Str) (hb : buf ++ n ≠ []) :
    findAll (some buf) (n ++ '>' :: s) = (buf ++ n) :: findAll none s := by
  induction n generalizing buf with
  | nil =>
    rw [List.append_nil] at hb ⊢
    rw [List.nil_append, findAll, if_neg (by decide), if_pos rfl, if_neg hb]
  | cons c n ih =>
    have hc := hn c (by simp)
    rw [List.cons_append, findAll, if_neg hc.1, if_neg hc.2,
      ih (fun x hx => hn x (by simp [hx])) _ (by simp)]
    simp

theorem findAll_render (ps : List Part) (hc : ∀ c, Part.lit c ∈ ps → plain c = true)
    (hn : ∀ n, Part.wild n ∈ ps → isName n = true) : findAll none (render ps) = names ps := by
  induction ps with
  | nil => rfl
  | cons p ps ih =>
    have ih := ih (fun c h => hc c (by simp [h])) (fun n h => hn n (by simp [h]))
    cases p with
    | lit c =>
      have h := hc c (by simp)
      have h1 : c ≠ '<' := by
        rintro rfl
        revert h; decide
      rw [render, findAll, if_neg h1, ih]
      rfl
    | wild n =>
      have h := isName_chars (hn n (by simp))
      rw [render, findAll, if_pos rfl, findAll_buf n h.2 [] _ (by simpa using h.1), ih]
      rfl

theorem mem_names {ps : List Part} {n : Str} : n ∈ names ps ↔ Part.wild n ∈ ps := by
  induction ps with
  | nil => simp [names]
  | cons p ps ih =>
    cases p with
    | lit c => simp [names, ih]
    | wild m => simp [names, ih]

/-! ### Replacing wildcards by groups -/

/-- Paths during the construction of the expression. -/
inductive IPart where
  | lit (c : Char)
  | wild (name : Str)
  | grp (name : Str)

/-- Text of such a path. -/
def renderI : List IPart → Str
  | [] => []
  | .lit c :: ps => c :: renderI ps
  | .wild n :: ps => wrap n ++ renderI ps
  | .grp g :: ps => groupText g ++ renderI ps

/-- The first `done n` occurrences of each wildcard `n` are replaced. -/
def numb (done : Str → Nat) : (Str → Nat) → List Part → List IPart
  | _, [] => []
  | seen, .lit c :: ps => .lit c :: numb done seen ps
  | seen, .wild n :: ps =>
    (if seen n < done n then .grp (n ++ '_' :: natStr (seen n)) else .wild n) ::
      numb done (Function.update seen n (seen n + 1)) ps

theorem numb_zero (seen : Str → Nat) (ps : List Part) :
    renderI (numb (fun _ => 0) seen ps) = render ps := by
  induction ps generalizing seen with
  | nil => rfl
  | cons p ps ih =>
    cases p with
    | lit c => simp only [numb, renderI, render]; rw [ih]
    | wild n =>
      simp only [numb, Nat.not_lt_zero, if_false, renderI, render]
      rw [ih]
      simp [wrap]

theorem wrap_isPrefixOf {w n : Str} (hw : Clean w) (hn : Clean n) (s : Str) :
    (wrap w).isPrefixOf ('<' :: (n ++ '>' :: s)) = true ↔ w = n := by
  unfold wrap
  rw [List.isPrefixOf_cons_cons]
  simp only [beq_self_eq_true, Bool.true_and]
  induction w generalizing n with
  | nil =>
    cases n with
    | nil => simp
    | cons d n =>
      have := (hn d (by simp)).2
      simp [this.symm]
  | cons c w ih =>
    cases n with
    | nil =>
      have := (hw c (by simp)).2
      simp [this]
    | cons d n =>
      rw [List.cons_append, List.cons_append, List.isPrefixOf_cons_cons, Bool.and_eq_true, beq_iff_eq,
        ih (fun x hx => hw x (by simp [hx])) (fun x hx => hn x (by simp [hx]))]
      simp

theorem wrap_not_prefix {w : Str} {c : Char} (hc : c ≠ '<') (s : Str) :
    (wrap w).isPrefixOf (c :: s) = false := by
  unfold wrap
  rw [List.isPrefixOf_cons_cons]
  simp [hc.symm]

/-- Characters other than `<` are passed over. -/
theorem replaceFirst_skip {w new : Str} (a s : Str) (h : ∀ c ∈ a, c ≠ '<') :
    replaceFirst (wrap w) new (a ++ s) = a ++ replaceFirst (wrap w) new s := by
  induction a with
  | nil => rfl
  | cons c a ih =>
    rw [List.cons_append, replaceFirst, wrap_not_prefix (h c (by simp)), if_neg (by simp),
      ih fun x hx => h x (by simp [hx])]
    rfl

theorem replaceFirst_other {w n new : Str} (hw : Clean w) (hn : Clean n) (hne : w ≠ n) (s : Str) :
    replaceFirst (wrap w) new (wrap n ++ s) = wrap n ++ replaceFirst (wrap w) new s := by
  have e : wrap n ++ s = '<' :: (n ++ '>' :: s) := by simp [wrap]
  rw [e, replaceFirst, if_neg (by rw [wrap_isPrefixOf hw hn]; exact hne)]
  have : n ++ '>' :: s = (n ++ ['>']) ++ s := by simp
  rw [this, replaceFirst_skip]
  · simp [wrap]
  · intro c hc
    rcases List.mem_append.1 hc with hc | hc
    · exact (hn c hc).1
    · rw [List.mem_singleton] at hc; rw [hc]; decide

theorem replaceFirst_same {w new : Str} (hw : Clean w) (s : Str) :
    replaceFirst (wrap w) new (wrap w ++ s) = new ++ s := by
  have e : wrap w ++ s = '<' :: (w ++ '>' :: s) := by simp [wrap]
  rw [e, replaceFirst, if_pos (by rw [wrap_isPrefixOf hw hw])]
  rw [← e, List.drop_left]

theorem replaceFirst_group {w g new : Str} (hw : Clean w) (hg : Clean g) (hne : w ≠ g) (s : Str) :
    replaceFirst (wrap w) new (groupText g ++ s) = groupText g ++ replaceFirst (wrap w) new s := by
  have e : groupText g ++ s = "(?P".toList ++ (wrap g ++ ("\\d+)".toList ++ s)) := by
    simp [groupText, wrap]
  rw [e, replaceFirst_skip _ _ (by decide), replaceFirst_other hw hg hne,
    replaceFirst_skip _ _ (by decide)]
  simp [groupText, wrap]

/-- One replacement. -/
theorem replaceFirst_numb (done seen : Str → Nat) (ps : List Part) (w : Str) (hw : Clean w)
    (hc : ∀ c, Part.lit c ∈ ps → plain c = true) (hn : ∀ n, Part.wild n ∈ ps → Clean n)
    (hclash : ∀ m, Part.wild m ∈ ps → ∀ i, w ≠ m ++ '_' :: natStr i) (hs : seen w ≤ done w) :
    replaceFirst (wrap w) (groupText (w ++ '_' :: natStr (done w))) (renderI (numb done seen ps))
      = renderI (numb (Function.update done w (done w + 1)) seen ps) := by
  induction ps generalizing seen with
  | nil => rfl
  | cons p ps ih =>
    have hc' : ∀ c, Part.lit c ∈ ps → plain c = true := fun c h => hc c (by simp [h])
    have hn' : ∀ n, Part.wild n ∈ ps → Clean n := fun n h => hn n (by simp [h])
    have hcl' : ∀ m, Part.wild m ∈ ps → ∀ i, w ≠ m ++ '_' :: natStr i := fun m h => hclash m (by simp [h])
    cases p with
    | lit c =>
      have h := hc c (by simp)
      have h1 : c ≠ '<' := by
        rintro rfl
        revert h; decide
      simp only [numb, renderI]
      rw [replaceFirst, wrap_not_prefix h1, if_neg (by simp), ih seen hc' hn' hcl' hs]
    | wild n =>
      have hcn := hn n (by simp)
      by_cases hwn : w = n
      · subst hwn
        by_cases hlt : seen w < done w
        · simp only [numb, hlt, if_true, Function.update_self, renderI,
            Nat.lt_succ_of_lt hlt]
          rw [replaceFirst_group hw (clean_group hcn _) (hclash w (by simp) _)]
          rw [ih _ hc' hn' hcl' (by rw [Function.update_self]; omega)]
        · have heq : seen w = done w := by omega
          have key : numb (Function.update done w (done w + 1))
              (Function.update seen w (seen w + 1)) ps
              = numb done (Function.update seen w (seen w + 1)) ps := by
            have : ∀ (s : Str → Nat) (ps : List Part), done w < s w →
                numb (Function.update done w (done w + 1)) s ps = numb done s ps := by
              intro s ps
              induction ps generalizing s with
              | nil => intro _; rfl
              | cons p ps ih =>
                intro hlt
                cases p with
                | lit c => simp only [numb]; rw [ih s hlt]
                | wild m =>
                  simp only [numb]
                  rw [ih]
                  · by_cases hm : m = w
                    · subst hm
                      rw [Function.update_self, if_neg (by omega), if_neg (by omega)]
                    · rw [Function.update_of_ne hm]
                  · by_cases hm : m = w
                    · subst hm; rw [Function.update_self]; omega
                    · rw [Function.update_of_ne (Ne.symm hm)]; exact hlt
            apply this
            rw [Function.update_self]; omega
          simp only [numb, hlt, if_false, Function.update_self, renderI]
          rw [replaceFirst_same hw, key, if_pos (by omega), renderI, heq]
      · simp only [numb]
        rw [Function.update_of_ne (Ne.symm hwn)]
        have ih' := ih (Function.update seen n (seen n + 1)) hc' hn' hcl'
          (by rw [Function.update_of_ne hwn]; exact hs)
        by_cases hlt : seen n < done n
        · simp only [hlt, if_true, renderI]
          rw [replaceFirst_group hw (clean_group hcn _) (hclash n (by simp) _), ih']
        · simp only [hlt, if_false, renderI]
          rw [replaceFirst_other hw hcn hwn, ih']


/-- All replacements for one wildcard. -/
theorem groups_fold (done : Str → Nat) (ps : List Part) (w : Str) (hw : Clean w) (n k : Nat)
    (hc : ∀ c, Part.lit c ∈ ps → plain c = true) (hn : ∀ n, Part.wild n ∈ ps → Clean n)
    (hclash : ∀ m, Part.wild m ∈ ps → ∀ i, w ≠ m ++ '_' :: natStr i) (hk : done w = k) :
    ((List.range' k n).map fun i => w ++ '_' :: natStr i).foldl
      (fun p gr => replaceFirst (wrap w) (groupText gr) p) (renderI (numb done (fun _ => 0) ps))
      = renderI (numb (Function.update done w (k + n)) (fun _ => 0) ps) := by
  induction n generalizing done k with
  | zero =>
    subst hk
    simp
  | succ n ih =>
    rw [List.range'_succ, List.map_cons, List.foldl_cons, ← hk,
      replaceFirst_numb done _ ps w hw hc hn hclash (Nat.zero_le _),
      ih _ (done w + 1) (by rw [Function.update_self]), Function.update_idem]
    congr 3
    omega

/-- All wildcards. -/
theorem toRegex_numb (ps : List Part) (found ws : List Str) (done : Str → Nat)
    (hc : ∀ c, Part.lit c ∈ ps → plain c = true) (hn : ∀ n, Part.wild n ∈ ps → Clean n)
    (hw : ∀ w ∈ ws, Clean w) (hnd : ws.Nodup) (hd : ∀ w ∈ ws, done w = 0)
    (hclash : ∀ w ∈ ws, ∀ m, Part.wild m ∈ ps → ∀ i, w ≠ m ++ '_' :: natStr i) :
    toRegex (renderI (numb done (fun _ => 0) ps)) found ws
      = renderI (numb (fun w => if w ∈ ws then found.count w else done w) (fun _ => 0) ps) := by
  induction ws generalizing done with
  | nil => simp [toRegex]
  | cons w ws ih =>
    unfold toRegex
    rw [List.foldl_cons]
    have h := groups_fold done ps w (hw w (by simp)) (found.count w) 0 hc hn
      (hclash w (by simp)) (hd w (by simp))
    have e : groups w (found.count w)
        = (List.range' 0 (found.count w)).map fun i => w ++ '_' :: natStr i := by
      unfold groups
      rw [List.range_eq_range']
    rw [e, h]
    have hnd' := List.nodup_cons.1 hnd
    have := ih (Function.update done w (0 + found.count w)) (fun x hx => hw x (by simp [hx])) hnd'.2
      (fun x hx => by
        have hne : x ≠ w := by
          rintro rfl
          exact hnd'.1 hx
        rw [Function.update_of_ne hne]
        exact hd x (by simp [hx]))
      (fun x hx => hclash x (by simp [hx]))
    unfold toRegex at this
    rw [this]
    congr 2
    funext x
    by_cases hx : x ∈ ws
    · simp [hx]
    · by_cases hxw : x = w
      · subst hxw; simp [hx]
      · simp [hx, hxw]

/-- All wildcards replaced. -/
def toks : (Str → Nat) → List Part → List Tok
  | _, [] => []
  | seen, .lit c :: ps => (if c = '.' then .any else .lit c) :: toks seen ps
  | seen, .wild n :: ps =>
    .digits (n ++ '_' :: natStr (seen n)) :: toks (Function.update seen n (seen n + 1)) ps

theorem parseRe_numb (done seen : Str → Nat) (ps : List Part) (fuel : Nat)
    (hc : ∀ c, Part.lit c ∈ ps → plain c = true) (hn : ∀ n, Part.wild n ∈ ps → Clean n)
    (hd : ∀ n, seen n + (names ps).count n ≤ done n)
    (hf : (renderI (numb done seen ps)).length < fuel) :
    parseRe fuel (renderI (numb done seen ps)) = some (toks seen ps) := by
  induction ps generalizing seen fuel with
  | nil =>
    obtain ⟨f, rfl⟩ : ∃ f, fuel = f + 1 := ⟨fuel - 1, by omega⟩
    rfl
  | cons p ps ih =>
    obtain ⟨f, rfl⟩ : ∃ f, fuel = f + 1 := ⟨fuel - 1, by omega⟩
    have hc' : ∀ c, Part.lit c ∈ ps → plain c = true := fun c h => hc c (by simp [h])
    have hn' : ∀ n, Part.wild n ∈ ps → Clean n := fun n h => hn n (by simp [h])
    cases p with
    | lit c =>
      have h := hc c (by simp)
      simp only [plain, Bool.and_eq_true, decide_eq_true_eq, Bool.not_eq_true',
        List.contains_eq_mem, decide_eq_false_iff_not] at h
      have hsp : c ∉ special := h.2
      have hpar : c ≠ '(' := by
        rintro rfl
        exact hsp (by decide)
      have hpre : "(?P<".toList.isPrefixOf (c :: renderI (numb done seen ps)) = false := by
        show List.isPrefixOf ('(' :: "?P<".toList) (c :: _) = false
        rw [List.isPrefixOf_cons_cons]
        simp [hpar.symm]
      have := ih seen f hc' hn' (by simpa [names] using hd) (by
        simp only [numb, renderI, List.length_cons] at hf; omega)
      simp only [numb, renderI, toks]
      rw [parseRe, hpre, if_neg (by simp)]
      by_cases hdot : c = '.'
      · rw [if_pos hdot, if_pos hdot, this]; rfl
      · rw [if_neg hdot, if_neg hdot, if_neg hsp, this]; rfl
    | wild n =>
      have hlt : seen n < done n := by
        have := hd n
        simp only [names, List.count_cons_self] at this
        omega
      obtain ⟨g, hg⟩ : ∃ g, g = n ++ '_' :: natStr (seen n) := ⟨_, rfl⟩
      have hcg : Clean g := hg ▸ clean_group (hn n (by simp)) _
      have hd' : ∀ m, Function.update seen n (seen n + 1) m + (names ps).count m ≤ done m := by
        intro m
        have := hd m
        simp only [names] at this
        by_cases hm : m = n
        · subst hm
          rw [List.count_cons_self] at this
          rw [Function.update_self]; omega
        · rw [List.count_cons_of_ne (Ne.symm hm)] at this
          rw [Function.update_of_ne hm]; exact this
      simp only [numb, hlt, if_true, renderI, toks, ← hg] at hf ⊢
      obtain ⟨rest, hrest⟩ : ∃ rest, rest
        = renderI (numb done (Function.update seen n (seen n + 1)) ps) := ⟨_, rfl⟩
      have := ih (Function.update seen n (seen n + 1)) f hc' hn' hd' (by
        simp only [List.length_append] at hf
        have : 0 < (groupText g).length := by simp [groupText]
        omega)
      rw [← hrest] at hf this ⊢
      have e : groupText g ++ rest = '(' :: ('?' :: 'P' :: '<' :: (g ++ ('>' :: '\\' :: 'd' :: '+' :: ')' :: rest))) := by
        simp [groupText]
      have hgt : ∀ x ∈ g, decide (x ≠ '>') = true := fun x hx => by simpa using (hcg x hx).2
      have hend : ∀ x, ('>' :: '\\' :: 'd' :: '+' :: ')' :: rest).head? = some x →
          decide (x ≠ '>') = false := by
        intro x hx
        simp only [List.head?_cons, Option.some.injEq] at hx
        subst hx; decide
      rw [e, parseRe]
      rw [if_pos (by simp)]
      simp only [List.drop_succ_cons, List.drop_zero]
      rw [takeWhile_all hgt hend, dropWhile_all hgt hend]
      rw [if_pos (by simp)]
      simp only [List.drop_succ_cons, List.drop_zero]
      rw [this]
      rfl

/-- Group names are `n_k` with `k` at least the number seen. -/
theorem mem_tokNames {seen : Str → Nat} {ps : List Part} {g : Str} (h : g ∈ tokNames (toks seen ps)) :
    ∃ n k, g = n ++ '_' :: natStr k ∧ seen n ≤ k ∧ n ∈ names ps := by
  induction ps generalizing seen with
  | nil => simp [toks, tokNames] at h
  | cons p ps ih =>
    cases p with
    | lit c =>
      simp only [toks] at h
      have : g ∈ tokNames (toks seen ps) := by
        split at h <;> simpa [tokNames] using h
      exact ih this
    | wild n =>
      simp only [toks, tokNames, List.mem_cons] at h
      rcases h with h | h
      · exact ⟨n, seen n, h, le_refl _, by simp [names]⟩
      · obtain ⟨m, k, h1, h2, h3⟩ := ih h
        refine ⟨m, k, h1, ?_, by simp [names, h3]⟩
        by_cases hm : m = n
        · subst hm; rw [Function.update_self] at h2; omega
        · rwa [Function.update_of_ne hm] at h2

theorem group_injective {n m : Str} {i j : Nat} (h : n ++ '_' :: natStr i = m ++ '_' :: natStr j) :
    n = m ∧ i = j := by
  have h1 : n = m := by rw [← stripIndex_group n i, h, stripIndex_group]
  subst h1
  have := List.append_cancel_left h
  rw [List.cons.injEq] at this
  exact ⟨rfl, natStr_injective this.2⟩

theorem tokNames_nodup (seen : Str → Nat) (ps : List Part) : (tokNames (toks seen ps)).Nodup := by
  induction ps generalizing seen with
  | nil => simp [toks, tokNames]
  | cons p ps ih =>
    cases p with
    | lit c =>
      simp only [toks]
      split <;> simpa [tokNames] using ih seen
    | wild n =>
      simp only [toks, tokNames, List.nodup_cons]
      refine ⟨?_, ih _⟩
      intro h
      obtain ⟨m, k, h1, h2, _⟩ := mem_tokNames h
      obtain ⟨rfl, rfl⟩ := group_injective h1
      rw [Function.update_self] at h2
      omega

/-! ### The constructor -/

theorem names_clean {ps : List Part} (h : Good ps) : ∀ n, Part.wild n ∈ ps → Clean n :=
  fun n hn => (isName_chars (h.valid n hn)).2

theorem mkPath_good {ps : List Part} (h : Good ps) :
    ∃ w, mkPath (render ps) = .ok w ∧ w.path = render ps ∧ w.wildcards.Nodup ∧
      (∀ n, n ∈ w.wildcards ↔ n ∈ names ps) ∧ compile w.body = .ok (toks (fun _ => 0) ps) := by
  have hfa := findAll_render ps h.chars h.valid
  obtain ⟨ws, hws⟩ : ∃ ws, ws = (names ps).dedup.insertionSort (fun a b => a ≤ b) := ⟨_, rfl⟩
  have hmem : ∀ n, n ∈ ws ↔ n ∈ names ps := by
    intro n
    rw [hws, List.mem_insertionSort, List.mem_dedup]
  have hnd : ws.Nodup := by
    rw [hws]
    exact (List.perm_insertionSort _ _).nodup_iff.2 (List.nodup_dedup _)
  have hfw : findWildcards (render ps) = (names ps, ws) := by
    unfold findWildcards
    simp only [hfa, hws]
  have hall : ws.all isName = true := by
    rw [List.all_eq_true]
    intro n hn
    exact h.valid n (mem_names.1 ((hmem n).1 hn))
  have hre := toRegex_numb ps (names ps) ws (fun _ => 0) h.chars (names_clean h)
    (fun w hw => names_clean h w (mem_names.1 ((hmem w).1 hw))) hnd (fun _ _ => rfl)
    (fun w hw m hm => h.clash w m (mem_names.1 ((hmem w).1 hw)) hm)
  rw [numb_zero] at hre
  refine ⟨⟨render ps, ws, toRegex (render ps) (names ps) ws⟩, ?_, rfl, hnd, hmem, ?_⟩
  · unfold mkPath
    simp only [hfw]
    rw [if_pos hall]
  · unfold compile
    simp only []
    rw [hre, parseRe_numb _ _ ps _ h.chars (names_clean h) ?_ (by omega)]
    · simp only []
      rw [if_pos (tokNames_nodup _ _)]
    · intro n
      simp only [Nat.zero_add]
      split
      · exact le_refl _
      · rename_i hn
        rw [hmem] at hn
        rw [List.count_eq_zero_of_not_mem hn]

/-! ### Matching -/

/-- The groups with their texts. -/
def groupVals (val : Str → Nat) : (Str → Nat) → List Part → List (Str × Str)
  | _, [] => []
  | seen, .lit _ :: ps => groupVals val seen ps
  | seen, .wild n :: ps => (n ++ '_' :: natStr (seen n), natStr (val n)) ::
      groupVals val (Function.update seen n (seen n + 1)) ps

theorem filled_head {val : Str → Nat} {ps : List Part}
    (h : ∀ p, ps.head? = some p → ∃ c, p = .lit c ∧ isDigit c = false) :
    ∀ x, (filled val ps).head? = some x → isDigit x = false := by
  intro x hx
  cases ps with
  | nil => simp [filled] at hx
  | cons p ps =>
    obtain ⟨c, rfl, hc⟩ := h p rfl
    simp only [filled, List.head?_cons, Option.some.injEq] at hx
    exact hx ▸ hc

theorem matchToks_filled (val seen : Str → Nat) (ps : List Part)
    (hc : ∀ c, Part.lit c ∈ ps → plain c = true) (hs : Separated ps) :
    (matchToks (toks seen ps) (filled val ps)).head? = some (groupVals val seen ps) := by
  induction ps generalizing seen with
  | nil => simp [toks, filled, matchToks, groupVals]
  | cons p ps ih =>
    have hc' : ∀ c, Part.lit c ∈ ps → plain c = true := fun c h => hc c (by simp [h])
    cases p with
    | lit c =>
      have h := hc c (by simp)
      have hnl : c ≠ '\n' := by
        rintro rfl
        revert h; decide
      simp only [toks, filled, groupVals]
      by_cases hdot : c = '.'
      · simp only [hdot, if_true, matchToks]
        rw [if_neg (by decide)]
        exact ih seen hc' hs
      · simp only [hdot, if_false, matchToks, if_true]
        exact ih seen hc' hs
    | wild n =>
      simp only [Separated] at hs
      simp only [toks, filled, groupVals, matchToks]
      rw [takeWhile_all (natStr_digits _) (filled_head hs.2)]
      obtain ⟨k, hk⟩ : ∃ k, (natStr (val n)).length = k + 1 :=
        ⟨(natStr (val n)).length - 1, by
          have := List.length_pos_iff.2 (natStr_ne_nil (val n)); omega⟩
      rw [hk, countdown, List.flatMap_cons, ← hk, List.take_left', List.drop_left']
      · rw [List.head?_append, List.head?_map, ih _ hc' hs.1]
        rfl
      · rfl
      · rfl

/-- Number of parts that match the character `c` only. -/
def litCount (c : Char) : List Tok → Nat
  | [] => 0
  | .lit d :: ts => (if d = c then 1 else 0) + litCount c ts
  | _ :: ts => litCount c ts

theorem matchToks_count (c : Char) (ts : List Tok) (s : Str) (h : matchToks ts s ≠ []) :
    litCount c ts ≤ s.count c := by
  induction ts generalizing s with
  | nil => simp [litCount]
  | cons t ts ih =>
    cases t with
    | lit d =>
      cases s with
      | nil => simp [matchToks] at h
      | cons e s =>
        simp only [matchToks] at h
        split at h
        · rename_i he
          subst he
          have := ih s h
          simp only [litCount, List.count_cons, beq_iff_eq]
          omega
        · exact absurd rfl h
    | any =>
      cases s with
      | nil => simp [matchToks] at h
      | cons e s =>
        simp only [matchToks] at h
        split at h
        · exact absurd rfl h
        · have := ih s h
          simp only [litCount, List.count_cons]
          omega
    | digits n =>
      simp only [matchToks] at h
      obtain ⟨x, hx⟩ := List.exists_mem_of_ne_nil _ h
      obtain ⟨k, _, hk⟩ := List.mem_flatMap.1 hx
      have hne : matchToks ts (s.drop k) ≠ [] := by
        intro h0
        rw [h0] at hk
        simp at hk
      have := ih _ hne
      have hle : (s.drop k).count c ≤ s.count c := List.Sublist.count_le _ (List.drop_sublist _ _)
      simp only [litCount]
      omega

theorem count_filled (val seen : Str → Nat) (ps : List Part) (c : Char) (hd : isDigit c = false)
    (hdot : c ≠ '.') : (filled val ps).count c = litCount c (toks seen ps) := by
  induction ps generalizing seen with
  | nil => rfl
  | cons p ps ih =>
    cases p with
    | lit d =>
      simp only [filled, toks, List.count_cons, ih seen]
      by_cases h : d = '.'
      · subst h
        have : ('.' == c) = false := by simpa using hdot.symm
        simp [litCount, this]
      · simp only [h, if_false, litCount, beq_iff_eq]
        omega
    | wild n =>
      simp only [filled, toks, litCount, List.count_append]
      rw [ih, List.count_eq_zero_of_not_mem, Nat.zero_add]
      intro h
      exact digit_ne (natStr_digits _ _ h) hd rfl

theorem findSome?_countdown {β : Type} (f : Nat → Option β) (v : β) (p n : Nat) (hp : p ≤ n)
    (h1 : ∀ k, p < k → k ≤ n → f k = none) (h2 : f p = some v) :
    (countdown n ++ [0]).findSome? f = some v := by
  induction n with
  | zero =>
    obtain rfl : p = 0 := by omega
    simp [countdown, h2]
  | succ n ih =>
    rw [countdown, List.cons_append, List.findSome?_cons]
    by_cases hpn : p = n + 1
    · subst hpn; rw [h2]
    · rw [h1 (n + 1) (by omega) (le_refl _)]
      exact ih (by omega) fun k hk hkn => h1 k hk (by omega)

theorem filled_no_newline {val : Str → Nat} {ps : List Part}
    (hc : ∀ c, Part.lit c ∈ ps → plain c = true) : '\n' ∉ filled val ps := by
  induction ps with
  | nil => simp [filled]
  | cons p ps ih =>
    have ih := ih fun c h => hc c (by simp [h])
    cases p with
    | lit c =>
      have h := hc c (by simp)
      simp only [filled, List.mem_cons, not_or]
      refine ⟨?_, ih⟩
      rintro rfl
      revert h; decide
    | wild n =>
      simp only [filled, List.mem_append, not_or]
      exact ⟨fun h => digit_ne (natStr_digits _ _ h) (d := '\n') (by decide) rfl, ih⟩

/-- Matching a filled path behind any directory. -/
theorem reMatch_filled {ps : List Part} (h : Good ps) (val : Str → Nat) (pre : Str)
    (hpre : '\n' ∉ pre) :
    reMatch (toks (fun _ => 0) ps) (pre ++ filled val ps) = some (groupVals val (fun _ => 0) ps) := by
  unfold reMatch
  have hnl : '\n' ∉ pre ++ filled val ps := by
    rw [List.mem_append, not_or]
    exact ⟨hpre, filled_no_newline h.chars⟩
  have htw : (pre ++ filled val ps).takeWhile (· ≠ '\n') = pre ++ filled val ps := by
    have := takeWhile_all (p := fun c => decide (c ≠ '\n')) (l := pre ++ filled val ps) (m := [])
      (fun x hx => by simpa using fun e : x = '\n' => hnl (e ▸ hx)) (by simp)
    rwa [List.append_nil] at this
  simp only [htw]
  rw [List.head?_flatMap]
  apply findSome?_countdown _ _ pre.length
  · simp
  · intro k hk hkn
    obtain ⟨c, rest, rfl, hd, hdot⟩ := h.first
    rw [List.head?_eq_none_iff]
    by_contra hne
    have h1 := matchToks_count c _ _ hne
    rw [← count_filled val (fun _ => 0) _ c hd hdot] at h1
    obtain ⟨j, rfl⟩ : ∃ j, k = pre.length + (j + 1) := ⟨k - pre.length - 1, by omega⟩
    rw [List.drop_append, List.drop_eq_nil_of_le (by omega), List.nil_append] at h1
    have e : pre.length + (j + 1) - pre.length = j + 1 := by omega
    rw [e] at h1
    simp only [filled, List.drop_succ_cons, List.count_cons_self] at h1
    have : ((filled val rest).drop j).count c ≤ (filled val rest).count c :=
      List.Sublist.count_le _ (List.drop_sublist _ _)
    omega
  · rw [List.drop_left']
    · exact matchToks_filled val _ ps h.chars h.apart
    · rfl

/-! ### Values -/

theorem dictGet_append_one {α : Type} (d : List (Str × α)) (k : Str) (v : α) (n : Str)
    (hk : dictGet d k = none) :
    dictGet (d ++ [(k, v)]) n = if n = k then some v else dictGet d n := by
  unfold dictGet at *
  rw [List.find?_append]
  by_cases h : n = k
  · subst h
    rw [if_pos rfl]
    rw [Option.map_eq_none_iff] at hk
    rw [hk]
    simp
  · rw [if_neg h]
    have : List.find? (fun e : Str × α => decide (e.1 = n)) [(k, v)] = none := by
      simp [Ne.symm h]
    rw [this, Option.or_none]

theorem collect_groupVals (val seen : Str → Nat) (ps : List Part) (d : List (Str × Nat))
    (hd : ∀ n v, dictGet d n = some v → v = val n) :
    ∃ d', collect d (groupVals val seen ps) = .ok d' ∧
      ∀ n, dictGet d' n = if n ∈ names ps then some (val n) else dictGet d n := by
  induction ps generalizing seen d with
  | nil => exact ⟨d, rfl, fun n => by simp [names]⟩
  | cons p ps ih =>
    cases p with
    | lit c =>
      obtain ⟨d', h1, h2⟩ := ih seen d hd
      exact ⟨d', h1, fun n => by rw [h2]; rfl⟩
    | wild n =>
      simp only [groupVals, collect, stripIndex_group, parseNat_natStr]
      cases hg : dictGet d n with
      | none =>
        simp only []
        obtain ⟨d', h1, h2⟩ := ih (Function.update seen n (seen n + 1)) (d ++ [(n, val n)]) (by
          intro m v hm
          rw [dictGet_append_one _ _ _ _ hg] at hm
          split at hm
          · rename_i e; subst e; cases hm; rfl
          · exact hd m v hm)
        refine ⟨d', h1, fun m => ?_⟩
        rw [h2 m, dictGet_append_one _ _ _ _ hg]
        simp only [names, List.mem_cons]
        by_cases hm : m = n
        · subst hm; simp
        · simp [hm]
      | some v =>
        have hv := hd n v hg
        subst hv
        simp only [if_true]
        obtain ⟨d', h1, h2⟩ := ih (Function.update seen n (seen n + 1)) d hd
        refine ⟨d', h1, fun m => ?_⟩
        rw [h2 m]
        simp only [names, List.mem_cons]
        by_cases hm : m = n
        · subst hm
          simp [hg]
        · simp [hm]

/-! ### Filling -/

theorem replaceAllAux_skip (old new : Str) (a s : Str) :
    replaceAllAux old new a.length (a ++ s) = replaceAllAux old new 0 s := by
  induction a with
  | nil => rfl
  | cons c a ih =>
    rw [List.length_cons, List.cons_append, replaceAllAux, ih]

theorem replaceAll_pass {w new : Str} (a s : Str) (h : ∀ c ∈ a, c ≠ '<') :
    replaceAll (wrap w) new (a ++ s) = a ++ replaceAll (wrap w) new s := by
  induction a with
  | nil => rfl
  | cons c a ih =>
    unfold replaceAll at *
    rw [List.cons_append, replaceAllAux, wrap_not_prefix (h c (by simp)), if_neg (by simp),
      ih fun x hx => h x (by simp [hx])]
    rfl

/-- Filling one wildcard. -/
def substP (k v : Str) : List Part → List Part
  | [] => []
  | .lit c :: ps => .lit c :: substP k v ps
  | .wild n :: ps => (if n = k then v.map Part.lit else [.wild n]) ++ substP k v ps

theorem render_append (a b : List Part) : render (a ++ b) = render a ++ render b := by
  induction a with
  | nil => rfl
  | cons p a ih => cases p <;> simp [render, ih]

theorem render_lits (v : Str) : render (v.map Part.lit) = v := by
  induction v with
  | nil => rfl
  | cons c v ih => simp [render, ih]

theorem replaceAll_render (k v : Str) (hk : Clean k) (ps : List Part)
    (hc : ∀ c, Part.lit c ∈ ps → c ≠ '<') (hn : ∀ n, Part.wild n ∈ ps → Clean n) :
    replaceAll (wrap k) v (render ps) = render (substP k v ps) := by
  induction ps with
  | nil => rfl
  | cons p ps ih =>
    have ih := ih (fun c h => hc c (by simp [h])) (fun n h => hn n (by simp [h]))
    cases p with
    | lit c =>
      simp only [render, substP]
      rw [← ih]
      exact replaceAll_pass [c] _ fun x hx => by
        rw [List.mem_singleton] at hx; rw [hx]; exact hc c (by simp)
    | wild n =>
      have hcn := hn n (by simp)
      simp only [render, substP]
      rw [render_append, ← ih]
      by_cases hnk : n = k
      · subst hnk
        rw [if_pos rfl, render_lits]
        unfold replaceAll
        rw [replaceAllAux, if_pos (by rw [wrap_isPrefixOf hk hcn])]
        have e : n ++ '>' :: render ps = (n ++ ['>']) ++ render ps := by simp
        have e2 : (wrap n).length - 1 = (n ++ ['>']).length := by simp [wrap]
        rw [e, e2, replaceAllAux_skip]
      · rw [if_neg hnk]
        have hp : ∀ s, replaceAll (wrap k) v ('<' :: (n ++ '>' :: s))
            = '<' :: replaceAll (wrap k) v (n ++ '>' :: s) := by
          intro s
          unfold replaceAll
          rw [replaceAllAux, if_neg (by rw [wrap_isPrefixOf hk hcn]; exact Ne.symm hnk)]
        have e : n ++ '>' :: render ps = (n ++ ['>']) ++ render ps := by simp
        rw [hp, e, replaceAll_pass]
        · simp [render]
        · intro c hc'
          rcases List.mem_append.1 hc' with h | h
          · exact (hcn c h).1
          · rw [List.mem_singleton] at h; rw [h]; decide

/-- Filling all wildcards of a list. -/
def fillP (val : Str → Nat) (ks : List Str) : List Part → List Part
  | [] => []
  | .lit c :: ps => .lit c :: fillP val ks ps
  | .wild n :: ps => (if n ∈ ks then (natStr (val n)).map Part.lit else [.wild n]) ++ fillP val ks ps

theorem substP_append (k v : Str) (a b : List Part) :
    substP k v (a ++ b) = substP k v a ++ substP k v b := by
  induction a with
  | nil => rfl
  | cons p a ih => cases p <;> simp [substP, ih]

theorem substP_lits (k v s : Str) : substP k v (s.map Part.lit) = s.map Part.lit := by
  induction s with
  | nil => rfl
  | cons c s ih => simp [substP, ih]

theorem substP_fillP (val : Str → Nat) (ks : List Str) (k : Str) (ps : List Part) :
    substP k (natStr (val k)) (fillP val ks ps) = fillP val (k :: ks) ps := by
  induction ps with
  | nil => rfl
  | cons p ps ih =>
    cases p with
    | lit c => simp [fillP, substP, ih]
    | wild n =>
      simp only [fillP]
      rw [substP_append, ih]
      congr 1
      by_cases h : n ∈ ks
      · rw [if_pos h, if_pos (by simp [h]), substP_lits]
      · rw [if_neg h]
        by_cases hk : n = k
        · subst hk; simp [substP]
        · simp [substP, hk, h]

theorem render_fillP_all (val : Str → Nat) (ks : List Str) (ps : List Part)
    (h : ∀ n ∈ names ps, n ∈ ks) : render (fillP val ks ps) = filled val ps := by
  induction ps with
  | nil => rfl
  | cons p ps ih =>
    cases p with
    | lit c =>
      simp only [fillP, render, filled]
      rw [ih h]
    | wild n =>
      simp only [fillP, filled]
      rw [render_append, if_pos (h n (by simp [names])), render_lits,
        ih fun m hm => h m (by simp [names, hm])]

theorem mem_fillP_lit {val : Str → Nat} {ks : List Str} {ps : List Part} {c : Char}
    (h : Part.lit c ∈ fillP val ks ps) : Part.lit c ∈ ps ∨ isDigit c = true := by
  induction ps with
  | nil => simp [fillP] at h
  | cons p ps ih =>
    cases p with
    | lit d =>
      simp only [fillP, List.mem_cons] at h
      rcases h with h | h
      · left; rw [h]; simp
      · rcases ih h with h | h
        · left; simp [h]
        · right; exact h
    | wild n =>
      simp only [fillP, List.mem_append] at h
      rcases h with h | h
      · split at h
        · obtain ⟨d, hd, e⟩ := List.mem_map.1 h
          cases e
          right; exact natStr_digits _ _ hd
        · simp at h
      · rcases ih h with h | h
        · left; simp [h]
        · right; exact h

theorem mem_fillP_wild {val : Str → Nat} {ks : List Str} {ps : List Part} {n : Str}
    (h : Part.wild n ∈ fillP val ks ps) : Part.wild n ∈ ps := by
  induction ps with
  | nil => simp [fillP] at h
  | cons p ps ih =>
    cases p with
    | lit d =>
      simp only [fillP, List.mem_cons] at h
      rcases h with h | h
      · cases h
      · simp [ih h]
    | wild m =>
      simp only [fillP, List.mem_append] at h
      rcases h with h | h
      · split at h
        · obtain ⟨d, _, e⟩ := List.mem_map.1 h
          cases e
        · rw [List.mem_singleton] at h; rw [h]; simp
      · simp [ih h]

theorem fillLoop_good {ps : List Part} (h : Good ps) (ws : List Str)
    (hws : ∀ n ∈ ws, n ∈ names ps) (val : Str → Nat) (ks done : List Str) (hks : ∀ k ∈ ks, k ∈ ws) :
    fillLoop ws (render (fillP val done ps)) (ks.map fun k => (k, natStr (val k)))
      = .ok (render (fillP val (ks.reverse ++ done) ps)) := by
  induction ks generalizing done with
  | nil => rfl
  | cons k ks ih =>
    have hk := hks k (by simp)
    have hck := names_clean h k (mem_names.1 (hws k hk))
    rw [List.map_cons, fillLoop, if_pos hk, replaceAll_render k _ hck, substP_fillP,
      ih (k :: done) fun x hx => hks x (by simp [hx])]
    · simp
    · intro c hc
      rcases mem_fillP_lit hc with hc | hc
      · have := h.chars c hc
        rintro rfl
        revert this; decide
      · exact digit_ne hc (by decide)
    · intro n hn
      exact names_clean h n (mem_fillP_wild hn)

theorem fillP_nil (val : Str → Nat) (ps : List Part) : fillP val [] ps = ps := by
  induction ps with
  | nil => rfl
  | cons p ps ih => cases p <;> simp [fillP, ih]


/-! ### Soundness of matching -/

theorem mem_countdown {n k : Nat} : k ∈ countdown n ↔ 1 ≤ k ∧ k ≤ n := by
  induction n with
  | zero => simp [countdown]; omega
  | succ n ih =>
    rw [countdown, List.mem_cons, ih]
    omega

/-- The text matched by the parts, with the digit strings of the groups. -/
inductive Fits : List Tok → List (Str × Str) → Str → Prop where
  | nil : Fits [] [] []
  | lit {c : Char} {ts : List Tok} {gs : List (Str × Str)} {s : Str} (h : Fits ts gs s) :
      Fits (.lit c :: ts) gs (c :: s)
  | any {c : Char} {ts : List Tok} {gs : List (Str × Str)} {s : Str} (hc : c ≠ '\n') (h : Fits ts gs s) :
      Fits (.any :: ts) gs (c :: s)
  | digits {n ds : Str} {ts : List Tok} {gs : List (Str × Str)} {s : Str} (h0 : ds ≠ [])
      (h1 : ∀ c ∈ ds, isDigit c = true) (h : Fits ts gs s) :
      Fits (.digits n :: ts) ((n, ds) :: gs) (ds ++ s)

theorem take_takeWhile {α : Type} {p : α → Bool} {l : List α} {k : Nat}
    (hk : k ≤ (l.takeWhile p).length) : ∀ x ∈ l.take k, p x = true := by
  induction l generalizing k with
  | nil => simp
  | cons a l ih =>
    cases k with
    | zero => simp
    | succ k =>
      by_cases ha : p a = true
      · rw [List.takeWhile_cons_of_pos ha, List.length_cons] at hk
        intro x hx
        rw [List.take_succ_cons, List.mem_cons] at hx
        rcases hx with rfl | hx
        · exact ha
        · exact ih (by omega) x hx
      · rw [List.takeWhile_cons_of_neg ha] at hk
        simp at hk

theorem matchToks_sound (ts : List Tok) (s : Str) (gs : List (Str × Str)) (h : gs ∈ matchToks ts s) :
    ∃ txt tail, s = txt ++ tail ∧ Fits ts gs txt ∧
      (tail.dropWhile (· = '/') = [] ∨ tail.dropWhile (· = '/') = ['\n']) := by
  induction ts generalizing s gs with
  | nil =>
    simp only [matchToks] at h
    split at h
    · rename_i hr
      rw [List.mem_singleton] at h
      exact ⟨[], s, rfl, h ▸ Fits.nil, hr⟩
    · simp at h
  | cons t ts ih =>
    cases t with
    | lit c =>
      cases s with
      | nil => simp [matchToks] at h
      | cons d s =>
        simp only [matchToks] at h
        split at h
        · rename_i hd
          subst hd
          obtain ⟨txt, tail, h1, h2, h3⟩ := ih s gs h
          exact ⟨d :: txt, tail, by rw [h1]; rfl, .lit h2, h3⟩
        · simp at h
    | any =>
      cases s with
      | nil => simp [matchToks] at h
      | cons d s =>
        simp only [matchToks] at h
        split at h
        · simp at h
        · rename_i hd
          obtain ⟨txt, tail, h1, h2, h3⟩ := ih s gs h
          exact ⟨d :: txt, tail, by rw [h1]; rfl, .any hd h2, h3⟩
    | digits n =>
      simp only [matchToks] at h
      obtain ⟨k, hk, hm⟩ := List.mem_flatMap.1 h
      obtain ⟨g, hg, rfl⟩ := List.mem_map.1 hm
      obtain ⟨hk1, hk2⟩ := mem_countdown.1 hk
      obtain ⟨txt, tail, h1, h2, h3⟩ := ih _ g hg
      have hlen : k ≤ s.length := le_trans hk2 (List.takeWhile_sublist _).length_le
      refine ⟨s.take k ++ txt, tail, ?_, .digits ?_ (take_takeWhile hk2) h2, h3⟩
      · rw [List.append_assoc, ← h1, List.take_append_drop]
      · intro h0
        have := congrArg List.length h0
        rw [List.length_take, List.length_nil, Nat.min_eq_left hlen] at this
        omega

theorem reMatch_sound {ts : List Tok} {s : Str} {gs : List (Str × Str)} (h : reMatch ts s = some gs) :
    ∃ pre txt tail, s = pre ++ txt ++ tail ∧ Fits ts gs txt ∧
      (tail.dropWhile (· = '/') = [] ∨ tail.dropWhile (· = '/') = ['\n']) := by
  unfold reMatch at h
  have hm := List.mem_of_mem_head? (Option.mem_def.2 h)
  obtain ⟨k, _, hg⟩ := List.mem_flatMap.1 hm
  obtain ⟨txt, tail, h1, h2, h3⟩ := matchToks_sound ts _ gs hg
  refine ⟨s.take k, txt, tail, ?_, h2, h3⟩
  rw [List.append_assoc, ← h1, List.take_append_drop]

/-- What `collect` returns. -/
theorem collect_spec (d : List (Str × Nat)) (gs : List (Str × Str)) (d' : List (Str × Nat))
    (h : collect d gs = .ok d') :
    (∀ n v, dictGet d n = some v → dictGet d' n = some v) ∧
    (∀ g ∈ gs, dictGet d' (stripIndex g.1) = some (parseNat g.2)) ∧
    (∀ n, dictGet d' n ≠ none → dictGet d n ≠ none ∨ ∃ g ∈ gs, stripIndex g.1 = n) ∧
    ((d.map Prod.fst).Nodup → (d'.map Prod.fst).Nodup) := by
  induction gs generalizing d with
  | nil =>
    simp only [collect, Except.ok.injEq] at h
    subst h
    exact ⟨fun _ _ h => h, by simp, fun n hn => Or.inl hn, id⟩
  | cons g gs ih =>
    obtain ⟨gr, val⟩ := g
    simp only [collect] at h
    cases hg : dictGet d (stripIndex gr) with
    | none =>
      rw [hg] at h
      obtain ⟨h1, h2, h3, h4⟩ := ih _ h
      have ha := fun n => dictGet_append_one d (stripIndex gr) (parseNat val) n hg
      refine ⟨?_, ?_, ?_, ?_⟩
      · intro n v hn
        apply h1
        rw [ha]
        split
        · rename_i e; rw [e, hg] at hn; cases hn
        · exact hn
      · intro g' hg'
        rcases List.mem_cons.1 hg' with rfl | hg'
        · apply h1
          rw [ha, if_pos rfl]
        · exact h2 g' hg'
      · intro n hn
        rcases h3 n hn with h | ⟨g', h, e⟩
        · rw [ha] at h
          split at h
          · rename_i e; exact Or.inr ⟨_, List.mem_cons_self, e.symm⟩
          · exact Or.inl h
        · exact Or.inr ⟨g', by simp [h], e⟩
      · intro hnd
        apply h4
        rw [List.map_append, List.map_singleton]
        apply List.Nodup.append hnd (by simp)
        intro x hx hx'
        rw [List.mem_singleton] at hx'
        subst hx'
        obtain ⟨e, he, hex⟩ := List.mem_map.1 hx
        unfold dictGet at hg
        rw [Option.map_eq_none_iff, List.find?_eq_none] at hg
        exact hg e he (by simpa using hex)
    | some v =>
      rw [hg] at h
      simp only [] at h
      split at h
      · rename_i hv
        obtain ⟨h1, h2, h3, h4⟩ := ih _ h
        refine ⟨h1, ?_, ?_, h4⟩
        · intro g' hg'
          rcases List.mem_cons.1 hg' with rfl | hg'
          · simp only []
            rw [hv]; exact h1 _ _ hg
          · exact h2 g' hg'
        · intro n hn
          rcases h3 n hn with h | ⟨g', h, e⟩
          · exact Or.inl h
          · exact Or.inr ⟨g', by simp [h], e⟩
      · cases h

theorem fits_names {ts : List Tok} {gs : List (Str × Str)} {s : Str} (h : Fits ts gs s) :
    gs.map Prod.fst = tokNames ts := by
  induction h with
  | nil => rfl
  | lit _ ih => simpa [tokNames] using ih
  | any _ _ ih => simpa [tokNames] using ih
  | digits _ _ _ ih => simp [tokNames, ih]

/-- From texts of groups to values of wildcards. -/
theorem fits_reads (val : Str → Option Nat) (ps : List Part) (seen : Str → Nat)
    (gs : List (Str × Str)) (s : Str)
    (hf : Fits (toks seen ps) gs s) (hv : ∀ g ∈ gs, val (stripIndex g.1) = some (parseNat g.2)) :
    Reads val ps s := by
  induction ps generalizing seen gs s with
  | nil =>
    cases hf
    exact .nil
  | cons p ps ih =>
    cases p with
    | lit c =>
      simp only [toks] at hf
      by_cases hc : c = '.'
      · subst hc
        rw [if_pos rfl] at hf
        cases hf with
        | any h1 h2 => exact .dot h1 (ih seen _ _ h2 hv)
      · rw [if_neg hc] at hf
        cases hf with
        | lit h2 => exact .lit hc (ih seen _ _ h2 hv)
    | wild n =>
      simp only [toks] at hf
      cases hf with
      | digits h0 h1 h2 =>
        refine .wild h0 h1 ?_ (ih _ _ _ h2 fun g hg => hv g (by simp [hg]))
        have := hv _ List.mem_cons_self
        rwa [stripIndex_group] at this

theorem tokNames_toks (seen : Str → Nat) (ps : List Part) :
    (tokNames (toks seen ps)).map stripIndex = names ps := by
  induction ps generalizing seen with
  | nil => rfl
  | cons p ps ih =>
    cases p with
    | lit c =>
      simp only [toks]
      split <;> simpa [tokNames, names] using ih seen
    | wild n =>
      simp only [toks, tokNames, names, List.map_cons, stripIndex_group, ih]

theorem mem_matchFiles {ts : List Tok} {files : List Str} {r : List (Str × List (Str × Nat))}
    (h : matchFiles ts files = .ok r) :
    r.map Prod.fst = files.filter (fun f => (reMatch ts f).isSome) ∧
    ∀ e ∈ r, ∃ gs, reMatch ts e.1 = some gs ∧ collect [] gs = .ok e.2 := by
  induction files generalizing r with
  | nil =>
    simp only [matchFiles, Except.ok.injEq] at h
    subst h
    simp
  | cons f fs ih =>
    rw [matchFiles] at h
    cases hm : reMatch ts f with
    | none =>
      rw [hm] at h
      obtain ⟨h1, h2⟩ := ih h
      exact ⟨by rw [h1, List.filter_cons_of_neg (by simp [hm])], h2⟩
    | some gs =>
      rw [hm] at h
      simp only [] at h
      cases hc : collect [] gs with
      | error e => rw [hc] at h; cases h
      | ok d =>
        rw [hc] at h
        simp only [] at h
        cases hr : matchFiles ts fs with
        | error e => rw [hr] at h; cases h
        | ok r' =>
          rw [hr] at h
          simp only [Except.ok.injEq] at h
          subst h
          obtain ⟨h1, h2⟩ := ih hr
          refine ⟨by rw [List.filter_cons_of_pos (by simp [hm]), List.map_cons, h1], ?_⟩
          intro e he
          rcases List.mem_cons.1 he with rfl | he
          · exact ⟨gs, hm, hc⟩
          · exact h2 e he

theorem getDict_ok {w : WPath} {files : List Str} {r : List (Str × List (Str × Nat))}
    (h : getDict w files = .ok r) : ∃ ts, compile w.body = .ok ts ∧ matchFiles ts files = .ok r := by
  unfold getDict at h
  cases hc : compile w.body with
  | error e => rw [hc] at h; cases h
  | ok ts => rw [hc] at h; exact ⟨ts, rfl, h⟩

/-! ### Completeness of matching -/

theorem matchToks_complete {val : Str → Option Nat} {ps : List Part} {s : Str} (h : Reads val ps s)
    (seen : Str → Nat) (slashes : Nat) :
    matchToks (toks seen ps) (s ++ List.replicate slashes '/') ≠ [] := by
  induction h generalizing seen with
  | nil =>
    have : (List.replicate slashes '/').dropWhile (fun c => decide (c = '/')) = [] := by
      have h := dropWhile_all (p := fun c => decide (c = '/')) (l := List.replicate slashes '/')
        (m := []) (fun c hc => by simp [List.eq_of_mem_replicate hc]) (by simp)
      rwa [List.append_nil] at h
    simp [toks, matchToks, this]
  | lit hc h ih =>
    simp only [toks, if_neg hc, List.cons_append, matchToks, if_true]
    exact ih seen
  | dot hc h ih =>
    simp only [toks, if_true, List.cons_append, matchToks, if_neg hc]
    exact ih seen
  | @wild n ds ps s h0 h1 h2 h ih =>
    simp only [toks, matchToks]
    intro hnil
    rw [List.flatMap_eq_nil_iff] at hnil
    have hlen : ds.length ≤ ((ds ++ s ++ List.replicate slashes '/').takeWhile isDigit).length := by
      rw [List.append_assoc]
      have : ∀ (ds m : Str), (∀ c ∈ ds, isDigit c = true) →
          ds.length ≤ ((ds ++ m).takeWhile isDigit).length := by
        intro ds m hds
        induction ds with
        | nil => simp
        | cons c ds ih =>
          rw [List.cons_append, List.takeWhile_cons_of_pos (hds c (by simp))]
          simp only [List.length_cons]
          have := ih fun c hc => hds c (by simp [hc])
          omega
      exact this _ _ h1
    have := hnil ds.length (mem_countdown.2 ⟨List.length_pos_iff.2 h0, hlen⟩)
    rw [List.map_eq_nil_iff, List.append_assoc, List.drop_left] at this
    exact ih _ this

/-! ### Filters -/

theorem dictGet_some_iff {α : Type} {d : List (Str × α)} (hnd : (d.map Prod.fst).Nodup) (k : Str) (v : α) :
    dictGet d k = some v ↔ (k, v) ∈ d := by
  induction d with
  | nil => simp [dictGet]
  | cons e d ih =>
    obtain ⟨k', v'⟩ := e
    rw [List.map_cons, List.nodup_cons] at hnd
    have ih := ih hnd.2
    unfold dictGet at ih ⊢
    rw [List.find?_cons]
    by_cases hk : k' = k
    · subst hk
      simp only [decide_true, Option.map_some, Option.some.injEq, List.mem_cons, Prod.mk.injEq,
        true_and]
      constructor
      · intro h; exact Or.inl h.symm
      · rintro (h | h)
        · exact h.symm
        · exact absurd (List.mem_map.2 ⟨_, h, rfl⟩) hnd.1
    · simp only [hk, decide_false, List.mem_cons, Prod.mk.injEq]
      rw [ih]
      constructor
      · intro h; exact Or.inr h
      · rintro (⟨h, _⟩ | h)
        · exact absurd h.symm hk
        · exact h

theorem sum_filter_swap (wd kw : List (Str × Nat)) :
    numMatching wd kw = (kw.map fun k => wd.count k).sum := by
  unfold numMatching
  induction wd with
  | nil => simp
  | cons e wd ih =>
    rw [List.map_cons, List.sum_cons, ih]
    have : (kw.filter fun k => decide (k.1 = e.1 ∧ k.2 = e.2)).length
        = (kw.map fun k => if k = e then 1 else 0).sum := by
      clear ih
      induction kw with
      | nil => rfl
      | cons k kw ihk =>
        rw [List.filter_cons, List.map_cons, List.sum_cons]
        by_cases h : k = e
        · subst h
          simp only [and_self, decide_true, if_true, List.length_cons]
          rw [← ihk]; omega
        · have h' : ¬ (k.1 = e.1 ∧ k.2 = e.2) := fun h' => h (Prod.ext h'.1 h'.2)
          simp only [h', decide_false, h, if_false]
          rw [← ihk]; simp
    rw [this, ← List.sum_map_add]
    congr 1
    apply List.map_congr_left
    intro k _
    rw [List.count_cons]
    by_cases h : k = e
    · subst h; simp; omega
    · have : (e == k) = false := by simpa using fun h' => h h'.symm
      simp [h, this]

theorem sum_le_length (l : List Nat) (h : ∀ x ∈ l, x ≤ 1) : l.sum ≤ l.length := by
  induction l with
  | nil => simp
  | cons a l ih =>
    have h1 := h a (by simp)
    have h2 := ih fun x hx => h x (by simp [hx])
    simp only [List.sum_cons, List.length_cons]
    omega

theorem sum_eq_length_iff (l : List Nat) (h : ∀ x ∈ l, x ≤ 1) : l.sum = l.length ↔ ∀ x ∈ l, x = 1 := by
  induction l with
  | nil => simp
  | cons a l ih =>
    have ha := h a (by simp)
    have ih := ih fun x hx => h x (by simp [hx])
    have hle := sum_le_length l fun x hx => h x (by simp [hx])
    rw [List.sum_cons, List.length_cons]
    constructor
    · intro hs
      have h1 : a = 1 := by omega
      have h2 := ih.1 (by omega)
      intro x hx
      rcases List.mem_cons.1 hx with rfl | hx
      · exact h1
      · exact h2 x hx
    · intro hx
      have h1 := hx a (by simp)
      have h2 := ih.2 fun x hx' => hx x (by simp [hx'])
      omega

theorem numMatching_iff {wd kw : List (Str × Nat)} (hnd : (wd.map Prod.fst).Nodup) :
    numMatching wd kw = kw.length ↔ ∀ k ∈ kw, dictGet wd k.1 = some k.2 := by
  have hnd' : wd.Nodup := hnd.of_map
  have h1 := sum_eq_length_iff (kw.map fun k => wd.count k) (by
    intro x hx
    obtain ⟨k, _, rfl⟩ := List.mem_map.1 hx
    exact List.nodup_iff_count_le_one.1 hnd' k)
  rw [List.length_map] at h1
  rw [sum_filter_swap, h1]
  constructor
  · intro h k hk
    rw [dictGet_some_iff hnd]
    have := h _ (List.mem_map.2 ⟨k, hk, rfl⟩)
    simp only [Prod.mk.eta]
    exact List.count_pos_iff.1 (by omega)
  · intro h x hx
    obtain ⟨k, hk, rfl⟩ := List.mem_map.1 hx
    have := (dictGet_some_iff hnd _ _).1 (h k hk)
    exact List.count_eq_one_of_mem hnd' this

/-! ### Cases -/

theorem caseSet_get (m : List (List (Option Nat) × Str)) (k : List (Option Nat)) (p : Str)
    (hnd : (m.map Prod.fst).Nodup) :
    ((caseSet m k p).map Prod.fst).Nodup ∧
      ∀ k' p', (k', p') ∈ caseSet m k p ↔ if k' = k then p' = p else (k', p') ∈ m := by
  unfold caseSet
  by_cases h : m.any (fun e => e.1 = k) = true
  · rw [if_pos h]
    have hmap : (m.map fun e => if e.1 = k then (k, p) else e).map Prod.fst = m.map Prod.fst := by
      rw [List.map_map]
      apply List.map_congr_left
      intro e _
      simp only [Function.comp_apply]
      split
      · rename_i e'; exact e'.symm
      · rfl
    refine ⟨by rw [hmap]; exact hnd, ?_⟩
    intro k' p'
    rw [List.mem_map]
    constructor
    · rintro ⟨e, he, h1⟩
      by_cases hk : e.1 = k
      · rw [if_pos hk] at h1
        cases h1
        rw [if_pos rfl]
      · rw [if_neg hk] at h1
        subst h1
        rw [if_neg hk]
        exact he
    · intro h1
      by_cases hk : k' = k
      · subst hk
        rw [if_pos rfl] at h1
        subst h1
        obtain ⟨e, he, hek⟩ := List.any_eq_true.1 h
        exact ⟨e, he, by rw [if_pos (by simpa using hek)]⟩
      · rw [if_neg hk] at h1
        exact ⟨_, h1, by rw [if_neg hk]⟩
  · rw [if_neg h]
    have hno : ∀ e ∈ m, e.1 ≠ k := by
      intro e he hek
      exact h (List.any_eq_true.2 ⟨e, he, by simpa using hek⟩)
    constructor
    · rw [List.map_append, List.map_singleton]
      apply List.Nodup.append hnd (by simp)
      intro x hx hx'
      rw [List.mem_singleton] at hx'
      obtain ⟨e, he, rfl⟩ := List.mem_map.1 hx
      exact hno e he hx'
    · intro k' p'
      rw [List.mem_append, List.mem_singleton]
      by_cases hk : k' = k
      · subst hk
        rw [if_pos rfl]
        constructor
        · rintro (h | h)
          · exact absurd rfl (hno _ h)
          · cases h; rfl
        · intro h; right; rw [h]
      · rw [if_neg hk]
        constructor
        · rintro (h | h)
          · exact h
          · cases h; exact absurd rfl hk
        · intro h; exact Or.inl h

theorem caseFold_spec (w : WPath) (d : List (Str × List (Str × Nat))) :
    ((d.foldl (fun m e => caseSet m (caseOf w e.2) e.1) []).map Prod.fst).Nodup ∧
    ∀ k p, (k, p) ∈ d.foldl (fun m e => caseSet m (caseOf w e.2) e.1) [] ↔
      lastWith (caseOf w) d k = some p := by
  induction d using List.reverseRecOn with
  | nil => simp [lastWith]
  | append_singleton d e ih =>
    rw [List.foldl_append, List.foldl_cons, List.foldl_nil]
    obtain ⟨h1, h2⟩ := caseSet_get _ (caseOf w e.2) e.1 ih.1
    refine ⟨h1, ?_⟩
    intro k p
    rw [h2]
    unfold lastWith
    rw [List.filter_append]
    by_cases hk : k = caseOf w e.2
    · subst hk
      rw [if_pos rfl, List.filter_cons_of_pos (by simp), List.filter_nil, List.getLast?_append]
      simp [eq_comm]
    · rw [if_neg hk, List.filter_cons_of_neg (by simpa using Ne.symm hk), List.filter_nil,
        List.append_nil, ih.2]
      rfl

end B3d.Wildcard
