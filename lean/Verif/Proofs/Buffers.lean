import Verif.Spec.Buffers
import Verif.Proofs.Wildcard

/-! # Helper lemmas: dumped buffers -/

namespace B3d.Buffers

open Wildcard Sim

variable {K : Type}

/-! ### Files -/

theorem fsGet_fsSet (fs : FS K) (p q : Str) (a : Arr K) :
    fsGet (fsSet fs p a) q = if q = p then some a else fsGet fs q := by
  unfold fsSet
  by_cases h : fs.any (fun e => e.1 = p) = true
  · rw [if_pos h]
    unfold fsGet
    induction fs with
    | nil => simp at h
    | cons e fs ih =>
      rw [List.map_cons]
      by_cases he : e.1 = p
      · rw [if_pos he]
        by_cases hq : q = p
        · subst hq; simp
        · rw [if_neg hq, List.find?_cons_of_neg (by simpa using Ne.symm hq)]
          have heq : e.1 ≠ q := fun h => hq (h.symm.trans he)
          rw [List.find?_cons_of_neg (by simpa using heq)]
          by_cases h' : fs.any (fun e => e.1 = p) = true
          · have := ih h'
            rw [if_neg hq] at this
            exact this
          · have hmap : (fs.map fun e => if e.1 = p then (p, a) else e) = fs := by
              conv_rhs => rw [← List.map_id fs]
              apply List.map_congr_left
              intro x hx
              have : x.1 ≠ p := fun hp => h' (List.any_eq_true.2 ⟨x, hx, by simpa using hp⟩)
              simp [this]
            rw [hmap]
      · rw [if_neg he]
        have h' : fs.any (fun e => e.1 = p) = true := by
          rw [List.any_cons, Bool.or_eq_true] at h
          rcases h with h | h
          · exact absurd (by simpa using h) he
          · exact h
        by_cases hq : e.1 = q
        · have : q ≠ p := fun h => he (hq.trans h)
          rw [if_neg this, List.find?_cons_of_pos (by simpa using hq),
            List.find?_cons_of_pos (by simpa using hq)]
        · rw [List.find?_cons_of_neg (by simpa using hq), List.find?_cons_of_neg (by simpa using hq)]
          exact ih h'
  · rw [if_neg h]
    unfold fsGet
    rw [List.find?_append]
    by_cases hq : q = p
    · subst hq
      have : fs.find? (fun e => decide (e.1 = q)) = none := by
        rw [List.find?_eq_none]
        intro x hx hxq
        exact h (List.any_eq_true.2 ⟨x, hx, hxq⟩)
      rw [this, if_pos rfl]
      simp
    · rw [if_neg hq]
      have : List.find? (fun e : Str × Arr K => decide (e.1 = q)) [(p, a)] = none := by
        simp [Ne.symm hq]
      rw [this, Option.or_none]

theorem mem_fsSet (fs : FS K) (p q : Str) (a : Arr K) :
    q ∈ (fsSet fs p a).map Prod.fst ↔ q ∈ fs.map Prod.fst ∨ q = p := by
  unfold fsSet
  by_cases h : fs.any (fun e => e.1 = p) = true
  · rw [if_pos h]
    have hmap : (fs.map fun e => if e.1 = p then (p, a) else e).map Prod.fst = fs.map Prod.fst := by
      rw [List.map_map]
      apply List.map_congr_left
      intro e _
      simp only [Function.comp_apply]
      split
      · rename_i e'; exact e'.symm
      · rfl
    rw [hmap]
    constructor
    · exact Or.inl
    · rintro (h' | rfl)
      · exact h'
      · obtain ⟨x, hx, hxp⟩ := List.any_eq_true.1 h
        exact List.mem_map.2 ⟨x, hx, by simpa using hxp⟩
  · rw [if_neg h, List.map_append, List.mem_append, List.map_singleton, List.mem_singleton]

theorem fsGet_none_iff (fs : FS K) (p : Str) : fsGet fs p = none ↔ p ∉ fs.map Prod.fst := by
  unfold fsGet
  rw [Option.map_eq_none_iff, List.find?_eq_none]
  constructor
  · intro h hp
    obtain ⟨e, he, rfl⟩ := List.mem_map.1 hp
    exact h e he (by simp)
  · intro h e he hp
    exact h (List.mem_map.2 ⟨e, he, by simpa using hp⟩)

/-! ### File names -/

theorem only_wildcards {parts : List Part} (h : StepPattern parts) {w : WPath}
    (hnd : w.wildcards.Nodup) (hm : ∀ n, n ∈ w.wildcards ↔ n ∈ names parts) :
    w.wildcards = ["step".toList] := by
  have hm' : ∀ n, n ∈ w.wildcards ↔ n = "step".toList := fun n =>
    (hm n).trans (mem_names.trans (h.only n))
  cases hw : w.wildcards with
  | nil =>
    have := (hm' "step".toList).2 rfl
    rw [hw] at this
    simp at this
  | cons x l =>
    have hx : x = "step".toList := (hm' x).1 (by rw [hw]; simp)
    cases l with
    | nil => rw [hx]
    | cons y l =>
      have hy : y = "step".toList := (hm' y).1 (by rw [hw]; simp)
      rw [hw, hx, hy] at hnd
      simp at hnd

/-- What the code gets for a usable file name. -/
theorem pattern_facts {parts : List Part} (h : StepPattern parts) :
    ∃ w, mkPath (render parts) = .ok w ∧ compile w.body = .ok (toks (fun _ => 0) parts) ∧
      ∀ dir, GoodDir dir → ∀ n, fill w dir [("step".toList, natStr n)] = .ok (fileName parts dir n) := by
  obtain ⟨w, h1, h2, h3, h4, h5⟩ := mkPath_good h.good
  have hw := only_wildcards h h3 h4
  refine ⟨w, h1, h5, fun dir hd n => ?_⟩
  unfold fill
  rw [hw, if_neg (by simp)]
  have := fillLoop_good h.good w.wildcards (fun n hn => (h4 n).1 hn) (fun _ => n) ["step".toList] []
    (fun k hk => by rw [hw]; exact hk)
  rw [fillP_nil, hw, List.map_singleton] at this
  rw [h2, this, List.append_nil, render_fillP_all _ _ parts fun m hm => by
    rw [List.reverse_singleton, List.mem_singleton]
    exact (h.only m).1 (mem_names.1 hm)]
  simp only []
  rw [if_pos (List.length_pos_iff.2 hd.ne)]
  unfold osJoin fileName
  obtain ⟨c, rest, hp, _, _⟩ := h.good.first
  have hc : c ≠ '/' := by
    have := h.rel
    rw [hp] at this
    simpa using this
  rw [if_neg (by rw [hp]; simpa [filled] using hc), if_neg]
  rintro (h | h)
  · exact hd.ne h
  · exact hd.last h

theorem stepPath_eq {parts : List Part} (h : StepPattern parts) {dir : Str} (hd : GoodDir dir) (n : Nat) :
    stepPath (render parts) dir n = .ok (fileName parts dir n) := by
  obtain ⟨w, h1, _, h3⟩ := pattern_facts h
  unfold stepPath
  rw [h1]
  exact h3 dir hd n

theorem filled_append (val : Str → Nat) (a b : List Part) :
    filled val (a ++ b) = filled val a ++ filled val b := by
  induction a with
  | nil => rfl
  | cons p a ih => cases p <;> simp [filled, ih]

theorem filled_lits (val : Str → Nat) (s : Str) : filled val (s.map Part.lit) = s := by
  induction s with
  | nil => rfl
  | cons c s ih => simp [filled, ih]

theorem npyName_eq {parts : List Part} (h : StepPattern parts) (dir : Str) (n : Nat) :
    npyName (fileName parts dir n) = fileName parts dir n := by
  unfold npyName
  rw [if_pos]
  obtain ⟨front, hf⟩ := h.npy
  rw [List.isSuffixOf_iff_suffix]
  unfold fileName
  rw [hf, filled_append, filled_lits]
  exact ⟨dir ++ '/' :: filled (fun _ => n) front, by simp⟩

theorem reMatch_fileName {parts : List Part} (h : StepPattern parts) {dir : Str} (hd : '\n' ∉ dir)
    (n : Nat) : reMatch (toks (fun _ => 0) parts) (fileName parts dir n)
      = some (groupVals (fun _ => n) (fun _ => 0) parts) := by
  have := reMatch_filled h.good (fun _ => n) (dir ++ ['/']) (by simp [hd])
  unfold fileName
  simpa using this

theorem groupVals_inj {parts : List Part} (h : StepPattern parts) {n m : Nat}
    (he : groupVals (fun _ => n) (fun _ => 0) parts = groupVals (fun _ => m) (fun _ => 0) parts) :
    n = m := by
  have : ∀ (ps : List Part) (seen : Str → Nat), Part.wild "step".toList ∈ ps →
      groupVals (fun _ => n) seen ps = groupVals (fun _ => m) seen ps → n = m := by
    intro ps
    induction ps with
    | nil => intro _ h; simp at h
    | cons p ps ih =>
      intro seen hm he
      cases p with
      | lit c => exact ih seen (by simpa using hm) (by simpa [groupVals] using he)
      | wild x =>
        simp only [groupVals, List.cons.injEq, Prod.mk.injEq] at he
        exact natStr_injective he.1.2
  exact this parts _ ((h.only _).2 rfl) he

theorem fileName_inj {parts : List Part} (h : StepPattern parts) {dir : Str} (hd : '\n' ∉ dir)
    {n m : Nat} (he : fileName parts dir n = fileName parts dir m) : n = m := by
  have h1 := reMatch_fileName h hd n
  rw [he, reMatch_fileName h hd m] at h1
  exact (groupVals_inj h (Option.some.inj h1)).symm

theorem getDict_single {w : WPath} {ts : List Tok} (hc : compile w.body = .ok ts) (p : Str) :
    getDict w [p] = .ok [] ↔ reMatch ts p = none := by
  unfold getDict
  rw [hc]
  simp only [matchFiles]
  cases hm : reMatch ts p with
  | none => simp
  | some gs =>
    simp only []
    cases collect [] gs with
    | error e => simp
    | ok d => simp

theorem apart_reMatch {a b : List Part} (hb : StepPattern b) (h : Apart a b) {dir : Str}
    (hd : '\n' ∉ dir) (n : Nat) : reMatch (toks (fun _ => 0) b) (fileName a dir n) = none := by
  obtain ⟨w, h1, h2, _⟩ := pattern_facts hb
  exact (getDict_single h2 _).1 (h w h1 dir n hd)

theorem apart_ne {a b : List Part} (hb : StepPattern b) (h : Apart a b) {dir : Str}
    (hd : '\n' ∉ dir) (n m : Nat) : fileName a dir n ≠ fileName b dir m := by
  intro he
  have h1 := apart_reMatch hb h hd n
  rw [he, reMatch_fileName hb hd m] at h1
  cases h1

/-! ### Writing -/

theorem saveRow_eq {ps : Paths} {a b c : List Part} (hg : GoodPaths ps a b c) {dir : Str}
    (hd : GoodDir dir) (fs : FS K) (n : Nat) (row : Row K) :
    saveRow ps dir fs n row = .ok (fsSet (fsSet (fsSet fs (fileName a dir n) (.pts row.pos))
      (fileName b dir n) (.nums row.energy)) (fileName c dir n) (.nums row.hits)) := by
  unfold saveRow saveStep
  rw [hg.pos, hg.enr, hg.hit, stepPath_eq hg.pa hd, stepPath_eq hg.pb hd, stepPath_eq hg.pc hd]
  simp only [npyName_eq hg.pa, npyName_eq hg.pb, npyName_eq hg.pc]

theorem fileOf_cons {α : Type} (w : Nat × α) (ws : List (Nat × α)) (n : Nat) :
    fileOf (w :: ws) n = (fileOf ws n).or (if w.1 = n then some w.2 else none) := by
  have key : ∀ (ws : List (Nat × α)) (f : Option α),
      ws.foldl (fun f w => if w.1 = n then some w.2 else f) f
        = (ws.foldl (fun f w => if w.1 = n then some w.2 else f) none).or f := by
    intro ws
    induction ws with
    | nil => intro f; rfl
    | cons v ws ih =>
      intro f
      simp only [List.foldl_cons]
      rw [ih, ih (if v.1 = n then some v.2 else none)]
      by_cases h : v.1 = n
      · simp only [h, if_true, Option.or_assoc]
        congr 1
      · simp [h]
  unfold fileOf
  rw [List.foldl_cons, key]

theorem saveAll_spec {ps : Paths} {a b c : List Part} (hg : GoodPaths ps a b c) {dir : Str}
    (hd : GoodDir dir) (ws : List (Nat × Row K)) (fs : FS K) :
    ∃ fs', saveAll ps dir fs ws = .ok fs' ∧
      (∀ n, fsGet fs' (fileName a dir n)
        = ((fileOf ws n).map fun r => Arr.pts r.pos).or (fsGet fs (fileName a dir n))) ∧
      (∀ n, fsGet fs' (fileName b dir n)
        = ((fileOf ws n).map fun r => Arr.nums r.energy).or (fsGet fs (fileName b dir n))) ∧
      (∀ n, fsGet fs' (fileName c dir n)
        = ((fileOf ws n).map fun r => Arr.nums r.hits).or (fsGet fs (fileName c dir n))) ∧
      ∀ p, p ∈ fs'.map Prod.fst ↔ p ∈ fs.map Prod.fst ∨ ∃ w ∈ ws, p = fileName a dir w.1 ∨
        p = fileName b dir w.1 ∨ p = fileName c dir w.1 := by
  induction ws generalizing fs with
  | nil => exact ⟨fs, rfl, by simp [fileOf], by simp [fileOf], by simp [fileOf], by simp⟩
  | cons w ws ih =>
    obtain ⟨k, row⟩ := w
    have hl := hd.line
    obtain ⟨fs', h1, h2, h3, h4, h5⟩ := ih (fsSet (fsSet (fsSet fs (fileName a dir k) (.pts row.pos))
      (fileName b dir k) (.nums row.energy)) (fileName c dir k) (.nums row.hits))
    refine ⟨fs', by rw [saveAll, saveRow_eq hg hd]; exact h1, ?_, ?_, ?_, ?_⟩
    · intro n
      rw [h2, fsGet_fsSet, if_neg (apart_ne hg.pc hg.ac hl n k), fsGet_fsSet,
        if_neg (apart_ne hg.pb hg.ab hl n k), fsGet_fsSet, fileOf_cons]
      by_cases hk : k = n
      · subst hk
        rw [if_pos rfl, if_pos rfl]
        cases fileOf ws k <;> rfl
      · rw [if_neg fun h => hk (fileName_inj hg.pa hl h).symm, if_neg hk]
        cases fileOf ws n <;> rfl
    · intro n
      rw [h3, fsGet_fsSet, if_neg (apart_ne hg.pc hg.bc hl n k), fsGet_fsSet, fileOf_cons]
      by_cases hk : k = n
      · subst hk
        rw [if_pos rfl, if_pos rfl]
        cases fileOf ws k <;> rfl
      · rw [if_neg fun h => hk (fileName_inj hg.pb hl h).symm, fsGet_fsSet,
          if_neg (apart_ne hg.pa hg.ba hl n k), if_neg hk]
        cases fileOf ws n <;> rfl
    · intro n
      rw [h4, fsGet_fsSet, fileOf_cons]
      by_cases hk : k = n
      · subst hk
        rw [if_pos rfl, if_pos rfl]
        cases fileOf ws k <;> rfl
      · rw [if_neg fun h => hk (fileName_inj hg.pc hl h).symm, fsGet_fsSet,
          if_neg (apart_ne hg.pb hg.cb hl n k), fsGet_fsSet, if_neg (apart_ne hg.pa hg.ca hl n k),
          if_neg hk]
        cases fileOf ws n <;> rfl
    · intro p
      rw [h5, mem_fsSet, mem_fsSet, mem_fsSet]
      simp only [List.mem_cons, exists_eq_or_imp, or_assoc]

theorem fileOf_isSome {α : Type} (ws : List (Nat × α)) (n : Nat) :
    (fileOf ws n).isSome ↔ ∃ r, (n, r) ∈ ws := by
  induction ws with
  | nil => simp [fileOf]
  | cons w ws ih =>
    rw [fileOf_cons, Option.isSome_or, Bool.or_eq_true, ih]
    obtain ⟨k, r⟩ := w
    constructor
    · rintro (⟨x, hx⟩ | h)
      · exact ⟨x, by simp [hx]⟩
      · by_cases hk : k = n
        · subst hk; exact ⟨r, by simp⟩
        · simp [hk] at h
    · rintro ⟨x, hx⟩
      rcases List.mem_cons.1 hx with h | h
      · cases h; right; simp
      · exact Or.inl ⟨x, h⟩

theorem mem_of_fileOf {α : Type} {ws : List (Nat × α)} {n : Nat} {r : α} (h : fileOf ws n = some r) :
    (n, r) ∈ ws := by
  induction ws with
  | nil => simp [fileOf] at h
  | cons w ws ih =>
    rw [fileOf_cons] at h
    cases hf : fileOf ws n with
    | some x =>
      rw [hf] at h
      simp only [Option.some_or, Option.some.injEq] at h
      subst h
      simp [ih hf]
    | none =>
      rw [hf] at h
      simp only [Option.none_or] at h
      split at h
      · rename_i hk
        cases h
        subst hk
        simp
      · cases h

/-! ### Reading -/

/-- Every file listed is of the kind or not matched: the dict of values can be made. -/
theorem matchFiles_kind {parts : List Part} (h : StepPattern parts) {dir : Str} (hd : '\n' ∉ dir)
    (files : List Str)
    (hf : ∀ p ∈ files, reMatch (toks (fun _ => 0) parts) p = none ∨ ∃ n, p = fileName parts dir n) :
    ∃ r l, matchFiles (toks (fun _ => 0) parts) files = .ok r ∧ stepValues r = .ok l ∧
      l.length = r.length ∧ ∀ n, n ∈ l ↔ fileName parts dir n ∈ files := by
  induction files with
  | nil => exact ⟨[], [], rfl, rfl, rfl, by simp⟩
  | cons p files ih =>
    obtain ⟨r, l, h1, h2, h3, h4⟩ := ih fun q hq => hf q (by simp [hq])
    rcases hf p (by simp) with hp | ⟨n, rfl⟩
    · refine ⟨r, l, by rw [matchFiles, hp]; exact h1, h2, h3, fun n => ?_⟩
      rw [h4 n, List.mem_cons]
      constructor
      · exact Or.inr
      · rintro (e | e)
        · rw [← e, reMatch_fileName h hd] at hp
          cases hp
        · exact e
    · obtain ⟨d, hd1, hd2⟩ := collect_groupVals (fun _ => n) (fun _ => 0) parts [] (by simp [dictGet])
      have hstep : dictGet d "step".toList = some n := by
        rw [hd2, if_pos]
        exact mem_names.2 ((h.only _).2 rfl)
      refine ⟨(fileName parts dir n, d) :: r, n :: l, ?_, ?_, by simp [h3], fun m => ?_⟩
      · rw [matchFiles, reMatch_fileName h hd]
        simp only [hd1, h1]
      · simp only [stepValues, hstep, h2]
      · rw [List.mem_cons, List.mem_cons, h4 m]
        constructor
        · rintro (rfl | e)
          · exact Or.inl rfl
          · exact Or.inr e
        · rintro (e | e)
          · exact Or.inl (fileName_inj h hd e)
          · exact Or.inr e

theorem maxSucc_le (l : List Nat) (M : Nat) (h : ∀ n ∈ l, n < M) : maxSucc l ≤ M := by
  induction l with
  | nil => simp [maxSucc]
  | cons a l ih =>
    have h1 := h a (by simp)
    have h2 := ih fun n hn => h n (by simp [hn])
    unfold maxSucc at *
    rw [List.foldr_cons]
    omega

theorem lt_maxSucc {l : List Nat} {n : Nat} (h : n ∈ l) : n < maxSucc l := by
  induction l with
  | nil => simp at h
  | cons a l ih =>
    unfold maxSucc at *
    rw [List.foldr_cons]
    rcases List.mem_cons.1 h with rfl | h
    · omega
    · have := ih h
      omega

theorem maxSucc_eq (l : List Nat) (M : Nat) (hM : 0 < M) (h : ∀ n, n ∈ l ↔ n < M) : maxSucc l = M := by
  have h1 := maxSucc_le l M fun n hn => (h n).1 hn
  have h2 := lt_maxSucc ((h (M - 1)).2 (by omega))
  omega

theorem putRow_self {α : Type} (zero : α) (row : List α) :
    putRow zero row.length row.length row = .ok row := by
  unfold putRow
  simp

theorem readLoop_ok [Zero K] {ps : Paths} {a b c : List Part} (hg : GoodPaths ps a b c) {dir : Str}
    (hd : GoodDir dir) (fs : FS K) (f : Nat → Row K) (R A : Nat) (ns : List Nat)
    (hp : ∀ n ∈ ns, fsGet fs (fileName a dir n) = some (.pts (f n).pos))
    (he : ∀ n ∈ ns, fsGet fs (fileName b dir n) = some (.nums (f n).energy))
    (hh : ∀ n ∈ ns, fsGet fs (fileName c dir n) = some (.nums (f n).hits))
    (hs : ∀ n ∈ ns, SameShape R A (f n)) (shape : Option (Nat × Nat))
    (hsh : shape = none ∨ shape = some (R, A)) :
    readLoop fs ps dir shape ns = .ok (ns.map f) := by
  induction ns generalizing shape with
  | nil => rfl
  | cons n ns ih =>
    obtain ⟨s1, s2, s3⟩ := hs n (by simp)
    have hstep : readStep fs ps dir shape n = .ok ((R, A), f n) := by
      unfold readStep loadStep
      rw [hg.pos, hg.enr, hg.hit, stepPath_eq hg.pa hd, stepPath_eq hg.pb hd, stepPath_eq hg.pc hd]
      simp only [hp n (by simp), he n (by simp), hh n (by simp)]
      have p1 := putRow_self (⟨0, 0, 0⟩ : Vec3 K) (f n).pos
      have p2 := putRow_self (0 : K) (f n).energy
      have p3 := putRow_self (0 : K) (f n).hits
      rw [s1] at p1
      rw [s2] at p2
      rw [s3] at p3
      rcases hsh with rfl | rfl
      · simp only [s1, s3, p1, p2, p3]
      · simp only [s1, s3, p1, p2, p3]
    rw [readLoop, hstep]
    simp only []
    rw [ih (fun m hm => hp m (by simp [hm])) (fun m hm => he m (by simp [hm]))
      (fun m hm => hh m (by simp [hm])) (fun m hm => hs m (by simp [hm])) _ (Or.inr rfl)]
    rfl

theorem loadStep_ok {parts : List Part} (h : StepPattern parts) {dir : Str} (hd : GoodDir dir) (fs : FS K)
    (n : Nat) (x : Arr K) (hl : loadStep fs (render parts) dir n = .ok x) :
    fsGet fs (fileName parts dir n) = some x ∧ x ≠ .torn := by
  unfold loadStep at hl
  rw [stepPath_eq h hd] at hl
  simp only [] at hl
  cases hf : fsGet fs (fileName parts dir n) with
  | none => rw [hf] at hl; cases hl
  | some y => cases y <;> rw [hf] at hl <;> simp only [Except.ok.injEq, reduceCtorEq] at hl <;> subst hl <;> simp

/-- What a step read without an exception tells about the files. -/
theorem readStep_sound [Zero K] {ps : Paths} {a b c : List Part} (hg : GoodPaths ps a b c) {dir : Str}
    (hd : GoodDir dir) (fs : FS K) (n : Nat) (shape : Option (Nat × Nat)) (sh : Nat × Nat) (row : Row K)
    (h : readStep fs ps dir shape n = .ok (sh, row)) :
    ∃ pos enr hit, fsGet fs (fileName a dir n) = some (.pts pos) ∧
      fsGet fs (fileName b dir n) = some (.nums enr) ∧ fsGet fs (fileName c dir n) = some (.nums hit) ∧
      sh = shape.getD (pos.length, hit.length) ∧
      putRow (⟨0, 0, 0⟩ : Vec3 K) sh.1 pos.length pos = .ok row.pos ∧
      putRow 0 sh.1 pos.length enr = .ok row.energy ∧ putRow 0 sh.2 hit.length hit = .ok row.hits := by
  unfold readStep at h
  rw [hg.pos, hg.enr, hg.hit] at h
  cases hA : loadStep fs (render a) dir n with
  | error e => rw [hA] at h; cases h
  | ok xa =>
  cases hB : loadStep fs (render b) dir n with
  | error e => rw [hA, hB] at h; cases h
  | ok xb =>
  cases hC : loadStep fs (render c) dir n with
  | error e => rw [hA, hB, hC] at h; cases h
  | ok xc =>
  rw [hA, hB, hC] at h
  have e1 := (loadStep_ok hg.pa hd fs n xa hA).1
  have e2 := (loadStep_ok hg.pb hd fs n xb hB).1
  have e3 := (loadStep_ok hg.pc hd fs n xc hC).1
  cases xa with
  | nums l => simp at h
  | torn => simp at h
  | pts pos =>
  cases xb with
  | pts l => simp at h
  | torn => simp at h
  | nums enr =>
  cases xc with
  | pts l => simp at h
  | torn => simp at h
  | nums hit =>
  refine ⟨pos, enr, hit, e1, e2, e3, ?_⟩
  simp only [] at h
  split at h
  · cases h
  · cases h
  · cases h
  · rename_i p e t h1 h2 h3
    simp only [Except.ok.injEq, Prod.mk.injEq] at h
    obtain ⟨rfl, rfl⟩ := h
    cases shape <;> exact ⟨rfl, h1, h2, h3⟩

theorem readLoop_sound [Zero K] {ps : Paths} {a b c : List Part} (hg : GoodPaths ps a b c) {dir : Str}
    (hd : GoodDir dir) (fs : FS K) (ns : List Nat) (shape : Option (Nat × Nat)) (rows : List (Row K))
    (h : readLoop fs ps dir shape ns = .ok rows) :
    rows.length = ns.length ∧ ∀ n ∈ ns, fsGet fs (fileName a dir n) ≠ none ∧
      fsGet fs (fileName b dir n) ≠ none ∧ fsGet fs (fileName c dir n) ≠ none := by
  induction ns generalizing shape rows with
  | nil =>
    simp only [readLoop, Except.ok.injEq] at h
    subst h
    simp
  | cons n ns ih =>
    rw [readLoop] at h
    cases hs : readStep fs ps dir shape n with
    | error e => rw [hs] at h; cases h
    | ok r =>
      obtain ⟨sh, row⟩ := r
      rw [hs] at h
      simp only [] at h
      cases hr : readLoop fs ps dir (some sh) ns with
      | error e => rw [hr] at h; cases h
      | ok rows' =>
        rw [hr] at h
        simp only [Except.ok.injEq] at h
        subst h
        obtain ⟨h1, h2⟩ := ih (some sh) rows' hr
        refine ⟨by simp [h1], ?_⟩
        intro m hm
        rcases List.mem_cons.1 hm with rfl | hm
        · obtain ⟨pos, enr, hit, e1, e2, e3, _⟩ := readStep_sound hg hd fs m shape sh row hs
          rw [e1, e2, e3]
          simp
        · exact h2 m hm

/-- If every file is torn or holds what `f` says, then the rows read are those of `f`. -/
theorem readLoop_content [Zero K] {ps : Paths} {a b c : List Part} (hg : GoodPaths ps a b c) {dir : Str}
    (hd : GoodDir dir) (fs : FS K) (f : Nat → Row K) (R A : Nat) (ns : List Nat)
    (hp : ∀ n ∈ ns, ∀ x, fsGet fs (fileName a dir n) = some x → x ≠ .torn → x = .pts (f n).pos)
    (he : ∀ n ∈ ns, ∀ x, fsGet fs (fileName b dir n) = some x → x ≠ .torn → x = .nums (f n).energy)
    (hh : ∀ n ∈ ns, ∀ x, fsGet fs (fileName c dir n) = some x → x ≠ .torn → x = .nums (f n).hits)
    (hs : ∀ n ∈ ns, SameShape R A (f n)) (shape : Option (Nat × Nat))
    (hsh : shape = none ∨ shape = some (R, A)) (rows : List (Row K))
    (h : readLoop fs ps dir shape ns = .ok rows) :
    rows = ns.map f ∧ ∀ n ∈ ns, fsGet fs (fileName a dir n) ≠ some .torn ∧
      fsGet fs (fileName b dir n) ≠ some .torn ∧ fsGet fs (fileName c dir n) ≠ some .torn := by
  induction ns generalizing shape rows with
  | nil =>
    simp only [readLoop, Except.ok.injEq] at h
    subst h
    simp
  | cons n ns ih =>
    rw [readLoop] at h
    cases hst : readStep fs ps dir shape n with
    | error e => rw [hst] at h; cases h
    | ok r =>
      obtain ⟨sh, row⟩ := r
      rw [hst] at h
      simp only [] at h
      cases hr : readLoop fs ps dir (some sh) ns with
      | error e => rw [hr] at h; cases h
      | ok rows' =>
        rw [hr] at h
        simp only [Except.ok.injEq] at h
        subst h
        obtain ⟨pos, enr, hit, e1, e2, e3, e4, e5, e6, e7⟩ := readStep_sound hg hd fs n shape sh row hst
        obtain ⟨s1, s2, s3⟩ := hs n (by simp)
        have q1 := hp n (by simp) _ e1 (by simp)
        have q2 := he n (by simp) _ e2 (by simp)
        have q3 := hh n (by simp) _ e3 (by simp)
        simp only [Arr.pts.injEq, Arr.nums.injEq] at q1 q2 q3
        have hshape : sh = (R, A) := by
          rw [e4]
          rcases hsh with rfl | rfl
          · simp [q1, q3, s1, s3]
          · rfl
        subst hshape
        obtain ⟨h1, h2⟩ := ih (fun m hm => hp m (by simp [hm])) (fun m hm => he m (by simp [hm]))
          (fun m hm => hh m (by simp [hm])) (fun m hm => hs m (by simp [hm])) _ (Or.inr rfl) rows' hr
        have p1 := putRow_self (⟨0, 0, 0⟩ : Vec3 K) pos
        have p2 := putRow_self (0 : K) enr
        have p3 := putRow_self (0 : K) hit
        have l1 : pos.length = R := by rw [q1, s1]
        have l2 : enr.length = R := by rw [q2, s2]
        have l3 : hit.length = A := by rw [q3, s3]
        rw [l1] at p1 e5 e6
        rw [l2] at p2
        rw [l3] at p3 e7
        have r1 := Except.ok.inj (p1.symm.trans e5)
        have r2 := Except.ok.inj (p2.symm.trans e6)
        have r3 := Except.ok.inj (p3.symm.trans e7)
        refine ⟨?_, ?_⟩
        · rw [List.map_cons, ← h1]
          congr 1
          cases row
          cases hfn : f n
          simp only [hfn] at q1 q2 q3
          simp only at r1 r2 r3
          simp only [Row.mk.injEq]
          exact ⟨by rw [← r1, q1], by rw [← r2, q2], by rw [← r3, q3]⟩
        · intro m hm
          rcases List.mem_cons.1 hm with rfl | hm
          · rw [e1, e2, e3]
            simp
          · exact h2 m hm

end B3d.Buffers
