import Verif.Props.Stl

/-! # Property C88: an STL file that was cut off

The writer puts one line after another into the file (`io/stl.py` L83-84).  When it is stopped, or the disk
is full, the file holds a beginning of the text, cut anywhere. -/

namespace B3d.Stl

open B3d.Tree

variable {F T : Type} {render : F → Str} {parse : Str → Option F}
  {mk : Tri3 F → Except PyErr T} {rid : Str}

/-! ### Lines of a text that was cut -/

/-- The second list holds the first lines of the first one, and perhaps a beginning of the next line. -/
inductive Cut : List Str → List Str → Prop
  | stop (L) : Cut L []
  | part {l p} (L) : p <+: l → Cut (l :: L) [p]
  | line {L t} (l) : Cut L t → Cut (l :: L) (l :: t)

theorem readlines_single (p : Str) (h : '\n' ∉ p ∧ '\r' ∉ p) (hne : p ≠ []) : readlines p = [p] := by
  induction p with
  | nil => exact absurd rfl hne
  | cons c p ih =>
    simp only [List.mem_cons, not_or] at h
    have hc1 : ¬ c = '\n' := fun h1 => h.1.1 h1.symm
    have hc2 : ¬ c = '\r' := fun h1 => h.2.1 h1.symm
    rw [readlines, if_neg fun h => hc2 h.1, if_neg fun h => h.elim hc1 hc2]
    cases p with
    | nil => rfl
    | cons d p => rw [ih ⟨h.1.2, h.2.2⟩ (by simp)]

theorem cut_readlines (L : List Str) (hL : ∀ l ∈ L, IsLine l) (n : Nat) :
    Cut L (readlines (L.flatten.take n)) := by
  induction L generalizing n with
  | nil => simp only [List.flatten_nil, List.take_nil, readlines]; exact Cut.stop _
  | cons l L ih =>
    obtain ⟨body, rfl, hb⟩ := hL l (by simp)
    rw [List.flatten_cons]
    by_cases hn : n ≤ body.length
    · have e : ((body ++ ['\n']) ++ L.flatten).take n = body.take n := by
        rw [List.append_assoc, List.take_append_of_le_length hn]
      rw [e]
      by_cases h0 : body.take n = []
      · rw [h0]; exact Cut.stop _
      · rw [readlines_single _ ⟨fun h => hb.1 (List.mem_of_mem_take h), fun h => hb.2 (List.mem_of_mem_take h)⟩ h0]
        exact Cut.part _ ((List.take_prefix _ _).trans (List.prefix_append _ _))
    · have e : ((body ++ ['\n']) ++ L.flatten).take n
          = body ++ '\n' :: L.flatten.take (n - (body.length + 1)) := by
        rw [List.take_append, List.take_of_length_le (by simp; omega)]
        simp
      rw [e, readlines_line _ _ hb]
      exact Cut.line _ (ih (fun l hl => hL l (by simp [hl])) _)

/-- Whole lines at the beginning of the text are read as they are. -/
theorem prefix_readlines (A B : List Str) (hA : ∀ l ∈ A, IsLine l) (n : Nat) (hn : A.flatten.length ≤ n) :
    A <+: readlines ((A ++ B).flatten.take n) := by
  induction A generalizing n with
  | nil => exact List.nil_prefix
  | cons l A ih =>
    obtain ⟨body, rfl, hb⟩ := hA l (by simp)
    rw [List.flatten_cons, List.length_append, List.length_append, List.length_singleton] at hn
    have e : (((body ++ ['\n']) :: A ++ B).flatten).take n
        = body ++ '\n' :: (A ++ B).flatten.take (n - (body.length + 1)) := by
      rw [List.cons_append, List.flatten_cons, List.take_append, List.take_of_length_le (by simp; omega)]
      simp
    rw [e, readlines_line _ _ hb]
    exact (List.prefix_cons_inj _).2 (ih (fun l hl => hA l (by simp [hl])) _ (by omega))

theorem cut_append {A B t : List Str} (h : Cut (A ++ B) t) :
    (∃ t', t = A ++ t' ∧ Cut B t') ∨ (Cut A t ∧ ¬ A <+: t) := by
  induction A generalizing t with
  | nil => exact Or.inl ⟨t, rfl, h⟩
  | cons l A ih =>
    cases h with
    | stop => exact Or.inr ⟨Cut.stop _, by simp⟩
    | part _ hp =>
      rename_i p
      by_cases hA : (l :: A) <+: [p]
      · left
        obtain ⟨rfl, hA'⟩ := List.cons_prefix_cons.1 hA
        have : A = [] := List.prefix_nil.1 hA'
        subst this
        exact ⟨[], rfl, Cut.stop _⟩
      · exact Or.inr ⟨Cut.part _ hp, hA⟩
    | line _ h =>
      rcases ih h with ⟨t', rfl, h'⟩ | ⟨h', hn⟩
      · exact Or.inl ⟨t', rfl, h'⟩
      · exact Or.inr ⟨Cut.line _ h', fun hp => hn ((List.prefix_cons_inj _).1 hp)⟩

/-! ### The line that was cut -/

theorem strip_head (c : Char) (hc : isWs c = false) (t : Str) : ∃ t', strip (c :: t) = c :: t' := by
  rw [strip_eq, List.dropWhile_cons_of_neg (by simp [hc])]
  exact ⟨rstrip t, by simpa using rstrip_append [] c t hc⟩

/-- Beginning of a line whose first character that is not blank is `c`. -/
theorem strip_cut {pre : Str} (hpre : ∀ c ∈ pre, isWs c = true) {c : Char} (hc : isWs c = false) {t p : Str}
    (hp : p <+: pre ++ c :: t) : strip p = [] ∨ ∃ t', strip p = c :: t' := by
  induction pre generalizing p with
  | nil =>
    cases p with
    | nil => exact Or.inl rfl
    | cons d p =>
      obtain ⟨rfl, _⟩ := List.cons_prefix_cons.1 hp
      exact Or.inr (strip_head _ hc p)
  | cons x pre ih =>
    cases p with
    | nil => exact Or.inl rfl
    | cons d p =>
      obtain ⟨rfl, hp'⟩ := List.cons_prefix_cons.1 hp
      have : strip (d :: p) = strip p := by
        rw [strip_eq, strip_eq, List.dropWhile_cons_of_pos (hpre d (by simp))]
      rw [this]
      exact ih (fun c hc => hpre c (by simp [hc])) hp'

theorem take_ne_of_head {s w : Str} {c d : Char} {k : Nat} (hs : s = [] ∨ ∃ t, s = c :: t)
    (hw : w.head? = some d) (hcd : c ≠ d) : s.take k ≠ w := by
  rintro rfl
  rcases hs with rfl | ⟨t, rfl⟩
  · simp at hw
  · cases k with
    | zero => simp at hw
    | succ k => simp at hw; exact hcd hw

/-- A line that is none of the three kinds. -/
theorem loop_skip (p : Str) (st : St T) (h1 : (strip p).take 5 ≠ "solid".toList)
    (h2 : (strip p).take 5 ≠ "facet".toList) (h3 : (strip p).take 8 ≠ "endsolid".toList) :
    loop parse mk rid [p] st = .ok st := by
  rw [loop, if_neg h1, if_neg h2, if_neg h3, loop]

theorem expectLine_ok {text : Str} {lines rest : List Str} (h : expectLine text lines = .ok rest) :
    ∃ a, lines = a :: rest := by
  cases lines with
  | nil => cases h
  | cons a l =>
    rw [expectLine] at h
    split at h
    · cases h
    · cases h; exact ⟨a, rfl⟩

theorem readVertex_ok {lines rest : List Str} {v : V3 F} (h : readVertex parse lines = .ok (v, rest)) :
    ∃ a, lines = a :: rest := by
  cases lines with
  | nil => cases h
  | cons a l =>
    rw [readVertex] at h
    split at h
    · cases h
    · cases h; exact ⟨a, rfl⟩

theorem facetBody_length {lines : List Str} {v : Tri3 F} (h : facetBody parse lines = .ok v) :
    ∃ a1 a2 a3 a4 a5 r, lines = a1 :: a2 :: a3 :: a4 :: a5 :: r := by
  unfold facetBody at h
  split at h
  · cases h
  · rename_i l1 h1
    split at h
    · cases h
    · rename_i v1 l2 h2
      split at h
      · cases h
      · rename_i v2 l3 h3
        split at h
        · cases h
        · rename_i v3 l4 h4
          split at h
          · cases h
          · rename_i l5 h5
            obtain ⟨a1, rfl⟩ := expectLine_ok h1
            obtain ⟨a2, rfl⟩ := readVertex_ok h2
            obtain ⟨a3, rfl⟩ := readVertex_ok h3
            obtain ⟨a4, rfl⟩ := readVertex_ok h4
            obtain ⟨a5, rfl⟩ := expectLine_ok h5
            exact ⟨a1, a2, a3, a4, a5, l5, rfl⟩

theorem endfacet_cut {p : Str} (hp : p <+: "  endfacet\n".toList) (st : St T) :
    loop parse mk rid [p] st = .ok st := by
  have key : ∀ k ≤ 11, (strip ("  endfacet\n".toList.take k)).take 5 ≠ "solid".toList ∧
      (strip ("  endfacet\n".toList.take k)).take 5 ≠ "facet".toList ∧
      (strip ("  endfacet\n".toList.take k)).take 8 ≠ "endsolid".toList := by decide +kernel
  have hl : p.length ≤ 11 := hp.length_le
  have := key p.length hl
  rw [← List.prefix_iff_eq_take.1 hp] at this
  exact loop_skip p st this.1 this.2.1 this.2.2

/-- A facet that was cut adds no solid. -/
theorem facet_cut (hf : FloatIO render parse) (n v1 v2 v3 : V3 F) {t : List Str}
    (h : Cut (facetLines render n v1 v2 v3) t) (ws : List (List T)) (w : List T) (u : Option Str)
    (ks : List Nat) (st' : St T) (hl : loop parse mk rid t ⟨ws ++ [w], u, ks⟩ = .ok st') :
    st'.solids = ks ∧ ∃ w', st'.walls = ws ++ [w'] := by
  unfold facetLines at h
  cases h with
  | stop =>
    rw [loop] at hl
    cases hl
    exact ⟨rfl, w, rfl⟩
  | part _ hp =>
    rename_i p
    have hs : strip p = [] ∨ ∃ t', strip p = 'f' :: t' :=
      strip_cut (pre := "  ".toList) (c := 'f') (t := "acet normal ".toList ++ triple render n ++ ['\n'])
        (by decide) (by decide) hp
    by_cases h2 : (strip p).take 5 = "facet".toList
    · exfalso
      rw [loop, if_neg (take_ne_of_head hs (d := 's') rfl (by decide)), if_pos h2] at hl
      cases hc : checkNormal parse (strip p) with
      | error e => rw [hc] at hl; cases hl
      | ok _ => rw [hc] at hl; simp [facetBody, expectLine] at hl
    · rw [loop_skip p _ (take_ne_of_head hs (d := 's') rfl (by decide)) h2
        (take_ne_of_head hs (d := 'e') rfl (by decide))] at hl
      cases hl
      exact ⟨rfl, w, rfl⟩
  | line _ h =>
    rename_i t1
    have e1 := strip_facet hf n
    have tn : ¬ (("facet normal ".toList ++ triple render n).take 5 = "solid".toList) := by
      show ¬ ("facet".toList = "solid".toList)
      decide
    rw [loop, e1, if_neg tn, if_pos (by rfl), checkNormal_ok hf] at hl
    simp only [] at hl
    cases hb : facetBody parse t1 with
    | error e => rw [hb] at hl; cases hl
    | ok v =>
      rw [hb] at hl
      simp only [] at hl
      cases hm : mk v with
      | error e => rw [hm] at hl; cases hl
      | ok x =>
        rw [hm] at hl
        have ha : addPoly (⟨ws ++ [w], u, ks⟩ : St T) x = .ok ⟨ws ++ [w ++ [x]], u, ks⟩ := by
          simp [addPoly]
        simp only [ha] at hl
        obtain ⟨a1, a2, a3, a4, a5, r, rfl⟩ := facetBody_length hb
        simp only [] at hl
        have hr : r = [] ∨ ∃ p, r = [p] ∧ p <+: "  endfacet\n".toList := by
          cases h with
          | line _ h =>
          cases h with
          | line _ h =>
          cases h with
          | line _ h =>
          cases h with
          | line _ h =>
          cases h with
          | part => exact Or.inl rfl
          | line _ h =>
          cases h with
          | stop => exact Or.inl rfl
          | part _ hp => exact Or.inr ⟨_, rfl, hp⟩
          | line _ h =>
            cases h
            exact Or.inr ⟨_, rfl, List.prefix_refl _⟩
        rcases hr with rfl | ⟨p, rfl, hp⟩
        · rw [loop] at hl
          cases hl
          exact ⟨rfl, _, rfl⟩
        · rw [endfacet_cut hp] at hl
          cases hl
          exact ⟨rfl, _, rfl⟩

/-- The facets of a solid and the line closing it, cut somewhere: no solid is added, or all its facets are
read and the solid is added. -/
theorem facets_cut (hf : FloatIO render parse) (uid : Str) (fs : List (V3 F × Tri3 F)) {t : List Str}
    (h : Cut (facetText render fs ++ ["endsolid ".toList ++ uid ++ ['\n']]) t) (ws : List (List T))
    (w : List T) (u : Option Str) (ks : List Nat) (st' : St T)
    (hl : loop parse mk rid t ⟨ws ++ [w], u, ks⟩ = .ok st') :
    (st'.solids = ks ∧ ∃ w', st'.walls = ws ++ [w']) ∨
      (st'.solids = ks ++ [ws.length] ∧ ∃ ps, (fs.map Prod.snd).mapM mk = .ok ps ∧
        st'.walls = ws ++ [w ++ ps]) := by
  induction fs generalizing t w with
  | nil =>
    have close : ∀ p, p <+: "endsolid ".toList ++ uid ++ ['\n'] →
        loop parse mk rid [p] ⟨ws ++ [w], u, ks⟩ = .ok st' →
        (st'.solids = ks ∧ ∃ w', st'.walls = ws ++ [w']) ∨
          (st'.solids = ks ++ [ws.length] ∧ ∃ ps, (([] : List (V3 F × Tri3 F)).map Prod.snd).mapM mk = .ok ps ∧
            st'.walls = ws ++ [w ++ ps]) := by
      intro p hp hl
      have hs : strip p = [] ∨ ∃ t', strip p = 'e' :: t' :=
        strip_cut (pre := []) (c := 'e') (t := "ndsolid ".toList ++ uid ++ ['\n']) (by simp) (by decide) hp
      have n1 := take_ne_of_head (k := 5) hs (w := "solid".toList) (d := 's') rfl (by decide)
      have n2 := take_ne_of_head (k := 5) hs (w := "facet".toList) (d := 'f') rfl (by decide)
      by_cases h3 : (strip p).take 8 = "endsolid".toList
      · rw [loop, if_neg n1, if_neg n2, if_pos h3] at hl
        unfold closeSolid at hl
        split at hl
        · cases hl
        · rename_i s2 hs2
          rw [loop] at hl
          split at hs2
          · cases hs2
          · split at hs2
            · cases hs2
            · cases hs2
              cases hl
              right
              refine ⟨by simp, [], by simp [pure, Except.pure], by simp⟩
      · rw [loop_skip p _ n1 n2 h3] at hl
        cases hl
        exact Or.inl ⟨rfl, w, rfl⟩
    simp only [facetText, List.flatMap_nil, List.nil_append] at h
    cases h with
    | stop =>
      rw [loop] at hl
      cases hl
      exact Or.inl ⟨rfl, w, rfl⟩
    | part _ hp => exact close _ hp hl
    | line _ h =>
      cases h
      exact close _ (List.prefix_refl _) hl
  | cons f fs ih =>
    have e : facetText render (f :: fs) ++ ["endsolid ".toList ++ uid ++ ['\n']]
        = facetLines render f.1 f.2.1 f.2.2.1 f.2.2.2
          ++ (facetText render fs ++ ["endsolid ".toList ++ uid ++ ['\n']]) := by
      simp [facetText]
    rw [e] at h
    rcases cut_append h with ⟨t', rfl, h'⟩ | ⟨h', _⟩
    · rw [loop_facet hf] at hl
      have hl : (match mk f.2 with
        | .error e => (Except.error e : Except PyErr (St T))
        | .ok p => match addPoly (⟨ws ++ [w], u, ks⟩ : St T) p with
          | .error e => .error e
          | .ok st => loop parse mk rid t' st) = .ok st' := hl
      cases hm : mk f.2 with
      | error er => rw [hm] at hl; cases hl
      | ok p =>
        have ha : addPoly (⟨ws ++ [w], u, ks⟩ : St T) p = .ok ⟨ws ++ [w ++ [p]], u, ks⟩ := by
          simp [addPoly]
        rw [hm] at hl
        simp only [ha] at hl
        rcases ih h' (w ++ [p]) hl with h1 | ⟨h1, ps, h2, h3⟩
        · exact Or.inl h1
        · refine Or.inr ⟨h1, p :: ps, ?_, by simp [h3]⟩
          rw [List.map_cons, List.mapM_cons, hm]
          show (match (fs.map Prod.snd).mapM mk with | _ => _) = _
          rw [h2]
          rfl
    · exact Or.inl (facet_cut hf _ _ _ _ h' ws w u ks st' hl)

/-- A solid whose lines were cut. -/
theorem solid_cut (hf : FloatIO render parse) (vn : Poly (V3 F) → V3 F) (s : Solid (V3 F)) {t : List Str}
    (h : Cut (solidText render vn s) t) (ws : List (List T)) (u : Option Str) (ks : List Nat) (st' : St T)
    (hl : loop parse mk rid t ⟨ws, u, ks⟩ = .ok st') :
    (st'.solids = ks ∧ ∃ ex, st'.walls = ws ++ ex) ∨
      (st'.solids = ks ++ [ws.length] ∧ ∃ ps, (solidTris s).mapM mk = .ok ps ∧ st'.walls = ws ++ [ps]) := by
  unfold solidText at h
  rw [List.cons_append] at h
  cases h with
  | stop =>
    rw [loop] at hl
    cases hl
    exact Or.inl ⟨rfl, [], by simp⟩
  | part _ hp =>
    rename_i p
    have hs : strip p = [] ∨ ∃ t', strip p = 's' :: t' :=
      strip_cut (pre := []) (c := 's') (t := "olid ".toList ++ s.uid ++ ['\n']) (by simp) (by decide) hp
    by_cases h1 : (strip p).take 5 = "solid".toList
    · rw [loop, if_pos h1, loop] at hl
      cases hl
      exact Or.inl ⟨rfl, [[]], rfl⟩
    · rw [loop_skip p _ h1 (take_ne_of_head hs (d := 'f') rfl (by decide))
        (take_ne_of_head hs (d := 'e') rfl (by decide))] at hl
      cases hl
      exact Or.inl ⟨rfl, [], by simp⟩
  | line _ h =>
    rw [loop_open] at hl
    rcases facets_cut hf s.uid _ h ws [] _ ks st' hl with ⟨h1, w', h2⟩ | ⟨h1, ps, h2, h3⟩
    · exact Or.inl ⟨h1, [w'], h2⟩
    · exact Or.inr ⟨h1, ps, by rw [← solidFacets_snd vn]; exact h2, by simpa using h3⟩

/-- Reading lines that were cut: the first solids. -/
theorem solids_cut (hf : FloatIO render parse) (vn : Poly (V3 F) → V3 F) (ss : List (Solid (V3 F)))
    {t : List Str} (h : Cut (ss.flatMap (solidText render vn)) t) (ws : List (List T)) (u : Option Str)
    (ks : List Nat) (st' : St T) (hl : loop parse mk rid t ⟨ws, u, ks⟩ = .ok st') :
    ∃ m pss ex, m ≤ ss.length ∧ ((ss.take m).mapM fun s => (solidTris s).mapM mk) = .ok pss ∧
      st'.walls = ws ++ pss ++ ex ∧ st'.solids = ks ++ List.range' ws.length m ∧
      ∀ k, k ≤ ss.length → (ss.take k).flatMap (solidText render vn) <+: t → k ≤ m := by
  induction ss generalizing t ws u ks with
  | nil =>
    cases h
    rw [loop] at hl
    cases hl
    exact ⟨0, [], [], le_refl _, by simp [pure, Except.pure], by simp, by simp, by simp⟩
  | cons s ss ih =>
    rw [List.flatMap_cons] at h
    rcases cut_append h with ⟨t', rfl, h'⟩ | ⟨h', hno⟩
    · have e : solidText render vn s ++ t'
          = ("solid ".toList ++ s.uid ++ ['\n']) :: (facetText render (solidFacets vn s)
            ++ (("endsolid ".toList ++ s.uid ++ ['\n']) :: t')) := by
        simp [solidText]
      rw [e, loop_open] at hl
      have h1 := loop_facets (mk := mk) (rid := rid) hf (("endsolid ".toList ++ s.uid ++ ['\n']) :: t')
        (some (strip (rstrip (' ' :: s.uid ++ ['\n'])))) ws ks (solidFacets vn s) []
      simp only [] at hl
      rw [h1, solidFacets_snd] at hl
      cases hm : (solidTris s).mapM mk with
      | error er => rw [hm] at hl; cases hl
      | ok ps =>
        rw [hm] at hl
        simp only [List.nil_append] at hl
        obtain ⟨u1, h2⟩ := loop_close (parse := parse) (mk := mk) (rid := rid) s.uid t' ws ps ks
        rw [h2] at hl
        obtain ⟨m, pss, ex, i1, i2, i3, i4, i5⟩ := ih h' (ws ++ [ps]) u1 (ks ++ [ws.length]) hl
        refine ⟨m + 1, ps :: pss, ex, by simp [i1], ?_, by simp [i3], ?_, ?_⟩
        · rw [List.take_succ_cons, List.mapM_cons, hm]
          show (match (ss.take m).mapM (fun s => (solidTris s).mapM mk) with | _ => _) = _
          rw [i2]
          rfl
        · rw [i4]
          simp [List.range'_succ]
        · intro k hk hp
          cases k with
          | zero => omega
          | succ k =>
            rw [List.take_succ_cons, List.flatMap_cons, List.prefix_append_right_inj] at hp
            have := i5 k (by simpa using hk) hp
            omega
    · have hk : ∀ k, k ≤ (s :: ss).length → ((s :: ss).take k).flatMap (solidText render vn) <+: t → k = 0 := by
        intro k _ hp
        cases k with
        | zero => rfl
        | succ k =>
          rw [List.take_succ_cons, List.flatMap_cons] at hp
          exact absurd ((List.prefix_append _ _).trans hp) hno
      rcases solid_cut hf vn s h' ws u ks st' hl with ⟨h1, ex, h2⟩ | ⟨h1, ps, h2, h3⟩
      · refine ⟨0, [], ex, by omega, by simp [pure, Except.pure], by simp [h2], by simp [h1], ?_⟩
        intro k hkl hp
        rw [hk k hkl hp]
      · refine ⟨1, [ps], [], by simp, ?_, by simp [h3], by simp [h1], ?_⟩
        · rw [List.take_succ_cons, List.take_zero, List.mapM_cons, h2]
          rfl
        · intro k hkl hp
          rw [hk k hkl hp]
          omega

/-! ### C88 -/

/-- The lines written for some solids. -/
theorem written_eq (vn : Poly (V3 F) → V3 F) (ss : List (Solid (V3 F)))
    (hp : ∀ s ∈ ss, ∀ w ∈ s.walls, ∀ p ∈ w.polygons, PolyOk p) :
    linesOf (solidLines render vn) ss = .ok (ss.flatMap (solidText render vn)) :=
  linesOf_flat _ _ _ fun s hs => solidLines_ok vn s (hp s hs)

theorem writeStl_eq (vn : Poly (V3 F) → V3 F) (b : Bldg (V3 F))
    (hp : ∀ s ∈ solidsOf b, ∀ w ∈ s.walls, ∀ p ∈ w.polygons, PolyOk p) :
    writeStl render vn b = .ok ((solidsOf b).flatMap (solidText render vn)).flatten := by
  have hw : linesOf (fun z : Zone (V3 F) => linesOf (solidLines render vn) z.solids) b.zones
      = .ok ((solidsOf b).flatMap (solidText render vn)) := by
    rw [linesOf_flat _ (fun z : Zone (V3 F) => z.solids.flatMap (solidText render vn))]
    · simp [solidsOf, List.flatMap_assoc]
    · intro z hz
      exact written_eq vn z.solids fun s hs => hp s (List.mem_flatMap.2 ⟨z, hz, hs⟩)
  unfold writeStl
  rw [hw]

/-- **C88, partial** (missing: an exception for every text that was cut, which is false, see
`C88_silent`).  A file written for a building is cut after any number of characters.  If reading it does not
raise an exception, then it gives the first solids of the building, each with exactly its triangles: no solid
with some of its triangles missing, and none with corners cut off.  All solids whose lines are in the file
completely are there. -/
theorem C88_cut_partial (hf : FloatIO render parse) (vn : Poly (V3 F) → V3 F) (b : Bldg (V3 F))
    (hp : ∀ s ∈ solidsOf b, ∀ w ∈ s.walls, ∀ p ∈ w.polygons, PolyOk p)
    (hu : ∀ s ∈ solidsOf b, '\n' ∉ s.uid ∧ '\r' ∉ s.uid) :
    ∃ text, writeStl render vn b = .ok text ∧ ∀ n res, readStl parse mk rid (text.take n) = .ok res →
      ∃ m, m ≤ (solidsOf b).length ∧
        (((solidsOf b).take m).mapM fun s => (solidTris s).mapM mk) = .ok res ∧
        ∀ k lines, k ≤ (solidsOf b).length →
          linesOf (solidLines render vn) ((solidsOf b).take k) = .ok lines →
          lines.flatten.length ≤ n → k ≤ m := by
  refine ⟨_, writeStl_eq vn b hp, ?_⟩
  intro n res hres
  have hline : ∀ l ∈ (solidsOf b).flatMap (solidText render vn), IsLine l := by
    intro l hl
    obtain ⟨s, hs, hl⟩ := List.mem_flatMap.1 hl
    exact solidText_isLine hf vn s (hu s hs) l hl
  unfold readStl at hres
  cases hl : loop parse mk rid (readlines (((solidsOf b).flatMap (solidText render vn)).flatten.take n))
      ⟨[], none, []⟩ with
  | error e => rw [hl] at hres; cases hres
  | ok st =>
    rw [hl] at hres
    simp only [Except.ok.injEq] at hres
    obtain ⟨m, pss, ex, h1, h2, h3, h4, h5⟩ := solids_cut hf vn (solidsOf b) (cut_readlines _ hline n) [] none []
      st hl
    have hlen : pss.length = m := by rw [mapM_length _ _ _ h2, List.length_take, min_eq_left h1]
    refine ⟨m, h1, ?_, ?_⟩
    · rw [h2, ← hres, h3, h4]
      congr 1
      apply List.ext_getElem
      · simp [hlen]
      · intro i i1 i2
        simp only [List.nil_append, List.length_nil, List.getElem_map, List.getElem_range', Nat.zero_add,
          Nat.one_mul]
        rw [List.getD_eq_getElem?_getD, List.getElem?_append_left i1, List.getElem?_eq_getElem i1]
        rfl
    · intro k lines hk hlines hle
      rw [written_eq vn _ fun s hs => hp s (List.mem_of_mem_take hs)] at hlines
      cases hlines
      apply h5 k hk
      have e : (solidsOf b).flatMap (solidText render vn)
          = ((solidsOf b).take k).flatMap (solidText render vn)
            ++ ((solidsOf b).drop k).flatMap (solidText render vn) := by
        rw [← List.flatMap_append, List.take_append_drop]
      rw [e]
      apply prefix_readlines _ _ _ n hle
      intro l hl
      obtain ⟨s, hs, hl⟩ := List.mem_flatMap.1 hl
      exact solidText_isLine hf vn s (hu s (List.mem_of_mem_take hs)) l hl

/-- **C88, negative.**  A file cut between two solids is read without any sign of it: for every `k`, cutting
after the lines of the first `k` solids gives a building of these `k` solids. -/
theorem C88_silent (hf : FloatIO render parse) (vn : Poly (V3 F) → V3 F) (b : Bldg (V3 F))
    (hp : ∀ s ∈ solidsOf b, ∀ w ∈ s.walls, ∀ p ∈ w.polygons, PolyOk p)
    (hu : ∀ s ∈ solidsOf b, '\n' ∉ s.uid ∧ '\r' ∉ s.uid) (k : Nat) :
    ∃ text n, writeStl render vn b = .ok text ∧
      readStl parse mk rid (text.take n) = ((solidsOf b).take k).mapM fun s => (solidTris s).mapM mk := by
  refine ⟨_, (((solidsOf b).take k).flatMap (solidText render vn)).flatten.length, writeStl_eq vn b hp, ?_⟩
  have e : ((solidsOf b).flatMap (solidText render vn)).flatten
      = (((solidsOf b).take k).flatMap (solidText render vn)).flatten
        ++ (((solidsOf b).drop k).flatMap (solidText render vn)).flatten := by
    rw [← List.flatten_append, ← List.flatMap_append, List.take_append_drop]
  rw [e, List.take_left]
  obtain ⟨text, t1, t2⟩ := C18_round_trip (mk := mk) (rid := rid) hf vn
    ⟨[], [], [⟨[], [], (solidsOf b).take k, none⟩]⟩ (by
      intro z hz s hs
      simp only [List.mem_singleton] at hz
      subst hz
      exact hp s (List.mem_of_mem_take hs)) (by
      intro s hs
      simp only [solidsOf, List.flatMap_cons, List.flatMap_nil, List.append_nil] at hs
      exact hu s (List.mem_of_mem_take hs))
  have h3 := writeStl_eq (render := render) vn ⟨[], [], [⟨[], [], (solidsOf b).take k, none⟩]⟩ (by
    intro s hs
    simp only [solidsOf, List.flatMap_cons, List.flatMap_nil, List.append_nil] at hs
    exact hp s (List.mem_of_mem_take hs))
  have e2 : solidsOf (⟨[], [], [⟨[], [], (solidsOf b).take k, none⟩]⟩ : Bldg (V3 F)) = (solidsOf b).take k := by
    simp [solidsOf]
  rw [h3, e2] at t1
  cases t1
  rw [t2, e2]

/-- The text of the example building of C18 (two solids, three triangles), cut after `n` characters. -/
def demoCut (n : Nat) : Except PyErr (List Nat) :=
  match writeStl demoRender (fun _ => (0, 0, 1)) demoStl with
  | .error e => .error e
  | .ok text =>
    match readStl demoParse Except.ok ['r'] (text.take n) with
    | .error e => .error e
    | .ok solids => .ok (solids.map List.length)

/-- The hypotheses are met by the example building of C18.  Cut inside a facet: an exception.  Cut after a
whole facet, inside the first solid: no solids, no exception.  Cut inside the second solid: one solid of two
triangles. -/
example : FloatIO demoRender demoParse ∧
    (∀ s ∈ solidsOf demoStl, ∀ w ∈ s.walls, ∀ p ∈ w.polygons, PolyOk p) ∧
    (∀ s ∈ solidsOf demoStl, '\n' ∉ s.uid ∧ '\r' ∉ s.uid) ∧
    demoCut 20 = .error .indexError ∧ demoCut 40 = .error .assertionError ∧ demoCut 135 = .ok [] ∧
    demoCut 275 = .ok [2] ∧ demoCut 320 = .error .indexError ∧ demoCut 600 = .ok [2, 1] := by
  refine ⟨demoFloatIO, ?_, by decide, by decide +kernel, by decide +kernel, by decide +kernel,
    by decide +kernel, by decide +kernel, by decide +kernel⟩
  unfold PolyOk
  decide

end B3d.Stl
