import Verif.Model.Stl
import Verif.Proofs.Str
import Verif.Proofs.Mesh

/-! Lemmas about `Verif/Model/Stl.lean`. -/

namespace B3d.Stl

open B3d.Triangles (Tri)
open B3d.Tree
open B3d.ArrayFormat (rowAt)

variable {F T : Type}

/-! ### Text -/

/-- `s.rstrip()`. -/
def rstrip (s : Str) : Str := (s.reverse.dropWhile isWs).reverse

theorem strip_eq (s : Str) : strip s = rstrip (s.dropWhile isWs) := rfl

theorem rstrip_append (a : Str) (c : Char) (s : Str) (hc : isWs c = false) :
    rstrip (a ++ [c] ++ s) = a ++ [c] ++ rstrip s := by
  have key : ∀ (l : Str), (l ++ (c :: a.reverse)).dropWhile isWs
      = l.dropWhile isWs ++ (c :: a.reverse) := by
    intro l
    induction l with
    | nil => simp [List.dropWhile, hc]
    | cons x l ih =>
      by_cases hx : isWs x = true
      · simp [List.dropWhile, hx, ih]
      · simp [List.dropWhile, hx]
  unfold rstrip
  rw [show (a ++ [c] ++ s).reverse = s.reverse ++ (c :: a.reverse) by simp, key]
  simp

theorem rstrip_ws (s : Str) (h : ∀ c ∈ s, isWs c = true) : rstrip s = [] := by
  unfold rstrip
  rw [List.reverse_eq_nil_iff]
  have : ∀ l : Str, (∀ c ∈ l, isWs c = true) → l.dropWhile isWs = [] := by
    intro l hl
    induction l with
    | nil => rfl
    | cons x l ih =>
      rw [List.dropWhile_cons_of_pos (hl x (by simp)), ih fun c hc => hl c (by simp [hc])]
  exact this _ fun c hc => h c (by simpa using hc)

theorem dropWhile_ws (a s : Str) (h : ∀ c ∈ a, isWs c = true) :
    (a ++ s).dropWhile isWs = s.dropWhile isWs := by
  induction a with
  | nil => rfl
  | cons x a ih =>
    rw [List.cons_append, List.dropWhile_cons_of_pos (h x (by simp)), ih fun c hc => h c (by simp [hc])]

/-- `strip` on `blanks ++ a ++ [c] ++ s` where the text begins with the non-blank `d` and `c` is not
blank. -/
theorem strip_of (pre : Str) (hpre : ∀ c ∈ pre, isWs c = true) (d : Char) (hd : isWs d = false)
    (a : Str) (c : Char) (hc : isWs c = false) (s : Str) (hs : ∀ c ∈ s, isWs c = true) :
    strip (pre ++ (d :: a ++ [c]) ++ s) = d :: a ++ [c] := by
  rw [strip_eq, List.append_assoc, dropWhile_ws _ _ hpre, List.cons_append, List.cons_append,
    List.dropWhile_cons_of_neg (by simp [hd])]
  have := rstrip_append (d :: a) c s hc
  rw [rstrip_ws s hs] at this
  simpa using this

/-- Text whose first and last characters are not blank. -/
def Solid0 (s : Str) : Prop :=
  (∃ d t, s = d :: t ∧ isWs d = false) ∧ ∃ t c, s = t ++ [c] ∧ isWs c = false

theorem Solid0.strip {pre core post : Str} (h : Solid0 core) (hpre : ∀ c ∈ pre, isWs c = true)
    (hpost : ∀ c ∈ post, isWs c = true) : Stl.strip (pre ++ core ++ post) = core := by
  obtain ⟨⟨d, t, hd, hdw⟩, t', c, hc, hcw⟩ := h
  rw [strip_eq, List.append_assoc, dropWhile_ws _ _ hpre]
  have h1 : (core ++ post).dropWhile isWs = core ++ post := by
    rw [hd, List.cons_append, List.dropWhile_cons_of_neg (by simp [hdw])]
  rw [h1, hc, rstrip_append _ _ _ hcw, rstrip_ws _ hpost, List.append_nil]

theorem Solid0.append {a b : Str} (ha : Solid0 a) (hb : Solid0 b) (m : Str) :
    Solid0 (a ++ m ++ b) := by
  obtain ⟨⟨d, t, hd, hdw⟩, -⟩ := ha
  obtain ⟨-, t', c, hc, hcw⟩ := hb
  refine ⟨⟨d, t ++ m ++ b, by rw [hd]; simp, hdw⟩, a ++ m ++ t', c, by rw [hc]; simp, hcw⟩

theorem solid0_of_all {s : Str} (hne : s ≠ []) (h : ∀ c ∈ s, isWs c = false) : Solid0 s := by
  refine ⟨?_, ?_⟩
  · cases s with
    | nil => exact absurd rfl hne
    | cons d t => exact ⟨d, t, rfl, h d (by simp)⟩
  · exact ⟨s.dropLast, s.getLast hne, (List.dropLast_append_getLast hne).symm,
      h _ (List.getLast_mem hne)⟩

/-- The lines of a text made of lines. -/
theorem readlines_line (body rest : Str) (h : '\n' ∉ body ∧ '\r' ∉ body) :
    readlines (body ++ '\n' :: rest) = (body ++ ['\n']) :: readlines rest := by
  induction body with
  | nil => simp [readlines]
  | cons c body ih =>
    simp only [List.mem_cons, not_or] at h
    have hc1 : ¬ c = '\n' := fun h1 => h.1.1 h1.symm
    have hc2 : ¬ c = '\r' := fun h1 => h.2.1 h1.symm
    rw [List.cons_append, readlines, ih ⟨h.1.2, h.2.2⟩]
    simp [hc1, hc2]

/-- A line as the writer makes it. -/
def IsLine (l : Str) : Prop := ∃ body, l = body ++ ['\n'] ∧ '\n' ∉ body ∧ '\r' ∉ body

theorem readlines_flatten (ls : List Str) (h : ∀ l ∈ ls, IsLine l) :
    readlines ls.flatten = ls := by
  induction ls with
  | nil => rfl
  | cons l ls ih =>
    obtain ⟨body, rfl, hb⟩ := h l (by simp)
    rw [List.flatten_cons, List.append_assoc, List.singleton_append, readlines_line _ _ hb,
      ih fun l hl => h l (by simp [hl])]

theorem breakOn_none (sep : Str) (x : Char) (hx : x ∈ sep) (s : Str) (h : x ∉ s) :
    breakOn sep s = none := by
  induction s with
  | nil => rfl
  | cons c t ih =>
    have hp : ¬ (sep.isPrefixOf (c :: t) = true) := by
      rw [List.isPrefixOf_iff_prefix]
      intro hp
      exact h (hp.subset hx)
    rw [breakOn, if_neg hp, ih fun ht => h (by simp [ht])]

theorem breakOn_here (sep s : Str) (hsep : sep ≠ []) : breakOn sep (sep ++ s) = some ([], s) := by
  cases sep with
  | nil => exact absurd rfl hsep
  | cons c t =>
    rw [List.cons_append, breakOn, if_pos]
    · simp
    · rw [List.isPrefixOf_iff_prefix, ← List.cons_append]
      exact List.prefix_append _ _

/-! ### Floats -/

/-- Characters of a formatted float, `nan` and `inf` included. -/
def floatChars : Str := "0123456789+-.einfa".toList

/-- What is assumed about formatting and parsing floats: parsing the formatted value gives the value
back, and only digits, signs, the point and the letters of `e`, `inf`, `nan` are printed. -/
structure FloatIO (render : F → Str) (parse : Str → Option F) : Prop where
  back : ∀ x, parse (render x) = some x
  nonempty : ∀ x, render x ≠ []
  chars : ∀ x, ∀ c ∈ render x, c ∈ floatChars

theorem floatChars_ws : ∀ c ∈ floatChars, isWs c = false ∧ c ≠ ' ' ∧ c ≠ '\n' ∧ c ≠ '\r' ∧ c ≠ 'o' := by
  decide +kernel

variable {render : F → Str} {parse : Str → Option F}

theorem render_solid (h : FloatIO render parse) (x : F) : Solid0 (render x) :=
  solid0_of_all (h.nonempty x) fun c hc => (floatChars_ws c (h.chars x c hc)).1

theorem triple_solid (h : FloatIO render parse) (v : F × F × F) : Solid0 (triple render v) := by
  have := Solid0.append (render_solid h v.1) (render_solid h v.2.2) (' ' :: render v.2.1 ++ [' '])
  simpa [triple] using this

theorem triple_split (h : FloatIO render parse) (v : F × F × F) :
    Str.split ' ' (triple render v) = [render v.1, render v.2.1, render v.2.2] := by
  have hns : ∀ x, ' ' ∉ render x := fun x hx => (floatChars_ws _ (h.chars x _ hx)).2.1 rfl
  unfold triple
  rw [Str.split_append _ _ _ (hns _), Str.split_append _ _ _ (hns _), Str.split_of_no_sep _ _ (hns _)]

theorem triple_mem (h : FloatIO render parse) (v : F × F × F) (c : Char)
    (hc : c ∈ triple render v) : c ∈ floatChars ∨ c = ' ' := by
  simp only [triple, List.mem_append, List.mem_cons] at hc
  rcases hc with hc | hc | hc | hc | hc
  · exact Or.inl (h.chars _ _ hc)
  · exact Or.inr hc
  · exact Or.inl (h.chars _ _ hc)
  · exact Or.inr hc
  · exact Or.inl (h.chars _ _ hc)

theorem triple_not_mem (h : FloatIO render parse) (v : F × F × F) (c : Char)
    (hc : c ∉ floatChars) (hs : c ≠ ' ') : c ∉ triple render v := by
  intro hm
  rcases triple_mem h v c hm with h1 | h1
  · exact hc h1
  · exact hs h1

/-! ### Lines of a facet -/

theorem strip_facet (h : FloatIO render parse) (n : F × F × F) :
    strip ("  facet normal ".toList ++ triple render n ++ ['\n'])
      = "facet normal ".toList ++ triple render n := by
  have h0 : Solid0 ("facet".toList ++ " normal ".toList ++ triple render n) :=
    Solid0.append (solid0_of_all (by decide) (by decide)) (triple_solid h n) _
  exact h0.strip (pre := "  ".toList) (post := ['\n']) (by decide) (by decide)

theorem strip_vertex (h : FloatIO render parse) (v : F × F × F) :
    strip ("      vertex ".toList ++ triple render v ++ ['\n'])
      = "vertex ".toList ++ triple render v := by
  have h0 : Solid0 ("vertex".toList ++ " ".toList ++ triple render v) :=
    Solid0.append (solid0_of_all (by decide) (by decide)) (triple_solid h v) _
  exact h0.strip (pre := "      ".toList) (post := ['\n']) (by decide) (by decide)

theorem checkNormal_ok (h : FloatIO render parse) (n : F × F × F) :
    checkNormal parse ("facet normal ".toList ++ triple render n) = .ok () := by
  have h1 : secondPart "normal".toList (("facet normal ".toList ++ triple render n).drop 5)
      = .ok (' ' :: triple render n) := by
    have e : ("facet normal ".toList ++ triple render n).drop 5
        = ' ' :: ("normal".toList ++ ' ' :: triple render n) := rfl
    have hp : ¬ ("normal".toList.isPrefixOf (' ' :: ("normal".toList ++ ' ' :: triple render n))
        = true) := by
      simp [List.isPrefixOf]
    rw [e, secondPart, breakOn, if_neg hp, breakOn_here _ _ (by decide)]
    simp only []
    rw [breakOn_none "normal".toList 'o' (by decide)]
    intro hm
    rw [List.mem_cons] at hm
    rcases hm with hm | hm
    · exact absurd hm (by decide)
    · exact triple_not_mem h n 'o' (by decide) (by decide) hm
  have h2 : strip (' ' :: triple render n) = triple render n := by
    have := (triple_solid h n).strip (pre := [' ']) (post := []) (by decide) (by simp)
    simpa using this
  unfold checkNormal
  rw [h1]
  simp only [h2, triple_split h, h.back]

theorem parseVertex_ok (h : FloatIO render parse) (v : F × F × F) :
    parseVertex parse ("vertex ".toList ++ triple render v) = .ok v := by
  have h2 : strip (' ' :: triple render v) = triple render v := by
    have := (triple_solid h v).strip (pre := [' ']) (post := []) (by decide) (by simp)
    simpa using this
  have e1 : ("vertex ".toList ++ triple render v).take 6 = "vertex".toList := rfl
  have e2 : ("vertex ".toList ++ triple render v).drop 6 = ' ' :: triple render v := rfl
  unfold parseVertex
  rw [e1, e2, h2, triple_split h]
  simp [h.back]

theorem strip_outer : strip "    outer loop\n".toList = "outer loop".toList := by decide +kernel
theorem strip_endloop : strip "    endloop\n".toList = "endloop".toList := by decide +kernel
theorem strip_endfacet : strip "  endfacet\n".toList = "endfacet".toList := by decide +kernel

variable {mk : (F × F × F) × (F × F × F) × (F × F × F) → Except PyErr T} {rid : Str}

/-- Reading the lines of one facet. -/
theorem loop_facet (h : FloatIO render parse) (n v1 v2 v3 : F × F × F) (rest : List Str) (st : St T) :
    loop parse mk rid (facetLines render n v1 v2 v3 ++ rest) st
      = match mk (v1, v2, v3) with
        | .error e => .error e
        | .ok p => match addPoly st p with
          | .error e => .error e
          | .ok st => loop parse mk rid rest st := by
  have hb : facetBody parse ("    outer loop\n".toList ::
      ("      vertex ".toList ++ triple render v1 ++ ['\n']) ::
      ("      vertex ".toList ++ triple render v2 ++ ['\n']) ::
      ("      vertex ".toList ++ triple render v3 ++ ['\n']) ::
      "    endloop\n".toList :: "  endfacet\n".toList :: rest) = .ok (v1, v2, v3) := by
    unfold facetBody
    simp only [expectLine, readVertex, strip_outer, strip_endloop, strip_vertex h,
      parseVertex_ok h, ne_eq, not_true_eq_false, if_false]
  unfold facetLines
  simp only [List.cons_append, List.nil_append]
  rw [loop]
  have t1 : (strip ("  facet normal ".toList ++ triple render n ++ ['\n'])).take 5
      = "facet".toList := by rw [strip_facet h]; rfl
  have hfs : ¬ "facet".toList = "solid".toList := by decide
  simp only [List.append_assoc] at t1 hb ⊢
  rw [t1, if_neg hfs, if_pos rfl]
  have hs := strip_facet h n
  simp only [List.append_assoc] at hs
  rw [hs, checkNormal_ok h]
  simp only [hb]
  cases mk (v1, v2, v3) with
  | error e => rfl
  | ok p =>
    simp only []
    cases addPoly st p with
    | error e => rfl
    | ok st =>
      simp only []
      rw [loop, strip_endfacet]
      rw [if_neg (by decide), if_neg (by decide), if_neg (by decide)]

end B3d.Stl
