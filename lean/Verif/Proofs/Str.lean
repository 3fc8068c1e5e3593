import Verif.Model.Str

namespace B3d.Str

theorem split_ne_nil (sep : Char) (s : Str) : split sep s ≠ [] := by
  cases s with
  | nil => simp [split]
  | cons c t =>
    unfold split
    split
    · simp
    · split <;> simp

theorem split_no_sep (sep : Char) (s : Str) : ∀ p ∈ split sep s, sep ∉ p := by
  induction s with
  | nil => simp [split]
  | cons c t ih =>
    unfold split
    split
    next => 
      intro p hp
      rcases List.mem_cons.1 hp with rfl | hp
      · simp
      · exact ih p hp
    next hc =>
      split
      next h => exact absurd h (split_ne_nil sep t)
      next h r hs =>
        intro p hp
        rcases List.mem_cons.1 hp with rfl | hp
        · intro hm
          rcases List.mem_cons.1 hm with rfl | hm
          · exact hc rfl
          · exact ih h (by rw [hs]; simp) hm
        · exact ih p (by rw [hs]; simp [hp])

theorem split_of_no_sep (sep : Char) (s : Str) (h : sep ∉ s) : split sep s = [s] := by
  induction s with
  | nil => rfl
  | cons c t ih =>
    have hc : ¬ c = sep := fun e => h (by simp [e])
    rw [split, if_neg hc, ih (fun hm => h (List.mem_cons_of_mem _ hm))]

theorem split_append (sep : Char) (a s : Str) (h : sep ∉ a) :
    split sep (a ++ sep :: s) = a :: split sep s := by
  induction a with
  | nil => simp [split]
  | cons c t ih =>
    have hc : ¬ c = sep := fun e => h (by simp [e])
    rw [List.cons_append, split, if_neg hc, ih (fun hm => h (List.mem_cons_of_mem _ hm))]

theorem split_join (sep : Char) (l : List Str) (hne : l ≠ []) (h : ∀ p ∈ l, sep ∉ p) :
    split sep (join sep l) = l := by
  induction l with
  | nil => exact absurd rfl hne
  | cons a l ih =>
    cases l with
    | nil => exact split_of_no_sep sep a (h a (by simp))
    | cons b l =>
      rw [join, split_append sep a _ (h a (by simp)),
        ih (by simp) (fun p hp => h p (List.mem_cons_of_mem _ hp))]

theorem join_split (sep : Char) (s : Str) : join sep (split sep s) = s := by
  induction s with
  | nil => rfl
  | cons c t ih =>
    unfold split
    split
    next hc =>
      subst hc
      cases hs : split c t with
      | nil => exact absurd hs (split_ne_nil c t)
      | cons h r => rw [hs] at ih; simp [join, ih]
    next hc =>
      split
      next h => exact absurd h (split_ne_nil sep t)
      next h r hs =>
        rw [hs] at ih
        cases r with
        | nil => simp only [join] at ih ⊢; rw [ih]
        | cons b r => simp only [join] at ih ⊢; rw [List.cons_append, ih]

theorem join_injective (sep : Char) (l r : List Str) (hl : l ≠ []) (hr : r ≠ [])
    (h1 : ∀ p ∈ l, sep ∉ p) (h2 : ∀ p ∈ r, sep ∉ p) (h : join sep l = join sep r) : l = r := by
  rw [← split_join sep l hl h1, ← split_join sep r hr h2, h]

theorem join_append_singleton (sep : Char) (l : List Str) (hl : l ≠ []) (a : Str) :
    join sep (l ++ [a]) = join sep l ++ sep :: a := by
  induction l with
  | nil => exact absurd rfl hl
  | cons x l ih =>
    cases l with
    | nil => rfl
    | cons y l =>
      have := ih (by simp)
      simp only [List.cons_append, join] at this ⊢
      rw [this]; simp

/-- Joining a joined prefix with one more part is joining all parts. -/
theorem join_join (sep : Char) (l : List Str) (hl : l ≠ []) (a : Str) :
    join sep [join sep l, a] = join sep (l ++ [a]) := by
  rw [join_append_singleton sep l hl]; rfl

end B3d.Str
