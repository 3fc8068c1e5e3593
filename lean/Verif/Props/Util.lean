import Verif.Model.Util
import Mathlib.Data.List.Rotate
import Mathlib.Tactic.Linarith
import Mathlib.Tactic.Positivity
import Mathlib.Tactic.Ring
import Mathlib.Tactic.NormNum
import Mathlib.Data.Rat.Defs
import Mathlib.Algebra.Order.Ring.Unbundled.Rat

/-!
# C02 (rolling points) and C03 (random identifiers and numbers)
-/

namespace B3d.Util

private theorem filterMap_get_range' {α : Type} (x : List α) (k : Nat) :
    ∀ n, k + n = x.length →
      (List.range' k n).filterMap (fun i => x[i]?) = x.drop k := by
  intro n
  induction n generalizing k with
  | zero => intro h; simp; omega
  | succ n ih =>
    intro h
    have hk : k < x.length := by omega
    rw [List.range'_succ, List.filterMap_cons_some (List.getElem?_eq_getElem hk),
      ih (k + 1) (by omega)]
    exact (List.drop_eq_getElem_cons hk).symm

private theorem rollBack_cons {α : Type} (a : α) (l : List α) :
    rollBack (a :: l) = .ok (l ++ [a]) := by
  unfold rollBack
  simp only [List.length_cons, Nat.add_sub_cancel, List.getElem?_cons_zero]
  rw [filterMap_get_range' (a :: l) 1 l.length (by simp; omega)]
  simp

private theorem rollForward_concat {α : Type} (l : List α) (a : α) :
    rollForward (l ++ [a]) = a :: l := by
  unfold rollForward
  apply List.ext_getElem?
  intro j
  have key : (List.range (l ++ [a]).length).filterMap (fun i =>
      if i = 0 then (l ++ [a])[(l ++ [a]).length - 1]? else (l ++ [a])[i - 1]?) =
      (List.range (l ++ [a]).length).map (fun i => (a :: l)[i]?.getD a) := by
    rw [← List.filterMap_eq_map]
    apply List.filterMap_congr
    intro i hi
    rw [List.mem_range, List.length_append, List.length_singleton] at hi
    rcases i with _ | i
    · simp
    · have : i < l.length := by omega
      simp [List.getElem?_append_left this, List.getElem?_eq_getElem this]
  rw [key]
  simp only [List.getElem?_map, List.length_append, List.length_singleton]
  by_cases hj : j < l.length + 1
  · rw [List.getElem?_range hj]
    have : j < (a :: l).length := by simpa using hj
    simp [List.getElem?_eq_getElem this]
  · rw [List.getElem?_eq_none (by simp; omega), List.getElem?_eq_none (by simp; omega)]
    rfl

/-- C02, `roll_back`: fails exactly on the empty list; otherwise the result is the cyclic
rotation by one place that moves the first element to the end. -/
theorem C02_rollBack_spec {α : Type} (x : List α) :
    (x = [] → rollBack x = .error .indexError) ∧
    (∀ a l, x = a :: l → rollBack x = .ok (l ++ [a])) := by
  refine ⟨?_, ?_⟩
  · rintro rfl; rfl
  · rintro a l rfl; exact rollBack_cons a l

/-- C02, `roll_forward`: the last element moves to the front, everything else keeps its order. -/
theorem C02_rollForward_spec {α : Type} (l : List α) (a : α) :
    rollForward (l ++ [a]) = a :: l ∧ rollForward ([] : List α) = [] :=
  ⟨rollForward_concat l a, rfl⟩

/-- C02: nothing is lost and the cyclic order is kept (`~r` is "is a rotation of"). -/
theorem C02_roll_is_rotation {α : Type} (x : List α) :
    x ~r rollForward x ∧ x.Perm (rollForward x) ∧
    (∀ y, rollBack x = .ok y → x ~r y ∧ x.Perm y) := by
  have h1 : x ~r rollForward x := by
    rcases List.eq_nil_or_concat x with rfl | ⟨l, a, rfl⟩
    · exact List.IsRotated.refl _
    · rw [List.concat_eq_append, rollForward_concat]
      exact (List.isRotated_concat a l)
  refine ⟨h1, h1.perm, ?_⟩
  intro y hy
  have h2 : x ~r y := by
    rcases x with _ | ⟨a, l⟩
    · cases hy
    · rw [rollBack_cons] at hy
      cases hy
      exact (List.isRotated_concat a l).symm
  exact ⟨h2, h2.perm⟩

/-- C02: the two rolls undo each other. -/
theorem C02_rolls_inverse {α : Type} (x : List α) (hx : x ≠ []) :
    (∃ y, rollBack x = .ok y ∧ rollForward y = x) ∧ rollBack (rollForward x) = .ok x := by
  constructor
  · obtain ⟨a, l, rfl⟩ := List.exists_cons_of_ne_nil hx
    exact ⟨l ++ [a], rollBack_cons a l, rollForward_concat l a⟩
  · rcases List.eq_nil_or_concat x with rfl | ⟨l, a, rfl⟩
    · exact absurd rfl hx
    · rw [List.concat_eq_append, rollForward_concat, rollBack_cons]

private theorem rollForward_iterate {α : Type} (n : Nat) :
    ∀ (l m : List α), m.length = n → (rollForward^[n]) (l ++ m) = m ++ l := by
  induction n with
  | zero => intro l m hm; rw [List.length_eq_zero_iff] at hm; subst hm; simp
  | succ n ih =>
    intro l m hm
    rcases List.eq_nil_or_concat m with rfl | ⟨m', a, rfl⟩
    · simp at hm
    · rw [List.concat_eq_append] at hm ⊢
      rw [Function.iterate_succ_apply, ← List.append_assoc, rollForward_concat]
      have := ih (a :: l) m' (by simpa using hm)
      rw [List.cons_append] at this
      rw [this]; simp

/-- C02: rolling a list of `n` elements `n` times gives the list back. -/
theorem C02_roll_n_times_identity {α : Type} (x : List α) :
    (rollForward^[x.length]) x = x := by
  have := rollForward_iterate x.length [] x rfl
  simpa using this

example : rollBack [1, 2, 3, 4] = .ok [2, 3, 4, 1] ∧ rollForward [1, 2, 3, 4] = [4, 1, 2, 3] := by
  decide

/-- C03, lengths and errors of `random_id`, for every UUID text: 36 characters of which exactly
4 are hyphens. -/
theorem C03_random_id (uuid : List Char) (hlen : uuid.length = 36)
    (hhyp : uuid.count '-' = 4) :
    (∃ r, randomId uuid none = .ok r ∧ r.length = 36) ∧
    (∀ n : Int, 1 ≤ n → n ≤ 32 →
      ∃ r, randomId uuid (some n) = .ok r ∧ (r.length : Int) = n ∧ '-' ∉ r) ∧
    (∀ n : Int, n < 1 ∨ 32 < n → randomId uuid (some n) = .error .valueError) := by
  refine ⟨⟨uuid, rfl, hlen⟩, ?_, ?_⟩
  · intro n h1 h2
    refine ⟨(uuid.filter (· ≠ '-')).take n.toNat, ?_, ?_, ?_⟩
    · simp only [randomId]
      rw [if_neg (by omega), if_neg (by omega)]
    · have hc : (uuid.filter (· ≠ '-')).length = 32 := by
        have h3 := uuid.length_eq_countP_add_countP (p := (· == '-'))
        rw [List.count] at hhyp
        rw [← List.countP_eq_length_filter]
        have h4 : uuid.countP (fun a => decide (¬ (a == '-') = true)) =
            uuid.countP (fun x => decide (x ≠ '-')) := by
          congr 1; funext a; simp
        rw [h4] at h3
        omega
      rw [List.length_take, hc]
      omega
    · intro hm
      have := List.mem_of_mem_take hm
      simp at this
  · intro n hn
    simp only [randomId]
    rcases hn with hn | hn
    · rw [if_neg (by omega), if_pos (by omega)]
    · rw [if_pos (by omega)]

/-- A UUID text meeting the hypotheses of `C03_random_id`. -/
example : let u := "550e8400-e29b-41d4-a716-446655440000".toList
    u.length = 36 ∧ u.count '-' = 4 ∧
      randomId u (some 8) = .ok "550e8400".toList := by decide

section
variable {K : Type} [Field K] [LinearOrder K] [IsStrictOrderedRing K]

/-- C03, `random_between` stays between its arguments in whichever order they are given, and
never reaches the larger one unless they are equal. -/
theorem C03_random_between (v a b : K) (h0 : 0 ≤ v) (h1 : v < 1) :
    min a b ≤ randomBetween v a b ∧ randomBetween v a b ≤ max a b ∧
    (a ≠ b → randomBetween v a b < max a b) ∧
    randomBetween v a b = randomBetween v b a := by
  unfold randomBetween
  rcases lt_trichotomy a b with h | h | h
  · have h' : ¬ a > b := not_lt.2 h.le
    simp only [if_neg h', if_pos h, min_eq_left h.le, max_eq_right h.le]
    refine ⟨by nlinarith, by nlinarith, fun _ => by nlinarith, trivial⟩
  · subst h; simp
  · have h' : ¬ b > a := not_lt.2 h.le
    simp only [if_neg h', if_pos h, min_eq_right h.le, max_eq_left h.le]
    refine ⟨by nlinarith, by nlinarith, fun _ => by nlinarith, trivial⟩

/-- C03, `random_within` for a positive limit lies in `[-lim, lim)`, and is 0 for limit 0. -/
theorem C03_random_within (v lim : K) (h0 : 0 ≤ v) (h1 : v < 1) (hl : 0 ≤ lim) :
    -lim ≤ randomWithin v lim ∧ randomWithin v lim ≤ lim ∧
    (0 < lim → randomWithin v lim < lim) ∧ (lim = 0 → randomWithin v lim = 0) := by
  unfold randomWithin
  by_cases h : lim = 0
  · subst h; simp
  · have hp : 0 < lim := lt_of_le_of_ne hl (Ne.symm h)
    simp only [if_neg h]
    have e : 2 * lim * (v - 1 / 2) = lim * (2 * v - 1) := by ring
    rw [e]
    refine ⟨by nlinarith, by nlinarith, fun _ => by nlinarith, fun h' => absurd h' h⟩

end

example : randomBetween (1 / 4 : ℚ) 3 1 = 3 / 2 ∧ randomWithin (3 / 4 : ℚ) 2 = 1 := by
  norm_num [randomBetween, randomWithin]

end B3d.Util
