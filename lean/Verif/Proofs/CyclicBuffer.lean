import Verif.Model.CyclicBuffer
import Mathlib.Tactic.Ring
import Mathlib.Data.Nat.ModEq
import Mathlib.Data.Int.ModEq
import Mathlib.Tactic.Linarith

namespace B3d.CyclicBuffer

/-- State after the history `h` of writes. -/
structure Inv {α : Type} (N : Nat) (h : List α) (s : State α) : Prop where
  len : s.buffer.length = N
  head : s.head = h.length % N
  tail : s.tail = (h.length - (N - 1)) % N
  rows : ∀ i, i < h.length → h.length ≤ i + N → s.buffer[i % N]? = h[i]?

theorem Inv.init {α : Type} {N : Nat} (buf : List α) (hl : buf.length = N) :
    Inv N [] (⟨buf, 0, 0⟩ : State α) :=
  ⟨hl, by simp, by simp, by simp⟩

theorem Inv.step {α : Type} {N : Nat} (hN : 1 ≤ N) {h : List α} {s : State α} (hi : Inv N h s)
    (e : α) : ∃ s', cyclicBuf s e N = .ok s' ∧ Inv N (h ++ [e]) s' := by
  have hpos : 0 < N := hN
  have hlt : s.head < s.buffer.length := by
    rw [hi.len, hi.head]; exact Nat.mod_lt _ hpos
  refine ⟨_, if_pos hlt, ?_⟩
  have hhead : (s.head + 1) % N = (h.length + 1) % N := by
    rw [hi.head, Nat.mod_add_mod]
  refine ⟨by simp [hi.len], by simp [hhead], ?_, ?_⟩
  · -- tail
    simp only [hhead, hi.tail, List.length_append, List.length_singleton]
    rcases Nat.lt_or_ge h.length (N - 1) with hc | hc
    · have h1 : h.length - (N - 1) = 0 := by omega
      have h2 : h.length + 1 - (N - 1) = 0 := by omega
      rw [h1, h2, Nat.zero_mod, if_neg]
      rw [Nat.mod_eq_of_lt (by omega)]; omega
    · obtain ⟨d, hd⟩ := Nat.exists_eq_add_of_le hc
      have h1 : h.length - (N - 1) = d := by omega
      have h2 : h.length + 1 - (N - 1) = d + 1 := by omega
      have h3 : h.length + 1 = d + N := by omega
      rw [h1, h2, h3, Nat.add_mod_right, if_pos rfl, Nat.mod_add_mod]
  · intro i hil hir
    simp only [List.length_append, List.length_singleton] at hil hir
    have hiN : i % N < N := Nat.mod_lt _ hpos
    rcases Nat.lt_or_ge i h.length with hc | hc
    · have hne : s.head ≠ i % N := by
        rw [hi.head]
        intro heq
        have : (h.length - i) % N = 0 := by
          have := (Nat.modEq_iff_dvd' (by omega : i ≤ h.length)).1 heq.symm
          exact Nat.mod_eq_zero_of_dvd this
        have hlt2 : h.length - i < N := by omega
        rw [Nat.mod_eq_of_lt hlt2] at this
        omega
      rw [List.getElem?_set_ne hne, hi.rows i hc (by omega), List.getElem?_append_left hc]
    · have : i = h.length := by omega
      subst this
      rw [hi.head]
      rw [List.getElem?_set_self (by rw [hi.len]; exact Nat.mod_lt _ hpos)]
      simp

theorem writeAll_inv {α : Type} {N : Nat} (hN : 1 ≤ N) (ws : List α) :
    ∀ (h : List α) (s : State α), Inv N h s →
      ∃ s', writeAll N ws s = .ok s' ∧ Inv N (h ++ ws) s' := by
  induction ws with
  | nil => intro h s hi; exact ⟨s, rfl, by simpa using hi⟩
  | cons e es ih =>
    intro h s hi
    obtain ⟨s', hs', hi'⟩ := hi.step hN e
    obtain ⟨s'', hs'', hi''⟩ := ih _ _ hi'
    refine ⟨s'', ?_, by simpa using hi''⟩
    simp only [writeAll, hs']
    exact hs''

/-- Row `j` of the contiguous view is row `(tail + j) % N` of the buffer. -/
theorem contiguous_getElem? {α : Type} {N : Nat} {s : State α} (hl : s.buffer.length = N)
    (hh : s.head < N) (ht : s.tail < N) (j : Nat) :
    (convertToContiguous s)[j]? =
      if j < (s.head + N - s.tail) % N then s.buffer[(s.tail + j) % N]? else none := by
  unfold convertToContiguous
  split
  · next h => simp [h]
  · split
    · next h1 h2 =>
      have : s.head + N - s.tail = s.head - s.tail + N := by omega
      rw [this, Nat.add_mod_right, Nat.mod_eq_of_lt (by omega)]
      rw [List.getElem?_take]
      split
      · rw [List.getElem?_drop, Nat.mod_eq_of_lt (by omega)]
      · rfl
    · next h1 h2 =>
      have hlt : s.head + N - s.tail < N := by omega
      rw [Nat.mod_eq_of_lt hlt]
      rw [List.getElem?_append]
      split
      · next h3 =>
        rw [List.length_drop, hl] at h3
        rw [List.getElem?_drop, if_pos (by omega), Nat.mod_eq_of_lt (by omega)]
      · next h3 =>
        rw [List.length_drop, hl] at h3 ⊢
        rw [List.getElem?_take]
        have e1 : j - (N - s.tail) = s.tail + j - N := by omega
        rw [e1]
        by_cases h4 : j < s.head + N - s.tail
        · rw [if_pos h4, if_pos (by omega), Nat.mod_eq_sub_mod (by omega),
            Nat.mod_eq_of_lt (by omega)]
        · rw [if_neg h4, if_neg (by omega)]

theorem Inv.contiguous {α : Type} {N : Nat} (hN : 1 ≤ N) {h : List α} {s : State α}
    (hi : Inv N h s) :
    convertToContiguous s = h.drop (h.length - (N - 1)) := by
  have hpos : 0 < N := hN
  apply List.ext_getElem?
  intro j
  rw [contiguous_getElem? hi.len (by rw [hi.head]; exact Nat.mod_lt _ hpos)
    (by rw [hi.tail]; exact Nat.mod_lt _ hpos)]
  rw [List.getElem?_drop]
  rcases Nat.lt_or_ge h.length N with hc | hc
  · have h1 : h.length - (N - 1) = 0 := by omega
    have ht : s.tail = 0 := by rw [hi.tail, h1, Nat.zero_mod]
    have hh : s.head = h.length := by rw [hi.head, Nat.mod_eq_of_lt hc]
    rw [ht, hh, h1]
    simp only [Nat.sub_zero, Nat.add_mod_right, Nat.zero_add, Nat.mod_eq_of_lt hc]
    split
    · next hj => exact hi.rows j hj (by omega)
    · next hj => rw [List.getElem?_eq_none (by omega)]
  · obtain ⟨d, hd⟩ := Nat.exists_eq_add_of_le hc
    have h1 : h.length - (N - 1) = d + 1 := by omega
    rw [h1]
    have hlen : (s.head + N - s.tail) % N = N - 1 := by
      rw [hi.head, hi.tail, h1, hd, Nat.add_comm N d, Nat.add_mod_right]
      have hdN := Nat.mod_lt d hpos
      rcases Nat.lt_or_ge (d % N + 1) N with h5 | h5
      · have : (d + 1) % N = d % N + 1 := by
          rw [← Nat.mod_add_mod, Nat.mod_eq_of_lt h5]
        rw [this]
        have : d % N + N - (d % N + 1) = N - 1 := by omega
        rw [this, Nat.mod_eq_of_lt (by omega)]
      · have h6 : d % N + 1 = N := by omega
        have : (d + 1) % N = 0 := by
          rw [← Nat.mod_add_mod, h6, Nat.mod_self]
        rw [this, Nat.sub_zero, Nat.add_mod_right, Nat.mod_mod]
        omega
    rw [hlen]
    split
    · next hj =>
      rw [hi.tail, h1, Nat.mod_add_mod]
      exact hi.rows _ (by omega) (by omega)
    · next hj => rw [List.getElem?_eq_none (by omega)]

end B3d.CyclicBuffer
