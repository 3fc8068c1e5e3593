import Verif.Proofs.CyclicBuffer

/-!
# C01 - the cyclic buffer keeps the most recent items in order

Specification: after writing `ws` one by one into a buffer with `N` rows, reading gives the longest
suffix of `ws` that has at most `N - 1` elements, i.e. `ws` without its first
`ws.length - (N - 1)` elements.
-/

namespace B3d.CyclicBuffer

/-- C01.  For every size `N ≥ 1`, every initial content of the buffer and every history of writes:
no write fails, the result is a suffix of the history, and it has `min k (N - 1)` elements.  (These
two facts determine the result.) -/
theorem C01_cyclic_buffer_last_items {α : Type} (N : Nat) (hN : 1 ≤ N) (buf : List α)
    (hbuf : buf.length = N) (ws : List α) :
    ∃ s, writeAll N ws ⟨buf, 0, 0⟩ = .ok s ∧
      convertToContiguous s <:+ ws ∧
      (convertToContiguous s).length = min ws.length (N - 1) := by
  obtain ⟨s, hs, hi⟩ := writeAll_inv hN ws [] ⟨buf, 0, 0⟩ (Inv.init buf hbuf)
  refine ⟨s, hs, ?_, ?_⟩
  · rw [hi.contiguous hN]
    simpa using List.drop_suffix _ _
  · rw [hi.contiguous hN]
    simp only [List.nil_append, List.length_drop]
    omega

/-- C01, capacity: the buffer never shows more than `N - 1` elements; a buffer of size 1 always
reads as empty. -/
theorem C01_cyclic_buffer_capacity {α : Type} (N : Nat) (hN : 1 ≤ N) (buf : List α)
    (hbuf : buf.length = N) (ws : List α) (s : State α)
    (hs : writeAll N ws ⟨buf, 0, 0⟩ = .ok s) :
    (convertToContiguous s).length < N := by
  obtain ⟨s', hs', -, hl⟩ := C01_cyclic_buffer_last_items N hN buf hbuf ws
  rw [hs] at hs'
  cases hs'
  omega

/-- C01, the pointers stay inside the buffer and the buffer keeps its size, so the next write is
in range. -/
theorem C01_cyclic_buffer_pointers_in_range {α : Type} (N : Nat) (hN : 1 ≤ N) (buf : List α)
    (hbuf : buf.length = N) (ws : List α) (s : State α)
    (hs : writeAll N ws ⟨buf, 0, 0⟩ = .ok s) :
    s.buffer.length = N ∧ s.head < N ∧ s.tail < N := by
  obtain ⟨s', hs', hi⟩ := writeAll_inv hN ws [] ⟨buf, 0, 0⟩ (Inv.init buf hbuf)
  rw [hs] at hs'
  cases hs'
  exact ⟨hi.len, hi.head ▸ Nat.mod_lt _ hN, hi.tail ▸ Nat.mod_lt _ hN⟩

/-- Non-vacuity: seven writes into a buffer of size 4 leave the last three. -/
example : (writeAll 4 [1, 2, 3, 4, 5, 6, 7] ⟨[0, 0, 0, 0], 0, 0⟩).map convertToContiguous
    = .ok [5, 6, 7] := by decide

example : (writeAll 3 [1] ⟨[0, 0, 0], 0, 0⟩).map convertToContiguous = .ok [1] := by decide

end B3d.CyclicBuffer
