import Verif.Model.PolygonObj
import Verif.Props.Triangles
import Verif.Props.PolygonBasic
import Verif.Props.Bboxes
import Mathlib.Data.List.Perm.Subperm

/-! # Lemmas about polygon objects -/

namespace B3d.Polygon

open Triangles

/-! ### Matching of points -/

section matching

variable {α : Type}

theorem findMatch_some {eq : α → α → Bool} {p : α} {m : List Nat} : ∀ {l : List (α × Nat)} {j : Nat},
    findMatch eq p m l = some j → j ∉ m ∧ ∃ q, (q, j) ∈ l ∧ eq p q = true
  | [], j, h => by simp [findMatch] at h
  | (q, k) :: l, j, h => by
    simp only [findMatch] at h
    split at h
    · rename_i hk
      split at h
      · rename_i he
        rw [Option.some.injEq] at h
        subst h
        exact ⟨hk, q, List.mem_cons_self, he⟩
      · obtain ⟨h1, q', h2, h3⟩ := findMatch_some h
        exact ⟨h1, q', List.mem_cons_of_mem _ h2, h3⟩
    · obtain ⟨h1, q', h2, h3⟩ := findMatch_some h
      exact ⟨h1, q', List.mem_cons_of_mem _ h2, h3⟩

theorem findMatch_none {eq : α → α → Bool} {p : α} {m : List Nat} : ∀ {l : List (α × Nat)},
    findMatch eq p m l = none → ∀ q j, (q, j) ∈ l → j ∉ m → eq p q = false
  | [], _, q, j, hm, _ => by simp at hm
  | (q', k) :: l, h, q, j, hm, hj => by
    simp only [findMatch] at h
    split at h
    · rename_i hk
      split at h
      · cases h
      · rename_i he
        rcases List.mem_cons.1 hm with hm | hm
        · rw [Prod.mk.injEq] at hm
          rw [hm.1]
          simpa using he
        · exact findMatch_none h q j hm hj
    · rename_i hk
      rcases List.mem_cons.1 hm with hm | hm
      · rw [Prod.mk.injEq] at hm
        exact absurd (hm.2 ▸ hj) hk
      · exact findMatch_none h q j hm hj

theorem matchLoop_le {eq : α → α → Bool} {l : List (α × Nat)} : ∀ (ps : List α) (m : List Nat) (n : Nat),
    matchLoop eq l ps m n ≤ n + ps.length
  | [], m, n => by simp [matchLoop]
  | p :: ps, m, n => by
    simp only [matchLoop, List.length_cons]
    split
    · have := matchLoop_le (eq := eq) (l := l) ps (‹Nat› :: m) (n + 1)
      omega
    · have := matchLoop_le (eq := eq) (l := l) ps m n
      omega

/-- If all points are matched, there are different numbers for them. -/
theorem matchLoop_full {eq : α → α → Bool} {l : List (α × Nat)} : ∀ (ps : List α) (m : List Nat) (n : Nat),
    matchLoop eq l ps m n = n + ps.length →
    ∃ js : List Nat, js.length = ps.length ∧ js.Nodup ∧ (∀ j ∈ js, j ∉ m) ∧
      ∀ (k : Nat) (p : α) (j : Nat), ps[k]? = some p → js[k]? = some j → ∃ q, (q, j) ∈ l ∧ eq p q = true
  | [], m, n, _ => ⟨[], by simp⟩
  | p :: ps, m, n, h => by
    simp only [matchLoop, List.length_cons] at h
    cases hf : findMatch eq p m l with
    | none =>
      rw [hf] at h
      have := matchLoop_le (eq := eq) (l := l) ps m n
      simp only at h
      omega
    | some j =>
      rw [hf] at h
      obtain ⟨js, h1, h2, h3, h4⟩ := matchLoop_full (eq := eq) (l := l) ps (j :: m) (n + 1) (by simp only at h; omega)
      obtain ⟨hj, q, hq, he⟩ := findMatch_some hf
      refine ⟨j :: js, by simp [h1], List.nodup_cons.2 ⟨fun hm => ?_, h2⟩, ?_, ?_⟩
      · exact h3 j hm List.mem_cons_self
      · intro i hi
        rcases List.mem_cons.1 hi with rfl | hi
        · exact hj
        · exact fun hm => h3 i hi (List.mem_cons_of_mem _ hm)
      · intro k p' j' hk hk'
        cases k with
        | zero =>
          simp only [List.getElem?_cons_zero, Option.some.injEq] at hk hk'
          subst hk hk'
          exact ⟨q, hq, he⟩
        | succ k =>
          rw [List.getElem?_cons_succ] at hk hk'
          exact h4 k p' j' hk hk'

/-- The points not matched yet. -/
def unmatched (m : List Nat) (l : List (α × Nat)) : List α :=
  (l.filter fun a => decide (a.2 ∉ m)).map Prod.fst

theorem unmatched_perm {m : List Nat} {j : Nat} {q : α} (hj : j ∉ m) : ∀ {l : List (α × Nat)},
    (l.map Prod.snd).Nodup → (q, j) ∈ l → (unmatched m l).Perm (q :: unmatched (j :: m) l)
  | [], _, h => by simp at h
  | (q', k) :: l, hn, h => by
    rw [List.map_cons, List.nodup_cons] at hn
    rcases List.mem_cons.1 h with h | h
    · rw [Prod.mk.injEq] at h
      obtain ⟨rfl, rfl⟩ := h
      have e : ∀ l' : List (α × Nat), j ∉ l'.map Prod.snd → unmatched (j :: m) l' = unmatched m l' := by
        intro l' hl'
        unfold unmatched
        congr 1
        apply List.filter_congr
        intro a ha
        have : a.2 ≠ j := fun e => hl' (List.mem_map.2 ⟨a, ha, e⟩)
        simp [this]
      have e1 : unmatched m ((q, j) :: l) = q :: unmatched m l := by
        simp [unmatched, hj]
      have e2 : unmatched (j :: m) ((q, j) :: l) = unmatched (j :: m) l := by
        simp [unmatched]
      rw [e1, e2, e l hn.1]
    · have ih := unmatched_perm hj hn.2 h
      have hkj : k ≠ j := fun e => hn.1 (List.mem_map.2 ⟨(q, j), h, e.symm⟩)
      by_cases hk : k ∈ m
      · have e1 : unmatched m ((q', k) :: l) = unmatched m l := by simp [unmatched, hk]
        have e2 : unmatched (j :: m) ((q', k) :: l) = unmatched (j :: m) l := by simp [unmatched, hk]
        rw [e1, e2]
        exact ih
      · have e1 : unmatched m ((q', k) :: l) = q' :: unmatched m l := by simp [unmatched, hk]
        have e2 : unmatched (j :: m) ((q', k) :: l) = q' :: unmatched (j :: m) l := by
          simp [unmatched, hk, hkj]
        rw [e1, e2]
        exact (ih.cons q').trans (List.Perm.swap _ _ _)

/-- With exact comparison all points are matched exactly if they are among the others, with
multiplicity. -/
theorem matchLoop_subperm {eq : α → α → Bool} {l : List (α × Nat)}
    (hn : (l.map Prod.snd).Nodup) : ∀ (ps : List α), (∀ p ∈ ps, ∀ a ∈ l, eq p a.1 = true ↔ p = a.1) →
    ∀ (m : List Nat) (n : Nat), matchLoop eq l ps m n = n + ps.length ↔ ps.Subperm (unmatched m l)
  | [], _, m, n => by simp [matchLoop, List.nil_subperm]
  | p :: ps, heq, m, n => by
    have heq' : ∀ p ∈ ps, ∀ a ∈ l, eq p a.1 = true ↔ p = a.1 := fun q hq =>
      heq q (List.mem_cons_of_mem _ hq)
    simp only [matchLoop, List.length_cons]
    cases hf : findMatch eq p m l with
    | none =>
      simp only
      have := matchLoop_le (eq := eq) (l := l) ps m n
      constructor
      · intro h; omega
      · intro h
        exfalso
        have hp : p ∈ unmatched m l := h.subset List.mem_cons_self
        obtain ⟨a, ha, he⟩ := List.mem_map.1 hp
        rw [List.mem_filter] at ha
        have h1 := findMatch_none hf a.1 a.2 ha.1 (by simpa using ha.2)
        have h2 := (heq p List.mem_cons_self a ha.1).2 he.symm
        rw [h1] at h2
        cases h2
    | some j =>
      simp only
      obtain ⟨hj, q, hq, he⟩ := findMatch_some hf
      have e := (heq p List.mem_cons_self (q, j) hq).1 he
      simp only at e
      subst e
      have hperm := unmatched_perm hj hn hq
      rw [List.Perm.subperm_left hperm, List.subperm_cons,
        ← matchLoop_subperm hn ps heq' (j :: m) (n + 1)]
      constructor <;> intro h <;> omega

theorem unmatched_nil (pts : List α) : unmatched [] pts.zipIdx = pts := by
  simp [unmatched]

theorem zipIdx_snd_nodup (pts : List α) : (pts.zipIdx.map Prod.snd).Nodup := by
  have : pts.zipIdx.map Prod.snd = List.range pts.length := by
    simp [List.zipIdx_map_snd, List.range_eq_range']
  rw [this]
  exact List.nodup_range

end matching

end B3d.Polygon
