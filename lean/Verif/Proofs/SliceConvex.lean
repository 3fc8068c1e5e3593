import Verif.Props.SliceCross
import Verif.Props.Rounded
import Verif.Spec.Chord

/-!
# Slicing convex polygons: the plane

Three points of a convex outline in order always turn to the left.
-/

namespace B3d.SliceConvex

open Spec Planar

open List (Sublist)

/-- Three points in the order of the list always turn to the left. -/
def Pos (l : List (ℝ × ℝ)) : Prop := ∀ a b c, Sublist [a, b, c] l → 0 < signedArea a b c

theorem area_between (a b c d : ℝ × ℝ) (k : ℝ) :
    signedArea c d (lerp a b k) = (1 - k) * signedArea c d a + k * signedArea c d b := by
  unfold signedArea lerp; ring

theorem area_between_self (a b : ℝ × ℝ) (k : ℝ) : signedArea a b (lerp a b k) = 0 := by
  unfold signedArea lerp; ring

theorem area_left (a b c : ℝ × ℝ) : signedArea a b c = signedArea b c a := (signedArea_rot a b c).symm

theorem area_same (a c : ℝ × ℝ) : signedArea a c a = 0 ∧ signedArea c a a = 0 ∧ signedArea a a c = 0 := by
  unfold signedArea; refine ⟨?_, ?_, ?_⟩ <;> ring

theorem Pos.sublist {l l' : List (ℝ × ℝ)} (h : Pos l) (hs : Sublist l' l) : Pos l' :=
  fun a b c h3 => h a b c (h3.trans hs)

theorem Pos.swap {l1 l2 : List (ℝ × ℝ)} (h : Pos (l1 ++ l2)) : Pos (l2 ++ l1) := by
  intro a b c hs
  obtain ⟨x, y, e, hx, hy⟩ := List.sublist_append_iff.1 hs
  have hs' : Sublist (y ++ x) (l1 ++ l2) := hy.append hx
  match x, y, e with
  | [], _, e => cases e; exact h _ _ _ (by simpa using hs')
  | [_], _, e => cases e; have := h _ _ _ hs'; rwa [signedArea_rot] at this
  | [_, _], _, e => cases e; have := h _ _ _ hs'; rwa [← signedArea_rot] at this
  | [_, _, _], _, e => cases e; exact h _ _ _ (by simpa using hs')
  | _ :: _ :: _ :: _ :: _, _, e => simp at e

theorem Pos.rotate {l l' : List (ℝ × ℝ)} (h : Pos l) (hr : l ~r l') : Pos l' := by
  obtain ⟨n, rfl⟩ := hr
  rw [List.rotate_eq_drop_append_take_mod]
  apply Pos.swap
  rwa [List.take_append_drop]

theorem pos_cons {x : ℝ × ℝ} {l : List (ℝ × ℝ)} (h : Pos l)
    (hx : ∀ b c, Sublist [b, c] l → 0 < signedArea x b c) : Pos (x :: l) := by
  intro a b c hs
  cases hs with
  | cons _ hs => exact h _ _ _ hs
  | cons_cons _ hs => exact hx _ _ hs

theorem two_cons {R : ℝ × ℝ → ℝ × ℝ → Prop} {y : ℝ × ℝ} {l : List (ℝ × ℝ)} (h : ∀ c ∈ l, R y c)
    (hl : ∀ b c, Sublist [b, c] l → R b c) : ∀ b c, Sublist [b, c] (y :: l) → R b c := by
  intro b c hs
  cases hs with
  | cons _ hs => exact hl _ _ hs
  | cons_cons _ hs => exact h _ (List.singleton_sublist.1 hs)

theorem Pos.nodup {l : List (ℝ × ℝ)} (h : Pos l) (hn : 3 ≤ l.length) : l.Nodup := by
  rw [List.nodup_iff_getElem?_ne_getElem?]
  intro i j hij hj he
  have hi : l[i]? = some l[i] := List.getElem?_eq_getElem (by omega)
  have hj' : l[j]? = some l[i] := by rw [← he, hi]
  obtain ⟨k, hk, h1, h2⟩ : ∃ k, k < l.length ∧ k ≠ i ∧ k ≠ j := by
    by_cases h0 : i = 0
    · by_cases h1 : j = 1
      · exact ⟨2, by omega, by omega, by omega⟩
      · exact ⟨1, by omega, by omega, by omega⟩
    · exact ⟨0, by omega, by omega, by omega⟩
  have hk' : l[k]? = some l[k] := List.getElem?_eq_getElem hk
  obtain ⟨s1, s2, s3⟩ := area_same l[i] l[k]
  rcases Nat.lt_trichotomy k i with hlt | heq | hgt
  · have := h _ _ _ (ConvexEars.sublist3 hlt hij hk' hi hj')
    linarith
  · exact absurd heq h1
  · rcases Nat.lt_trichotomy k j with hlt | heq | hgt
    · have := h _ _ _ (ConvexEars.sublist3 hgt hlt hi hk' hj')
      linarith
    · exact absurd heq h2
    · have := h _ _ _ (ConvexEars.sublist3 hij hgt hi hj' hk')
      linarith

/-! ### The parts -/

theorem Pos.weak {l : List (ℝ × ℝ)} (h : Pos l) {i j k : Nat} {a b c : ℝ × ℝ} (hij : i ≤ j) (hjk : j ≤ k)
    (ha : l[i]? = some a) (hb : l[j]? = some b) (hc : l[k]? = some c) :
    0 ≤ signedArea a b c ∧ (i < j → j < k → 0 < signedArea a b c) := by
  rcases Nat.lt_or_eq_of_le hij with h1 | rfl
  · rcases Nat.lt_or_eq_of_le hjk with h2 | rfl
    · have := h _ _ _ (ConvexEars.sublist3 h1 h2 ha hb hc)
      exact ⟨this.le, fun _ _ => this⟩
    · rw [hb, Option.some.injEq] at hc
      subst hc
      rw [(area_same _ _).2.1]
      exact ⟨le_refl _, fun _ h => absurd h (lt_irrefl _)⟩
  · rw [ha, Option.some.injEq] at hb
    subst hb
    rw [(area_same _ _).2.2]
    exact ⟨le_refl _, fun h => absurd h (lt_irrefl _)⟩

theorem two_indices {α : Type} {b c : α} : ∀ {l : List α}, Sublist [b, c] l →
    ∃ i j : Nat, i < j ∧ l[i]? = some b ∧ l[j]? = some c
  | _ :: l, .cons _ hs => by
    obtain ⟨i, j, h1, h2, h3⟩ := two_indices hs
    exact ⟨i + 1, j + 1, by omega, by simpa using h2, by simpa using h3⟩
  | _ :: l, .cons_cons _ hs => by
    obtain ⟨j, hj⟩ := List.mem_iff_getElem?.1 (List.singleton_sublist.1 hs)
    exact ⟨0, j + 1, by omega, rfl, by simpa using hj⟩

theorem cross_sublist {l1 l2 : List (ℝ × ℝ)} {a b c : ℝ × ℝ} (ha : a ∈ l1) (h : Sublist [b, c] l2) :
    Sublist [a, b, c] (l1 ++ l2) := (List.singleton_sublist.2 ha).append h

/-- Both ends on sides. -/
theorem parts_edges {B F : List (ℝ × ℝ)} (h : Pos (B ++ F)) (hn : 3 ≤ (B ++ F).length) {b1 b2 f1 f2 : ℝ × ℝ}
    (hb1 : B.head? = some b1) (hb2 : B.getLast? = some b2) (hf1 : F.head? = some f1) (hf2 : F.getLast? = some f2)
    {s t : ℝ} (s0 : 0 < s) (s1 : s < 1) (t0 : 0 < t) (t1 : t < 1) :
    Pos (lerp f2 b1 s :: lerp b2 f1 t :: F) := by
  have hF := h.sublist (List.sublist_append_right B F)
  have hB : 0 < B.length := by cases B <;> simp at hb1 ⊢
  have hF0 : 0 < F.length := by cases F <;> simp at hf1 ⊢
  have hlen : (B ++ F).length = B.length + F.length := List.length_append
  have atB : ∀ i, i < B.length → (B ++ F)[i]? = B[i]? := fun i hi => List.getElem?_append_left hi
  have atF : ∀ i, (B ++ F)[B.length + i]? = F[i]? := by
    intro i
    rw [List.getElem?_append_right (by omega)]
    congr 1
    omega
  have e1 : (B ++ F)[0]? = some b1 := by rw [atB _ hB, ← List.head?_eq_getElem?, hb1]
  have e2 : (B ++ F)[B.length - 1]? = some b2 := by rw [atB _ (by omega), ← List.getLast?_eq_getElem?, hb2]
  have e3 : (B ++ F)[B.length]? = some f1 := by rw [← hf1, List.head?_eq_getElem?, ← atF 0, Nat.add_zero]
  have e4 : (B ++ F)[B.length + (F.length - 1)]? = some f2 := by rw [atF, ← List.getLast?_eq_getElem?, hf2]
  refine pos_cons (pos_cons hF ?_) (two_cons ?_ ?_)
  · intro b c hs
    obtain ⟨i, j, hij, hb, hc⟩ := two_indices hs
    rw [← atF] at hb hc
    have a1 := (h.weak (by omega) (by omega) e2 hb hc).2 (by omega) (by omega)
    have a2 := (h.weak (by omega) (by omega) e3 hb hc).1
    have e : signedArea (lerp b2 f1 t) b c = (1 - t) * signedArea b2 b c + t * signedArea f1 b c := by
      unfold signedArea lerp; ring
    rw [e]
    nlinarith
  · intro c hc
    obtain ⟨i, hi⟩ := List.mem_iff_getElem?.1 hc
    have hil := (List.getElem?_eq_some_iff.1 hi).1
    rw [← atF] at hi
    have e : signedArea (lerp f2 b1 s) (lerp b2 f1 t) c =
        (1 - s) * ((1 - t) * signedArea b2 c f2 + t * signedArea f1 c f2) +
          s * ((1 - t) * signedArea b1 b2 c + t * signedArea b1 f1 c) := by
      unfold signedArea lerp; ring
    rw [e]
    obtain ⟨a1, a1'⟩ := h.weak (by omega) (by omega) e2 hi e4
    obtain ⟨a2, -⟩ := h.weak (by omega) (by omega) e3 hi e4
    obtain ⟨a3, a3'⟩ := h.weak (by omega) (by omega) e1 e2 hi
    obtain ⟨a4, a4'⟩ := h.weak (by omega) (by omega) e1 e3 hi
    have p1 : 0 < 1 - s := by linarith
    have p2 : 0 < 1 - t := by linarith
    have q1 : 0 ≤ (1 - s) * ((1 - t) * signedArea b2 c f2) := by positivity
    have q2 : 0 ≤ (1 - s) * (t * signedArea f1 c f2) := by positivity
    have q3 : 0 ≤ s * ((1 - t) * signedArea b1 b2 c) := by positivity
    have q4 : 0 ≤ s * (t * signedArea b1 f1 c) := by positivity
    have : 0 < signedArea b2 c f2 ∨ 0 < signedArea b1 b2 c ∨ 0 < signedArea b1 f1 c := by
      by_cases c1 : 0 < i
      · exact .inr (.inr (a4' (by omega) (by omega)))
      by_cases c2 : i < F.length - 1
      · exact .inl (a1' (by omega) (by omega))
      · exact .inr (.inl (a3' (by omega) (by omega)))
    rcases this with k | k | k
    · have : 0 < (1 - s) * ((1 - t) * signedArea b2 c f2) := by positivity
      linarith
    · have : 0 < s * ((1 - t) * signedArea b1 b2 c) := by positivity
      linarith
    · have : 0 < s * (t * signedArea b1 f1 c) := by positivity
      linarith
  · intro b c hs
    obtain ⟨i, j, hij, hb, hc⟩ := two_indices hs
    have hjl := (List.getElem?_eq_some_iff.1 hc).1
    rw [← atF] at hb hc
    have a1 := (h.weak (by omega) (by omega) e1 hb hc).2 (by omega) (by omega)
    have a2 := (h.weak (by omega) (by omega) hb hc e4).1
    have e : signedArea (lerp f2 b1 s) b c = (1 - s) * signedArea b c f2 + s * signedArea b1 b c := by
      unfold signedArea lerp; ring
    rw [e]
    nlinarith

/-- One end at a corner, the other one on a side. -/
theorem parts_vertex_edge {B F : List (ℝ × ℝ)} {x : ℝ × ℝ} (h : Pos (x :: B ++ F)) {b2 f1 : ℝ × ℝ}
    (hb2 : B.getLast? = some b2) (hf1 : F.head? = some f1) {t : ℝ} (t0 : 0 < t) (t1 : t < 1) :
    Pos (x :: lerp b2 f1 t :: F) ∧ Pos (x :: B ++ [lerp b2 f1 t]) := by
  have hB : 0 < B.length := by cases B <;> simp at hb2 ⊢
  have hF0 : 0 < F.length := by cases F <;> simp at hf1 ⊢
  have hF := h.sublist (List.sublist_append_right (x :: B) F)
  have hxB := h.sublist (List.sublist_append_left (x :: B) F)
  have atB : ∀ i, i < B.length → (x :: B ++ F)[1 + i]? = B[i]? := by
    intro i hi
    rw [List.getElem?_append_left (by simp; omega), Nat.add_comm, List.getElem?_cons_succ]
  have atF : ∀ i, (x :: B ++ F)[B.length + 1 + i]? = F[i]? := by
    intro i
    rw [List.getElem?_append_right (by simp)]
    congr 1
    simp
  have e1 : (x :: B ++ F)[0]? = some x := rfl
  have e2 : (x :: B ++ F)[1 + (B.length - 1)]? = some b2 := by rw [atB _ (by omega), ← List.getLast?_eq_getElem?, hb2]
  have e3 : (x :: B ++ F)[B.length + 1]? = some f1 := by rw [← hf1, List.head?_eq_getElem?, ← atF 0, Nat.add_zero]
  have p2 : 0 < 1 - t := by linarith
  constructor
  · refine pos_cons (pos_cons hF ?_) (two_cons ?_ ?_)
    · intro b c hs
      obtain ⟨i, j, hij, hb, hc⟩ := two_indices hs
      rw [← atF] at hb hc
      have a1 := (h.weak (by omega) (by omega) e2 hb hc).2 (by omega) (by omega)
      have a2 := (h.weak (by omega) (by omega) e3 hb hc).1
      have e : signedArea (lerp b2 f1 t) b c = (1 - t) * signedArea b2 b c + t * signedArea f1 b c := by
        unfold signedArea lerp; ring
      rw [e]
      nlinarith
    · intro c hc
      obtain ⟨i, hi⟩ := List.mem_iff_getElem?.1 hc
      rw [← atF] at hi
      have a1 := (h.weak (by omega) (by omega) e1 e2 hi).2 (by omega) (by omega)
      have a2 := (h.weak (by omega) (by omega) e1 e3 hi).1
      have e : signedArea x (lerp b2 f1 t) c = (1 - t) * signedArea x b2 c + t * signedArea x f1 c := by
        unfold signedArea lerp; ring
      rw [e]
      nlinarith
    · intro b c hs
      exact h x b c (cross_sublist (l1 := x :: B) (List.mem_cons_self ..) hs)
  · have : Pos (lerp b2 f1 t :: (x :: B)) := by
      refine pos_cons hxB (two_cons ?_ ?_)
      · intro c hc
        obtain ⟨i, hi⟩ := List.mem_iff_getElem?.1 hc
        have hil := (List.getElem?_eq_some_iff.1 hi).1
        rw [← atB i hil] at hi
        have a1 := (h.weak (by omega) (by omega) e1 hi e2).1
        have a2 := (h.weak (by omega) (by omega) e1 hi e3).2 (by omega) (by omega)
        have e : signedArea (lerp b2 f1 t) x c = (1 - t) * signedArea x c b2 + t * signedArea x c f1 := by
          unfold signedArea lerp; ring
        rw [e]
        nlinarith
      · intro b c hs
        obtain ⟨i, j, hij, hb, hc⟩ := two_indices hs
        have hjl := (List.getElem?_eq_some_iff.1 hc).1
        rw [← atB i (by omega)] at hb
        rw [← atB j hjl] at hc
        have a1 := (h.weak (by omega) (by omega) hb hc e2).1
        have a2 := (h.weak (by omega) (by omega) hb hc e3).2 (by omega) (by omega)
        have e : signedArea (lerp b2 f1 t) b c = (1 - t) * signedArea b c b2 + t * signedArea b c f1 := by
          unfold signedArea lerp; ring
        rw [e]
        nlinarith
    have h2 := Pos.swap (l1 := [lerp b2 f1 t]) (l2 := x :: B) this
    exact h2

/-! ### Sides -/

theorem Pos.side {pts : List (ℝ × ℝ)} (h : Pos pts) {i : Nat} {a b : ℝ × ℝ} (hs : Side pts i a b) {c : ℝ × ℝ}
    {k : Nat} (hc : pts[k]? = some c) :
    0 ≤ signedArea a b c ∧ (k ≠ i → k ≠ (i + 1) % pts.length → 0 < signedArea a b c) := by
  obtain ⟨ha, hb⟩ := hs
  have hi := (List.getElem?_eq_some_iff.1 ha).1
  have hk := (List.getElem?_eq_some_iff.1 hc).1
  by_cases hl : i + 1 < pts.length
  · rw [Nat.mod_eq_of_lt hl] at hb ⊢
    rcases Nat.lt_or_ge k i with h1 | h1
    · have := (h.weak (by omega) (by omega) hc ha hb)
      rw [area_left] at this
      exact ⟨this.1, fun _ _ => this.2 h1 (by omega)⟩
    · rcases Nat.lt_or_ge i k with h2 | h2
      · have := (h.weak (by omega) (by omega) ha hb hc)
        exact ⟨this.1, fun _ _ => this.2 (by omega) (by omega)⟩
      · obtain rfl : i = k := by omega
        have := (h.weak (by omega) (by omega) hc ha hb)
        rw [area_left] at this
        exact ⟨this.1, fun h => absurd rfl h⟩
  · have e : (i + 1) % pts.length = 0 := by rw [show i + 1 = pts.length by omega, Nat.mod_self]
    rw [e] at hb ⊢
    have := (h.weak (by omega) (by omega) hb hc ha)
    rw [← area_left] at this
    exact ⟨this.1, fun _ _ => this.2 (by omega) (by omega)⟩

end B3d.SliceConvex
