import Verif.Model.Slice
import Verif.Spec.Slice
import Verif.Proofs.Cyc
import Verif.Proofs.Tactics

namespace B3d.Spec

variable {α : Type}

/-! ### Cutting outlines -/

theorem cutAlong_swap {outline s p1 p2 : List α} (h : CutAlong outline s p1 p2) :
    CutAlong outline s.reverse p2 p1 := by
  obtain ⟨x, y, F, G, M, rfl, ho, h1, h2⟩ := h
  refine ⟨y, x, G, F, M.reverse, by simp, ho.trans ?_, by simpa using h2, h1⟩
  have := List.isRotated_append (l := x :: F) (l' := y :: G)
  simpa using this

theorem cutAlong_cycSum {G : Type} [AddCommGroup G] {f : α → α → G} (hf : ∀ a b, f a b = -f b a)
    {outline s p1 p2 : List α} (h : CutAlong outline s p1 p2) :
    cycSum f p1 + cycSum f p2 = cycSum f outline := by
  obtain ⟨x, y, F, G, M, rfl, ho, h1, h2⟩ := h
  have := cycSum_cut f hf x y F G M.reverse
  rw [List.reverse_reverse] at this
  rw [cycSum_isRotated f ho, cycSum_isRotated f h1, cycSum_isRotated f h2, this]

section
variable {K : Type} [Field K] [LinearOrder K] {pts : List (Vec3 K)}

theorem Subdivides.rot {p q : List (Vec3 K)} (h : Subdivides pts p) (hr : p ~r q) : Subdivides pts q := by
  cases h with
  | rotate h => exact .rotate (h.trans hr)
  | insert h hs he => exact .insert h hs (he.trans hr)

/-- A point added on an edge in the middle of the list. -/
theorem Subdivides.middle {U V : List (Vec3 K)} {a b x : Vec3 K} (h : Subdivides pts (U ++ a :: b :: V))
    (hx : OnSegment a b x) : Subdivides pts (U ++ a :: x :: b :: V) := by
  have h1 : Subdivides pts (a :: b :: (V ++ U)) :=
    h.rot (by simpa using List.isRotated_append (l := U) (l' := a :: b :: V))
  refine .insert h1 hx ?_
  simpa using (List.isRotated_append (l := U) (l' := a :: x :: b :: V)).symm

/-- A point added on the closing edge. -/
theorem Subdivides.closing {V : List (Vec3 K)} {a b x : Vec3 K} (h : Subdivides pts (b :: V ++ [a]))
    (hx : OnSegment a b x) : Subdivides pts (x :: b :: V ++ [a]) := by
  have h1 : Subdivides pts (a :: b :: V) :=
    h.rot (List.isRotated_append (l := b :: V) (l' := [a]))
  refine .insert h1 hx ?_
  have := List.isRotated_append (l := [a]) (l' := x :: b :: V)
  simpa using this

theorem Subdivides.cycSum {G : Type} [AddCommGroup G] {f : Vec3 K → Vec3 K → G}
    (hadd : ∀ a b x, OnSegment a b x → f a x + f x b = f a b) {q : List (Vec3 K)} (h : Subdivides pts q) :
    B3d.Spec.cycSum f q = B3d.Spec.cycSum f pts := by
  induction h with
  | rotate h => exact (cycSum_isRotated f h).symm
  | insert h hs he ih =>
    rw [← ih, ← cycSum_isRotated f he, cycSum_cons, cycSum_cons]
    simp only [List.cons_append, pathSum_cons_cons]
    rw [← add_assoc, hadd _ _ _ hs]

/-- Sums over the edges of the two parts, each taken in the right direction, add up to the sum over the edges of the
polygon. -/
theorem cuts_oriented {s p1 p2 : List (Vec3 K)} (h : Cuts pts s p1 p2) :
    ∃ A B, (A = p1 ∨ A = p1.reverse) ∧ (B = p2 ∨ B = p2.reverse) ∧
      ∀ {G : Type} [AddCommGroup G] {f : Vec3 K → Vec3 K → G}, (∀ a b, f a b = -f b a) →
        (∀ a b x, OnSegment a b x → f a x + f x b = f a b) → cycSum f A + cycSum f B = cycSum f pts := by
  obtain ⟨o, A, B, ho, hc, hs⟩ := h
  have key : ∀ {p q : List (Vec3 K)}, SameOutline p q → ∃ p', (p' = p ∨ p' = p.reverse) ∧ p' ~r q := by
    rintro p q (h | h)
    · exact ⟨p, .inl rfl, h⟩
    · exact ⟨p.reverse, .inr rfl, h⟩
  rcases hs with ⟨h1, h2⟩ | ⟨h1, h2⟩
  · obtain ⟨A', hA, hA'⟩ := key h1
    obtain ⟨B', hB, hB'⟩ := key h2
    refine ⟨A', B', hA, hB, fun {G} _ f hf hadd => ?_⟩
    rw [cycSum_isRotated f hA', cycSum_isRotated f hB', cutAlong_cycSum hf hc, ho.cycSum hadd]
  · obtain ⟨A', hA, hA'⟩ := key h1
    obtain ⟨B', hB, hB'⟩ := key h2
    refine ⟨A', B', hA, hB, fun {G} _ f hf hadd => ?_⟩
    rw [cycSum_isRotated f hA', cycSum_isRotated f hB', add_comm, cutAlong_cycSum hf hc, ho.cycSum hadd]

end

end B3d.Spec

namespace B3d.Slice

open Spec

variable {α : Type}

/-! ### Walking around the outline -/

theorem stepOn_mod {n : Nat} (hn : 0 < n) (k : Nat) : stepOn n (k % n) = (k + 1) % n := by
  have hk := Nat.mod_lt k hn
  unfold stepOn
  rw [Nat.add_mod k 1 n]
  by_cases h : k % n + 1 = n
  · rw [if_pos (by omega)]
    rcases Nat.lt_or_ge 1 n with h1 | h1
    · rw [Nat.mod_eq_of_lt h1, h, Nat.mod_self]
    · have : n = 1 := by omega
      subst this
      simp [Nat.mod_one]
  · rw [if_neg (by omega), Nat.mod_eq_of_lt (a := 1) (by omega), Nat.mod_eq_of_lt (a := k % n + 1) (by omega)]

theorem stepBack_mod {n : Nat} (hn : 0 < n) (k : Nat) : stepBack n ((k + 1) % n) = k % n := by
  have hk := Nat.mod_lt k hn
  unfold stepBack
  rw [Nat.add_mod k 1 n]
  by_cases h : k % n + 1 = n
  · rcases Nat.lt_or_ge 1 n with h1 | h1
    · rw [Nat.mod_eq_of_lt h1, h, Nat.mod_self, if_pos rfl]
      omega
    · have : n = 1 := by omega
      subst this
      simp [Nat.mod_one]
  · rw [Nat.mod_eq_of_lt (a := 1) (by omega), Nat.mod_eq_of_lt (a := k % n + 1) (by omega), if_neg (by omega)]
    omega

theorem mod_ne {n k d : Nat} (hd : 0 < d) (hdn : d < n) : k % n ≠ (k + d) % n := by
  intro h
  have : (k + d - k) % n = 0 := Nat.sub_mod_eq_zero_of_mod_eq h.symm
  rw [Nat.add_sub_cancel_left, Nat.mod_eq_of_lt hdn] at this
  omega

theorem getElem_mod (pts : List α) (hn : 0 < pts.length) (k : Nat) :
    pts[k % pts.length]? = some (pts[k % pts.length]'(Nat.mod_lt _ hn)) :=
  List.getElem?_eq_getElem _

theorem rotate_getElem? {pts : List α} {k i : Nat} (hi : i < pts.length) :
    (pts.rotate k)[i]? = pts[(k + i) % pts.length]? := by
  rw [List.getElem?_rotate hi, Nat.add_comm]

theorem walk_on (pts : List α) (d fuel k : Nat) (hd : d < pts.length) (hf : d ≤ fuel) :
    walk (stepOn pts.length) pts ((k + d) % pts.length) fuel (k % pts.length) = (pts.rotate k).take d := by
  have hn : 0 < pts.length := by omega
  induction d generalizing k fuel with
  | zero => cases fuel <;> simp [walk]
  | succ d ih =>
    obtain ⟨f, rfl⟩ : ∃ f, fuel = f + 1 := ⟨fuel - 1, by omega⟩
    rw [walk, if_neg (mod_ne (by omega) hd), getElem_mod pts hn k, stepOn_mod hn]
    simp only
    have := ih f (k + 1) (by omega) (by omega)
    rw [show k + (d + 1) = k + 1 + d by omega, this]
    apply List.ext_getElem?
    intro i
    rcases Nat.lt_or_ge i (d + 1) with hi | hi
    · rw [List.getElem?_take_of_lt hi, rotate_getElem? (by omega)]
      cases i with
      | zero => simp [getElem_mod pts hn k]
      | succ i =>
        rw [List.getElem?_cons_succ, List.getElem?_take_of_lt (by omega), rotate_getElem? (by omega),
          show k + 1 + i = k + (i + 1) by omega]
    · rw [List.getElem?_eq_none (by simp; omega), List.getElem?_eq_none (by simp; omega)]

theorem walk_back (pts : List α) (d fuel k : Nat) (hd : d < pts.length) (hf : d ≤ fuel) :
    walk (stepBack pts.length) pts (k % pts.length) fuel ((k + d) % pts.length) =
      ((pts.rotate (k + 1)).take d).reverse := by
  have hn : 0 < pts.length := by omega
  induction d generalizing fuel with
  | zero => cases fuel <;> simp [walk]
  | succ d ih =>
    obtain ⟨f, rfl⟩ : ∃ f, fuel = f + 1 := ⟨fuel - 1, by omega⟩
    rw [walk, if_neg (mod_ne (by omega) hd).symm, getElem_mod pts hn (k + (d + 1)), ← Nat.add_assoc, stepBack_mod hn]
    simp only
    rw [ih f (by omega) (by omega), List.take_add_one, rotate_getElem? (by omega), List.reverse_append,
      show k + 1 + d = k + d + 1 by omega, getElem_mod pts hn (k + d + 1)]
    simp

/-! ### Finding points -/

/-- The points are told apart by `eq`. -/
def Distinct (eq : α → α → Bool) (pts : List α) : Prop :=
  ∀ (i j : Nat) (p q : α), pts[i]? = some p → pts[j]? = some q → eq p q = true → i = j

theorem lastMatch_eq {eq : α → α → Bool} (hrefl : ∀ p, eq p p = true) {pts : List α} (hd : Distinct eq pts) {k : Nat}
    {q : α} (hk : pts[k]? = some q) : lastMatch eq pts q = k := by
  have hlt : k < pts.length := by
    by_contra hlt
    rw [List.getElem?_eq_none (by omega)] at hk
    cases hk
  have key : ∀ m ≤ pts.length, (List.range m).foldl (fun acc i =>
      match pts[i]? with
      | some p => if eq p q then i else acc
      | none => acc) 0 = if k < m then k else 0 := by
    intro m hm
    induction m with
    | zero => simp
    | succ m ih =>
      rw [List.range_succ, List.foldl_append, ih (by omega)]
      simp only [List.foldl_cons, List.foldl_nil]
      rw [List.getElem?_eq_getElem (by omega : m < pts.length)]
      simp only
      by_cases hmk : m = k
      · subst hmk
        rw [List.getElem?_eq_getElem (by omega)] at hk
        cases hk
        simp [hrefl]
      · have : ¬ eq pts[m] q = true := fun he =>
          hmk (hd m k _ q (List.getElem?_eq_getElem (by omega)) hk he)
        rw [if_neg this]
        by_cases hlt : k < m
        · rw [if_pos hlt, if_pos (by omega)]
        · rw [if_neg hlt, if_neg (by omega)]
  have := key _ le_rfl
  rw [if_pos hlt] at this
  exact this

/-- Every number below `n` is reached from every other one. -/
theorem exists_dist {n a b : Nat} (ha : a < n) (hb : b < n) : ∃ d < n, (a + d) % n = b := by
  rcases Nat.lt_or_ge b a with h | h
  · refine ⟨b + n - a, by omega, ?_⟩
    rw [show a + (b + n - a) = b + n by omega, Nat.add_mod_right, Nat.mod_eq_of_lt hb]
  · exact ⟨b - a, by omega, by rw [show a + (b - a) = b by omega, Nat.mod_eq_of_lt hb]⟩

theorem take_rotate_succ {pts : List α} {k d : Nat} (hd : d < pts.length) :
    (pts.rotate k).take (d + 1) = pts[k % pts.length]?.toList ++ (pts.rotate (k + 1)).take d := by
  have hn : 0 < pts.length := by omega
  rw [getElem_mod pts hn k, Option.toList_some, List.singleton_append]
  apply List.ext_getElem?
  intro i
  rcases Nat.lt_or_ge i (d + 1) with hi | hi
  · rw [List.getElem?_take_of_lt hi, rotate_getElem? (by omega)]
    cases i with
    | zero => simp [getElem_mod pts hn k]
    | succ i =>
      rw [List.getElem?_cons_succ, List.getElem?_take_of_lt (by omega), rotate_getElem? (by omega),
        show k + 1 + i = k + (i + 1) by omega]
  · rw [List.getElem?_eq_none (by simp; omega), List.getElem?_eq_none (by simp; omega)]

theorem drop_rotate {pts : List α} {k d : Nat} (hd : d ≤ pts.length) :
    (pts.rotate k).drop d = (pts.rotate (k + d)).take (pts.length - d) := by
  apply List.ext_getElem?
  intro i
  rcases Nat.lt_or_ge i (pts.length - d) with hi | hi
  · rw [List.getElem?_take_of_lt hi, List.getElem?_drop, rotate_getElem? (by omega), rotate_getElem? (by omega),
      Nat.add_assoc]
  · rw [List.getElem?_eq_none (by simp; omega), List.getElem?_eq_none (by simp; omega)]

theorem rotate_split (pts : List α) (k d : Nat) : pts ~r (pts.rotate k).take d ++ (pts.rotate k).drop d := by
  rw [List.take_append_drop]
  exact ⟨k, rfl⟩

/-! ### The points of the parts -/

variable {eq : α → α → Bool} (hrefl : ∀ p, eq p p = true) {pts : List α} (hd : Distinct eq pts) {s : List α}
include hrefl hd

theorem caseEdges_eq {e1 e2 : Nat} (h1 : e1 < pts.length) (h2 : e2 < pts.length) (hne : e1 ≠ e2) :
    ∃ B F : List α, pts ~r B ++ F ∧ B.head? = pts[(e1 + 1) % pts.length]? ∧ B.getLast? = pts[e2]? ∧
      F.head? = pts[(e2 + 1) % pts.length]? ∧ F.getLast? = pts[e1]? ∧
      caseEdges eq pts (cycEdges pts) s e1 e2 = .ok (s ++ B.reverse, s ++ F) := by
  have hn : 0 < pts.length := by omega
  obtain ⟨d, hdn, he2⟩ := exists_dist (n := pts.length) (a := (e1 + 1) % pts.length) (b := e2) (Nat.mod_lt _ hn) h2
  rw [Nat.mod_add_mod] at he2
  have hd1 : d + 1 < pts.length := by
    rcases Nat.lt_or_ge (d + 1) pts.length with h | h
    · exact h
    · exfalso
      apply hne
      rw [← he2, show e1 + 1 + d = e1 + pts.length by omega, Nat.add_mod_right, Nat.mod_eq_of_lt h1]
  refine ⟨(pts.rotate (e1 + 1)).take (d + 1), (pts.rotate (e1 + 1)).drop (d + 1), rotate_split _ _ _, ?_, ?_, ?_, ?_, ?_⟩
  · rw [List.head?_eq_getElem?, List.getElem?_take_of_lt (by omega), rotate_getElem? hn, Nat.add_zero]
  · rw [List.getLast?_eq_getElem?, List.length_take, List.length_rotate, Nat.min_eq_left (by omega),
      List.getElem?_take_of_lt (by omega), Nat.add_sub_cancel, rotate_getElem? (by omega), he2]
  · rw [List.head?_drop, rotate_getElem? (by omega), show e1 + 1 + (d + 1) = (e1 + 1 + d) + 1 by omega,
      ← Nat.mod_add_mod, he2]
  · rw [List.getLast?_eq_getElem?, List.length_drop, List.length_rotate, List.getElem?_drop,
      rotate_getElem? (by omega), show e1 + 1 + (d + 1 + (pts.length - (d + 1) - 1)) = e1 + pts.length by omega,
      Nat.add_mod_right, Nat.mod_eq_of_lt h1]
  · have hm1 := Nat.mod_lt (e1 + 1) hn
    have hm2 := Nat.mod_lt (e2 + 1) hn
    unfold caseEdges
    rw [cycEdges_getElem? pts e1 h1, cycEdges_getElem? pts e2 h2]
    simp only
    rw [lastMatch_eq hrefl hd (List.getElem?_eq_getElem h1), lastMatch_eq hrefl hd (List.getElem?_eq_getElem h2),
      lastMatch_eq hrefl hd (List.getElem?_eq_getElem hm1), lastMatch_eq hrefl hd (List.getElem?_eq_getElem hm2)]
    have w1 := walk_back pts d pts.length (e1 + 1) hdn hdn.le
    rw [he2] at w1
    rw [w1]
    have w2 := walk_on pts (pts.length - (d + 2)) pts.length (e2 + 1) (by omega) (by omega)
    have e3 : (e2 + 1 + (pts.length - (d + 2))) % pts.length = e1 := by
      rw [← he2, Nat.add_assoc, Nat.mod_add_mod,
        show e1 + 1 + d + (1 + (pts.length - (d + 2))) = e1 + pts.length by omega,
        Nat.add_mod_right, Nat.mod_eq_of_lt h1]
    rw [e3] at w2
    rw [w2, take_rotate_succ hdn, List.reverse_append]
    have e4 : pts.rotate (e2 + 1) = pts.rotate (e1 + 1 + (d + 1)) := by
      rw [← List.rotate_mod pts (e2 + 1), ← List.rotate_mod pts (e1 + 1 + (d + 1))]
      congr 1
      rw [← he2, Nat.mod_add_mod]
      rfl
    have e5 : (pts.rotate (e1 + 1)).drop (d + 1) =
        (pts.rotate (e2 + 1)).take (pts.length - (d + 2)) ++ pts[e1]?.toList := by
      rw [drop_rotate (by omega), ← e4, show pts.length - (d + 1) = pts.length - (d + 2) + 1 by omega,
        List.take_add_one, rotate_getElem? (by omega), e3]
    rw [e5]
    simp only [List.append_assoc]
    congr 3
    cases pts[(e1 + 1) % pts.length]? <;> rfl

theorem caseVertexEdge_eq {v e : Nat} (h1 : v < pts.length) (h2 : e < pts.length) {x : α} (hx : pts[v]? = some x)
    (hs : s.head? = some x) :
    ∃ B F : List α, pts ~r x :: B ++ F ∧ (x :: B).getLast? = pts[e]? ∧
      (F ++ [x]).head? = pts[(e + 1) % pts.length]? ∧
      caseVertexEdge eq pts (cycEdges pts) s e = .ok (s ++ B.reverse, s ++ F) := by
  have hn : 0 < pts.length := by omega
  obtain ⟨d, hdn, he⟩ := exists_dist (n := pts.length) h1 h2
  have hxm : pts[v % pts.length]? = some x := by rw [Nat.mod_eq_of_lt h1, hx]
  have hroll : pts.rotate v = x :: (pts.rotate (v + 1)).take (pts.length - 1) := by
    have := take_rotate_succ (pts := pts) (k := v) (d := pts.length - 1) (by omega)
    rw [show pts.length - 1 + 1 = (pts.rotate v).length by simp; omega, List.take_length, hxm] at this
    exact this
  have hB : ((pts.rotate (v + 1)).take d).length = d := by simp; omega
  have hsplit : (pts.rotate (v + 1)).take (pts.length - 1) =
      (pts.rotate (v + 1)).take d ++ ((pts.rotate (v + 1)).drop d).take (pts.length - 1 - d) := by
    rw [← List.take_add, show d + (pts.length - 1 - d) = pts.length - 1 by omega]
  refine ⟨(pts.rotate (v + 1)).take d, ((pts.rotate (v + 1)).drop d).take (pts.length - 1 - d), ?_, ?_, ?_, ?_⟩
  · rw [List.cons_append, ← hsplit, ← hroll]
    exact ⟨v, rfl⟩
  · rw [List.getLast?_eq_getElem?, List.length_cons, hB, Nat.add_sub_cancel]
    rw [← he]
    cases d with
    | zero => simpa using hxm.symm
    | succ d =>
      rw [List.getElem?_cons_succ, List.getElem?_take_of_lt (by omega), rotate_getElem? (by omega)]
      congr 2
      omega
  · have e1 : (pts.rotate (v + 1)).drop d =
        ((pts.rotate (v + 1)).drop d).take (pts.length - 1 - d) ++ [x] := by
      conv_lhs => rw [← List.take_length (l := (pts.rotate (v + 1)).drop d), List.length_drop, List.length_rotate,
        show pts.length - d = pts.length - 1 - d + 1 by omega, List.take_add_one]
      congr 1
      rw [List.getElem?_drop, rotate_getElem? (by omega),
        show v + 1 + (d + (pts.length - 1 - d)) = v + pts.length by omega, Nat.add_mod_right, hxm]
      rfl
    rw [← e1, List.head?_drop, rotate_getElem? hdn, ← he, Nat.mod_add_mod]
    congr 2
    omega
  · have hm := Nat.mod_lt (e + 1) hn
    unfold caseVertexEdge
    rw [cycEdges_getElem? pts e h2, hs]
    simp only
    rw [lastMatch_eq hrefl hd (List.getElem?_eq_getElem h2), lastMatch_eq hrefl hd (List.getElem?_eq_getElem hm),
      lastMatch_eq hrefl hd hx]
    have w1 := walk_back pts d pts.length v hdn hdn.le
    rw [he, Nat.mod_eq_of_lt h1] at w1
    have w2 := walk_on pts (pts.length - 1 - d) pts.length (e + 1) (by omega) (by omega)
    have e3 : (e + 1 + (pts.length - 1 - d)) % pts.length = v := by
      rw [← he, Nat.add_assoc, Nat.mod_add_mod, show v + d + (1 + (pts.length - 1 - d)) = v + pts.length by omega,
        Nat.add_mod_right, Nat.mod_eq_of_lt h1]
    rw [e3] at w2
    rw [w1, w2]
    have e4 : pts.rotate (e + 1) = pts.rotate (v + 1 + d) := by
      rw [← List.rotate_mod pts (e + 1), ← List.rotate_mod pts (v + 1 + d)]
      congr 1
      rw [← he, Nat.mod_add_mod]
      congr 1
      omega
    rw [e4, drop_rotate (by omega), List.take_take, Nat.min_eq_left (by omega)]

theorem caseVertices_eq {v w : Nat} (h1 : v < pts.length) (h2 : w < pts.length) (hne : v ≠ w) {x y : α}
    (hx : pts[v]? = some x) (hy : pts[w]? = some y) (hs : s.head? = some x) (hl : s.getLast? = some y) :
    ∃ F G : List α, pts ~r x :: F ++ y :: G ∧
      caseVertices eq pts s = .ok (x :: F ++ s.tail.reverse, x :: G.reverse ++ s.tail.reverse) := by
  have hn : 0 < pts.length := by omega
  obtain ⟨d, hdn, he⟩ := exists_dist (n := pts.length) h1 h2
  have hd0 : d ≠ 0 := by
    rintro rfl
    rw [Nat.add_zero, Nat.mod_eq_of_lt h1] at he
    exact hne he
  obtain ⟨c, rfl⟩ : ∃ c, d = c + 1 := ⟨d - 1, by omega⟩
  have hxm : pts[v % pts.length]? = some x := by rw [Nat.mod_eq_of_lt h1, hx]
  have t1 : (pts.rotate v).take (c + 1) = x :: (pts.rotate (v + 1)).take c := by
    rw [take_rotate_succ (by omega), hxm]
    rfl
  have t2 : (pts.rotate v).drop (c + 1) = y :: (pts.rotate v).drop (c + 2) := by
    have : (pts.rotate v)[c + 1]? = some y := by rw [rotate_getElem? hdn, he, hy]
    obtain ⟨h, e⟩ := List.getElem?_eq_some_iff.1 this
    rw [List.drop_eq_getElem_cons h, e]
  refine ⟨(pts.rotate (v + 1)).take c, (pts.rotate v).drop (c + 2), ?_, ?_⟩
  · rw [← t1, ← t2]
    exact rotate_split _ _ _
  · unfold caseVertices
    rw [hs, hl]
    simp only
    rw [lastMatch_eq hrefl hd hx, lastMatch_eq hrefl hd hy]
    have w1 := walk_on pts (c + 1) pts.length v hdn hdn.le
    rw [he, Nat.mod_eq_of_lt h1, t1] at w1
    have w2 := walk_back pts (pts.length - (c + 1)) pts.length w (by omega) (by omega)
    have e3 : (w + (pts.length - (c + 1))) % pts.length = v := by
      rw [← he, Nat.mod_add_mod, show v + (c + 1) + (pts.length - (c + 1)) = v + pts.length by omega,
        Nat.add_mod_right, Nat.mod_eq_of_lt h1]
    rw [e3, Nat.mod_eq_of_lt h2] at w2
    have e4 : pts.rotate (w + 1) = pts.rotate (v + (c + 2)) := by
      rw [← List.rotate_mod pts (w + 1), ← List.rotate_mod pts (v + (c + 2))]
      congr 1
      rw [← he, Nat.mod_add_mod]
      rfl
    have e5 : (pts.rotate (w + 1)).take (pts.length - (c + 1)) = (pts.rotate v).drop (c + 2) ++ [x] := by
      rw [e4, show pts.length - (c + 1) = pts.length - (c + 2) + 1 by omega, List.take_add_one,
        ← drop_rotate (by omega), rotate_getElem? (by omega),
        show v + (c + 2) + (pts.length - (c + 2)) = v + pts.length by omega, Nat.add_mod_right, hxm]
      rfl
    rw [w1, w2, e5]
    simp

theorem insertAfter_eq {e : Nat} {a b : α} (he : pts[e]? = some a) (he1 : pts[e + 1]? = some b) :
    ∃ L R : List α, pts = L ++ a :: b :: R ∧ insertAfter eq (a, b) s pts = L ++ a :: s ++ b :: R := by
  obtain ⟨h1, e1⟩ := List.getElem?_eq_some_iff.1 he1
  obtain ⟨h0, e0⟩ := List.getElem?_eq_some_iff.1 he
  have hp : pts = pts.take e ++ a :: b :: pts.drop (e + 2) := by
    conv_lhs => rw [← List.take_append_drop e pts, List.drop_eq_getElem_cons h0, List.drop_eq_getElem_cons h1, e0, e1]
  refine ⟨pts.take e, pts.drop (e + 2), hp, ?_⟩
  have hL : ∀ p ∈ pts.take e, eq p a = false ∧ eq p b = false := by
    intro p hp
    obtain ⟨i, hi, rfl⟩ := List.getElem_of_mem hp
    rw [List.length_take] at hi
    rw [List.getElem_take]
    refine ⟨Bool.eq_false_iff.2 fun h => ?_, Bool.eq_false_iff.2 fun h => ?_⟩
    · have := hd i e _ a (List.getElem?_eq_getElem (by omega)) he h
      omega
    · have := hd i (e + 1) _ b (List.getElem?_eq_getElem (by omega)) he1 h
      omega
  have key : ∀ L R : List α, (∀ p ∈ L, eq p a = false ∧ eq p b = false) →
      insertAfter eq (a, b) s (L ++ a :: R) = L ++ a :: s ++ R := by
    intro L R hL
    induction L with
    | nil => simp [insertAfter, hrefl]
    | cons p L ih =>
      have := hL p (by simp)
      simp [insertAfter, this, ih fun p hp => hL p (by simp [hp])]
  conv_lhs => rw [hp]
  exact key _ _ hL

end B3d.Slice
