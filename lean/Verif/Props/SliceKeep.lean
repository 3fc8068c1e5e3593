import Verif.Model.Slice
import Verif.Props.Util
import Verif.Props.PolygonBasic

/-!
# C43: which slicing points are kept

`remove_redundant_points` sees the slicing points and where each of them is with respect to the polygon.  The theorems
hold for every classification of the points, so `rollAndKeep` takes the points with their locations (`ls`), the number
of points of the polygon, and the outcome of the comparisons with the ends of edges.
-/

namespace B3d.Slice

variable {α : Type}

/-- A location on the boundary of the polygon. -/
def OnBoundary (l : Loc) : Prop := l.1 = .vertex ∨ l.1 = .edge

/-- The point before and the point after the start of the list, seen as a closed outline, are both not in the interior. -/
def StartsOutside (ls : List (α × Loc)) : Prop :=
  (∀ q, ls.head? = some q → q.2.1 ≠ .interior) ∧ ∀ q, ls.getLast? = some q → q.2.1 ≠ .interior

variable {n : Nat} {atE : α → Nat → Bool} {onE : Nat → Nat → Bool}

/-! ### Nothing is invented -/

theorem keepPoint_exterior (no : Bool) (p : α) (prev this next : Loc) (h : this.1 = .exterior) :
    keepPoint no atE onE p prev this next = (false, false) := by
  simp [keepPoint, h]

theorem keepLoop_sublist (no : Bool) (prev : Loc) (ls : List (α × Loc)) :
    List.Sublist (keepLoop no atE onE prev ls) ((ls.filter fun q => decide (q.2.1 ≠ .exterior)).map (·.1)) := by
  induction ls generalizing prev with
  | nil => simp [keepLoop]
  | cons q rest ih =>
    obtain ⟨p, this⟩ := q
    by_cases he : this.1 = .exterior
    · have e : keepLoop no atE onE prev ((p, this) :: rest) = keepLoop no atE onE this rest := by
        rw [keepLoop, keepPoint_exterior no p prev this _ he]
      rw [e]
      simpa [he] using ih this
    · have e : (((p, this) :: rest).filter fun q => decide (q.2.1 ≠ .exterior)).map (·.1) =
          p :: ((rest.filter fun q => decide (q.2.1 ≠ .exterior)).map (·.1)) := by simp [he]
      rw [e, keepLoop]
      split
      · simp
      · exact (ih this).cons_cons p
      · exact (ih this).cons p

theorem keepPoints_sublist (ls : List (α × Loc)) :
    List.Sublist (keepPoints n atE onE ls) ((ls.filter fun q => decide (q.2.1 ≠ .exterior)).map (·.1)) := by
  unfold keepPoints
  split
  · refine List.Sublist.map _ ?_
    have : ls.filter (fun q => decide (q.2.1 = .edge)) =
        (ls.filter fun q => decide (q.2.1 ≠ .exterior)).filter fun q => decide (q.2.1 = .edge) := by
      rw [List.filter_filter]
      refine List.filter_congr fun q _ => ?_
      by_cases h : q.2.1 = .edge <;> simp [h]
    rw [this]
    exact List.filter_sublist
  · exact keepLoop_sublist _ _ _

theorem rollForward_rotated {β : Type} (ls : List β) : ls ~r Util.rollForward ls := (Util.C02_roll_is_rotation ls).1

theorem startsOutside_iff (ls : List (α × Loc)) :
    ¬ (ls.head?.map (·.2.1) = some .interior ∨ ls.getLast?.map (·.2.1) = some .interior) ↔ StartsOutside ls := by
  simp only [StartsOutside, not_or, Option.map_eq_some_iff, not_exists, not_and, ne_eq]

theorem rollAndKeep_stop {left : Nat} {ls : List (α × Loc)} (h : StartsOutside ls) :
    rollAndKeep n atE onE left ls = keepPoints n atE onE ls := by
  rw [rollAndKeep.eq_def]
  exact if_neg ((startsOutside_iff ls).2 h)

theorem rollAndKeep_roll {left : Nat} {ls : List (α × Loc)} (h : ¬ StartsOutside ls) :
    rollAndKeep n atE onE (left + 1) ls = rollAndKeep n atE onE left (Util.rollForward ls) := by
  rw [rollAndKeep, if_pos (not_not.1 fun h' => h ((startsOutside_iff ls).1 h'))]

theorem rollAndKeep_zero {ls : List (α × Loc)} (h : ¬ StartsOutside ls) :
    rollAndKeep n atE onE 0 ls = (ls.take 1).map (·.1) := by
  rw [rollAndKeep, if_pos (not_not.1 fun h' => h ((startsOutside_iff ls).1 h'))]

/-- **C43, termination and outcome.**  The points are rolled at most `left` times.  Then either the slice is reported
impossible by returning a single point, or the points are those kept from a rotation of the slicing points which
starts and ends outside the interior. -/
theorem C43_outcome (left : Nat) (ls : List (α × Loc)) :
    ∃ ls', ls ~r ls' ∧
      ((StartsOutside ls' ∧ rollAndKeep n atE onE left ls = keepPoints n atE onE ls') ∨
        (¬ StartsOutside ls' ∧ (∀ j ≤ left, ¬ StartsOutside ((Util.rollForward)^[j] ls)) ∧
          (rollAndKeep n atE onE left ls).length = 1)) := by
  induction left generalizing ls with
  | zero =>
    by_cases h : StartsOutside ls
    · exact ⟨ls, List.IsRotated.refl _, .inl ⟨h, rollAndKeep_stop h⟩⟩
    · refine ⟨ls, List.IsRotated.refl _, .inr ⟨h, ?_, ?_⟩⟩
      · intro j hj
        obtain rfl : j = 0 := by omega
        exact h
      · rw [rollAndKeep_zero h]
        cases ls with
        | nil => exact absurd ⟨by simp, by simp⟩ h
        | cons a l => simp
  | succ left ih =>
    by_cases h : StartsOutside ls
    · exact ⟨ls, List.IsRotated.refl _, .inl ⟨h, rollAndKeep_stop h⟩⟩
    · obtain ⟨ls', hr, hc⟩ := ih (Util.rollForward ls)
      refine ⟨ls', (rollForward_rotated ls).trans hr, ?_⟩
      rw [rollAndKeep_roll h]
      rcases hc with hc | ⟨h1, h2, h3⟩
      · exact .inl hc
      · refine .inr ⟨h1, fun j hj => ?_, h3⟩
        cases j with
        | zero => exact h
        | succ j => rw [Function.iterate_succ_apply]; exact h2 j (by omega)

/-- **C43.**  Nothing is invented and nothing is reordered: the points which are returned occur in this order in a
rotation of the slicing points. -/
theorem C43_in_order (left : Nat) (ls : List (α × Loc)) :
    ∃ ls', ls ~r ls' ∧ List.Sublist (rollAndKeep n atE onE left ls) (ls'.map (·.1)) ∧
      ((rollAndKeep n atE onE left ls).length ≠ 1 →
        List.Sublist (rollAndKeep n atE onE left ls)
          ((ls'.filter fun q => decide (q.2.1 ≠ .exterior)).map (·.1))) := by
  induction left generalizing ls with
  | zero =>
    refine ⟨ls, List.IsRotated.refl _, ?_⟩
    by_cases h : StartsOutside ls
    · rw [rollAndKeep_stop h]
      exact ⟨(keepPoints_sublist ls).trans (List.Sublist.map _ List.filter_sublist), fun _ => keepPoints_sublist ls⟩
    · rw [rollAndKeep_zero h]
      refine ⟨List.Sublist.map _ (List.take_sublist _ _), fun hl => absurd ?_ hl⟩
      cases ls with
      | nil => exact absurd ⟨by simp, by simp⟩ h
      | cons a l => simp
  | succ left ih =>
    by_cases h : StartsOutside ls
    · refine ⟨ls, List.IsRotated.refl _, ?_⟩
      rw [rollAndKeep_stop h]
      exact ⟨(keepPoints_sublist ls).trans (List.Sublist.map _ List.filter_sublist), fun _ => keepPoints_sublist ls⟩
    · obtain ⟨ls', hr, hc⟩ := ih (Util.rollForward ls)
      refine ⟨ls', (rollForward_rotated ls).trans hr, ?_⟩
      rw [rollAndKeep_roll h]
      exact hc

/-! ### One pass through the interior -/

theorem keepPoint_interior (no : Bool) (p : α) (prev this next : Loc) (h : this.1 = .interior) :
    keepPoint no atE onE p prev this next = (true, false) := by
  simp [keepPoint, h]

theorem keepPoint_entry (no : Bool) (p : α) (prev this next : Loc) (h : OnBoundary this) (hn : next.1 = .interior) :
    keepPoint no atE onE p prev this next = (true, false) := by
  rcases h with h | h <;> simp [keepPoint, h, hn]

theorem keepPoint_exit (no : Bool) (p : α) (prev this next : Loc) (h : OnBoundary this) (hp : prev.1 = .interior)
    (hn : next.1 ≠ .interior) : keepPoint no atE onE p prev this next = (true, true) := by
  rcases h with h | h <;> simp [keepPoint, h, hp, hn]

theorem keepPoint_aside (p : α) (prev this next : Loc) (h : this.1 ≠ .interior) (hp : prev.1 ≠ .interior)
    (hn : next.1 ≠ .interior) : keepPoint false atE onE p prev this next = (false, false) := by
  simp only [keepPoint, h, hp, hn, Bool.false_and, false_and, if_false, ite_self]

theorem keepLoop_interior {ins : List (α × Loc)} (hi : ∀ q ∈ ins, q.2.1 = .interior) {prev : Loc} (hne : ins ≠ [] ∨ prev.1 = .interior)
    {c : α × Loc} (hc : OnBoundary c.2) {post : List (α × Loc)} (hp : (nextLoc post).1 ≠ .interior) (no : Bool) :
    keepLoop no atE onE prev (ins ++ c :: post) = ins.map (·.1) ++ [c.1] := by
  induction ins generalizing prev with
  | nil =>
    have hprev := hne.resolve_left (by simp)
    obtain ⟨p, l⟩ := c
    rw [List.nil_append, keepLoop, keepPoint_exit no p prev l _ hc hprev hp]
    rfl
  | cons q ins ih =>
    obtain ⟨p, l⟩ := q
    have hl : l.1 = .interior := hi (p, l) (by simp)
    rw [List.cons_append, keepLoop, keepPoint_interior no p prev l _ hl]
    simp only [List.map_cons, List.cons_append]
    rw [ih (fun q hq => hi q (by simp [hq])) (.inr hl)]

theorem keepLoop_run {pre : List (α × Loc)} (hpre : ∀ q ∈ pre, q.2.1 ≠ .interior) {prev : Loc}
    (hprev : prev.1 ≠ .interior) {b c : α × Loc} (hb : OnBoundary b.2) (hc : OnBoundary c.2)
    {ins : List (α × Loc)} (hne : ins ≠ []) (hi : ∀ q ∈ ins, q.2.1 = .interior) {post : List (α × Loc)}
    (hp : (nextLoc post).1 ≠ .interior) :
    keepLoop false atE onE prev (pre ++ b :: ins ++ c :: post) = b.1 :: ins.map (·.1) ++ [c.1] := by
  induction pre generalizing prev with
  | nil =>
    obtain ⟨p, l⟩ := b
    have hnext : (nextLoc (ins ++ c :: post)).1 = .interior := by
      cases ins with
      | nil => exact absurd rfl hne
      | cons q ins => exact hi q (by simp)
    rw [List.nil_append, List.cons_append, keepLoop, keepPoint_entry false p prev l _ hb hnext]
    simp only [List.cons_append]
    rw [keepLoop_interior hi (.inl hne) hc hp]
  | cons q pre ih =>
    obtain ⟨p, l⟩ := q
    have hl : l.1 ≠ .interior := hpre (p, l) (by simp)
    have hb' : b.2.1 ≠ .interior := by rcases hb with h | h <;> simp [h]
    have hnext : (nextLoc (pre ++ b :: ins ++ c :: post)).1 ≠ .interior := by
      cases pre with
      | nil => exact hb'
      | cons q pre => exact hpre q (by simp)
    rw [List.cons_append, List.cons_append, keepLoop, keepPoint_aside p prev l _ hl hprev hnext]
    exact ih (fun q hq => hpre q (by simp [hq])) hl

theorem count_add (ls : List (α × Loc)) : count .vertex ls + count .edge ls + count .interior ls ≤ ls.length := by
  induction ls with
  | nil => simp [count]
  | cons q ls ih =>
    simp only [count, List.countP_cons, List.length_cons, decide_eq_true_eq] at ih ⊢
    rcases q with ⟨p, k, i⟩
    cases k <;> simp <;> omega

theorem keepPoints_interior {ls : List (α × Loc)} (h : ∃ q ∈ ls, q.2.1 = .interior) :
    keepPoints n atE onE ls = keepLoop false atE onE (.invalid, 0) ls := by
  obtain ⟨q, hq, hk⟩ := h
  have hpos : 0 < count .interior ls := by
    rw [count, List.countP_pos_iff]
    exact ⟨q, hq, by simp [hk]⟩
  have := count_add ls
  unfold keepPoints
  rw [if_neg (by omega)]
  congr 1
  simpa using hpos.ne'

/-- **C43.**  If no point has to be rolled, then the first pass through the interior is kept: the point of the boundary
where it starts, the points of the interior, and the point of the boundary where it ends.  (The pass ends if the
next point is not in the interior.) -/
theorem C43_first_pass {left : Nat} {pre ins post : List (α × Loc)} {b c : α × Loc}
    (hs : StartsOutside (pre ++ b :: ins ++ c :: post)) (hpre : ∀ q ∈ pre, q.2.1 ≠ .interior)
    (hb : OnBoundary b.2) (hc : OnBoundary c.2) (hne : ins ≠ []) (hi : ∀ q ∈ ins, q.2.1 = .interior)
    (hpost : ∀ q, post.head? = some q → q.2.1 ≠ .interior) :
    rollAndKeep n atE onE left (pre ++ b :: ins ++ c :: post) = b.1 :: ins.map (·.1) ++ [c.1] := by
  obtain ⟨q, hq⟩ := List.exists_mem_of_ne_nil ins hne
  rw [rollAndKeep_stop hs, keepPoints_interior ⟨q, by simp [hq], hi q hq⟩]
  refine keepLoop_run hpre (by simp) hb hc hne hi ?_
  cases post with
  | nil => simp [nextLoc]
  | cons q post => exact hpost q (by simp)

theorem iterate_roll {β : Type} {ls ls' : List β} (h : ls ~r ls') : ∃ j ≤ ls.length, (Util.rollForward)^[j] ls = ls' := by
  have key : ∀ (m l : List β), (Util.rollForward)^[m.length] (l ++ m) = m ++ l := by
    intro m
    induction m using List.reverseRecOn with
    | nil => simp
    | append_singleton m a ih =>
      intro l
      rw [List.length_append, List.length_singleton, Function.iterate_add_apply]
      rw [Function.iterate_one, ← List.append_assoc, (Util.C02_rollForward_spec (l ++ m) a).1]
      have := ih (a :: l)
      rw [List.cons_append] at this
      rw [this]; simp
  obtain ⟨k, rfl⟩ := h
  rcases Nat.eq_zero_or_pos ls.length with h0 | h0
  · rw [List.length_eq_zero_iff] at h0
    subst h0
    exact ⟨0, by simp, by simp⟩
  · refine ⟨(ls.drop (k % ls.length)).length, by simp, ?_⟩
    rw [List.rotate_eq_drop_append_take_mod, ← key, List.take_append_drop]

/-- **C43.**  If the closed outline through the slicing points passes through the interior once, then exactly this pass
is kept, wherever the list of points starts: a contiguous part of the outline which starts and ends on the boundary of
the polygon, with the points of the interior between. -/
theorem C43_single_pass_partial {ls ins post : List (α × Loc)} {b c : α × Loc}
    (hr : ls ~r b :: ins ++ c :: post) (hb : OnBoundary b.2) (hc : OnBoundary c.2) (hne : ins ≠ [])
    (hi : ∀ q ∈ ins, q.2.1 = .interior) (hpost : ∀ q ∈ post, q.2.1 ≠ .interior) :
    rollAndKeep n atE onE (ls.length + 1) ls = b.1 :: ins.map (·.1) ++ [c.1] := by
  have hb' : b.2.1 ≠ .interior := by rcases hb with h | h <;> simp [h]
  have hc' : c.2.1 ≠ .interior := by rcases hc with h | h <;> simp [h]
  have hcut : StartsOutside (b :: ins ++ c :: post) := by
    refine ⟨by simpa using hb', fun q hq => ?_⟩
    rw [List.getLast?_append, List.getLast?_cons] at hq
    simp only [Option.some_or, Option.some.injEq] at hq
    subst hq
    rcases post.eq_nil_or_concat with rfl | ⟨l, a, rfl⟩
    · simpa using hc'
    · simpa using hpost a (by simp)
  obtain ⟨ls', hr', ho⟩ := C43_outcome (n := n) (atE := atE) (onE := onE) (ls.length + 1) ls
  have hcut' : StartsOutside ls' ∧ rollAndKeep n atE onE (ls.length + 1) ls = keepPoints n atE onE ls' := by
    refine ho.resolve_right fun ⟨_, hall, _⟩ => ?_
    obtain ⟨j, hj, he⟩ := iterate_roll hr
    exact hall j (by omega) (he ▸ hcut)
  obtain ⟨hs, hk⟩ := hcut'
  rw [hk, ← rollAndKeep_stop (left := 0) hs]
  -- where the list starts
  obtain ⟨k, hk', rfl⟩ := List.isRotated_iff_mod.1 (hr.symm.trans hr')
  obtain ⟨m, hm⟩ : ∃ m, m = ins.length := ⟨_, rfl⟩
  have hm0 : 0 < m := by rw [hm]; exact List.length_pos_iff.2 hne
  have hlen : (b :: ins ++ c :: post).length = m + 2 + post.length := by simp [hm]; omega
  rw [List.rotate_eq_drop_append_take hk'] at hs ⊢
  have hins : ∀ i < m, ∃ q, (b :: ins ++ c :: post)[i + 1]? = some q ∧ q.2.1 = .interior := by
    intro i hi'
    refine ⟨ins[i], ?_, hi _ (List.getElem_mem _)⟩
    rw [List.cons_append, List.getElem?_cons_succ, List.getElem?_append_left (by omega),
      List.getElem?_eq_getElem (by omega)]
  rcases Nat.eq_zero_or_pos k with rfl | hkpos
  · simp only [List.drop_zero, List.take_zero, List.append_nil] at hs ⊢
    exact C43_first_pass (pre := []) hs (by simp) hb hc hne hi
      (fun q hq => hpost q (List.mem_of_mem_head? hq))
  · by_cases hkm : k ≤ m + 1
    · exfalso
      by_cases hk1 : k ≤ m
      · obtain ⟨q, hq, hq'⟩ := hins (k - 1) (by omega)
        refine hs.1 q ?_ hq'
        rw [Nat.sub_add_cancel hkpos] at hq
        rw [List.head?_append, List.head?_drop, hq]
        rfl
      · obtain rfl : k = m + 1 := by omega
        obtain ⟨q, hq, hq'⟩ := hins (m - 1) (by omega)
        refine hs.2 q ?_ hq'
        rw [Nat.sub_add_cancel hm0] at hq
        have htake : (b :: ins ++ c :: post).take (m + 1) = (b :: ins ++ c :: post).take m ++ [q] := by
          rw [List.take_add_one, hq]
          rfl
        rw [List.getLast?_append, htake, List.getLast?_append]
        rfl
    · obtain ⟨j, rfl⟩ : ∃ j, k = m + 2 + j := ⟨k - (m + 2), by omega⟩
      have e : b :: ins ++ c :: post = (b :: ins ++ [c]) ++ post := by simp
      have el : (b :: ins ++ [c]).length = m + 2 := by simp [hm]
      have hd : (b :: ins ++ c :: post).drop (m + 2 + j) = post.drop j := by
        rw [e, List.drop_append, el, List.drop_eq_nil_of_le (by omega)]
        simp
      have ht : (b :: ins ++ c :: post).take (m + 2 + j) = b :: ins ++ c :: post.take j := by
        rw [e, List.take_append, el, List.take_of_length_le (by omega)]
        simp
      rw [hd, ht, ← List.append_assoc] at hs ⊢
      exact C43_first_pass hs (fun q hq => hpost q (List.mem_of_mem_drop hq)) hb hc hne hi
        (fun q hq => hpost q (List.mem_of_mem_take (List.mem_of_mem_head? hq)))

/-- The locations of the corners of a rectangle which overlaps a corner of a polygon, with the intersections: one pass
through the interior, split by the start of the list. -/
example : rollAndKeep (α := Nat) 4 (fun _ _ => false) (fun _ _ => false) 5
    [(0, .interior, 0), (1, .edge, 2), (2, .exterior, 0), (3, .edge, 1)] = [3, 0, 1] :=
  C43_single_pass_partial (ins := [(0, .interior, 0)]) (post := [(2, .exterior, 0)]) (b := (3, .edge, 1))
    (c := (1, .edge, 2)) ⟨3, rfl⟩ (.inr rfl) (.inr rfl) (by simp) (by simp) (by simp)

/-! ### Straight cuts -/

/-- Two points of the boundary between which the slice passes through the polygon: at different edges, at different
vertices, or at an edge and a vertex which is no end of it. -/
def Apart (atE : α → Nat → Bool) (onE : Nat → Nat → Bool) : α × Loc → α × Loc → Prop
  | (_, .edge, i), (_, .edge, j) => i ≠ j
  | (_, .vertex, i), (_, .vertex, j) => i ≠ j
  | (p, .vertex, i), (_, .edge, j) => atE p j = false ∧ onE i j = false
  | (_, .edge, i), (q, .vertex, j) => atE q i = false ∧ onE j i = false
  | _, _ => False

theorem keepLoop_exterior {ls : List (α × Loc)} (h : ∀ q ∈ ls, q.2.1 = .exterior) (no : Bool) (prev : Loc) :
    keepLoop no atE onE prev ls = [] := by
  induction ls generalizing prev with
  | nil => rfl
  | cons q ls ih =>
    obtain ⟨p, l⟩ := q
    rw [keepLoop, keepPoint_exterior no p prev l _ (h (p, l) (by simp))]
    exact ih (fun q hq => h q (by simp [hq])) l

theorem nextLoc_exterior {ls : List (α × Loc)} (h : ∀ q ∈ ls, q.2.1 = .exterior) :
    (nextLoc ls).1 = .invalid ∨ (nextLoc ls).1 = .exterior := by
  cases ls with
  | nil => exact .inl rfl
  | cons q ls => exact .inr (h q (by simp))

theorem keepLoop_straight {pre post : List (α × Loc)} (hpre : ∀ q ∈ pre, q.2.1 = .exterior)
    (hpost : ∀ q ∈ post, q.2.1 = .exterior) {b c : α × Loc} (h : Apart atE onE b c) {prev : Loc}
    (hprev : prev.1 = .invalid ∨ prev.1 = .exterior) :
    keepLoop true atE onE prev (pre ++ b :: c :: post) = [b.1, c.1] := by
  induction pre generalizing prev with
  | nil =>
    obtain ⟨p, k, i⟩ := b
    obtain ⟨q, l, j⟩ := c
    have hn := nextLoc_exterior hpost
    have hk := keepLoop_exterior (atE := atE) (onE := onE) hpost true (l, j)
    obtain ⟨N, hN⟩ : ∃ N, N = nextLoc post := ⟨_, rfl⟩
    rw [← hN] at hn
    rw [List.nil_append, keepLoop, keepLoop, hk, ← hN]
    obtain ⟨pk, pi⟩ := prev
    obtain ⟨nk, ni⟩ := N
    cases k <;> cases l <;> simp only [Apart] at h <;> rcases hprev with hprev | hprev <;> rcases hn with hn | hn <;>
      simp only at hprev hn <;> subst hprev hn <;> simp [keepPoint, nextLoc, h, Ne.symm (a := i) (b := j)]
  | cons q pre ih =>
    obtain ⟨p, l⟩ := q
    have hl : l.1 = .exterior := hpre (p, l) (by simp)
    rw [List.cons_append, keepLoop, keepPoint_exterior true p prev l _ hl]
    exact ih (fun q hq => hpre q (by simp [hq])) (.inr hl)

/-- **C43.**  A slice straight through the polygon, from one point of the boundary to the next one, is kept if all other
slicing points are outside the polygon. -/
theorem C43_straight {left : Nat} {pre post : List (α × Loc)} (hpre : ∀ q ∈ pre, q.2.1 = .exterior)
    (hpost : ∀ q ∈ post, q.2.1 = .exterior) {b c : α × Loc} (h : Apart atE onE b c) :
    rollAndKeep n atE onE left (pre ++ b :: c :: post) = [b.1, c.1] := by
  have hb : b.2.1 ≠ .interior ∧ c.2.1 ≠ .interior ∧ b.2.1 ≠ .exterior := by
    obtain ⟨p, k, i⟩ := b
    obtain ⟨q, l, j⟩ := c
    cases k <;> cases l <;> simp [Apart] at h ⊢
  have hall : ∀ q ∈ pre ++ b :: c :: post, q.2.1 ≠ .interior := by
    intro q hq
    simp only [List.mem_append, List.mem_cons] at hq
    rcases hq with hq | rfl | rfl | hq
    · simp [hpre q hq]
    · exact hb.1
    · exact hb.2.1
    · simp [hpost q hq]
  rw [rollAndKeep_stop ⟨fun q hq => hall q (List.mem_of_mem_head? hq),
    fun q hq => hall q (List.mem_of_mem_getLast? hq)⟩]
  unfold keepPoints
  rw [if_neg]
  · have : count .interior (pre ++ b :: c :: post) = 0 := by
      rw [count, List.countP_eq_zero]
      intro q hq
      simpa using hall q hq
    rw [this]
    exact keepLoop_straight hpre hpost h (.inl rfl)
  · rintro ⟨-, -, hv, he⟩
    have h1 : count .vertex pre = 0 ∧ count .edge pre = 0 := by
      simp only [count, List.countP_eq_zero]
      exact ⟨fun q hq => by simp [hpre q hq], fun q hq => by simp [hpre q hq]⟩
    have h2 : count .vertex post = 0 ∧ count .edge post = 0 := by
      simp only [count, List.countP_eq_zero]
      exact ⟨fun q hq => by simp [hpost q hq], fun q hq => by simp [hpost q hq]⟩
    simp only [count] at h1 h2
    simp only [count, List.countP_append, List.countP_cons, h1, h2, decide_eq_true_eq] at hv he
    obtain ⟨p, k, i⟩ := b
    cases k <;> simp at hv he <;> (try split at hv) <;> (try split at he) <;> simp_all

/-- A straight cut between two edges, with the other corners of the slicing outline outside. -/
example : rollAndKeep (α := Nat) 4 (fun _ _ => true) (fun _ _ => true) 5
    [(0, .exterior, 0), (1, .edge, 0), (2, .edge, 2), (3, .exterior, 0)] = [1, 2] :=
  C43_straight (pre := [(0, .exterior, 0)]) (post := [(3, .exterior, 0)]) (b := (1, .edge, 0)) (c := (2, .edge, 2))
    (by simp) (by simp) (by simp [Apart])

/-! ### What is not true

Four classifications for which the claim of C43 fails. -/

/-- **C43 fails**: a slicing line which touches the boundary between two passes through the interior is kept with both
passes, so there is a point of the boundary between the ends. -/
theorem C43_touching (i j k : Nat) (a b c d e : α) (left : Nat) :
    rollAndKeep n atE onE left
      [(a, .edge, i), (b, .interior, 0), (c, .edge, j), (d, .interior, 0), (e, .edge, k)] = [a, b, c, d, e] := by
  rw [rollAndKeep_stop ⟨by simp, by simp⟩, keepPoints_interior ⟨(b, .interior, 0), by simp, rfl⟩]
  simp [keepLoop, keepPoint, nextLoc]

/-- **C43 fails**: a straight cut along the closing edge of the slicing outline is not found, but it is if the same
outline starts at another point. -/
theorem C43_start_matters (i j : Nat) (hij : i ≠ j) (a b c d : α) (left : Nat) :
    rollAndKeep n atE onE left [(a, .edge, i), (b, .exterior, 0), (c, .exterior, 0), (d, .edge, j)] = [] ∧
    rollAndKeep n atE onE left [(d, .edge, j), (a, .edge, i), (b, .exterior, 0), (c, .exterior, 0)] = [d, a] := by
  refine ⟨?_, ?_⟩
  · rw [rollAndKeep_stop ⟨by simp, by simp⟩]
    simp [keepPoints, count, keepLoop, keepPoint, nextLoc]
  · exact C43_straight (pre := []) (post := [(b, .exterior, 0), (c, .exterior, 0)]) (b := (d, .edge, j))
      (c := (a, .edge, i)) (by simp) (by simp) (by simpa [Apart] using hij.symm)

/-- **C43 fails**: two neighbouring vertices, with nothing of the polygon on one side of the line between them, are kept
as a slice. -/
theorem C43_along_edge (i j : Nat) (hij : i ≠ j) (a b : α) (left : Nat) :
    rollAndKeep n atE onE left [(a, .vertex, i), (b, .vertex, j)] = [a, b] :=
  C43_straight (pre := []) (post := []) (b := (a, .vertex, i)) (c := (b, .vertex, j)) (by simp) (by simp)
    (by simpa [Apart] using hij)

/-- **C43 fails**: a straight cut from one edge to another is lost if the slicing outline goes on along the second edge. -/
theorem C43_cut_lost (i j : Nat) (hij : i ≠ j) (a b c : α) (left : Nat) :
    rollAndKeep n atE onE left [(a, .edge, i), (b, .edge, j), (c, .edge, j)] = [a] := by
  rw [rollAndKeep_stop ⟨by simp, by simp⟩]
  simp [keepPoints, count, keepLoop, keepPoint, nextLoc, hij]

/-! ### The function itself -/

theorem locateAll_map {pts : List (Vec3 ℝ)} {tri : List Triangles.Tri} {edges : List (Vec3 ℝ × Vec3 ℝ)}
    {s : List (Vec3 ℝ)} {ls : List (Vec3 ℝ × Loc)} (h : locateAll pts tri edges s = .ok ls) :
    ls.map (·.1) = s ∧ ∀ q ∈ ls, locatePoint q.1 pts tri edges = .ok q.2 := by
  induction s generalizing ls with
  | nil => cases h; simp
  | cons p s ih =>
    unfold locateAll at h
    split at h
    · cases h
    rename_i l hl
    split at h
    · cases h
    rename_i ls' hls
    cases h
    obtain ⟨h1, h2⟩ := ih hls
    refine ⟨by simp [h1], fun q hq => ?_⟩
    rcases List.mem_cons.1 hq with rfl | hq
    · exact hl
    · exact h2 q hq

/-- **C43** for `remove_redundant_points`: what is returned occurs in this order in a rotation of the slicing points,
and no slicing points at all are an error. -/
theorem C43_remove_redundant {s pts : List (Vec3 ℝ)} {tri : List Triangles.Tri} :
    (∀ r, removeRedundantPoints s pts tri = .ok r → ∃ s', s ~r s' ∧ List.Sublist r s') ∧
    (pts ≠ [] → removeRedundantPoints [] pts tri = .error .geometryError) := by
  refine ⟨fun r h => ?_, fun hp => ?_⟩
  · unfold removeRedundantPoints at h
    split at h
    · cases h
    rename_i edges _
    split at h
    · cases h
    rename_i ls hls
    cases h
    unfold locatePoints at hls
    split at hls
    · cases hls
    obtain ⟨hm, -⟩ := locateAll_map hls
    obtain ⟨ls', hr, hsub, -⟩ := C43_in_order (n := pts.length) (atE := atEdge edges) (onE := onEdge pts edges)
      (s.length + 1) ls
    exact ⟨ls'.map (·.1), hm ▸ hr.map _, hsub⟩
  · unfold removeRedundantPoints
    simp [Polygon.polygonEdges_eq 0 pts hp, locatePoints]

end B3d.Slice
