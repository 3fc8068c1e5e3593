import Verif.Model.Triangles
import Verif.Proofs.Cyc
import Verif.Proofs.Tactics

set_option linter.unusedSectionVars false

namespace B3d.Triangles
open B3d.Spec

variable {α : Type} (convex : α → α → α → Except PyErr Bool)
  (inside : α → α → α → α → Except PyErr Bool) (pts : List α)

/-- Cyclic neighbours of the element at a position of a list. -/
theorem cyclic_neighbours {β : Type} (l : List β) (pos : Nat) (hl : l.length > 2)
    (hpos : pos < l.length) {p c n : β}
    (hp : l[if pos > 0 then pos - 1 else l.length - 1]? = some p) (hc : l[pos]? = some c)
    (hn : l[if pos < l.length - 1 then pos + 1 else 0]? = some n) :
    ∃ A B, l = A ++ c :: B ∧ l.eraseIdx pos = A ++ B ∧ (B ++ A).getLast? = some p ∧
      (B ++ A).head? = some n := by
  have hc' : l[pos] = c := by rw [List.getElem?_eq_getElem hpos] at hc; exact Option.some.inj hc
  have hl' : l = l.take pos ++ c :: l.drop (pos + 1) := by
    rw [← hc', List.getElem_cons_drop, List.take_append_drop]
  refine ⟨l.take pos, l.drop (pos + 1), hl', List.eraseIdx_eq_take_drop_succ .., ?_, ?_⟩
  · by_cases h0 : pos > 0
    · rw [if_pos h0] at hp
      rw [List.getLast?_append]
      have : (l.take pos).getLast? = some p := by
        rw [List.getLast?_eq_getElem?, List.getElem?_take]
        simp only [List.length_take]
        rw [show min pos l.length = pos by omega, if_pos (by omega)]
        exact hp
      rw [this]; rfl
    · have : pos = 0 := by omega
      subst this
      rw [if_neg h0] at hp
      simp only [List.take_zero, List.append_nil, Nat.zero_add]
      rw [List.getLast?_eq_getElem?, List.getElem?_drop, List.length_drop]
      rw [show 1 + (l.length - 1 - 1) = l.length - 1 by omega]
      exact hp
  · by_cases h1 : pos < l.length - 1
    · rw [if_pos h1] at hn
      rw [List.head?_append]
      have : (l.drop (pos + 1)).head? = some n := by
        rw [List.head?_drop]; exact hn
      rw [this]; rfl
    · rw [if_neg h1] at hn
      have : pos + 1 = l.length := by omega
      rw [List.drop_eq_nil_of_le (by omega), List.nil_append]
      rw [List.head?_eq_getElem?, List.getElem?_take, if_pos (by omega)]
      exact hn

/-- What an iteration that continues does: it either gives up on the current corner, or cuts off
the ear at it. -/
theorem step_cont {s s' : State α} (h : step convex inside pts s = .cont s') :
    s.vertices.length > 2 ∧ s.numFail ≤ pts.length ∧
    ((s'.vertices = s.vertices ∧ s'.triangles = s.triangles ∧ s'.numFail = s.numFail + 1) ∨
     (∃ A c B p n, s.vertices = A ++ c :: B ∧ s'.vertices = A ++ B ∧ (B ++ A).getLast? = some p ∧
        (B ++ A).head? = some n ∧ s'.triangles = s.triangles ++ [(p.1, c.1, n.1)] ∧
        s'.numFail = s.numFail ∧ convex p.2 c.2 n.2 = .ok true ∧
        anyPointInside inside pts p.1 c.1 n.1 s.vertices false = .ok false)) := by
  unfold step at h
  split at h
  case isFalse => cases h
  case isTrue hlen =>
  split at h
  case isTrue => cases h
  case isFalse hfail =>
  refine ⟨hlen, by omega, ?_⟩
  simp only [] at h
  generalize hpos : (if s.pos > s.vertices.length - 1 then 0 else s.pos) = pos at h
  have hposlt : pos < s.vertices.length := by
    rw [← hpos]; split <;> omega
  split at h
  case h_2 => cases h
  case h_1 prevId prevPt currId currPt nextId nextPt hp hc hn =>
  split at h
  · cases h
  · next hconv =>
    split at h
    · cases h
    · next hany =>
      cases h
      right
      obtain ⟨A, B, h1, h2, h3, h4⟩ := cyclic_neighbours _ pos hlen hposlt hp hc hn
      exact ⟨A, _, B, _, _, h1, h2, h3, h4, rfl, rfl, hconv, hany⟩
    · cases h
      exact Or.inl ⟨rfl, rfl, rfl⟩
  · cases h
    exact Or.inl ⟨rfl, rfl, rfl⟩

theorem step_finish {s : State α} {tri : List Tri} (h : step convex inside pts s = .finish tri) :
    s.vertices.length ≤ 2 ∧ tri = s.triangles := by
  unfold step at h
  split at h
  case isFalse hl => cases h; exact ⟨by omega, rfl⟩
  case isTrue hlen =>
  split at h
  · cases h
  · simp only [] at h
    split at h
    case h_2 => cases h
    case h_1 =>
    split at h
    · cases h
    · split at h <;> cases h
    · cases h

/-- Variant of the loop. -/
def measure (pts : List α) (s : State α) : Nat :=
  (s.vertices.length - 2) + (pts.length + 1 - s.numFail)

theorem step_measure {s s' : State α} (h : step convex inside pts s = .cont s') :
    measure pts s' < measure pts s := by
  obtain ⟨hl, hf, h | ⟨A, c, B, p, n, h1, h2, _, _, _, h6, _, _⟩⟩ := step_cont _ _ _ h
  · unfold measure
    rw [h.1, h.2.2]
    omega
  · unfold measure
    rw [h6]
    rw [h1] at hl ⊢
    rw [h2]
    simp only [List.length_append, List.length_cons] at hl ⊢
    omega

/-- More iterations than the variant allows do not change the result. -/
theorem run_fuel : ∀ (m fuel : Nat) (s : State α), measure pts s < m → m ≤ fuel →
    run convex inside pts m s ≠ none ∧
      run convex inside pts fuel s = run convex inside pts m s := by
  intro m
  induction m with
  | zero => intro fuel s h; omega
  | succ m ih =>
    intro fuel s h hf
    obtain ⟨fuel, rfl⟩ : ∃ f, fuel = f + 1 := ⟨fuel - 1, by omega⟩
    unfold run
    cases hs : step convex inside pts s with
    | cont s' =>
      simp only []
      exact ih fuel s' (by have := step_measure _ _ _ hs; omega) (by omega)
    | finish t => simp
    | flip => simp
    | raise e => simp

theorem length_initVertices : (initState pts).vertices.length = pts.length := by
  simp [initState]

theorem run_init_fuel (fuel : Nat) (h : 2 * pts.length + 2 ≤ fuel) :
    run convex inside pts fuel (initState pts) ≠ none ∧
    run convex inside pts fuel (initState pts) =
      run convex inside pts (2 * pts.length + 2) (initState pts) := by
  have hm : measure pts (initState pts) < 2 * pts.length + 2 := by
    unfold measure
    rw [length_initVertices]
    simp only [initState]
    omega
  have h1 := run_fuel convex inside pts _ fuel _ hm h
  exact ⟨h1.2 ▸ h1.1, h1.2⟩

theorem triangulateTries_fuel (z : Bool) (fuel : Nat) : ∀ (tries : Nat) (pts : List α),
    2 * pts.length + 2 ≤ fuel →
    triangulateTries z convex inside fuel tries pts ≠ none ∧
    triangulateTries z convex inside fuel tries pts =
      triangulateTries z convex inside (2 * pts.length + 2) tries pts := by
  intro tries
  induction tries with
  | zero => intro pts _; simp [triangulateTries]
  | succ k ih =>
    intro pts h
    unfold triangulateTries
    cases z
    · simp only [Bool.false_eq_true, if_false]
      obtain ⟨h1, h2⟩ := run_init_fuel convex inside pts fuel h
      have ih' := ih pts.reverse (by simpa using h)
      rw [List.length_reverse] at ih'
      rw [h2] at h1 ⊢
      cases hr : run convex inside pts (2 * pts.length + 2) (initState pts) with
      | none => exact absurd hr h1
      | some r =>
        rcases r with e | _ | t
        · simp
        · exact ih'
        · simp
    · simp

/-- The triangle visits its corners in the cyclic order of the outline. -/
def CyclicIncreasing (t : Tri) : Prop :=
  (t.1 < t.2.1 ∧ t.2.1 < t.2.2) ∨ (t.2.1 < t.2.2 ∧ t.2.2 < t.1) ∨ (t.2.2 < t.1 ∧ t.1 < t.2.1)

/-- Closed sum over the three directed edges of an index triangle. -/
def triSum {G : Type} [AddCommGroup G] (f : Nat → Nat → G) (t : Tri) : G :=
  f t.1 t.2.1 + f t.2.1 t.2.2 + f t.2.2 t.1

/-- Loop invariant. -/
structure Inv (s : State α) : Prop where
  sorted : (s.vertices.map Prod.fst).Pairwise (· < ·)
  coords : ∀ v ∈ s.vertices, pts[v.1]? = some v.2
  count : s.triangles.length + s.vertices.length = pts.length
  two : 2 ≤ s.vertices.length
  tri : ∀ t ∈ s.triangles, CyclicIncreasing t ∧ ∃ a b c, pts[t.1]? = some a ∧
    pts[t.2.1]? = some b ∧ pts[t.2.2]? = some c ∧ convex a b c = .ok true
  sum : ∀ (G : Type) [AddCommGroup G] (f : Nat → Nat → G), (∀ a b, f a b = -f b a) →
    (s.triangles.map (triSum f)).sum + cycSum f (s.vertices.map Prod.fst) =
      cycSum f (List.range pts.length)

theorem inv_init (h : 3 ≤ pts.length) : Inv convex pts (initState pts) := by
  have e : (initState pts).vertices.map Prod.fst = List.range pts.length := by
    simp only [initState]
    rw [List.map_fst_zip (by simp)]
  refine ⟨?_, ?_, ?_, ?_, ?_, ?_⟩
  · rw [e]; exact List.pairwise_lt_range
  · intro v hv
    obtain ⟨i, hi, hv⟩ := List.getElem_of_mem hv
    have hi' : i < pts.length := by simpa [initState] using hi
    simp only [initState, List.getElem_zip, List.getElem_range] at hv
    rw [← hv]
    exact List.getElem?_eq_getElem hi'
  · rw [length_initVertices]; simp [initState]
  · rw [length_initVertices]; omega
  · simp [initState]
  · intro G _ f hf
    rw [e]; simp [initState]

/-- The outline without the current vertex starts at the next and ends at the previous vertex. -/
theorem ear_split {β : Type} (A B : List β) (p n : β) (hlen : 2 ≤ A.length + B.length)
    (h3 : (B ++ A).getLast? = some p) (h4 : (B ++ A).head? = some n) :
    ∃ X, B ++ A = n :: X ++ [p] := by
  obtain ⟨Y, hY⟩ : ∃ Y, B ++ A = n :: Y := by
    cases hBA : B ++ A with
    | nil => rw [hBA] at h4; simp at h4
    | cons x Y => rw [hBA] at h4; simp at h4; exact ⟨Y, by rw [h4]⟩
  rcases List.eq_nil_or_concat Y with rfl | ⟨X, b, rfl⟩
  · have : (B ++ A).length = 1 := by rw [hY]; rfl
    simp at this; omega
  · refine ⟨X, ?_⟩
    rw [hY, List.concat_eq_append] at h3
    have hb : b = p := by
      rw [← List.cons_append, List.getLast?_concat] at h3
      exact Option.some.inj h3
    rw [hY, hb, List.concat_eq_append]; rfl

theorem inv_step {s s' : State α} (hi : Inv convex pts s)
    (h : step convex inside pts s = .cont s') : Inv convex pts s' := by
  obtain ⟨hl, hf, h | ⟨A, c, B, p, n, h1, h2, h3, h4, h5, h6, h7, h8⟩⟩ := step_cont _ _ _ h
  · obtain ⟨hv, ht, _⟩ := h
    exact ⟨hv ▸ hi.sorted, hv ▸ hi.coords, ht ▸ hv ▸ hi.count, hv ▸ hi.two, ht ▸ hi.tri,
      by rw [ht, hv]; exact hi.sum⟩
  have hlen : A.length + B.length + 1 = s.vertices.length := by
    rw [h1]; simp; omega
  -- split the remaining outline
  obtain ⟨X, hX⟩ := ear_split A B p n (by omega) h3 h4
  have hpm : p ∈ s.vertices := by
    have : p ∈ B ++ A := by rw [hX]; simp
    rw [h1]
    rcases List.mem_append.1 this with h | h <;> simp [h]
  have hnm : n ∈ s.vertices := by
    have : n ∈ B ++ A := by rw [hX]; simp
    rw [h1]
    rcases List.mem_append.1 this with h | h <;> simp [h]
  have hcm : c ∈ s.vertices := by rw [h1]; simp
  have hs := hi.sorted
  rw [h1] at hs
  simp only [List.map_append, List.map_cons] at hs
  rw [List.pairwise_append] at hs
  obtain ⟨hsA, hsB, hsAB⟩ := hs
  rw [List.pairwise_cons] at hsB
  obtain ⟨hcB, hsB⟩ := hsB
  refine ⟨?_, ?_, ?_, ?_, ?_, ?_⟩
  · rw [h2, List.map_append, List.pairwise_append]
    exact ⟨hsA, hsB, fun a ha b hb => hsAB a ha b (List.mem_cons_of_mem _ hb)⟩
  · intro v hv
    apply hi.coords
    rw [h2] at hv
    rw [h1]
    rcases List.mem_append.1 hv with h | h <;> simp [h]
  · have := hi.count
    rw [h5, h2]
    simp only [List.length_append, List.length_cons, List.length_nil]
    omega
  · rw [h2]; simp only [List.length_append]; omega
  · intro t ht
    rw [h5] at ht
    rcases List.mem_append.1 ht with ht | ht
    · exact hi.tri t ht
    · rw [List.mem_singleton] at ht
      subst ht
      refine ⟨?_, p.2, c.2, n.2, hi.coords p hpm, hi.coords c hcm, hi.coords n hnm, h7⟩
      have hAc : ∀ a ∈ A, a.1 < c.1 := fun a ha =>
        hsAB a.1 (List.mem_map_of_mem ha) c.1 (by simp)
      have hAB : ∀ a ∈ A, ∀ b ∈ B, a.1 < b.1 := fun a ha b hb =>
        hsAB a.1 (List.mem_map_of_mem ha) b.1 (List.mem_cons_of_mem _ (List.mem_map_of_mem hb))
      have hcB' : ∀ b ∈ B, c.1 < b.1 := fun b hb => hcB b.1 (List.mem_map_of_mem hb)
      unfold CyclicIncreasing
      simp only []
      -- where are `p` and `n`?
      cases B with
      | nil =>
        -- both in A
        simp only [List.nil_append] at hX
        have hsA' := hsA
        rw [hX] at hsA'
        simp only [List.map_append, List.map_cons, List.map_nil, List.cons_append,
          List.pairwise_cons] at hsA'
        have : n.1 < p.1 := hsA'.1 _ (by simp)
        right; right
        exact ⟨this, hAc p (by rw [hX]; simp)⟩
      | cons b B =>
        have hnb : n = b := by simpa using congrArg List.head? hX.symm
        rcases List.eq_nil_or_concat A with rfl | ⟨A', a, rfl⟩
        · rw [List.append_nil] at hX
          have hsB' := hsB
          rw [hX] at hsB'
          simp only [List.map_append, List.map_cons, List.map_nil, List.cons_append,
            List.pairwise_cons] at hsB'
          have : n.1 < p.1 := hsB'.1 _ (by simp)
          right; left
          exact ⟨hcB' n (by rw [hX]; simp), this⟩
        · have hpa : p = a := by
            rw [List.concat_eq_append, ← List.append_assoc] at h3
            rw [List.getLast?_concat] at h3
            exact (Option.some.inj h3).symm
          left
          rw [hpa, hnb]
          exact ⟨hAc a (by simp), hcB' b (by simp)⟩
  · intro G _ f hf
    rw [← hi.sum G f hf, h5, h2, h1]
    rw [List.map_append, List.sum_append, add_assoc]
    congr 1
    have e1 : cycSum f ((A ++ c :: B).map Prod.fst) = cycSum f (X.map Prod.fst ++ [p.1, c.1, n.1]) := by
      rw [List.map_append, cycSum_append_comm, ← List.map_append]
      rw [List.cons_append, hX]
      have : (c :: (n :: X ++ [p])).map Prod.fst = [c.1, n.1] ++ (X.map Prod.fst ++ [p.1]) := by simp
      rw [this, cycSum_append_comm]
      simp
    have e2 : cycSum f ((A ++ B).map Prod.fst) = cycSum f (X.map Prod.fst ++ [p.1, n.1]) := by
      rw [List.map_append, cycSum_append_comm, ← List.map_append, hX]
      have : (n :: X ++ [p]).map Prod.fst = [n.1] ++ (X.map Prod.fst ++ [p.1]) := by simp
      rw [this, cycSum_append_comm]
      simp
    rw [e1, e2, cycSum_ear f hf, cycSum_triple]
    simp [triSum, add_assoc]

theorem run_finish : ∀ (fuel : Nat) (s : State α) (tri : List Tri), Inv convex pts s →
    run convex inside pts fuel s = some (.ok (some tri)) →
    ∃ s', Inv convex pts s' ∧ s'.vertices.length = 2 ∧ tri = s'.triangles := by
  intro fuel
  induction fuel with
  | zero => intro s tri _ h; cases h
  | succ fuel ih =>
    intro s tri hi h
    unfold run at h
    cases hs : step convex inside pts s with
    | cont s' =>
      rw [hs] at h
      exact ih s' tri (inv_step convex inside pts hi hs) h
    | finish t =>
      rw [hs] at h
      simp only [Option.some.injEq, Except.ok.injEq] at h
      have := step_finish _ _ _ hs
      exact ⟨s, hi, by have := hi.two; omega, by rw [← h]; exact this.2⟩
    | flip => rw [hs] at h; simp at h
    | raise e => rw [hs] at h; simp at h

/-- What a successful triangulation guarantees. -/
structure Good (pts : List α) (tri : List Tri) : Prop where
  count : tri.length + 2 = pts.length
  each : ∀ t ∈ tri, CyclicIncreasing t ∧ ∃ a b c, pts[t.1]? = some a ∧
    pts[t.2.1]? = some b ∧ pts[t.2.2]? = some c ∧ convex a b c = .ok true
  sum : ∀ (G : Type) [AddCommGroup G] (f : Nat → Nat → G), (∀ a b, f a b = -f b a) →
    (tri.map (triSum f)).sum = cycSum f (List.range pts.length)

theorem triangulateTries_good (z : Bool) (fuel : Nat) : ∀ (tries : Nat) (pts : List α),
    3 ≤ pts.length → ∀ pts' tri,
    triangulateTries z convex inside fuel tries pts = some (.ok (pts', tri)) →
    (pts' = pts ∨ pts' = pts.reverse) ∧ Good convex pts' tri := by
  intro tries
  induction tries with
  | zero => intro pts _ pts' tri h; simp [triangulateTries] at h
  | succ k ih =>
    intro pts h3 pts' tri h
    unfold triangulateTries at h
    cases z
    · simp only [Bool.false_eq_true, if_false] at h
      cases hr : run convex inside pts fuel (initState pts) with
      | none => rw [hr] at h; simp at h
      | some r =>
        rw [hr] at h
        rcases r with e | _ | t
        · simp at h
        · simp only [] at h
          have := ih pts.reverse (by simpa using h3) pts' tri h
          rw [List.reverse_reverse] at this
          exact ⟨this.1.symm, this.2⟩
        · simp only [Option.some.injEq, Except.ok.injEq, Prod.mk.injEq] at h
          obtain ⟨rfl, rfl⟩ := h
          refine ⟨Or.inl rfl, ?_⟩
          obtain ⟨s', hi, h2, rfl⟩ := run_finish convex inside pts fuel _ _
            (inv_init convex pts h3) hr
          refine ⟨by have := hi.count; omega, hi.tri, ?_⟩
          intro G _ f hf
          rw [← hi.sum G f hf]
          have : cycSum f (s'.vertices.map Prod.fst) = 0 := by
            match s'.vertices, h2 with
            | [a, b], _ => exact cycSum_pair f hf a.1 b.1
          rw [this, add_zero]
    · simp at h

end B3d.Triangles
