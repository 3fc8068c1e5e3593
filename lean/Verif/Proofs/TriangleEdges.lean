import Verif.Proofs.Triangles
import Mathlib.Data.List.Count

set_option linter.unusedSectionVars false

/-!
Every directed edge of the triangles produced by ear clipping occurs once; outline edges occur in
the direction of the outline, inner edges in both directions.
-/

namespace B3d.Triangles
open B3d.Spec

variable {α : Type} (convex : α → α → α → Except PyErr Bool)
  (inside : α → α → α → α → Except PyErr Bool) (pts : List α)

/-- The three directed edges of a triangle. -/
def dirEdges (t : Tri) : List (Nat × Nat) := [(t.1, t.2.1), (t.2.1, t.2.2), (t.2.2, t.1)]

/-- Consecutive pairs of an open polyline. -/
def pathEdges {β : Type} : List β → List (β × β)
  | a :: b :: t => (a, b) :: pathEdges (b :: t)
  | _ => []

theorem pathEdges_eq_zip {β : Type} (a : β) (l : List β) :
    pathEdges (a :: l) = List.zip (a :: l) l := by
  induction l generalizing a with
  | nil => rfl
  | cons b l ih => simp only [pathEdges, List.zip_cons_cons]; rw [ih]

theorem pathEdges_concat {β : Type} (l : List β) (a b : β) :
    pathEdges (l ++ [a, b]) = pathEdges (l ++ [a]) ++ [(a, b)] := by
  induction l with
  | nil => rfl
  | cons x l ih =>
    cases l with
    | nil => rfl
    | cons y l => simp only [List.cons_append, pathEdges] at ih ⊢; rw [ih]

theorem cycEdges_cons {β : Type} (a : β) (l : List β) :
    cycEdges (a :: l) = pathEdges (a :: l ++ [a]) := by
  rw [List.cons_append, pathEdges_eq_zip]
  simp only [cycEdges]
  have : List.zip ((a :: l) ++ [a]) ((l ++ [a]) ++ []) =
      List.zip (a :: l) (l ++ [a]) ++ List.zip [a] [] := List.zip_append (by simp)
  simp only [List.append_nil, List.zip_nil_right, List.cons_append] at this
  exact this.symm

theorem pathEdges_append {β : Type} (l : List β) (x : β) (r : List β) :
    pathEdges (l ++ x :: r) = pathEdges (l ++ [x]) ++ pathEdges (x :: r) := by
  induction l with
  | nil => simp [pathEdges]
  | cons a l ih =>
    cases l with
    | nil => simp [pathEdges]
    | cons b l => simp only [List.cons_append, pathEdges] at ih ⊢; rw [ih]

theorem cycEdges_append_perm {β : Type} (A B : List β) :
    (cycEdges (A ++ B)).Perm (cycEdges (B ++ A)) := by
  cases A with
  | nil => simp
  | cons a A =>
    cases B with
    | nil => simp
    | cons b B =>
      simp only [List.cons_append, cycEdges_cons]
      have e1 : a :: (A ++ b :: B ++ [a]) = (a :: A) ++ b :: (B ++ [a]) := by simp
      have e2 : b :: (B ++ a :: A ++ [b]) = (b :: B) ++ a :: (A ++ [b]) := by simp
      rw [e1, e2, pathEdges_append (a :: A) b, pathEdges_append (b :: B) a]
      exact List.perm_append_comm

theorem mem_pathEdges {β : Type} {l : List β} {a b : β} (h : (a, b) ∈ pathEdges l) :
    a ∈ l ∧ b ∈ l := by
  induction l with
  | nil => cases h
  | cons x l ih =>
    cases l with
    | nil => cases h
    | cons y l =>
      simp only [pathEdges, List.mem_cons, Prod.mk.injEq] at h
      rcases h with ⟨rfl, rfl⟩ | h
      · simp
      · have := ih h
        exact ⟨List.mem_cons_of_mem _ this.1, List.mem_cons_of_mem _ this.2⟩

/-- The last vertex starts no edge and the first vertex ends none. -/
theorem pathEdges_ends {β : Type} {l : List β} {a b : β} {n p : β} {X : List β}
    (hl : l = n :: X ++ [p]) (hnd : l.Nodup) (h : (a, b) ∈ pathEdges l) : a ≠ p ∧ b ≠ n := by
  subst hl
  rw [List.cons_append, pathEdges_eq_zip, ← List.cons_append] at h
  have hz : List.zip (n :: X ++ [p]) (X ++ [p]) = List.zip (n :: X) (X ++ [p]) := by
    conv_lhs => rw [← List.append_nil (X ++ [p])]
    rw [List.zip_append (by simp)]
    simp
  rw [hz] at h
  have h1 := (List.of_mem_zip h).1
  have h2 := (List.of_mem_zip h).2
  have hnd' := hnd
  rw [List.nodup_append] at hnd
  rw [List.cons_append, List.nodup_cons] at hnd'
  refine ⟨fun e => ?_, fun e => ?_⟩
  · subst e; exact hnd.2.2 a h1 a (by simp) rfl
  · subst e; exact hnd'.1 h2

theorem pathEdges_nodup {β : Type} {l : List β} (h : l.Nodup) : (pathEdges l).Nodup := by
  induction l with
  | nil => exact List.nodup_nil
  | cons a l ih =>
    cases l with
    | nil => exact List.nodup_nil
    | cons b l =>
      rw [List.nodup_cons] at h
      simp only [pathEdges, List.nodup_cons]
      exact ⟨fun hm => h.1 (mem_pathEdges hm).1, ih h.2⟩

theorem cycEdges_nodup {l : List Nat} (h : l.Nodup) : (cycEdges l).Nodup := by
  have : (cycEdges l).map Prod.fst = l := by
    cases l with
    | nil => rfl
    | cons a l => simp only [cycEdges]; rw [List.map_fst_zip (by simp)]
  apply List.Nodup.of_map Prod.fst
  rw [this]; exact h

/-- Edge part of the loop invariant. -/
structure EInv (s : State α) : Prop where
  nodup : (s.triangles.flatMap dirEdges).Nodup
  both : 3 ≤ s.vertices.length →
    (s.triangles.flatMap dirEdges ++ cycEdges (s.vertices.map Prod.fst)).Nodup
  pending : 3 ≤ s.vertices.length → ∀ a b, (a, b) ∈ s.triangles.flatMap dirEdges →
    a ∈ s.vertices.map Prod.fst → b ∈ s.vertices.map Prod.fst →
    (b, a) ∈ cycEdges (s.vertices.map Prod.fst)

theorem einv_init : EInv (initState pts) := by
  have e : (initState pts).vertices.map Prod.fst = List.range pts.length := by
    simp only [initState]
    rw [List.map_fst_zip (by simp)]
  refine ⟨by simp [initState], fun _ => ?_, fun _ a b h => ?_⟩
  · rw [e]; simpa [initState] using cycEdges_nodup (List.nodup_range (n := pts.length))
  · simp [initState] at h

/-- Abstract ear step on vertex ids and the list of triangle edges. -/
theorem edges_ear (E : List (Nat × Nat)) (ids ids' X : List Nat) (p c n : Nat)
    (hids : (cycEdges ids).Perm (cycEdges (c :: (n :: X ++ [p]))))
    (hmem : ∀ v, v ∈ ids ↔ v = c ∨ v ∈ n :: X ++ [p])
    (hids' : (cycEdges ids').Perm (cycEdges (n :: X ++ [p])))
    (hmem' : ∀ v, v ∈ ids' ↔ v ∈ n :: X ++ [p])
    (hnd : (c :: (n :: X ++ [p])).Nodup)
    (hboth : (E ++ cycEdges ids).Nodup)
    (hpend : ∀ a b, (a, b) ∈ E → a ∈ ids → b ∈ ids → (b, a) ∈ cycEdges ids) :
    (E ++ dirEdges (p, c, n)).Nodup ∧
    (X ≠ [] → (E ++ dirEdges (p, c, n) ++ cycEdges ids').Nodup ∧
      ∀ a b, (a, b) ∈ E ++ dirEdges (p, c, n) → a ∈ ids' → b ∈ ids' → (b, a) ∈ cycEdges ids') := by
  set L := n :: X ++ [p] with hL
  have hO : cycEdges (c :: L) = (c, n) :: (pathEdges L ++ [(p, c)]) := by
    rw [cycEdges_cons, hL]
    have : c :: (n :: X ++ [p]) ++ [c] = c :: (n :: X ++ [p, c]) := by simp
    rw [this]
    show (c, n) :: pathEdges (n :: X ++ [p, c]) = _
    rw [pathEdges_concat]
  have hO' : cycEdges L = pathEdges L ++ [(p, n)] := by
    rw [hL, List.cons_append, cycEdges_cons]
    have : n :: (X ++ [p]) ++ [n] = (n :: X) ++ [p, n] := by simp
    rw [this, pathEdges_concat]
    simp
  rw [hO] at hids
  rw [hO'] at hids'
  have hLnd : L.Nodup := (List.nodup_cons.1 hnd).2
  have hcL : c ∉ L := (List.nodup_cons.1 hnd).1
  have hpL : p ∈ L := by simp [hL]
  have hnL : n ∈ L := by simp [hL]
  have hpc : p ≠ c := fun h => hcL (h ▸ hpL)
  have hnc : n ≠ c := fun h => hcL (h ▸ hnL)
  have hpn : p ≠ n := by
    intro h
    rw [hL, List.cons_append, List.nodup_cons] at hLnd
    exact hLnd.1 (by simp [h])
  have hboth' : (E ++ ((c, n) :: (pathEdges L ++ [(p, c)]))).Nodup :=
    (List.Perm.append_left E hids).nodup hboth
  have hpn_path : (p, n) ∉ pathEdges L := fun h => (pathEdges_ends hL hLnd h).1 rfl
  -- the case of the last ear
  by_cases hX : X = []
  · subst hX
    refine ⟨?_, fun h => absurd rfl h⟩
    have : pathEdges L = [(n, p)] := by rw [hL]; rfl
    rw [this] at hboth'
    apply (List.Perm.append_left E ?_).nodup hboth'
    simp only [dirEdges]
    rw [List.perm_iff_count]
    intro e
    simp only [List.count_cons, List.count_append, List.count_nil]
    omega
  · have hnp_path : (n, p) ∉ pathEdges L := by
      obtain ⟨x, X', rfl⟩ := List.exists_cons_of_ne_nil hX
      intro h
      rw [hL] at h
      simp only [List.cons_append, pathEdges, List.mem_cons, Prod.mk.injEq] at h
      have hnd2 := hLnd
      rw [hL] at hnd2
      simp only [List.cons_append, List.nodup_cons] at hnd2
      rcases h with ⟨_, h⟩ | h
      · exact hnd2.2.1 (by simp [h])
      · have := (mem_pathEdges h).1
        exact hnd2.1 (by simpa using this)
    have hpnE : (p, n) ∉ E := by
      intro h
      have := hpend p n h ((hmem p).2 (Or.inr hpL)) ((hmem n).2 (Or.inr hnL))
      have := hids.mem_iff.1 this
      simp only [List.mem_cons, List.mem_append, Prod.mk.injEq, List.not_mem_nil, or_false] at this
      rcases this with h | h | h
      · exact hnc h.1
      · exact hnp_path h
      · exact hpn h.1.symm
    have hnpE : (n, p) ∉ E := by
      intro h
      have := hpend n p h ((hmem n).2 (Or.inr hnL)) ((hmem p).2 (Or.inr hpL))
      have := hids.mem_iff.1 this
      simp only [List.mem_cons, List.mem_append, Prod.mk.injEq, List.not_mem_nil, or_false] at this
      rcases this with h | h | h
      · exact hpc h.1
      · exact hpn_path h
      · exact hnc h.2
    have big : (E ++ dirEdges (p, c, n) ++ cycEdges ids').Nodup := by
      have hperm : ((n, p) :: (p, n) :: (E ++ ((c, n) :: (pathEdges L ++ [(p, c)])))).Perm
          (E ++ dirEdges (p, c, n) ++ cycEdges ids') := by
        have h1 : (E ++ dirEdges (p, c, n) ++ cycEdges ids').Perm
            (E ++ dirEdges (p, c, n) ++ (pathEdges L ++ [(p, n)])) :=
          List.Perm.append_left _ hids'
        refine List.Perm.trans ?_ h1.symm
        rw [List.perm_iff_count]
        intro e
        simp only [dirEdges, List.count_cons, List.count_append, List.count_nil]
        omega
      refine hperm.nodup ?_
      rw [List.nodup_cons, List.nodup_cons]
      refine ⟨?_, ?_, hboth'⟩
      · simp only [List.mem_cons, List.mem_append, Prod.mk.injEq, List.not_mem_nil, or_false]
        rintro (h | h | h | h | h)
        · exact hpn h.1.symm
        · exact hnpE h
        · exact hnc h.1
        · exact hnp_path h
        · exact hpn h.1.symm
      · simp only [List.mem_cons, List.mem_append, Prod.mk.injEq, List.not_mem_nil, or_false]
        rintro (h | h | h | h)
        · exact hpnE h
        · exact hpc h.1
        · exact hpn_path h
        · exact hnc h.2
    refine ⟨(List.nodup_append.1 big).1, fun _ => ⟨big, ?_⟩⟩
    intro a b hab ha hb
    rw [hids'.mem_iff]
    have haL := (hmem' a).1 ha
    have hbL := (hmem' b).1 hb
    simp only [dirEdges, List.mem_append, List.mem_cons, Prod.mk.injEq, List.not_mem_nil,
      or_false] at hab ⊢
    rcases hab with h | h | h | h
    · have := hpend a b h ((hmem a).2 (Or.inr haL)) ((hmem b).2 (Or.inr hbL))
      have := hids.mem_iff.1 this
      simp only [List.mem_cons, List.mem_append, Prod.mk.injEq, List.not_mem_nil, or_false] at this
      rcases this with h | h | h
      · exact absurd (h.1 ▸ hbL) hcL
      · exact Or.inl h
      · exact absurd (h.2 ▸ haL) hcL
    · exact absurd (h.2 ▸ hbL) hcL
    · exact absurd (h.1 ▸ haL) hcL
    · exact Or.inr ⟨h.2, h.1⟩

theorem einv_step {s s' : State α} (hi : Inv convex pts s) (he : EInv s)
    (h : step convex inside pts s = .cont s') : EInv s' := by
  obtain ⟨hl, hf, h | ⟨A, c, B, p, n, h1, h2, h3, h4, h5, h6, h7, h8⟩⟩ := step_cont _ _ _ h
  · obtain ⟨hv, ht, _⟩ := h
    exact ⟨ht ▸ he.nodup, by rw [ht, hv]; exact he.both, by rw [ht, hv]; exact he.pending⟩
  obtain ⟨X, hX⟩ := ear_split A B p n (by rw [h1] at hl; simp at hl; omega) h3 h4
  have hXf : (B ++ A).map Prod.fst = n.1 :: X.map Prod.fst ++ [p.1] := by rw [hX]; simp
  have hmemBA : ∀ v, v ∈ (A ++ B).map Prod.fst ↔ v ∈ (B ++ A).map Prod.fst := by
    intro v; simp only [List.map_append, List.mem_append]; exact or_comm
  have key := edges_ear (s.triangles.flatMap dirEdges) (s.vertices.map Prod.fst)
    (s'.vertices.map Prod.fst) (X.map Prod.fst) p.1 c.1 n.1
    (by
      rw [h1, ← hXf, List.map_append, List.map_cons]
      refine (cycEdges_append_perm _ _).trans ?_
      rw [List.cons_append, ← List.map_append])
    (by
      intro v
      rw [h1, ← hXf]
      simp only [List.map_append, List.map_cons, List.mem_append, List.mem_cons]
      tauto)
    (by rw [h2, ← hXf, List.map_append, List.map_append]; exact cycEdges_append_perm _ _)
    (by intro v; rw [h2, ← hXf]; exact hmemBA v)
    (by
      have hnd : (s.vertices.map Prod.fst).Nodup := hi.sorted.imp (fun h => Nat.ne_of_lt h)
      rw [← hXf]
      refine List.Perm.nodup ?_ hnd
      rw [h1, List.map_append, List.map_cons, List.map_append]
      refine (List.perm_append_comm).trans ?_
      rw [List.cons_append])
    (he.both (by omega)) (he.pending (by omega))
  have e5 : s'.triangles.flatMap dirEdges =
      s.triangles.flatMap dirEdges ++ dirEdges (p.1, c.1, n.1) := by
    rw [h5, List.flatMap_append]; simp
  have hXne : 3 ≤ s'.vertices.length → X.map Prod.fst ≠ [] := by
    intro h3' h0
    have : (B ++ A).length = 2 := by
      rw [hX, List.map_eq_nil_iff.1 h0]; rfl
    rw [h2] at h3'
    simp at this h3'
    omega
  exact ⟨by rw [e5]; exact key.1, fun h => by rw [e5]; exact (key.2 (hXne h)).1,
    fun h => by rw [e5]; exact (key.2 (hXne h)).2⟩

theorem run_finish_edges : ∀ (fuel : Nat) (s : State α) (tri : List Tri), Inv convex pts s →
    EInv s → run convex inside pts fuel s = some (.ok (some tri)) →
    (tri.flatMap dirEdges).Nodup := by
  intro fuel
  induction fuel with
  | zero => intro s tri _ _ h; cases h
  | succ fuel ih =>
    intro s tri hi he h
    unfold run at h
    cases hs : step convex inside pts s with
    | cont s' =>
      rw [hs] at h
      exact ih s' tri (inv_step convex inside pts hi hs) (einv_step convex inside pts hi he hs) h
    | finish t =>
      rw [hs] at h
      simp only [Option.some.injEq, Except.ok.injEq] at h
      rw [← h, (step_finish _ _ _ hs).2]
      exact he.nodup
    | flip => rw [hs] at h; simp at h
    | raise e => rw [hs] at h; simp at h

theorem triangulateTries_edges (z : Bool) (fuel : Nat) : ∀ (tries : Nat) (pts : List α),
    3 ≤ pts.length → ∀ pts' tri,
    triangulateTries z convex inside fuel tries pts = some (.ok (pts', tri)) →
    (tri.flatMap dirEdges).Nodup := by
  intro tries
  induction tries with
  | zero => intro pts _ pts' tri h; simp [triangulateTries] at h
  | succ k ih =>
    intro pts h3 pts' tri h
    unfold triangulateTries at h
    cases z
    · simp only [Bool.false_eq_true, if_false] at h
      cases hr : run convex inside pts fuel (initState pts) with
      | none => rw [hr] at h; simp at h
      | some r =>
        rw [hr] at h
        rcases r with e | _ | t
        · simp at h
        · exact ih pts.reverse (by simpa using h3) pts' tri h
        · simp only [Option.some.injEq, Except.ok.injEq, Prod.mk.injEq] at h
          obtain ⟨rfl, rfl⟩ := h
          exact run_finish_edges convex inside pts fuel _ _ (inv_init convex pts h3)
            (einv_init pts) hr
    · simp at h

/-! ### Counting -/

/-- Signed count of the edge `i → j`. -/
def signed (i j : Nat) (a b : Nat) : ℤ :=
  (if (a, b) = (i, j) then 1 else 0) - (if (a, b) = (j, i) then 1 else 0)

theorem signed_antisymm (i j a b : Nat) : signed i j a b = -signed i j b a := by
  unfold signed
  by_cases h1 : a = i ∧ b = j <;> by_cases h2 : a = j ∧ b = i <;>
    simp [Prod.mk.injEq, h1, h2, and_comm] 

theorem sum_signed (i j : Nat) (E : List (Nat × Nat)) :
    (E.map fun e => signed i j e.1 e.2).sum = (E.count (i, j) : ℤ) - E.count (j, i) := by
  induction E with
  | nil => simp
  | cons e E ih =>
    rw [List.map_cons, List.sum_cons, ih, List.count_cons, List.count_cons, signed]
    simp only [beq_iff_eq]
    push_cast
    split <;> split <;> ring

theorem sum_triSum (f : Nat → Nat → ℤ) (tri : List Tri) :
    (tri.map (triSum f)).sum = ((tri.flatMap dirEdges).map fun e => f e.1 e.2).sum := by
  induction tri with
  | nil => rfl
  | cons t tri ih =>
    simp only [List.map_cons, List.sum_cons, List.flatMap_cons, List.map_append, List.sum_append,
      ih]
    simp [dirEdges, triSum, add_assoc]

theorem mem_cycEdges_range {n i j : Nat} :
    (i, j) ∈ cycEdges (List.range n) ↔ i < n ∧ j = (i + 1) % n := by
  constructor
  · intro h
    obtain ⟨k, hk, he⟩ := List.getElem_of_mem h
    rw [length_cycEdges, List.length_range] at hk
    have := cycEdges_getElem? (List.range n) k (by simpa using hk)
    rw [List.getElem?_eq_getElem (by rw [length_cycEdges]; simpa using hk), he] at this
    simp only [List.getElem_range, List.length_range, Option.some.injEq, Prod.mk.injEq] at this
    obtain ⟨rfl, rfl⟩ := this
    exact ⟨hk, rfl⟩
  · rintro ⟨hi, rfl⟩
    have := cycEdges_getElem? (List.range n) i (by simpa using hi)
    simp only [List.getElem_range, List.length_range] at this
    exact List.mem_of_getElem? this

theorem good_counts {pts : List α} {tri : List Tri} (hg : Good convex pts tri) (i j : Nat) :
    ((tri.flatMap dirEdges).count (i, j) : ℤ) - (tri.flatMap dirEdges).count (j, i) =
      (if i < pts.length ∧ j = (i + 1) % pts.length then 1 else 0) -
      (if j < pts.length ∧ i = (j + 1) % pts.length then 1 else 0) := by
  have h := hg.sum ℤ (signed i j) (signed_antisymm i j)
  rw [sum_triSum, sum_signed, cycSum_eq_edges, sum_signed] at h
  rw [h]
  have hnd := cycEdges_nodup (List.nodup_range (n := pts.length))
  have hc : ∀ a b, (cycEdges (List.range pts.length)).count (a, b) =
      if a < pts.length ∧ b = (a + 1) % pts.length then 1 else 0 := by
    intro a b
    rw [hnd.count]
    simp only [mem_cycEdges_range]
  rw [hc, hc]
  split <;> split <;> simp

end B3d.Triangles

/-! ### Exceptions -/

namespace B3d.Triangles
variable {α : Type} (convex : α → α → α → Except PyErr Bool)
  (inside : α → α → α → α → Except PyErr Bool) (pts : List α)

theorem anyPointInside_ok {p c n : Nat} {pp pc pn : α} (hp : pts[p]? = some pp)
    (hc : pts[c]? = some pc) (hn : pts[n]? = some pn) (hin : ∀ t, ∃ r, inside t pp pc pn = .ok r) :
    ∀ (l : List (Nat × α)) (found : Bool), (∀ v ∈ l, pts[v.1]? = some v.2) →
    ∃ r, anyPointInside inside pts p c n l found = .ok r := by
  intro l
  induction l with
  | nil => intro found _; exact ⟨found, rfl⟩
  | cons v l ih =>
    intro found hl
    obtain ⟨vi, vp⟩ := v
    have hv : pts[vi]? = some vp := hl (vi, vp) (by simp)
    have hl' : ∀ v ∈ l, pts[v.1]? = some v.2 := fun v hv => hl v (List.mem_cons_of_mem _ hv)
    unfold anyPointInside
    split
    · obtain ⟨r, hr⟩ := hin vp
      simp only [hv, hp, hc, hn, hr]
      exact ih _ hl'
    · exact ih _ hl'

theorem step_no_raise (hconv : ∀ a b c, ∃ r, convex a b c = .ok r)
    (hin : ∀ a b c, convex a b c = .ok true → ∀ t, ∃ r, inside t a b c = .ok r)
    {s : State α} (hi : Inv convex pts s) (e : PyErr) : step convex inside pts s ≠ .raise e := by
  intro h
  unfold step at h
  split at h
  case isFalse => cases h
  case isTrue hlen =>
  split at h
  case isTrue => cases h
  case isFalse hfail =>
  simp only [] at h
  generalize hpos : (if s.pos > s.vertices.length - 1 then 0 else s.pos) = pos at h
  have hposlt : pos < s.vertices.length := by
    rw [← hpos]; split <;> omega
  generalize hpr : (if pos > 0 then pos - 1 else s.vertices.length - 1) = prev at h
  have hprlt : prev < s.vertices.length := by rw [← hpr]; split <;> omega
  generalize hne : (if pos < s.vertices.length - 1 then pos + 1 else 0) = next at h
  have hnelt : next < s.vertices.length := by rw [← hne]; split <;> omega
  rw [List.getElem?_eq_getElem hposlt, List.getElem?_eq_getElem hprlt,
    List.getElem?_eq_getElem hnelt] at h
  simp only [] at h
  obtain ⟨r, hr⟩ := hconv s.vertices[prev].2 s.vertices[pos].2 s.vertices[next].2
  rw [hr] at h
  cases r with
  | false => cases h
  | true =>
    simp only [] at h
    obtain ⟨r2, hr2⟩ := anyPointInside_ok inside pts
      (hi.coords s.vertices[prev] (List.getElem_mem _))
      (hi.coords s.vertices[pos] (List.getElem_mem _))
      (hi.coords s.vertices[next] (List.getElem_mem _)) (hin _ _ _ hr) s.vertices false hi.coords
    rw [hr2] at h
    cases r2 <;> cases h

theorem run_no_raise (hconv : ∀ a b c, ∃ r, convex a b c = .ok r)
    (hin : ∀ a b c, convex a b c = .ok true → ∀ t, ∃ r, inside t a b c = .ok r) :
    ∀ (fuel : Nat) (s : State α), Inv convex pts s → ∀ e,
      run convex inside pts fuel s ≠ some (.error e) := by
  intro fuel
  induction fuel with
  | zero => intro s _ e h; cases h
  | succ fuel ih =>
    intro s hi e h
    unfold run at h
    cases hs : step convex inside pts s with
    | cont s' => rw [hs] at h; exact ih s' (inv_step convex inside pts hi hs) e h
    | finish t => rw [hs] at h; simp at h
    | flip => rw [hs] at h; simp at h
    | raise e' => exact step_no_raise convex inside pts hconv hin hi e' hs

theorem triangulateTries_errors (z : Bool) (fuel : Nat)
    (hconv : ∀ a b c, ∃ r, convex a b c = .ok r)
    (hin : ∀ a b c, convex a b c = .ok true → ∀ t, ∃ r, inside t a b c = .ok r) :
    ∀ (tries : Nat) (pts : List α) e,
    triangulateTries z convex inside fuel tries pts = some (.error e) → e = .triangulationError := by
  intro tries
  induction tries with
  | zero => intro pts e h; simp [triangulateTries] at h; exact h.symm
  | succ k ih =>
    intro pts e h
    unfold triangulateTries at h
    cases z
    · simp only [Bool.false_eq_true, if_false] at h
      cases hr : run convex inside pts fuel (initState pts) with
      | none => rw [hr] at h; simp at h
      | some r =>
        rw [hr] at h
        rcases r with e' | _ | t
        · exfalso
          by_cases h3 : 3 ≤ pts.length
          · exact run_no_raise convex inside pts hconv hin fuel _ (inv_init convex pts h3) e' hr
          · cases fuel with
            | zero => cases hr
            | succ fuel =>
              have hl : ¬ (initState pts).vertices.length > 2 := by
                rw [length_initVertices]; omega
              unfold run step at hr
              rw [if_neg hl] at hr
              simp at hr
        · exact ih pts.reverse e h
        · simp at h
    · simp at h; exact h.symm

end B3d.Triangles
