import Verif.Proofs.Slice
import Verif.Proofs.Rectangle
import Verif.Props.SliceKeep
import Verif.Props.Region
import Verif.Props.PolygonObj

/-!
# C41: slicing a polygon into two parts

`getPointArrays pts tri s` is `get_point_arrays`: the points of the two parts of the polygon `pts`, sliced along the
polyline `s`.
-/

namespace B3d.Slice

open Spec Points Polygon

/-! ### Only points of the polygon and of the slicing line -/

section

variable {α : Type} {eq : α → α → Bool} {turn : Except PyErr Bool} {pts : List α} {edges : List (α × α)}

theorem walk_subset (step : Nat → Nat) (last fuel i : Nat) : ∀ p ∈ walk step pts last fuel i, p ∈ pts := by
  induction fuel generalizing i with
  | zero => simp [walk]
  | succ f ih =>
    intro p hp
    rw [walk] at hp
    split at hp
    · simp at hp
    · split at hp
      · next q hq =>
        rcases List.mem_cons.1 hp with rfl | hp
        · exact List.mem_of_getElem? hq
        · exact ih _ p hp
      · simp at hp

theorem insertAfter_subset (edge : α × α) (s : List α) : ∀ p ∈ insertAfter eq edge s pts, p ∈ pts ∨ p ∈ s := by
  induction pts with
  | nil => simp [insertAfter]
  | cons a l ih =>
    intro p hp
    rw [insertAfter] at hp
    split at hp
    · simp only [List.cons_append, List.mem_cons, List.mem_append] at hp ⊢
      tauto
    · rcases List.mem_cons.1 hp with rfl | hp
      · simp
      · rcases ih p hp with h | h <;> simp [h]

theorem arrays_subset {ls : List (α × Loc)} {pts1 pts2 : List α} (h : arrays eq turn pts edges ls = .ok (pts1, pts2)) :
    (∀ p ∈ pts1, p ∈ pts ∨ p ∈ ls.map (·.1)) ∧ ∀ p ∈ pts2, p ∈ pts ∨ p ∈ ls.map (·.1) := by
  have hlast : ∀ (i : Nat) (p : α), p ∈ pts[i]?.toList → p ∈ pts := by
    intro i p hp
    rw [Option.mem_toList] at hp
    exact List.mem_of_getElem? hp
  have hve : ∀ (s : List α) (e : Nat), (∀ p ∈ s, p ∈ ls.map (·.1)) → caseVertexEdge eq pts edges s e = .ok (pts1, pts2) →
      (∀ p ∈ pts1, p ∈ pts ∨ p ∈ ls.map (·.1)) ∧ ∀ p ∈ pts2, p ∈ pts ∨ p ∈ ls.map (·.1) := by
    intro s e hs h
    unfold caseVertexEdge at h
    split at h
    · simp only [Except.ok.injEq, Prod.mk.injEq] at h
      obtain ⟨rfl, rfl⟩ := h
      refine ⟨fun p hp => ?_, fun p hp => ?_⟩ <;> rcases List.mem_append.1 hp with hp | hp
      · exact .inr (hs p hp)
      · exact .inl (walk_subset _ _ _ _ p hp)
      · exact .inr (hs p hp)
      · exact .inl (walk_subset _ _ _ _ p hp)
    · cases h
  unfold arrays at h
  simp only at h
  split at h
  · split at h
    · unfold caseEdges at h
      split at h
      · simp only [Except.ok.injEq, Prod.mk.injEq] at h
        obtain ⟨rfl, rfl⟩ := h
        refine ⟨fun p hp => ?_, fun p hp => ?_⟩ <;> simp only [List.mem_append] at hp <;> rcases hp with (hp | hp) | hp
        · exact .inr hp
        · exact .inl (walk_subset _ _ _ _ p hp)
        · exact .inl (hlast _ p hp)
        · exact .inr hp
        · exact .inl (walk_subset _ _ _ _ p hp)
        · exact .inl (hlast _ p hp)
      · cases h
    · cases h
  split at h
  · split at h
    · unfold caseSameEdge at h
      split at h
      · cases h
      split at h
      · simp only [Except.ok.injEq, Prod.mk.injEq] at h
        obtain ⟨rfl, rfl⟩ := h
        refine ⟨fun p hp => .inr hp, fun p hp => ?_⟩
        rcases insertAfter_subset _ _ p hp with hp | hp
        · exact .inl hp
        · split at hp
          · exact .inr (List.mem_reverse.1 hp)
          · exact .inr hp
      · cases h
    · cases h
  split at h
  · split at h
    · split at h
      · exact hve _ _ (fun p hp => hp) h
      · exact hve _ _ (fun p hp => List.mem_reverse.1 hp) h
      · cases h
    · cases h
  split at h
  · unfold caseVertices at h
    split at h
    · simp only [Except.ok.injEq, Prod.mk.injEq] at h
      obtain ⟨rfl, rfl⟩ := h
      refine ⟨fun p hp => ?_, fun p hp => ?_⟩ <;> rcases List.mem_append.1 hp with hp | hp
      · exact .inl (walk_subset _ _ _ _ p hp)
      · exact .inr (List.mem_of_mem_tail (List.mem_reverse.1 hp))
      · exact .inl (walk_subset _ _ _ _ p hp)
      · exact .inr (List.mem_of_mem_tail (List.mem_reverse.1 hp))
    · cases h
  · cases h

end

/-- **C41.**  The points of both parts are points of the polygon or slicing points. -/
theorem C41_points {pts s pts1 pts2 : List (Vec3 ℝ)} {tri : List Triangles.Tri}
    (h : getPointArrays pts tri s = .ok (pts1, pts2)) :
    (∀ p ∈ pts1, p ∈ pts ∨ p ∈ s) ∧ ∀ p ∈ pts2, p ∈ pts ∨ p ∈ s := by
  unfold getPointArrays at h
  split at h
  · cases h
  split at h
  · cases h
  split at h
  · cases h
  rename_i ls hls
  unfold locatePoints at hls
  split at hls
  · cases hls
  rw [← (locateAll_map hls).1]
  exact arrays_subset h

/-! ### The parts -/

/-- The point is exactly where it was located: at a corner of the polygon, or on an edge. -/
def ExactAt (pts : List (Vec3 ℝ)) (p : Vec3 ℝ) (l : Loc) : Prop :=
  (l.1 = .vertex ∧ pts[l.2]? = some p) ∨
  (l.1 = .edge ∧ ∃ a b, pts[l.2]? = some a ∧ pts[(l.2 + 1) % pts.length]? = some b ∧ OnSegment a b p)

/-- The slicing line starts into the polygon from the edge from `a` to `b`, to the left of it as seen from the tip of
the normal of the polygon's first corner. -/
def StartsInto (pts s : List (Vec3 ℝ)) (a b : Vec3 ℝ) : Prop :=
  ∀ l p0 p1 v s0 s1, pts.getLast? = some l → pts[0]? = some p0 → pts[1]? = some p1 → normal l p0 p1 = some v →
    s[0]? = some s0 → s[1]? = some s1 → 0 < Vec3.dot v (Vec3.cross (b - a) (s1 - s0))

theorem dot_pos_of_close {e f : Vec3 ℝ} (he : Vec3.normSq e = 1) (h : allClose f e NP_RTOL NP_ATOL) :
    0 < Vec3.dot e f := by
  obtain ⟨h1, h2, h3⟩ := h
  simp only [isClose] at h1 h2 h3
  rw [Vec3.normSq_def] at he
  have bound : ∀ x y : ℝ, |y - x| ≤ NP_ATOL + NP_RTOL * |x| → x * x ≤ 1 → x * x - 1 / 10 ≤ x * y := by
    intro x y h hx
    have hx1 : |x| ≤ 1 := abs_le_one_iff_mul_self_le_one.2 hx
    have hy : |y - x| ≤ 1 / 10 := by
      simp only [NP_ATOL, NP_RTOL] at h
      nlinarith [abs_nonneg x]
    have hxy : |x * (y - x)| ≤ 1 / 10 := by
      rw [abs_mul]
      nlinarith [abs_nonneg x, abs_nonneg (y - x)]
    nlinarith [(abs_le.1 hxy).1]
  have b1 := bound e.x f.x h1 (by nlinarith [mul_self_nonneg e.y, mul_self_nonneg e.z])
  have b2 := bound e.y f.y h2 (by nlinarith [mul_self_nonneg e.x, mul_self_nonneg e.z])
  have b3 := bound e.z f.z h3 (by nlinarith [mul_self_nonneg e.x, mul_self_nonneg e.y])
  simp only [Vec3.dot]
  linarith

theorem normal_some {a b c v : Vec3 ℝ} (h : normal a b c = some v) :
    Vec3.normSq v = 1 ∧ ∃ l : ℝ, 0 < l ∧ v = l • Vec3.cross (b - a) (c - a) := by
  unfold normal at h
  simp only at h
  split at h
  · cases h
  · next hc =>
    cases h
    have hpos : 0 < Vec3.norm (Vec3.cross (b - a) (c - a)) := by
      rcases (Vec3.norm_nonneg (Vec3.cross (b - a) (c - a))).lt_or_eq with h | h
      · exact h
      · exact absurd (by rw [← h]; simp [isClose, NP_ATOL]) hc
    exact ⟨normSq_unit hpos, _, by positivity, rfl⟩

theorem between {a b x y : Vec3 ℝ} {r t : ℝ} (hr : 0 ≤ r) (ht : t ≤ 1) (hrt : r < t) (hx : x = a + r • (b - a))
    (hy : y = a + t • (b - a)) : OnSegment a b x ∧ OnSegment x b y := by
  refine ⟨⟨r, hr, by linarith, hx⟩, (t - r) / (1 - r), div_nonneg (by linarith) (by linarith),
    (div_le_one (by linarith)).2 (by linarith), ?_⟩
  have h1 : (1 - r) ≠ 0 := by linarith
  rw [hx, hy]
  ext <;> simp <;> field_simp <;> ring

theorem turn_order {pts s : List (Vec3 ℝ)} {a b x y : Vec3 ℝ} (hx : OnSegment a b x) (hy : OnSegment a b y)
    (hs : s.head? = some x) (hl : s.getLast? = some y) (hi : StartsInto pts s a b) {t : Bool}
    (ht : turnNeeded pts s = .ok t) :
    if t then OnSegment a b y ∧ OnSegment y b x else OnSegment a b x ∧ OnSegment x b y := by
  rw [List.head?_eq_getElem?] at hs
  unfold turnNeeded at ht
  rw [hs, hl] at ht
  split at ht
  · next sl s0 s1 pl p0 p1 e1 e2 e3 e4 e5 e6 =>
    cases e1
    cases e2
    obtain ⟨r, hr0, hr1, hxr⟩ := hx
    obtain ⟨q, hq0, hq1, hyq⟩ := hy
    split at ht
    · next sv pv hsv hpv =>
      have hin := hi pl p0 p1 pv x s1 e4 e5 e6 hpv hs e3
      obtain ⟨-, m, hm, hsv'⟩ := normal_some hsv
      obtain ⟨hpv1, -⟩ := normal_some hpv
      have hcross : Vec3.dot pv sv = m * ((r - q) * Vec3.dot pv (Vec3.cross (b - a) (s1 - x))) := by
        rw [hsv', hxr, hyq]
        simp only [Vec3.dot, Vec3.cross, Vec3.smul_x, Vec3.smul_y, Vec3.smul_z, Vec3.sub_x, Vec3.sub_y, Vec3.sub_z,
          Vec3.add_x, Vec3.add_y, Vec3.add_z]
        ring
      split at ht
      · next hc =>
        cases ht
        have hd := dot_pos_of_close hpv1 hc
        rw [Vec3.dot_smul_right, hcross] at hd
        have : r < q := by
          by_contra hcon
          have h1 : 0 ≤ (r - q) * Vec3.dot pv (Vec3.cross (b - a) (s1 - x)) :=
            mul_nonneg (by linarith) hin.le
          have h2 := mul_nonneg hm.le h1
          linarith
        simpa using between hr0 hq1 this hxr hyq
      split at ht
      · next hc =>
        cases ht
        have hd := dot_pos_of_close hpv1 hc
        rw [hcross] at hd
        have : q < r := by
          by_contra hcon
          have h1 : (r - q) * Vec3.dot pv (Vec3.cross (b - a) (s1 - x)) ≤ 0 :=
            mul_nonpos_of_nonpos_of_nonneg (by linarith) hin.le
          have h2 := mul_nonpos_of_nonneg_of_nonpos hm.le h1
          linarith
        simpa using between hq0 hr1 this hyq hxr
      · cases ht
    · cases ht
  · cases ht

theorem ends_two {α : Type} {k : Kind} {q0 q1 : α × Loc} {mid : List (α × Loc)} (h0 : q0.2.1 = k) (h1 : q1.2.1 = k)
    (hc : count k (q0 :: mid ++ [q1]) = 2) : numbersAt k (q0 :: mid ++ [q1]) = [q0.2.2, q1.2.2].dedup := by
  have hm : mid.filter (fun q => decide (q.2.1 = k)) = [] := by
    rw [← List.length_eq_zero_iff, ← List.countP_eq_length_filter]
    simp only [count, List.cons_append, List.countP_cons, List.countP_append, h0, h1, decide_true, if_true,
      List.countP_nil] at hc
    omega
  simp [numbersAt, List.filter_append, h0, h1, hm]

theorem ends_one {α : Type} {k : Kind} {ls : List (α × Loc)} {q : α × Loc} (hq : q ∈ ls) (h0 : q.2.1 = k)
    (hc : count k ls = 1) : numbersAt k ls = [q.2.2] := by
  rw [count, List.countP_eq_length_filter, List.length_eq_one_iff] at hc
  obtain ⟨r, hr⟩ := hc
  have : q ∈ ls.filter fun q => decide (q.2.1 = k) := by simp [hq, h0]
  rw [hr, List.mem_singleton] at this
  rw [numbersAt, hr, this]
  simp

theorem exists_ends {β : Type} {l : List β} (h : 2 ≤ l.length) : ∃ x M y, l = x :: M ++ [y] := by
  match l, h with
  | x :: z :: t, _ =>
    rcases (z :: t).eq_nil_or_concat with h | ⟨M, y, h⟩
    · cases h
    · exact ⟨x, M, y, by rw [h]; simp⟩

theorem head_last {β : Type} {l : List β} {x y : β} (h : l.head? = some x) (h' : l.getLast? = some y) :
    (l = [x] ∧ x = y) ∨ ∃ M, l = x :: M ++ [y] := by
  match l, h with
  | [z], h =>
    simp only [List.head?_cons, Option.some.injEq] at h
    simp only [List.getLast?_singleton, Option.some.injEq] at h'
    exact .inl ⟨by rw [h], h ▸ h'⟩
  | x' :: z :: t, h =>
    simp only [List.head?_cons, Option.some.injEq] at h
    subst h
    rcases (z :: t).eq_nil_or_concat with h | ⟨M, w, h⟩
    · cases h
    · rw [h] at h' ⊢
      rw [List.concat_eq_append, ← List.cons_append, List.getLast?_append] at h'
      simp only [List.getLast?_singleton, Option.some_or, Option.some.injEq] at h'
      exact .inr ⟨M, by rw [h']; simp⟩

theorem pointsEqual_refl (p : Vec3 ℝ) : pointsEqual p p = true :=
  decide_eq_true (allClose_self (by norm_num [NP_RTOL]) (by norm_num [GEOM_ATOL]))

theorem getLast_ends {β : Type} (x y : β) (M : List β) : (x :: M ++ [y]).getLast? = some y := by
  rw [List.getLast?_append]
  rfl

/-- Case 1: from edge to edge. -/
theorem cuts_edges {pts : List (Vec3 ℝ)} (hd : Distinct (fun p q => pointsEqual p q) pts) {x y : Vec3 ℝ}
    {M pts1 pts2 : List (Vec3 ℝ)} {e1 e2 : Nat} (hne : e1 ≠ e2) (hx : ExactAt pts x (.edge, e1))
    (hy : ExactAt pts y (.edge, e2))
    (h : caseEdges (fun p q => pointsEqual p q) pts (cycEdges pts) (x :: M ++ [y]) e1 e2 = .ok (pts1, pts2)) :
    Cuts pts (x :: M ++ [y]) pts1 pts2 := by
  obtain ⟨-, a1, b1, ha1, hb1, hx⟩ := hx.resolve_left (by simp)
  obtain ⟨-, a2, b2, ha2, hb2, hy⟩ := hy.resolve_left (by simp)
  obtain ⟨l1, -⟩ := List.getElem?_eq_some_iff.1 ha1
  obtain ⟨l2, -⟩ := List.getElem?_eq_some_iff.1 ha2
  obtain ⟨B, F, hr, hB1, hB2, hF1, hF2, he⟩ := caseEdges_eq (fun p => pointsEqual_refl p) hd
    (s := x :: M ++ [y]) l1 l2 hne
  rw [he, Except.ok.injEq, Prod.mk.injEq] at h
  obtain ⟨rfl, rfl⟩ := h
  simp only at hb1 hb2 ha1 ha2
  rw [hb1] at hB1
  rw [ha2] at hB2
  rw [hb2] at hF1
  rw [ha1] at hF2
  obtain ⟨B', rfl⟩ := List.getLast?_eq_some_iff.1 hB2
  obtain ⟨F', rfl⟩ := List.head?_eq_some_iff.1 hF1
  refine ⟨x :: (B' ++ [a2]) ++ y :: (b2 :: F'), x :: (B' ++ [a2]) ++ y :: M.reverse, y :: (b2 :: F') ++ x :: M, ?_,
    ⟨x, y, B' ++ [a2], b2 :: F', M, rfl, List.IsRotated.refl _, List.IsRotated.refl _, List.IsRotated.refl _⟩,
    .inl ⟨.inr ?_, .inl ?_⟩⟩
  · have s0 : Subdivides pts (B' ++ a2 :: b2 :: F') := .rotate (by simpa using hr)
    have s1 := s0.middle hy
    -- the other point is on the closing edge
    obtain ⟨F'', hF''⟩ := List.getLast?_eq_some_iff.1 hF2
    obtain ⟨B'', hB''⟩ := List.head?_eq_some_iff.1 hB1
    have e1 : B' ++ a2 :: y :: b2 :: F' = b1 :: (B'' ++ y :: F'') ++ [a1] := by
      have : B' ++ a2 :: y :: b2 :: F' = (B' ++ [a2]) ++ y :: (b2 :: F') := by simp
      rw [this, hF'', hB'']
      simp
    rw [e1] at s1
    have s2 := s1.closing hx
    have e2 : x :: (B' ++ [a2]) ++ y :: (b2 :: F') = x :: b1 :: (B'' ++ y :: F'') ++ [a1] := by
      rw [hF'', hB'']
      simp
    rw [e2]
    exact s2
  · have : (x :: M ++ [y] ++ (B' ++ [a2]).reverse).reverse = (B' ++ [a2]) ++ y :: M.reverse ++ [x] := by simp
    rw [this]
    have := List.isRotated_append (l := (B' ++ [a2]) ++ y :: M.reverse) (l' := [x])
    simpa using this
  · have := List.isRotated_append (l := x :: M) (l' := y :: b2 :: F')
    simpa using this

/-- Case 3: from a corner to an edge. -/
theorem cuts_vertex_edge {pts : List (Vec3 ℝ)} (hn : 2 ≤ pts.length) (hd : Distinct (fun p q => pointsEqual p q) pts) {x y : Vec3 ℝ}
    {M pts1 pts2 : List (Vec3 ℝ)} {v e : Nat} (hx : ExactAt pts x (.vertex, v)) (hy : ExactAt pts y (.edge, e))
    (h : caseVertexEdge (fun p q => pointsEqual p q) pts (cycEdges pts) (x :: M ++ [y]) e = .ok (pts1, pts2)) :
    Cuts pts (x :: M ++ [y]) pts1 pts2 := by
  obtain ⟨-, hv⟩ := hx.resolve_right (by simp)
  obtain ⟨-, a, b, ha, hb, hy⟩ := hy.resolve_left (by simp)
  simp only at hv ha hb
  obtain ⟨l1, -⟩ := List.getElem?_eq_some_iff.1 hv
  obtain ⟨l2, -⟩ := List.getElem?_eq_some_iff.1 ha
  obtain ⟨B, F, hr, hB, hF, he⟩ := caseVertexEdge_eq (fun p => pointsEqual_refl p) hd
    (s := x :: M ++ [y]) l1 l2 hv rfl
  rw [he, Except.ok.injEq, Prod.mk.injEq] at h
  obtain ⟨rfl, rfl⟩ := h
  rw [ha] at hB
  rw [hb] at hF
  refine ⟨x :: B ++ y :: F, x :: B ++ y :: M.reverse, y :: F ++ x :: M, ?_,
    ⟨x, y, B, F, M, rfl, List.IsRotated.refl _, List.IsRotated.refl _, List.IsRotated.refl _⟩,
    .inl ⟨.inr ?_, .inl ?_⟩⟩
  · obtain ⟨B', hB'⟩ := List.getLast?_eq_some_iff.1 hB
    obtain ⟨F', hF'⟩ := List.head?_eq_some_iff.1 hF
    have s0 : Subdivides pts (x :: B ++ F) := .rotate hr
    cases F with
    | nil =>
      simp only [List.nil_append, List.cons.injEq] at hF'
      obtain ⟨rfl, -⟩ := hF'
      rw [List.append_nil, hB'] at s0
      rw [hB']
      cases B' with
      | nil =>
        simp only [List.nil_append, List.cons.injEq] at hB'
        obtain ⟨rfl, rfl⟩ := hB'
        have := hr.perm.length_eq
        simp at this
        omega
      | cons z B'' =>
        simp only [List.cons_append, List.cons.injEq] at hB'
        obtain ⟨rfl, -⟩ := hB'
        have s1 := s0.closing hy
        refine s1.rot ?_
        have := List.isRotated_append (l := [y]) (l' := x :: B'' ++ [a])
        simpa using this
    | cons z F =>
      simp only [List.cons_append, List.cons.injEq] at hF'
      obtain ⟨rfl, -⟩ := hF'
      rw [hB'] at s0 ⊢
      have s1 : Subdivides pts (B' ++ a :: z :: F) := by simpa using s0
      simpa using s1.middle hy
  · have : (x :: M ++ [y] ++ B.reverse).reverse = B ++ y :: M.reverse ++ [x] := by simp
    rw [this]
    have := List.isRotated_append (l := B ++ y :: M.reverse) (l' := [x])
    simpa using this
  · have := List.isRotated_append (l := x :: M) (l' := y :: F)
    simpa using this

/-- Case 4: from corner to corner. -/
theorem cuts_vertices {pts : List (Vec3 ℝ)} (hd : Distinct (fun p q => pointsEqual p q) pts) {x y : Vec3 ℝ}
    {M pts1 pts2 : List (Vec3 ℝ)} {v w : Nat} (hne : v ≠ w) (hx : ExactAt pts x (.vertex, v))
    (hy : ExactAt pts y (.vertex, w))
    (h : caseVertices (fun p q => pointsEqual p q) pts (x :: M ++ [y]) = .ok (pts1, pts2)) :
    Cuts pts (x :: M ++ [y]) pts1 pts2 := by
  obtain ⟨-, hv⟩ := hx.resolve_right (by simp)
  obtain ⟨-, hw⟩ := hy.resolve_right (by simp)
  simp only at hv hw
  obtain ⟨l1, -⟩ := List.getElem?_eq_some_iff.1 hv
  obtain ⟨l2, -⟩ := List.getElem?_eq_some_iff.1 hw
  obtain ⟨F, G, hr, he⟩ := caseVertices_eq (fun p => pointsEqual_refl p) hd
    (s := x :: M ++ [y]) l1 l2 hne hv hw rfl (getLast_ends x y M)
  rw [he, Except.ok.injEq, Prod.mk.injEq] at h
  obtain ⟨rfl, rfl⟩ := h
  refine ⟨x :: F ++ y :: G, x :: F ++ y :: M.reverse, y :: G ++ x :: M, .rotate hr,
    ⟨x, y, F, G, M, rfl, List.IsRotated.refl _, List.IsRotated.refl _, List.IsRotated.refl _⟩,
    .inl ⟨.inl ?_, .inr ?_⟩⟩
  · simpa using List.IsRotated.refl _
  · have : (x :: G.reverse ++ (x :: M ++ [y]).tail.reverse).reverse = M ++ (y :: G ++ [x]) := by simp
    rw [this]
    have := List.isRotated_append (l := M) (l' := y :: G ++ [x])
    simpa using this

/-- Case 2: from an edge to the same edge. -/
theorem cuts_same_edge {pts : List (Vec3 ℝ)} (hd : Distinct (fun p q => pointsEqual p q) pts) {x y : Vec3 ℝ}
    {M pts1 pts2 : List (Vec3 ℝ)} {e : Nat} {a b : Vec3 ℝ} (ha : pts[e]? = some a) (hb : pts[e + 1]? = some b)
    (hx : OnSegment a b x) (hy : OnSegment a b y) (hi : StartsInto pts (x :: M ++ [y]) a b)
    (h : caseSameEdge (fun p q => pointsEqual p q) (turnNeeded pts (x :: M ++ [y])) pts (cycEdges pts)
      (x :: M ++ [y]) e = .ok (pts1, pts2)) : Cuts pts (x :: M ++ [y]) pts1 pts2 := by
  unfold caseSameEdge at h
  split at h
  · cases h
  rename_i t ht
  have ho := turn_order hx hy rfl (getLast_ends x y M) hi ht
  obtain ⟨l1, e1⟩ := List.getElem?_eq_some_iff.1 ha
  obtain ⟨l2, e2⟩ := List.getElem?_eq_some_iff.1 hb
  rw [cycEdges_getElem? pts e l1] at h
  simp only [Except.ok.injEq, Prod.mk.injEq] at h
  obtain ⟨rfl, rfl⟩ := h
  have e3 : (pts[e], pts[(e + 1) % pts.length]'(Nat.mod_lt _ (by omega))) = (a, b) := by
    simp only [e1, Nat.mod_eq_of_lt l2, e2]
  rw [e3]
  -- the slicing points in the order in which they are inserted
  have key : ∀ (x y : Vec3 ℝ) (M : List (Vec3 ℝ)), OnSegment a b x → OnSegment x b y →
      ∃ outline part1 part2, Subdivides pts outline ∧ CutAlong outline (x :: M ++ [y]) part1 part2 ∧
        (x :: M ++ [y]).reverse ~r part1 ∧
        insertAfter (fun p q => pointsEqual p q) (a, b) (x :: M ++ [y]) pts ~r part2 := by
    intro x y M hx hy
    obtain ⟨L, R, hp, hins⟩ := insertAfter_eq (fun p => pointsEqual_refl p) hd (s := x :: M ++ [y]) ha hb
    have s0 : Subdivides pts (L ++ a :: b :: R) := .rotate (by rw [← hp])
    have s1 := s0.middle hx
    have s2 : Subdivides pts ((L ++ [a]) ++ x :: y :: b :: R) :=
      Subdivides.middle (U := L ++ [a]) (a := x) (b := b) (V := R) (by simpa using s1) hy
    refine ⟨_, x :: [] ++ y :: M.reverse, y :: (b :: R ++ L ++ [a]) ++ x :: M, s2,
      ⟨x, y, [], b :: R ++ L ++ [a], M, rfl, ?_, List.IsRotated.refl _, List.IsRotated.refl _⟩, ?_, ?_⟩
    · have := List.isRotated_append (l := L ++ [a]) (l' := x :: y :: b :: R)
      simpa using this
    · have := List.isRotated_append (l := y :: M.reverse) (l' := [x])
      simpa using this
    · rw [hins]
      have := List.isRotated_append (l := L ++ a :: x :: M) (l' := y :: b :: R)
      simpa using this
  cases t with
  | false =>
    simp only [Bool.false_eq_true, if_false] at ho ⊢
    obtain ⟨o, p1, p2, h1, h2, h3, h4⟩ := key x y M ho.1 ho.2
    exact ⟨o, p1, p2, h1, h2, .inl ⟨.inr h3, .inl h4⟩⟩
  | true =>
    simp only [if_true] at ho ⊢
    obtain ⟨o, p1, p2, h1, h2, h3, h4⟩ := key y x M.reverse ho.1 ho.2
    have e4 : (x :: M ++ [y]).reverse = y :: M.reverse ++ [x] := by simp
    have h2' := cutAlong_swap h2
    rw [← e4, List.reverse_reverse] at h2'
    refine ⟨o, p2, p1, h1, h2', .inr ⟨.inl ?_, .inl (e4 ▸ h4)⟩⟩
    rw [← e4, List.reverse_reverse] at h3
    exact h3

/-- **C41, the cut.**  Suppose no two corners of the polygon count as equal, the two ends of the slicing line are exactly
at the corners or on the edges where they were located, and, if both are on one edge, this is not the closing edge and
the line starts to the inner side of it.  Then the polygon is cut along the slicing line: with the ends of the line as
corners, one part follows the outline from one end to the other, the second part follows the rest of it, and the
slicing line is in both, in opposite directions once both parts run like the polygon. -/
theorem C41_cut_partial {pts s pts1 pts2 : List (Vec3 ℝ)} {tri : List Triangles.Tri} (hn : 2 ≤ pts.length)
    (hd : Distinct (fun p q => pointsEqual p q) pts)
    (hex : ∀ q, s.head? = some q ∨ s.getLast? = some q →
      ∃ l, locatePoint q pts tri (cycEdges pts) = .ok l ∧ ExactAt pts q l)
    (hsame : ∀ x y e, s.head? = some x → s.getLast? = some y → locatePoint x pts tri (cycEdges pts) = .ok (.edge, e) →
      locatePoint y pts tri (cycEdges pts) = .ok (.edge, e) →
      ∃ a b, pts[e]? = some a ∧ pts[e + 1]? = some b ∧ StartsInto pts s a b)
    (h : getPointArrays pts tri s = .ok (pts1, pts2)) : Cuts pts s pts1 pts2 := by
  unfold getPointArrays at h
  split at h
  · cases h
  rename_i hlen
  rw [polygonEdges_eq 0 pts (by rintro rfl; simp at hn)] at h
  simp only at h
  split at h
  · cases h
  rename_i ls hls
  unfold locatePoints at hls
  split at hls
  · cases hls
  obtain ⟨hmap, hloc⟩ := locateAll_map hls
  have hlen' : 2 ≤ ls.length := by
    have := congrArg List.length hmap
    rw [List.length_map] at this
    omega
  obtain ⟨⟨x, l0⟩, mid, ⟨y, l1⟩, rfl⟩ := exists_ends hlen'
  obtain ⟨M, rfl⟩ : ∃ M, s = x :: M ++ [y] := ⟨mid.map (·.1), by rw [← hmap]; simp⟩
  have hx := hloc (x, l0) (by simp)
  have hy := hloc (y, l1) (by simp)
  simp only at hx hy
  obtain ⟨l0', hx', ex⟩ := hex x (.inl rfl)
  obtain ⟨l1', hy', ey⟩ := hex y (.inr (getLast_ends x y M))
  rw [hx, Except.ok.injEq] at hx'
  rw [hy, Except.ok.injEq] at hy'
  subst hx' hy'
  unfold arrays at h
  simp only [hmap] at h
  have hh : ((x, l0) :: mid ++ [(y, l1)]).head? = some (x, l0) := rfl
  have hl : ((x, l0) :: mid ++ [(y, l1)]).getLast? = some (y, l1) := getLast_ends _ _ _
  rw [hh, hl] at h
  obtain ⟨k0, i0⟩ := l0
  obtain ⟨k1, i1⟩ := l1
  split at h
  · -- two edges
    next hc =>
    split at h
    · next e1 e2 h1 h2 =>
      simp only [Option.some.injEq, Prod.mk.injEq] at h1 h2
      obtain ⟨-, rfl, rfl⟩ := h1
      obtain ⟨-, rfl, rfl⟩ := h2
      have hnum := ends_two (k := .edge) (q0 := (x, .edge, i0)) (q1 := (y, .edge, i1)) (mid := mid) rfl rfl hc.1
      refine cuts_edges hd ?_ ex ey h
      rintro rfl
      rw [hnum] at hc
      simp at hc
    · cases h
  split at h
  · -- one edge
    next hc =>
    have hk0 : k0 = .edge := by
      rcases ex with ⟨hk, -⟩ | ⟨hk, -⟩
      · exfalso
        have := hc.2.2
        rw [count, List.countP_eq_zero] at this
        exact absurd hk (by simpa using this (x, k0, i0) (by simp))
      · exact hk
    have hk1 : k1 = .edge := by
      rcases ey with ⟨hk, -⟩ | ⟨hk, -⟩
      · exfalso
        have := hc.2.2
        rw [count, List.countP_eq_zero] at this
        exact absurd hk (by simpa using this (y, k1, i1) (by simp))
      · exact hk
    subst hk0 hk1
    have hnum := ends_two (k := .edge) (q0 := (x, .edge, i0)) (q1 := (y, .edge, i1)) (mid := mid) rfl rfl hc.1
    have hi : i0 = i1 := by
      by_contra hne
      have := hc.2.1
      rw [hnum] at this
      simp [hne] at this
    subst hi
    rw [hnum] at h
    simp only [List.mem_singleton, List.dedup_cons_of_mem, List.dedup_cons_of_notMem, List.not_mem_nil,
      not_false_eq_true, List.dedup_nil] at h
    obtain ⟨a, b, ha, hb, hi⟩ := hsame x y i0 rfl (getLast_ends x y M) hx hy
    have hlt : i0 + 1 < pts.length := (List.getElem?_eq_some_iff.1 hb).1
    obtain ⟨-, a', b', ha', hb', ox⟩ := ex.resolve_left (by simp)
    obtain ⟨-, a'', b'', ha'', hb'', oy⟩ := ey.resolve_left (by simp)
    simp only [Nat.mod_eq_of_lt hlt, ha, hb, Option.some.injEq] at ha' hb' ha'' hb''
    subst ha' hb' ha'' hb''
    exact cuts_same_edge hd ha hb ox oy hi h
  split at h
  · -- a corner and an edge
    next hc =>
    split at h
    · next e es he =>
      split at h
      · next h1 h2 =>
        simp only [Option.some.injEq, Prod.mk.injEq] at h1 h2
        obtain ⟨-, rfl, rfl⟩ := h1
        obtain ⟨-, rfl, rfl⟩ := h2
        have hnum := ends_one (k := .edge) (ls := (x, .vertex, i0) :: mid ++ [(y, .edge, i1)]) (q := (y, .edge, i1))
          (by simp) rfl hc.1
        rw [hnum] at he
        simp only [List.cons.injEq] at he
        obtain ⟨rfl, -⟩ := he
        exact cuts_vertex_edge hn hd ex ey h
      · next h1 h2 =>
        simp only [Option.some.injEq, Prod.mk.injEq] at h1 h2
        obtain ⟨-, rfl, rfl⟩ := h1
        obtain ⟨-, rfl, rfl⟩ := h2
        have hnum := ends_one (k := .edge) (ls := (x, .edge, i0) :: mid ++ [(y, .vertex, i1)]) (q := (x, .edge, i0))
          (by simp) rfl hc.1
        rw [hnum] at he
        simp only [List.cons.injEq] at he
        obtain ⟨rfl, -⟩ := he
        have e4 : (x :: M ++ [y]).reverse = y :: M.reverse ++ [x] := by simp
        rw [e4] at h
        obtain ⟨o, p1, p2, c1, c2, c3⟩ := cuts_vertex_edge hn hd ey ex h
        have c2' := cutAlong_swap c2
        rw [← e4, List.reverse_reverse] at c2'
        exact ⟨o, p2, p1, c1, c2', c3.symm⟩
      · cases h
    · cases h
  split at h
  · -- two corners
    next hc =>
    have hk0 : k0 = .vertex := by
      rcases ex with ⟨hk, -⟩ | ⟨hk, -⟩
      · exact hk
      · exfalso
        have := hc.2.2
        rw [count, List.countP_eq_zero] at this
        exact absurd hk (by simpa using this (x, k0, i0) (by simp))
    have hk1 : k1 = .vertex := by
      rcases ey with ⟨hk, -⟩ | ⟨hk, -⟩
      · exact hk
      · exfalso
        have := hc.2.2
        rw [count, List.countP_eq_zero] at this
        exact absurd hk (by simpa using this (y, k1, i1) (by simp))
    subst hk0 hk1
    have hnum := ends_two (k := .vertex) (q0 := (x, .vertex, i0)) (q1 := (y, .vertex, i1)) (mid := mid) rfl rfl hc.1
    refine cuts_vertices hd ?_ ex ey h
    rintro rfl
    rw [hnum] at hc
    simp at hc
  · cases h

end B3d.Slice
