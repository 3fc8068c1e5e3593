import Verif.Props.PolygonErrors
import Verif.Props.SliceParts

/-! # C107: the exceptions of `slice_polygon` -/

namespace B3d.Slice

open Spec Points Polygon

theorem locateEdge_ok (x : Vec3 ℝ) : ∀ (es : List (Vec3 ℝ × Vec3 ℝ)) (i : Nat), (∀ e ∈ es, e.1 ≠ e.2) →
    ∃ l, locateEdge x i es = .ok l ∧ (l.1 = .edge → l.2 < i + es.length)
  | [], i, _ => ⟨_, rfl, by simp⟩
  | (a, b) :: es, i, h => by
    have hab : a ≠ b := h (a, b) (by simp)
    have hd : ¬ Vec3.dot (b - a) (b - a) = 0 := by
      intro h0
      have : b - a = 0 := Vec3.norm_eq_zero.1 (by rw [Vec3.norm, Vec3.normSq, h0, Real.sqrt_zero])
      exact hab (sub_eq_zero.1 this).symm
    obtain ⟨d, hd⟩ : ∃ d, distancePointToEdge x a b = .ok d := by
      simp only [distancePointToEdge, if_neg hd]
      split
      · exact ⟨_, rfl⟩
      · split
        · exact ⟨_, rfl⟩
        · exact ⟨_, rfl⟩
    obtain ⟨l, hl, hi⟩ := locateEdge_ok x es (i + 1) fun e he => h e (by simp [he])
    unfold locateEdge
    rw [hd]
    simp only
    split
    · exact ⟨_, rfl, fun _ => by simp⟩
    · exact ⟨l, hl, fun hk => by have := hi hk; rw [List.length_cons]; omega⟩

section

variable {P : Poly} {pts : List (Vec3 ℝ)} {nv : Option (Vec3 ℝ)}

theorem locatePoint_ok (h : polygonNew pts none nv = .ok P) (x : Vec3 ℝ) :
    ∃ l, locatePoint x P.pts P.tri (cycEdges P.pts) = .ok l ∧ (l.1 = .edge → l.2 < P.pts.length) := by
  obtain ⟨r, hr⟩ := C71_total h x true GEOM_ATOL
  obtain ⟨l, hl, hi⟩ := locateEdge_ok x (cycEdges P.pts) 0 fun e he => polygonNew_edges_ne h he
  unfold locatePoint
  rw [hr]
  cases r with
  | false => exact ⟨_, rfl, by simp⟩
  | true =>
    simp only
    split
    · exact ⟨_, rfl, by simp⟩
    · exact ⟨l, hl, fun hk => by have := hi hk; rwa [length_cycEdges, Nat.zero_add] at this⟩

theorem locateAll_ok (h : polygonNew pts none nv = .ok P) : ∀ s : List (Vec3 ℝ),
    ∃ ls, locateAll P.pts P.tri (cycEdges P.pts) s = .ok ls ∧ ls.map (·.1) = s ∧
      ∀ q ∈ ls, q.2.1 = .edge → q.2.2 < P.pts.length
  | [] => ⟨[], rfl, rfl, by simp⟩
  | x :: s => by
    obtain ⟨l, hl, hi⟩ := locatePoint_ok h x
    obtain ⟨ls, hls, hm, hi'⟩ := locateAll_ok h s
    refine ⟨(x, l) :: ls, ?_, by simp [hm], ?_⟩
    · simp only [locateAll, hl, hls]
    · intro q hq
      rcases List.mem_cons.1 hq with rfl | hq
      · exact hi
      · exact hi' q hq

theorem polygonEdges_polygon (h : polygonNew pts none nv = .ok P) : polygonEdges 0 P.pts = .ok (cycEdges P.pts) :=
  polygonEdges_eq 0 _ (polygonNew_sturdy h).1

theorem addIntersectionPoints_ok (h : polygonNew pts none nv = .ok P) {s : List (Vec3 ℝ)} (hs : s ≠ []) :
    ∃ a s1, addIntersectionPoints P.pts s = .ok (a, s1) ∧ s1 ≠ [] := by
  have heq : ∃ a, addIntersectionPoints P.pts s = .ok (a, (cycEdges s).zipIdx.flatMap fun (e, i) =>
      e.1 :: ((intersections (cycEdges P.pts) (cycEdges s)).filter fun f => f.2.1 = i).map (·.2.2)) := by
    simp only [addIntersectionPoints, polygonEdges_polygon h, polygonEdges_eq 0 s hs]
    exact ⟨_, rfl⟩
  obtain ⟨a, heq⟩ := heq
  refine ⟨a, _, heq, ?_⟩
  intro e
  have : cycEdges s ≠ [] := by
    intro e
    have := length_cycEdges s
    rw [e] at this
    exact hs (List.length_eq_zero_iff.1 this.symm)
  obtain ⟨f, l, hfl⟩ := List.exists_cons_of_ne_nil this
  rw [hfl] at e
  simp at e

theorem arrays_error {α : Type} {eq : α → α → Bool} {turn : Except PyErr Bool} {pts : List α} {edges : List (α × α)}
    {ls : List (α × Loc)} (hl : ls ≠ []) (hE : ∀ q ∈ ls, q.2.1 = .edge → q.2.2 < edges.length) {e : PyErr}
    (h : arrays eq turn pts edges ls = .error e) :
    e = .assertionError ∨ e = .notImplementedError ∨ turn = .error e := by
  have hmem : ∀ i ∈ numbersAt .edge ls, i < edges.length := by
    intro i hi
    rw [numbersAt, List.mem_dedup] at hi
    obtain ⟨q, hq, rfl⟩ := List.mem_map.1 hi
    rw [List.mem_filter, decide_eq_true_eq] at hq
    exact hE q hq.1 hq.2
  have hpos : 0 < count .edge ls → numbersAt .edge ls ≠ [] := by
    intro hc h0
    rw [count, List.countP_pos_iff] at hc
    obtain ⟨q, hq, hk⟩ := hc
    have : q.2.2 ∈ numbersAt .edge ls := by
      rw [numbersAt, List.mem_dedup]
      exact List.mem_map.2 ⟨q, List.mem_filter.2 ⟨hq, hk⟩, rfl⟩
    rw [h0] at this
    simp at this
  have hs : ls.map (·.1) ≠ [] := by simpa using hl
  have hve : ∀ (s : List α) (i : Nat), s ≠ [] → i < edges.length → caseVertexEdge eq pts edges s i ≠ .error e := by
    intro s i hs hi
    obtain ⟨x, s, rfl⟩ := List.exists_cons_of_ne_nil hs
    simp [caseVertexEdge, List.getElem?_eq_getElem hi]
  unfold arrays at h
  simp only at h
  split at h
  · rename_i hc
    split at h
    · rename_i p1 e1 p2 e2 h1 h2
      have b1 := hE _ (List.mem_of_head? h1) rfl
      have b2 := hE _ (List.mem_of_getLast? h2) rfl
      simp only at b1 b2
      simp [caseEdges, List.getElem?_eq_getElem b1, List.getElem?_eq_getElem b2] at h
    · cases h; exact .inl rfl
  split at h
  · rename_i hc
    split at h
    · rename_i i l hi
      have b := hmem i (by rw [hi]; simp)
      unfold caseSameEdge at h
      split at h
      · cases h; exact .inr (.inr rfl)
      · rw [List.getElem?_eq_getElem b] at h
        cases h
    · rename_i h0
      exact absurd h0 (hpos (by omega))
  split at h
  · rename_i hc
    split at h
    · rename_i i l hi
      have b := hmem i (by rw [hi]; simp)
      split at h
      · exact absurd h (hve _ _ hs b)
      · exact absurd h (hve _ _ (by simpa using hs) b)
      · cases h; exact .inl rfl
    · rename_i h0
      exact absurd h0 (hpos (by omega))
  split at h
  · obtain ⟨q, l, rfl⟩ := List.exists_cons_of_ne_nil hl
    simp [caseVertices, List.getLast?_cons] at h
  · cases h; exact .inr (.inl rfl)

theorem turnNeeded_error {pts s : List (Vec3 ℝ)} (hp : 2 ≤ pts.length) (hs : 2 ≤ s.length) {e : PyErr}
    (h : turnNeeded pts s = .error e) : e = .valueError := by
  match pts, s, hp, hs with
  | a :: b :: pts, c :: d :: s, _, _ =>
    unfold turnNeeded at h
    rw [List.getLast?_eq_some_getLast (by simp), List.getLast?_eq_some_getLast (by simp)] at h
    simp only [List.getElem?_cons_zero, List.getElem?_cons_succ] at h
    split at h
    · split at h
      · cases h
      · split at h
        · cases h
        · cases h; rfl
    · cases h; rfl

theorem nameParts_error {N α π : Type} [DecidableEq N] {inside : π → α → Except PyErr Bool} {P1 P2 : π}
    {pt1 pt2 : Option α} {name1 name2 : N} {e : PyErr} (h1 : ∀ x, ∃ r, inside P1 x = .ok r)
    (h2 : ∀ x, ∃ r, inside P2 x = .ok r) (h : nameParts inside P1 P2 pt1 pt2 name1 name2 = .error e) :
    e = .geometryError ∨ e = .runtimeError := by
  unfold nameParts at h
  split at h
  · rename_i e' he
    cases h
    left
    unfold chooseNames at he
    split at he
    · rename_i a b
      obtain ⟨r1, k1⟩ := h1 a
      obtain ⟨r2, k2⟩ := h1 b
      obtain ⟨r3, k3⟩ := h2 a
      obtain ⟨r4, k4⟩ := h2 b
      simp only [k1, k2, k3, k4] at he
      cases r1 <;> cases r2 <;> cases r3 <;> cases r4 <;> simp at he <;> exact he.symm
    · rename_i a
      obtain ⟨r1, k1⟩ := h1 a
      obtain ⟨r2, k2⟩ := h2 a
      simp only [k1, k2] at he
      cases r1 <;> cases r2 <;> simp at he; exact he.symm
    · rename_i b
      obtain ⟨r1, k1⟩ := h1 b
      obtain ⟨r2, k2⟩ := h2 b
      simp only [k1, k2] at he
      cases r1 <;> cases r2 <;> simp at he; exact he.symm
    · cases he
  · split at h
    · cases h
    · split at h
      · cases h
      · cases h; exact .inr rfl

theorem checkNormal_given {N : Type} [DecidableEq N] {v : Vec3 ℝ} {part : N × Poly} (h : part.2.vn = some v) :
    checkNormal (some v) part = .ok part := by
  have h0 : (0 : ℝ) < GEOM_RTOL := by norm_num [GEOM_RTOL]
  have h1 : (0 : ℝ) < NP_ATOL := by norm_num [NP_ATOL]
  unfold checkNormal
  simp only [h]
  rw [if_pos]
  simp only [allClose, isClose, sub_self, abs_zero]
  refine ⟨?_, ?_, ?_⟩ <;> positivity

/-- **C107.**  `slice_polygon` on a polygon made by the constructor, with any slicing points: if there are any
slicing points, the only exceptions are the six listed, whatever the other arguments; without slicing points, it raises
`IndexError`.  (The documentation names `GeometryError` only.) -/
theorem C107_exceptions {N : Type} [DecidableEq N] (h : polygonNew pts none nv = .ok P) (s : List (Vec3 ℝ))
    (pt1 pt2 : Option (Vec3 ℝ)) (name1 name2 : Option N) (rand1 rand2 : N) (e : PyErr)
    (he : slicePolygon P s pt1 name1 pt2 name2 rand1 rand2 = .error e) :
    (s ≠ [] → e ∈ [PyErr.assertionError, .geometryError, .notImplementedError, .valueError, .triangulationError,
      .runtimeError]) ∧
    (s = [] → e = .assertionError ∨ e = .indexError) := by
  obtain ⟨hlen, v, hv, -⟩ := polygonNew_ok h
  have hn : 3 ≤ P.pts.length := by
    obtain ⟨hn, v', -, -, ht, -⟩ := polygonNew_ok h
    obtain ⟨hrev, -⟩ := Triangles.triangulateTries_good _ _ _ _ _ pts hn P.pts P.tri ht
    rcases hrev with e | e <;> rw [e] <;> simpa using hn
  unfold slicePolygon at he
  split at he
  · cases he; exact ⟨fun _ => by simp, fun _ => .inl rfl⟩
  refine ⟨fun hs => ?_, fun hs => ?_⟩
  swap
  · subst hs
    rw [addIntersectionPoints, polygonEdges_polygon h] at he
    simp only [polygonEdges, List.getLast?_nil] at he
    cases he; exact .inr rfl
  obtain ⟨a, s1, ha, hs1⟩ := addIntersectionPoints_ok h hs
  rw [ha] at he
  simp only at he
  obtain ⟨ls, hls, -⟩ := locateAll_ok h s1
  have hr : ∃ s2, removeRedundantPoints s1 P.pts P.tri = .ok s2 := by
    simp only [removeRedundantPoints, polygonEdges_polygon h, locatePoints, if_neg hs1, hls]
    exact ⟨_, rfl⟩
  obtain ⟨s2, hs2⟩ := hr
  rw [hs2] at he
  simp only at he
  split at he
  · cases he; simp
  rename_i hl2
  have hs2' : s2 ≠ [] := by rintro rfl; simp at hl2
  obtain ⟨ls2, hls2, hm2, hi2⟩ := locateAll_ok h s2
  have hg : getPointArrays P.pts P.tri s2 =
      arrays (fun p q => pointsEqual p q) (turnNeeded P.pts s2) P.pts (cycEdges P.pts) ls2 := by
    simp only [getPointArrays, if_neg hl2, polygonEdges_polygon h, locatePoints, if_neg hs2', hls2]
  rw [hg] at he
  split at he
  · rename_i e' he'
    cases he
    have hl : ls2 ≠ [] := by rintro rfl; simp at hm2; exact hs2' hm2
    rcases arrays_error hl (fun q hq hk => by rw [length_cycEdges]; exact hi2 q hq hk) he' with rfl | rfl | ht
    · simp
    · simp
    · rw [turnNeeded_error (by omega) (by omega) ht]; simp
  rename_i pts1 pts2 harr
  split at he
  · rename_i e' he'
    cases he
    unfold makePolygons at he'
    rw [hv] at he'
    have key : ∀ q, polygonNew q none (some v) = .error e →
        e ∈ [PyErr.assertionError, .geometryError, .notImplementedError, .valueError, .triangulationError,
          .runtimeError] := by
      intro q hq
      rcases (C106_outcome q (some v)).2 with h' | h' | ⟨Q, h'⟩ <;> rw [h'] at hq <;> cases hq <;> simp
    split at he'
    · rename_i hq
      cases he'; exact key _ hq
    rename_i Q1 hQ1
    split at he'
    · rename_i hq
      cases he'; exact key _ hq
    rename_i Q2 hQ2
    rcases nameParts_error (fun x => C71_total hQ1 x true GEOM_ATOL) (fun x => C71_total hQ2 x true GEOM_ATOL) he' with
      rfl | rfl <;> simp
  · rename_i part1 part2 hmk
    exfalso
    unfold makePolygons at hmk
    rw [hv] at hmk he
    have given : ∀ {q Q}, polygonNew q none (some v) = .ok Q → Q.vn = some v := by
      intro q Q hQ
      obtain ⟨-, v', h1, h2, -⟩ := polygonNew_ok hQ
      simp only [chooseNormal, Except.ok.injEq] at h2
      rw [h1, ← h2]
    split at hmk
    · cases hmk
    rename_i Q1 hQ1
    split at hmk
    · cases hmk
    rename_i Q2 hQ2
    have hb : part1.2.vn = some v ∧ part2.2.vn = some v := by
      unfold nameParts at hmk
      split at hmk
      · cases hmk
      · split at hmk
        · cases hmk; exact ⟨given hQ1, given hQ2⟩
        · split at hmk
          · cases hmk; exact ⟨given hQ2, given hQ1⟩
          · cases hmk
    rw [checkNormal_given hb.1] at he
    simp only [checkNormal_given hb.2] at he
    cases he

end

/-- **C107, the documentation of `slice_polygon` is incomplete.**  It names `GeometryError` as the only exception; a triangle
sliced off its plane raises `AssertionError`, and one sliced along no points `IndexError`. -/
theorem C107_undocumented : ∃ (pts : List (Vec3 ℝ)) (P : Poly), polygonNew pts none none = .ok P ∧
    slicePolygon P [⟨0, 0, 5⟩] none none none none "a" "b" = .error .assertionError ∧
    slicePolygon P [] none none none none "a" "b" = .error .indexError := by
  obtain ⟨P, h, hp, -⟩ := triangle_z (x1 := 0) (y1 := 0) (x2 := 4) (y2 := 0) (x3 := 4) (y3 := 4) 0 (by norm_num)
  refine ⟨_, P, h, ?_, ?_⟩
  · have hc : arePointsCoplanar (P.pts ++ [⟨0, 0, 5⟩]) = false := by
      rw [hp, ← Bool.not_eq_true]
      intro hc
      have := coplanar_near (n := ⟨0, 0, 1⟩) (e := 0) (by intro h; simpa using congrArg Vec3.z h) (by simp [Vec3.dot])
        ?_ (le_refl _) hc
      · rw [norm_z] at this
        norm_num [Vec3.dot, GEOM_ATOL] at this
      · refine ⟨⟨0, _, _, _, rfl, rfl, rfl, ?_⟩, 0, _, _, _, rfl, rfl, rfl, ?_, ?_, ?_⟩
        · refine lt_of_lt_of_le ?_ (Vec3.abs_z_le _)
          norm_num
        · refine le_trans ?_ (Vec3.abs_x_le _)
          norm_num
        · refine le_trans ?_ (Vec3.abs_x_le _)
          norm_num
        · norm_num [Vec3.dot, Vec3.normSq]
    simp only [slicePolygon, hc, if_true]
  · have hc : arePointsCoplanar (P.pts ++ []) = true := by
      rw [hp, List.append_nil]
      simp [arePointsCoplanar]
    have hi : addIntersectionPoints P.pts [] = .error .indexError := by
      rw [addIntersectionPoints, polygonEdges_polygon h]
      rfl
    simp only [slicePolygon, hc, Bool.true_eq_false, if_false, hi]

end B3d.Slice
