import Verif.Proofs.SliceChord

/-!
# The way of a chord through the slicing function (helper lemmas for C111)
-/

namespace B3d.SliceConvex

open Spec Planar Points Slice Polygon Triangles ConvexEars

variable {o u w : Vec3 ℝ} {m : ℝ} {pts : List (ℝ × ℝ)} {x y : ℝ × ℝ}

theorem cutAlong_map {α β : Type} (f : α → β) {outline s A B : List α} (h : CutAlong outline s A B) :
    CutAlong (outline.map f) (s.map f) (A.map f) (B.map f) := by
  obtain ⟨x, y, F, G, M, rfl, ho, h1, h2⟩ := h
  refine ⟨f x, f y, F.map f, G.map f, M.map f, by simp, ?_, ?_, ?_⟩
  · simpa using ho.map f
  · simpa using h1.map f
  · simpa using h2.map f

theorem lerp_zero {a b p : ℝ × ℝ} {k : ℝ} (he : p = lerp a b k) : signedArea a b p = 0 := by
  rw [he]
  exact area_between_self ..

/-- Where an end of the chord is found. -/
inductive Found (pts : List (ℝ × ℝ)) (p : ℝ × ℝ) : Loc → Prop
  | vertex {v : Nat} : pts[v]? = some p → Found pts p (.vertex, v)
  | edge {i : Nat} {a b : ℝ × ℝ} {k : ℝ} : Side pts i a b → 0 < k → k < 1 → p = lerp a b k → Found pts p (.edge, i)

theorem found_exists (hx : Axes u w) {S : List (ℝ × ℝ)} (hc : Crisp m S) (hr : ∀ p ∈ S, Reach m (inPlane o u w p))
    (hS : ∀ p ∈ pts, p ∈ S) (hn : 3 ≤ pts.length) (hp : Pos pts) {P : Poly} (hf : Fan o u w pts P) {p : ℝ × ℝ}
    (ho : AtOutline pts p) (mp : p ∈ S) : ∃ l, Found pts p l ∧
      locatePoint (inPlane o u w p) P.pts P.tri (cycEdges P.pts) = .ok l := by
  rcases onOutline_cases ho with ⟨v, hv⟩ | ⟨i, a, b, k, hs, h0, h1, he⟩
  · exact ⟨_, .vertex hv, locate_vertex hx hc hr hS hn hp hf hv⟩
  · exact ⟨_, .edge hs h0 h1 he, locate_edge hx hc hr hS hn hp hf hs h0 h1 he mp⟩

theorem atEdge_false (hx : Axes u w) {S : List (ℝ × ℝ)} (hc : Crisp m S) (hr : ∀ p ∈ S, Reach m (inPlane o u w p))
    (hS : ∀ p ∈ pts, p ∈ S) {p a b : ℝ × ℝ} {i : Nat} (mp : p ∈ S) (hs : Side pts i a b) (h0 : signedArea a b p ≠ 0) :
    atEdge (cycEdges (pts.map (inPlane o u w))) (inPlane o u w p) i = false := by
  have hi := side_lt hs
  have e : (cycEdges (pts.map (inPlane o u w)))[i]? = some (inPlane o u w a, inPlane o u w b) := by
    rw [Solids.cycEdges_map, List.getElem?_map, cycEdges_getElem? pts i hi]
    have e1 := hs.1
    have e2 := hs.2
    rw [List.getElem?_eq_getElem hi, Option.some.injEq] at e1
    rw [List.getElem?_eq_getElem (Nat.mod_lt _ (by omega)), Option.some.injEq] at e2
    rw [e1, e2]
    rfl
  have ha : p ≠ a := by rintro rfl; exact h0 (area_same _ _).1
  have hb : p ≠ b := by rintro rfl; exact h0 (area_same _ _).2.1
  unfold atEdge
  rw [e]
  simp only [isPointInArray, List.any_cons, List.any_nil,
    not_equal hx hc hr mp (hS a (List.mem_of_getElem? hs.1)) ha, not_equal hx hc hr mp (hS b (List.mem_of_getElem? hs.2)) hb,
    Bool.or_false]

theorem onEdge_eq {v : Nat} {p : ℝ × ℝ} (hv : pts[v]? = some p) (edges : List (Vec3 ℝ × Vec3 ℝ)) (i : Nat) :
    onEdge (pts.map (inPlane o u w)) edges v i = atEdge edges (inPlane o u w p) i := by
  unfold onEdge
  rw [List.getElem?_map, hv]
  rfl

/-- What happens to a chord on the way to the two polygons. -/
theorem chord_parts (hx : Axes u w) (hc : Crisp m (x :: y :: pts)) (hr : ∀ p ∈ x :: y :: pts, Reach m (inPlane o u w p))
    (hn : 3 ≤ pts.length) (hp : Pos pts) (h : Chord pts x y) {P : Poly} (hf : Fan o u w pts P) :
    removeRedundantPoints [inPlane o u w x, inPlane o u w y] P.pts P.tri = .ok [inPlane o u w x, inPlane o u w y] ∧
    ∃ q1 q2 A B outline, Parts o u w pts x y q1 q2 A B outline ∧
      getPointArrays P.pts P.tri [inPlane o u w x, inPlane o u w y] =
        .ok (q1.map (inPlane o u w), q2.map (inPlane o u w)) := by
  have hS : ∀ p ∈ pts, p ∈ x :: y :: pts := fun p hp => List.mem_cons_of_mem _ (List.mem_cons_of_mem _ hp)
  have hne : pts.map (inPlane o u w) ≠ [] := by
    intro e
    rw [List.map_eq_nil_iff] at e
    rw [e] at hn
    simp at hn
  obtain ⟨lx, fx, ex⟩ := found_exists hx hc hr hS hn hp hf h.start (by simp)
  obtain ⟨ly, fy, ey⟩ := found_exists hx hc hr hS hn hp hf h.finish (by simp)
  have hloc : locatePoints [inPlane o u w x, inPlane o u w y] P.pts P.tri (cycEdges P.pts) =
      .ok [(inPlane o u w x, lx), (inPlane o u w y, ly)] := by
    simp [locatePoints, locateAll, ex, ey]
  have hd := distinct_map (o := o) hx hc hr hS (hp.nodup hn)
  have hxy : x ≠ y := by
    rintro rfl
    obtain ⟨i, a, b, hs, h0⟩ := side_through h.start
    rcases h.across i a b hs with k | k <;> exact k h0
  constructor
  · unfold removeRedundantPoints
    rw [polygonEdges_eq 0 P.pts (by rw [hf.points]; exact hne)]
    simp only [hloc]
    congr 1
    refine C43_straight (pre := []) (post := []) (b := (inPlane o u w x, lx)) (c := (inPlane o u w y, ly)) (by simp) (by simp) ?_
    rw [hf.points]
    cases fx with
    | vertex hv =>
      cases fy with
      | vertex hv' =>
        show _ ≠ _
        rintro rfl
        rw [hv, Option.some.injEq] at hv'
        exact hxy hv'
      | edge hs h0 h1 he =>
        have hz := lerp_zero he
        have := atEdge_false hx hc hr hS (p := x) (by simp) hs ((h.across _ _ _ hs).resolve_right fun k => k hz)
        exact ⟨this, by rw [onEdge_eq hv, this]⟩
    | edge hs h0 h1 he =>
      have hz := lerp_zero he
      cases fy with
      | vertex hv' =>
        have := atEdge_false hx hc hr hS (p := y) (by simp) hs ((h.across _ _ _ hs).resolve_left fun k => k hz)
        exact ⟨this, by rw [onEdge_eq hv', this]⟩
      | edge hs' h0' h1' he' =>
        show _ ≠ _
        rintro rfl
        have e1 := hs.1.symm.trans hs'.1
        have e2 := hs.2.symm.trans hs'.2
        cases e1
        cases e2
        have hz' := lerp_zero he'
        rcases h.across _ _ _ hs with k | k
        · exact k hz
        · exact k hz'
  · have hga : getPointArrays P.pts P.tri [inPlane o u w x, inPlane o u w y] =
        arrays (fun p q => pointsEqual p q) (turnNeeded P.pts [inPlane o u w x, inPlane o u w y]) P.pts (cycEdges P.pts)
          [(inPlane o u w x, lx), (inPlane o u w y, ly)] := by
      unfold getPointArrays
      rw [if_neg (by simp), polygonEdges_eq 0 P.pts (by rw [hf.points]; exact hne)]
      simp only [hloc]
    rw [hga, hf.points]
    cases fx with
    | vertex hv =>
      cases fy with
      | vertex hv' =>
        rename_i v v'
        have hvv : v ≠ v' := by
          rintro rfl
          rw [hv, Option.some.injEq] at hv'
          exact hxy hv'
        obtain ⟨q1, q2, A, B, outline, hpa, he⟩ := parts_of_vertices hx hp hd h hv hv' hvv
        refine ⟨q1, q2, A, B, outline, hpa, ?_⟩
        rw [← he]
        simp [arrays, count, numbersAt, List.dedup_cons_of_notMem, hvv]
      | edge hs h0 h1 he =>
        obtain ⟨q1, q2, A, B, outline, hpa, he⟩ := parts_of_vertex_edge hx hp hd h hv hs h0 h1 he
        refine ⟨q1, q2, A, B, outline, hpa, ?_⟩
        rw [← he]
        simp [arrays, count, numbersAt]
    | edge hs h0 h1 he =>
      cases fy with
      | vertex hv' =>
        obtain ⟨q1, q2, A, B, outline, hpa, he⟩ := parts_of_vertex_edge hx hp hd (chord_symm h) hv' hs h0 h1 he
        refine ⟨q1, q2, A, B, outline, hpa.swap, ?_⟩
        rw [← he]
        simp [arrays, count, numbersAt]
      | edge hs' h0' h1' he' =>
        rename_i i a b k j c d l
        have hij : i ≠ j := by
          rintro rfl
          have e1 := hs.1.symm.trans hs'.1
          have e2 := hs.2.symm.trans hs'.2
          cases e1
          cases e2
          have hz : signedArea a b x = 0 := by rw [he]; exact area_between_self ..
          have hz' : signedArea a b y = 0 := by rw [he']; exact area_between_self ..
          rcases h.across _ _ _ hs with k | k
          · exact k hz
          · exact k hz'
        obtain ⟨q1, q2, A, B, outline, hpa, he⟩ := parts_of_edges hx hn hp hd hs hs' hij h0 h1 h0' h1' he he'
        refine ⟨q1, q2, A, B, outline, hpa, ?_⟩
        rw [← he]
        simp [arrays, count, numbersAt, List.dedup_cons_of_notMem, hij]

end B3d.SliceConvex
