import Verif.Proofs.SliceBack
import Verif.Props.SliceKeep
import Verif.Props.SliceCases

/-!
# Slicing convex polygons: where the ends of a chord are found
-/

namespace B3d.SliceConvex

open Spec Planar Points Slice Polygon Triangles ConvexEars

variable {o u w : Vec3 ℝ} {m : ℝ} {pts : List (ℝ × ℝ)} {x y : ℝ × ℝ}

/-! ### In the plane -/

theorem side_lt {i : Nat} {a b : ℝ × ℝ} (h : Side pts i a b) : i < pts.length := (List.getElem?_eq_some_iff.1 h.1).1

theorem side_exists {i : Nat} (h : i < pts.length) : ∃ a b, Side pts i a b :=
  ⟨_, _, List.getElem?_eq_getElem h, List.getElem?_eq_getElem (Nat.mod_lt _ (by omega))⟩

theorem onOutline_cases (h : AtOutline pts x) : (∃ v : Nat, pts[v]? = some x) ∨
    ∃ i a b k, Side pts i a b ∧ 0 < k ∧ k < 1 ∧ x = lerp a b k := by
  obtain ⟨i, a, b, k, hs, h0, h1, rfl⟩ := h
  rcases h0.lt_or_eq with h0 | rfl
  · rcases h1.lt_or_eq with h1 | rfl
    · exact .inr ⟨i, a, b, k, hs, h0, h1, rfl⟩
    · rw [between_one]; exact .inl ⟨_, hs.2⟩
  · rw [between_zero]; exact .inl ⟨_, hs.1⟩

theorem outline_nonneg (hp : Pos pts) (h : AtOutline pts x) {i : Nat} {a b : ℝ × ℝ} (hs : Side pts i a b) :
    0 ≤ signedArea a b x := by
  obtain ⟨j, c, d, k, hj, h0, h1, rfl⟩ := h
  rw [area_between]
  have := (hp.side hs hj.1).1
  have := (hp.side hs hj.2).1
  have : 0 ≤ 1 - k := by linarith
  positivity

/-- A point within a side is on no other side. -/
theorem other_side (hn : 3 ≤ pts.length) (hp : Pos pts) {i j : Nat} {a b c d : ℝ × ℝ} {k : ℝ} (hi : Side pts i a b)
    (hj : Side pts j c d) (hne : j ≠ i) (h0 : 0 < k) (h1 : k < 1) : 0 < signedArea c d (lerp a b k) := by
  have l1 := side_lt hi
  have l2 := side_lt hj
  obtain ⟨n1, p1⟩ := hp.side hj hi.1
  obtain ⟨n2, p2⟩ := hp.side hj hi.2
  have h1' : 0 < 1 - k := by linarith
  rw [area_between]
  have e : ∀ a, a < pts.length → (a + 1) % pts.length = if a + 1 < pts.length then a + 1 else 0 := by
    intro a ha
    split
    · exact Nat.mod_eq_of_lt ‹_›
    · rw [show a + 1 = pts.length by omega, Nat.mod_self]
  rw [e j l2] at p1
  rw [e i l1, e j l2] at p2
  have : (i ≠ j ∧ i ≠ if j + 1 < pts.length then j + 1 else 0) ∨ ((if i + 1 < pts.length then i + 1 else 0) ≠ j ∧
      (if i + 1 < pts.length then i + 1 else 0) ≠ if j + 1 < pts.length then j + 1 else 0) := by
    split <;> split <;> omega
  rcases this with ⟨q1, q2⟩ | ⟨q1, q2⟩
  · have := p1 q1 q2
    have : 0 < (1 - k) * signedArea c d a := by positivity
    have : 0 ≤ k * signedArea c d b := by positivity
    linarith
  · have := p2 q1 q2
    have : 0 ≤ (1 - k) * signedArea c d a := by positivity
    have : 0 < k * signedArea c d b := by positivity
    linarith

theorem chord_symm (h : Chord pts x y) : Chord pts y x :=
  ⟨h.finish, h.start, fun i a b hs => (h.across i a b hs).symm⟩

/-! ### In space -/

variable (hx : Axes u w) (hc : Crisp m (x :: y :: pts)) (hr : ∀ p ∈ x :: y :: pts, Reach m (inPlane o u w p))
  (hn : 3 ≤ pts.length) (hp : Pos pts) (h : Chord pts x y)

theorem side_mem {i : Nat} {a b : ℝ × ℝ} (hs : Side pts i a b) : a ∈ x :: y :: pts ∧ b ∈ x :: y :: pts :=
  ⟨List.mem_cons_of_mem _ (List.mem_cons_of_mem _ (List.mem_of_getElem? hs.1)),
    List.mem_cons_of_mem _ (List.mem_cons_of_mem _ (List.mem_of_getElem? hs.2))⟩

theorem side_ne (hn : 3 ≤ pts.length) (hp : Pos pts) {i : Nat} {a b : ℝ × ℝ} (hs : Side pts i a b) : b ≠ a := by
  rintro rfl
  have h1 := hs.1
  have h2 := hs.2
  have l := side_lt hs
  have := (List.nodup_iff_getElem?_ne_getElem?.1 (hp.nodup hn))
  by_cases hl : i + 1 < pts.length
  · rw [Nat.mod_eq_of_lt hl] at h2
    exact this i (i + 1) (by omega) hl (h1.trans h2.symm)
  · rw [show i + 1 = pts.length by omega, Nat.mod_self] at h2
    exact this 0 i (by omega) l (h2.trans h1.symm)

theorem on_side_line {a b : ℝ × ℝ} (hne : b ≠ a) (h0 : signedArea a b x = 0) : ∃ k, x = lerp a b k := by
  obtain ⟨k, e1, e2⟩ := on_line (distSq_pos hne) h0
  refine ⟨k, Prod.ext ?_ ?_⟩
  · show _ = a.1 + _
    linarith
  · show _ = a.2 + _
    linarith

theorem side_through (ho : AtOutline pts x) : ∃ i a b, Side pts i a b ∧ signedArea a b x = 0 := by
  obtain ⟨i, a, b, k, hs, -, -, rfl⟩ := ho
  exact ⟨i, a, b, hs, area_between_self ..⟩

include hx hc hr hn hp h in
theorem crossOf_side {i : Nat} {a b : ℝ × ℝ} (hs : Side pts i a b) :
    crossOf (inPlane o u w a, inPlane o u w b) (inPlane o u w x, inPlane o u w y) = none := by
  have hne := side_ne hn hp hs
  by_cases hx0 : signedArea a b x = 0
  · obtain ⟨k, hk⟩ := on_side_line hne hx0
    exact (crossOf_touch hk).1
  by_cases hy0 : signedArea a b y = 0
  · obtain ⟨k, hk⟩ := on_side_line hne hy0
    exact (crossOf_touch hk).2
  have nx := lt_of_le_of_ne (outline_nonneg hp h.start hs) (Ne.symm hx0)
  have ny := lt_of_le_of_ne (outline_nonneg hp h.finish hs) (Ne.symm hy0)
  obtain ⟨j, c, d, hj, x0⟩ := side_through h.start
  obtain ⟨j', c', d', hj', y0'⟩ := side_through h.finish
  have y0 := lt_of_le_of_ne (outline_nonneg hp h.finish hj) (Ne.symm ((h.across j c d hj).resolve_left (fun k => k x0)))
  have x0' := lt_of_le_of_ne (outline_nonneg hp h.start hj') (Ne.symm ((h.across j' c' d' hj').resolve_right (fun k => k y0')))
  obtain ⟨ma, mb⟩ := side_mem (x := x) (y := y) hs
  obtain ⟨mc, md⟩ := side_mem (x := x) (y := y) hj
  obtain ⟨mc', md'⟩ := side_mem (x := x) (y := y) hj'
  exact crossOf_miss hx hc hr ma mb (by simp) (by simp) mc md mc' md' nx ny x0 y0 (hp.side hj hs.1).1
    (hp.side hj hs.2).1 y0' x0' (hp.side hj' hs.1).1 (hp.side hj' hs.2).1

theorem crisp_swap {S T : List (ℝ × ℝ)} (hc : Crisp m S) (hs : ∀ p ∈ T, p ∈ S) : Crisp m T :=
  ⟨hc.scale, fun p hp q hq => hc.far p (hs p hp) q (hs q hq), fun p hp q hq => hc.near p (hs p hp) q (hs q hq),
    fun p hp q hq r hr => hc.sides p (hs p hp) q (hs q hq) r (hs r hr)⟩

theorem mem_swap {p : ℝ × ℝ} (h : p ∈ y :: x :: pts) : p ∈ x :: y :: pts := by
  simp only [List.mem_cons] at h ⊢
  tauto

include hx hc hr hn hp h in
/-- No slicing points are added. -/
theorem no_points_added : ∃ q, addIntersectionPoints (pts.map (inPlane o u w)) [inPlane o u w x, inPlane o u w y] =
    .ok (q, [inPlane o u w x, inPlane o u w y]) := by
  have hne : pts.map (inPlane o u w) ≠ [] := by
    intro e
    rw [List.map_eq_nil_iff] at e
    rw [e] at hn
    simp at hn
  have hnone : ∀ s : Vec3 ℝ × Vec3 ℝ, (s = (inPlane o u w x, inPlane o u w y) ∨ s = (inPlane o u w y, inPlane o u w x)) →
      ((cycEdges (pts.map (inPlane o u w))).filterMap fun e1 => crossOf e1 s) = [] := by
    intro s hs
    rw [List.filterMap_eq_nil_iff]
    intro e he
    rw [Solids.cycEdges_map, List.mem_map] at he
    obtain ⟨⟨a, b⟩, hab, rfl⟩ := he
    obtain ⟨i, hi⟩ := List.mem_iff_getElem?.1 hab
    have hil : i < pts.length := by
      have := (List.getElem?_eq_some_iff.1 hi).1
      rwa [length_cycEdges] at this
    rw [cycEdges_getElem? pts i hil, Option.some.injEq, Prod.mk.injEq] at hi
    have hsd : Side pts i a b := ⟨by rw [List.getElem?_eq_getElem hil, hi.1],
      by rw [List.getElem?_eq_getElem (Nat.mod_lt _ (by omega)), hi.2]⟩
    rcases hs with rfl | rfl
    · exact crossOf_side hx hc hr hn hp h hsd
    · exact crossOf_side hx (crisp_swap hc fun p hp => mem_swap hp) (fun p hp => hr p (mem_swap hp)) hn hp (chord_symm h) hsd
  have e : cycEdges [inPlane o u w x, inPlane o u w y] =
      [(inPlane o u w x, inPlane o u w y), (inPlane o u w y, inPlane o u w x)] := rfl
  have key : ((cycEdges [inPlane o u w x, inPlane o u w y]).flatMap fun e =>
      e.1 :: (cycEdges (pts.map (inPlane o u w))).filterMap fun e1 => crossOf e1 e) = [inPlane o u w x, inPlane o u w y] := by
    simp only [e, List.flatMap_cons, List.flatMap_nil, hnone _ (.inl rfl), hnone _ (.inr rfl), List.cons_append,
      List.nil_append]
  rw [C75_points hne (by simp), key]
  exact ⟨_, rfl⟩

/-! ### Locations -/

theorem locateEdge_at {p a b : Vec3 ℝ} : ∀ {edges : List (Vec3 ℝ × Vec3 ℝ)} {s i : Nat}, edges[i]? = some (a, b) → a ≠ b →
    OnSegment a b p → (∀ (j : Nat) c d, j < i → edges[j]? = some (c, d) → c ≠ d ∧
      ∀ t : ℝ, 1 / 10 ^ 6 ≤ Vec3.norm ((c + t • (d - c)) - p)) → locateEdge p s edges = .ok (.edge, s + i)
  | (a', b') :: rest, s, 0, he, hne, ho, _ => by
    simp only [List.getElem?_cons_zero, Option.some.injEq, Prod.mk.injEq] at he
    obtain ⟨rfl, rfl⟩ := he
    exact locateEdge_hit hne ho
  | (c, d) :: rest, s, i + 1, he, hne, ho, hfar => by
    obtain ⟨hcd, hf⟩ := hfar 0 c d (by omega) rfl
    obtain ⟨dd, hd, ⟨t, -, -, ht⟩, -⟩ := (C27_distance_point_to_edge p c d).1 hcd
    have hz := hf t
    rw [← ht] at hz
    simp only [locateEdge, hd]
    rw [if_neg, locateEdge_at (s := s + 1) (i := i) (by simpa using he) hne ho
      (fun j c d hj h => hfar (j + 1) c d (by omega) (by simpa using h))]
    · congr 2
      omega
    · simp only [isClose, NP_ATOL, NP_RTOL, abs_zero, mul_zero, sub_zero, not_le]
      norm_num at hz ⊢
      rw [abs_of_nonneg (by linarith)]
      linarith

theorem far_from_line (hx : Axes u w) {S : List (ℝ × ℝ)} (hc : Crisp m S) {c d p : ℝ × ℝ} (mc : c ∈ S) (md : d ∈ S)
    (mp : p ∈ S) (hpos : 0 < signedArea c d p) (t : ℝ) :
    1 / 10 ^ 6 ≤ Vec3.norm ((inPlane o u w c + t • (inPlane o u w d - inPlane o u w c)) - inPlane o u w p) := by
  rw [← inPlane_between]
  apply Vec3.le_norm_of_sq
  rw [normSq_inPlane hx]
  have k := area_diff c d (lerp c d t) p
  rw [area_between_self] at k
  have k1 := area_big hc mc md mp hpos
  have k2 := hc.near d md c mc
  have hsc := hc.scale
  have hm2 : 1 / 10 ^ 6 ≤ m ^ 2 := by norm_num at hsc ⊢; nlinarith
  have k3 : 0 ≤ distSq (lerp c d t) p := by unfold distSq; positivity
  have k4 : (m ^ 2) ^ 2 ≤ (0 - signedArea c d p) ^ 2 := by nlinarith
  have k5 : m ^ 2 * m ^ 2 ≤ m ^ 2 * (5000 * distSq (lerp c d t) p) := by
    calc m ^ 2 * m ^ 2 = (m ^ 2) ^ 2 := by ring
      _ ≤ _ := k4.trans k
      _ ≤ 5000 * m ^ 2 * distSq (lerp c d t) p := by gcongr
      _ = _ := by ring
  have k6 : m ^ 2 ≤ 5000 * distSq (lerp c d t) p := le_of_mul_le_mul_left k5 (by linarith)
  norm_num at hm2 ⊢
  linarith

/-- The polygon made of a convex outline. -/
structure Fan (o u w : Vec3 ℝ) (pts : List (ℝ × ℝ)) (P : Poly) : Prop where
  made : polygonNew (pts.map (inPlane o u w)) none none = .ok P
  points : P.pts = pts.map (inPlane o u w)
  normal : P.vn = some (Vec3.cross u w)
  tri : P.tri = (List.range (pts.length - 2)).map fun i => (pts.length - 1, i, i + 1)

theorem fan_exists (hx : Axes u w) (hc : Crisp m pts) (hr : ∀ p ∈ pts, Reach m (inPlane o u w p)) (hn : 3 ≤ pts.length)
    (hp : Pos pts) : ∃ P, Fan o u w pts P := by
  obtain ⟨P, h1, h2, h3, h4⟩ := C84_convex_partial (Rounded.convex_crisp (o := o) hx hc hn (hp.nodup hn) hp hr)
  exact ⟨P, h1, h2, h3, by rw [h4, List.length_map]⟩

theorem fan_flat {P : Poly} (hf : Fan o u w pts P) :
    ∀ p ∈ P.pts, Vec3.dot (Vec3.cross u w) p = Vec3.dot (Vec3.cross u w) o := by
  rw [hf.points]
  exact plane_inPlane o pts

theorem inClosed_rot {t a b c : ℝ × ℝ} (h : InClosed t a b c) : InClosed t b c a := ⟨h.2.1, h.2.2, h.1⟩

theorem not_equal (hx : Axes u w) {S : List (ℝ × ℝ)} (hc : Crisp m S) (hr : ∀ p ∈ S, Reach m (inPlane o u w p))
    {p q : ℝ × ℝ} (mp : p ∈ S) (mq : q ∈ S) (hne : p ≠ q) :
    pointsEqual (inPlane o u w p) (inPlane o u w q) = false :=
  (apart_inPlane hx hc mp mq hne (hr q mq)).symm_ne

/-- A point on a side is inside the polygon. -/
theorem side_inside (hx : Axes u w) {S : List (ℝ × ℝ)} (hc : Crisp m S) (hr : ∀ p ∈ S, Reach m (inPlane o u w p)) (hS : ∀ p ∈ pts, p ∈ S) (hn : 3 ≤ pts.length)
    (hp : Pos pts) {P : Poly} (hf : Fan o u w pts P) {i : Nat} {a b p : ℝ × ℝ} {k : ℝ} (hs : Side pts i a b) (h0 : 0 ≤ k)
    (h1 : k ≤ 1) (he : p = lerp a b k) (mp : p ∈ S) : isPointInside (inPlane o u w p) P.pts P.tri = .ok true := by
  have hi := side_lt hs
  have hget : ∀ j, j < pts.length → pts[j]? = some (pts.getD j 0) := by
    intro j hj
    rw [List.getD_eq_getElem?_getD, List.getElem?_eq_getElem hj]
    rfl
  have key : ∀ j, j < pts.length - 2 → InClosed p (pts.getD (pts.length - 1) 0) (pts.getD j 0) (pts.getD (j + 1) 0) →
      isPointInside (inPlane o u w p) P.pts P.tri = .ok true := by
    intro j hj hin
    have hpos : 0 < signedArea (pts.getD (pts.length - 1) 0) (pts.getD j 0) (pts.getD (j + 1) 0) := by
      rw [area_left]
      exact hp _ _ _ (sublist3 (i := j) (j := j + 1) (k := pts.length - 1) (by omega) (by omega) (hget _ (by omega))
        (hget _ (by omega)) (hget _ (by omega)))
    have mem : ∀ j, j < pts.length → pts.getD j 0 ∈ S := fun j hj => hS _ (List.mem_of_getElem? (hget j hj))
    refine isPointInside_of_triangle (polygonNew_sturdy hf.made) (polygonNew_flat hf.made hf.normal (fan_flat hf))
      GEOM_ATOL_pos (t := (pts.length - 1, j, j + 1)) ?_ ?_
    · rw [hf.tri]
      exact List.mem_map.2 ⟨j, List.mem_range.2 hj, rfl⟩
    · refine ⟨inPlane o u w (pts.getD (pts.length - 1) 0), inPlane o u w (pts.getD j 0), inPlane o u w (pts.getD (j + 1) 0),
        ?_, ?_, ?_, inTriangle_inPlane hpos hin, ?_⟩
      · rw [hf.points, List.getElem?_map, hget (pts.length - 1) (by omega)]; rfl
      · rw [hf.points, List.getElem?_map, hget j (by omega)]; rfl
      · rw [hf.points, List.getElem?_map, hget (j + 1) (by omega)]; rfl
      · rw [isPointInside_inPlane hx hc hr (mem _ (by omega)) (mem _ (by omega)) (mem _ (by omega)) mp hpos]
        exact congrArg Except.ok (by simpa only [decide_eq_true_eq] using hin)
  have line : ∀ j, j < pts.length → 0 < signedArea a b (pts.getD j 0) → InClosed p a b (pts.getD j 0) := by
    intro j hj hpos
    refine inClosed_of_line hpos h0 h1 ?_ ?_
    · rw [he]; show a.1 + _ - a.1 = _; ring
    · rw [he]; show a.2 + _ - a.2 = _; ring
  have ha : a = pts.getD i 0 := by have := hs.1; rw [hget _ hi, Option.some.injEq] at this; exact this.symm
  by_cases hl : i + 1 < pts.length
  · have hb : b = pts.getD (i + 1) 0 := by
      have := hs.2; rw [Nat.mod_eq_of_lt hl, hget _ hl, Option.some.injEq] at this; exact this.symm
    by_cases hl2 : i < pts.length - 2
    · have := line (pts.length - 1) (by omega) ((hp.side hs (hget _ (by omega))).2 (by omega)
        (by rw [Nat.mod_eq_of_lt hl]; omega))
      rw [ha, hb] at this
      exact key i hl2 (inClosed_rot (inClosed_rot this))
    · have := line (pts.length - 3) (by omega) ((hp.side hs (hget _ (by omega))).2 (by omega)
        (by rw [Nat.mod_eq_of_lt hl]; omega))
      rw [ha, hb] at this
      refine key (pts.length - 3) (by omega) ?_
      rw [show pts.length - 3 + 1 = i by omega, show pts.length - 1 = i + 1 by omega]
      exact inClosed_rot this
  · have hb : b = pts.getD 0 0 := by
      have := hs.2
      rw [show i + 1 = pts.length by omega, Nat.mod_self, hget _ (by omega), Option.some.injEq] at this
      exact this.symm
    have := line 1 (by omega) ((hp.side hs (hget _ (by omega))).2 (by omega)
      (by rw [show i + 1 = pts.length by omega, Nat.mod_self]; omega))
    rw [ha, hb] at this
    refine key 0 (by omega) ?_
    rw [show pts.length - 1 = i by omega]
    exact this

theorem locate_edge (hx : Axes u w) {S : List (ℝ × ℝ)} (hc : Crisp m S) (hr : ∀ p ∈ S, Reach m (inPlane o u w p))
    (hS : ∀ p ∈ pts, p ∈ S) (hn : 3 ≤ pts.length)
    (hp : Pos pts) {P : Poly} (hf : Fan o u w pts P) {i : Nat} {a b p : ℝ × ℝ} {k : ℝ} (hs : Side pts i a b) (h0 : 0 < k)
    (h1 : k < 1) (he : p = lerp a b k) (mp : p ∈ S) :
    locatePoint (inPlane o u w p) P.pts P.tri (cycEdges P.pts) = .ok (.edge, i) := by
  have hi := side_lt hs
  have hne := side_ne hn hp hs
  have inj : ∀ {p q : ℝ × ℝ}, p ∈ S → q ∈ S → p ≠ q → inPlane o u w p ≠ inPlane o u w q := by
    intro p q mp mq hne e
    have := not_equal hx hc hr mp mq hne
    rw [e, pointsEqual_refl] at this
    cases this
  rw [locatePoint_inside (side_inside hx hc hr hS hn hp hf hs h0.le h1.le he mp)]
  · rw [hf.points, Solids.cycEdges_map]
    have hedge : ∀ j c d, Side pts j c d → ((cycEdges pts).map (Prod.map (inPlane o u w) (inPlane o u w)))[j]? =
        some (inPlane o u w c, inPlane o u w d) := by
      intro j c d hj
      have hjl := side_lt hj
      rw [List.getElem?_map, cycEdges_getElem? pts j hjl]
      have e1 := hj.1
      have e2 := hj.2
      rw [List.getElem?_eq_getElem hjl, Option.some.injEq] at e1
      rw [List.getElem?_eq_getElem (Nat.mod_lt _ (by omega)), Option.some.injEq] at e2
      rw [e1, e2]
      rfl
    have := locateEdge_at (p := inPlane o u w p) (s := 0) (i := i) (hedge i a b hs)
      (inj (hS _ (List.mem_of_getElem? hs.1)) (hS _ (List.mem_of_getElem? hs.2)) hne.symm)
      ⟨k, h0.le, h1.le, by rw [he, inPlane_between]⟩ (by
        intro j c' d' hj hcd
        obtain ⟨c, d, hjs⟩ := side_exists (pts := pts) (i := j) (by omega)
        rw [hedge j c d hjs, Option.some.injEq, Prod.mk.injEq] at hcd
        obtain ⟨rfl, rfl⟩ := hcd
        have mc := hS _ (List.mem_of_getElem? hjs.1)
        have md := hS _ (List.mem_of_getElem? hjs.2)
        refine ⟨inj mc md (side_ne hn hp hjs).symm, far_from_line hx hc mc md mp ?_⟩
        rw [he]
        exact other_side hn hp hs hjs (by omega) h0 h1)
    rw [this, Nat.zero_add]
  · intro q hq
    rw [hf.points] at hq
    obtain ⟨q, mq, rfl⟩ := List.mem_map.1 hq
    refine not_equal hx hc hr mp (hS q mq) ?_
    rintro rfl
    obtain ⟨j, hj⟩ := List.mem_iff_getElem?.1 mq
    -- the corner `j` is on a side which starts or ends there, different from `i`
    have hjl := (List.getElem?_eq_some_iff.1 hj).1
    obtain ⟨j', c, d, hj', hne', hz⟩ : ∃ j' c d, Side pts j' c d ∧ j' ≠ i ∧ signedArea c d p = 0 := by
      by_cases hji : j = i
      · subst hji
        rcases Nat.eq_zero_or_pos j with rfl | hpos
        · obtain ⟨c, d, hs'⟩ := side_exists (pts := pts) (i := pts.length - 1) (by omega)
          refine ⟨_, c, d, hs', by omega, ?_⟩
          have := hs'.2
          rw [show pts.length - 1 + 1 = pts.length by omega, Nat.mod_self, hj, Option.some.injEq] at this
          rw [← this]
          exact (area_same _ _).2.1
        · obtain ⟨c, d, hs'⟩ := side_exists (pts := pts) (i := j - 1) (by omega)
          refine ⟨_, c, d, hs', by omega, ?_⟩
          have := hs'.2
          rw [show j - 1 + 1 = j by omega, Nat.mod_eq_of_lt hjl, hj, Option.some.injEq] at this
          rw [← this]
          exact (area_same _ _).2.1
      · obtain ⟨c, d, hs'⟩ := side_exists (pts := pts) (i := j) hjl
        refine ⟨_, c, d, hs', hji, ?_⟩
        have := hs'.1
        rw [hj, Option.some.injEq] at this
        rw [← this]
        exact (area_same _ _).1
    have := other_side hn hp hs hj' hne' h0 h1
    rw [← he] at this
    linarith

theorem locate_vertex (hx : Axes u w) {S : List (ℝ × ℝ)} (hc : Crisp m S) (hr : ∀ p ∈ S, Reach m (inPlane o u w p))
    (hS : ∀ p ∈ pts, p ∈ S) (hn : 3 ≤ pts.length)
    (hp : Pos pts) {P : Poly} (hf : Fan o u w pts P) {v : Nat} {p : ℝ × ℝ} (hv : pts[v]? = some p) :
    locatePoint (inPlane o u w p) P.pts P.tri (cycEdges P.pts) = .ok (.vertex, v) := by
  have hvl := (List.getElem?_eq_some_iff.1 hv).1
  have mp := List.mem_of_getElem? hv
  unfold locatePoint
  rw [C71_accepts_partial hf.made hf.normal (fan_flat hf) (.inr (by rw [hf.points]; exact List.mem_map_of_mem mp))]
  simp only
  have : (P.pts.findIdx? fun q => pointsEqual (inPlane o u w p) q) = some v := by
    rw [List.findIdx?_eq_some_iff_getElem, hf.points]
    refine ⟨by simpa using hvl, ?_, ?_⟩
    · have := (List.getElem?_eq_some_iff.1 hv).2
      simp only [List.getElem_map, this]
      exact pointsEqual_refl _
    · intro j hj
      have hjl : j < pts.length := by omega
      simp only [List.getElem_map]
      have hne : p ≠ pts[j] := by
        intro e
        have := (List.nodup_iff_getElem?_ne_getElem?.1 (hp.nodup hn)) j v hj hvl
        apply this
        rw [hv, List.getElem?_eq_getElem hjl, e]
      rw [not_equal hx hc hr (hS p mp) (hS _ (List.getElem_mem hjl)) hne]
      simp
  rw [this]

end B3d.SliceConvex
