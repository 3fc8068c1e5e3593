import Verif.Proofs.SliceThrough

/-!
# C115: slicing a convex polygon along a line which extends beyond it
-/

namespace B3d.SliceConvex

open Spec Planar Points Slice Polygon Triangles ConvexEars PointExact

variable {o u w : Vec3 ℝ} {m : ℝ} {pts S : List (ℝ × ℝ)} {p q x y : ℝ × ℝ}

/-! ### Which points are kept -/

section keep

variable {α : Type} {n left : Nat} {atE : α → Nat → Bool} {onE : Nat → Nat → Bool} {P Q X Y : α} {i j e f : Nat}

theorem keep_through (h : i ≠ j) : rollAndKeep n atE onE left [(P, .exterior, e), (X, .edge, i), (Y, .edge, j),
    (Q, .exterior, f), (X, .edge, i), (Y, .edge, j)] = [X, Y] := by
  unfold rollAndKeep
  rw [if_neg (by simp), keepPoints, if_neg (by simp)]
  simp [keepLoop, keepPoint, nextLoc, count, h, h.symm]

theorem keep_single : rollAndKeep n atE onE left [(P, .exterior, e), (X, .edge, i), (Q, .exterior, f), (X, .edge, i)] =
    [] := by
  unfold rollAndKeep
  rw [if_neg (by simp), keepPoints, if_neg (by simp [count])]
  simp [keepLoop, keepPoint, nextLoc]

theorem keep_none : rollAndKeep n atE onE left [(P, .exterior, e), (Q, .exterior, f)] = [] := by
  unfold rollAndKeep
  rw [if_neg (by simp), keepPoints, if_neg (by simp [count])]
  simp [keepLoop, keepPoint]

theorem keep_from {lx : Loc} (h : Slice.Apart atE onE (X, lx) (Y, .edge, j)) :
    rollAndKeep n atE onE left [(X, lx), (Y, .edge, j), (Q, .exterior, f), (Y, .edge, j)] = [X, Y] := by
  obtain ⟨k, i⟩ := lx
  cases k <;> simp only [Slice.Apart] at h
  · unfold rollAndKeep
    rw [if_neg (by simp), keepPoints, if_neg (by simp [count])]
    simp [keepLoop, keepPoint, nextLoc, count, h]
  · unfold rollAndKeep
    rw [if_neg (by simp), keepPoints, if_neg (by simp [count])]
    simp [keepLoop, keepPoint, nextLoc, count, h, Ne.symm h]

theorem keep_from_none {lx : Loc} (h : lx.1 = .vertex ∨ lx.1 = .edge) :
    rollAndKeep n atE onE left [(X, lx), (Q, .exterior, f)] = [] := by
  obtain ⟨k, i⟩ := lx
  rcases h with h | h <;> simp only at h <;> subst h <;> unfold rollAndKeep <;>
    rw [if_neg (by simp), keepPoints, if_neg (by simp [count])] <;>
    simp [keepLoop, keepPoint, nextLoc]

theorem keep_to {ly : Loc} (h : Slice.Apart atE onE (X, .edge, i) (Y, ly)) :
    rollAndKeep n atE onE left [(P, .exterior, e), (X, .edge, i), (Y, ly), (X, .edge, i)] = [X, Y, X] := by
  obtain ⟨k, j⟩ := ly
  cases k <;> simp only [Slice.Apart] at h
  · unfold rollAndKeep
    rw [if_neg (by simp), keepPoints, if_neg (by simp [count])]
    simp [keepLoop, keepPoint, nextLoc, count, h]
  · unfold rollAndKeep
    rw [if_neg (by simp), keepPoints, if_neg (by simp [count])]
    simp [keepLoop, keepPoint, nextLoc, count, h, Ne.symm h]

theorem keep_to_none {ly : Loc} (h : ly.1 = .vertex ∨ ly.1 = .edge) :
    rollAndKeep n atE onE left [(P, .exterior, e), (Y, ly)] = [] := by
  obtain ⟨k, i⟩ := ly
  rcases h with h | h <;> simp only at h <;> subst h <;> unfold rollAndKeep <;>
    rw [if_neg (by simp), keepPoints, if_neg (by simp [count])] <;>
    simp [keepLoop, keepPoint, nextLoc]

end keep

/-! ### The way of the line through the slicing function -/

/-- The end of the line beyond `x` is on the wrong side of a side of the outline. -/
theorem beyond_outside (hp : Pos pts) (h : Through pts p q x y) (hne : x ≠ p) :
    ∃ i a b, Side pts i a b ∧ signedArea a b p < 0 := by
  obtain ⟨hch, k, l, k0, kl, l1, hk, hl⟩ := h
  obtain ⟨j, c, d, hj, x0⟩ := side_through hch.start
  have y0 := lt_of_le_of_ne (outline_nonneg hp hch.finish hj)
    (Ne.symm ((hch.across j c d hj).resolve_left (fun k => k x0)))
  refine ⟨j, c, d, hj, ?_⟩
  have kp : 0 < k := by
    rcases k0.lt_or_eq with h | h
    · exact h
    · exfalso; apply hne; rw [hk, ← h, between_zero]
  rw [hk, area_between] at x0
  rw [hl, area_between] at y0
  by_contra hge
  push Not at hge
  nlinarith

theorem locate_outside (hx : Axes u w) (hc : Crisp m S) (hr : ∀ p ∈ S, Reach m (inPlane o u w p)) (hS : ∀ p ∈ pts, p ∈ S)
    (hn : 3 ≤ pts.length) (hp : Pos pts) {P : Poly} (hf : Fan o u w pts P) (mp : p ∈ S)
    (hout : ∃ i a b, Side pts i a b ∧ signedArea a b p < 0) (edges : List (Vec3 ℝ × Vec3 ℝ)) :
    locatePoint (inPlane o u w p) P.pts P.tri edges = .ok (.exterior, 0) := by
  obtain ⟨r, h1, k1⟩ := inside_both hx hc hr hS hf.made hf.normal mp true
  have : r = false := by
    cases r with
    | false => rfl
    | true =>
      have := (k1.1 rfl).1
      rw [region_convex hx hn hp hf.points hf.tri] at this
      obtain ⟨i, a, b, hside, hneg⟩ := hout
      exact absurd (this i a b hside) (not_le.2 hneg)
  subst this
  unfold locatePoint
  rw [h1]

theorem found_kind {lx : Loc} (h : Found pts x lx) : lx.1 = .vertex ∨ lx.1 = .edge := by
  cases h <;> simp

theorem found_vertex (hn : 3 ≤ pts.length) (hp : Pos pts) {lx : Loc} (h : Found pts x lx) : lx.1 = .vertex ↔ x ∈ pts := by
  cases h with
  | vertex hv => exact ⟨fun _ => List.mem_of_getElem? hv, fun _ => rfl⟩
  | edge hs t0 t1 he =>
    rename_i i a b t
    refine ⟨fun h => (by cases h), fun hm => ?_⟩
    exfalso
    obtain ⟨v, hv⟩ := List.mem_iff_getElem?.1 hm
    have hvl := (List.getElem?_eq_some_iff.1 hv).1
    -- the corner is on two sides, one of which is another one
    obtain ⟨j, c, d, hj, hne, hz⟩ : ∃ j c d, Side pts j c d ∧ j ≠ i ∧ signedArea c d x = 0 := by
      by_cases hvi : v = i
      · subst hvi
        rcases Nat.eq_zero_or_pos v with rfl | hpos
        · obtain ⟨c, d, hs'⟩ := side_exists (pts := pts) (i := pts.length - 1) (by omega)
          refine ⟨_, c, d, hs', by omega, ?_⟩
          have := hs'.2
          rw [show pts.length - 1 + 1 = pts.length by omega, Nat.mod_self, hv, Option.some.injEq] at this
          rw [← this]
          exact (area_same _ _).2.1
        · obtain ⟨c, d, hs'⟩ := side_exists (pts := pts) (i := v - 1) (by omega)
          refine ⟨_, c, d, hs', by omega, ?_⟩
          have := hs'.2
          rw [show v - 1 + 1 = v by omega, Nat.mod_eq_of_lt hvl, hv, Option.some.injEq] at this
          rw [← this]
          exact (area_same _ _).2.1
      · obtain ⟨c, d, hs'⟩ := side_exists (pts := pts) (i := v) hvl
        refine ⟨_, c, d, hs', hvi, ?_⟩
        have := hs'.1
        rw [hv, Option.some.injEq] at this
        rw [← this]
        exact (area_same _ _).1
    have := other_side hn hp hs hj hne t0 t1
    rw [← he] at this
    linarith

theorem found_apart (hx : Axes u w) (hc : Crisp m S) (hr : ∀ p ∈ S, Reach m (inPlane o u w p)) (hS : ∀ p ∈ pts, p ∈ S)
    (mx : x ∈ S) (my : y ∈ S) (h : Chord pts x y) {lx ly : Loc} (fx : Found pts x lx) (fy : Found pts y ly) :
    Slice.Apart (atEdge (cycEdges (pts.map (inPlane o u w)))) (onEdge (pts.map (inPlane o u w)) (cycEdges (pts.map (inPlane o u w))))
      (inPlane o u w x, lx) (inPlane o u w y, ly) := by
  have hxy : x ≠ y := by
    rintro rfl
    obtain ⟨i, a, b, hs, h0⟩ := side_through h.start
    rcases h.across i a b hs with k | k <;> exact k h0
  cases fx with
  | vertex hv =>
    cases fy with
    | vertex hv' =>
      show _ ≠ _
      rintro rfl
      rw [hv, Option.some.injEq] at hv'
      exact hxy hv'
    | edge hs h0 h1 he =>
      have hz := lerp_zero he
      have := atEdge_false hx hc hr hS mx hs ((h.across _ _ _ hs).resolve_right fun k => k hz)
      exact ⟨this, by rw [onEdge_eq hv, this]⟩
  | edge hs h0 h1 he =>
    have hz := lerp_zero he
    cases fy with
    | vertex hv' =>
      have := atEdge_false hx hc hr hS my hs ((h.across _ _ _ hs).resolve_left fun k => k hz)
      exact ⟨this, by rw [onEdge_eq hv', this]⟩
    | edge hs' h0' h1' he' =>
      show _ ≠ _
      rintro rfl
      have e1 := hs.1.symm.trans hs'.1
      have e2 := hs.2.symm.trans hs'.2
      cases e1
      cases e2
      have hz' := lerp_zero he'
      rcases h.across _ _ _ hs with k | k
      · exact k hz
      · exact k hz'

theorem coplanar_with (hx : Axes u w) {P : Poly} (hf : Fan o u w pts P) (s : List (ℝ × ℝ)) :
    arePointsCoplanar (P.pts ++ s.map (inPlane o u w)) = true := by
  refine Points.C36_coplanar_complete _ (Vec3.cross u w) (Vec3.dot (Vec3.cross u w) o) _ ?_ Points.GEOM_ATOL_pos ?_
  · intro he
    have := norm_cross hx
    rw [he, Vec3.norm_eq_zero.2 rfl] at this
    norm_num at this
  · intro p hp
    rw [hf.points, ← List.map_append] at hp
    exact plane_inPlane o _ p hp

theorem redundant_eq {P : Poly} (hf : Fan o u w pts P) (hn : 3 ≤ pts.length) {s : List (Vec3 ℝ)} {ls : List (Vec3 ℝ × Loc)}
    (hs : s ≠ []) (h : locateAll P.pts P.tri (cycEdges P.pts) s = .ok ls) :
    removeRedundantPoints s P.pts P.tri = .ok (rollAndKeep pts.length (atEdge (cycEdges (pts.map (inPlane o u w))))
      (onEdge (pts.map (inPlane o u w)) (cycEdges (pts.map (inPlane o u w)))) (s.length + 1) ls) := by
  have hne : P.pts ≠ [] := by
    rw [hf.points]
    intro e
    rw [List.map_eq_nil_iff] at e
    rw [e] at hn
    simp at hn
  unfold removeRedundantPoints
  rw [polygonEdges_eq 0 P.pts hne]
  simp only [locatePoints, if_neg hs, h]
  rw [hf.points, List.length_map]

/-- What is left of the slicing points decides. -/
theorem slice_two {N : Type} [DecidableEq N] {P : Poly} {s s' s1 s1' s2 : List (Vec3 ℝ)} {r r' : List (Vec3 ℝ)}
    (hcop : arePointsCoplanar (P.pts ++ s) = true) (hcop' : arePointsCoplanar (P.pts ++ s') = true)
    (ha : addIntersectionPoints P.pts s = .ok (r, s1)) (ha' : addIntersectionPoints P.pts s' = .ok (r', s1'))
    (hk : removeRedundantPoints s1 P.pts P.tri = .ok s2) (hk' : removeRedundantPoints s1' P.pts P.tri = .ok s2)
    (pt1 pt2 : Option (Vec3 ℝ)) (name1 name2 : Option N) (rand1 rand2 : N) :
    slicePolygon P s pt1 name1 pt2 name2 rand1 rand2 = slicePolygon P s' pt1 name1 pt2 name2 rand1 rand2 := by
  unfold slicePolygon
  rw [if_neg (by rw [hcop]; simp), if_neg (by rw [hcop']; simp)]
  simp only [ha, ha', hk, hk']

theorem slice_short {N : Type} [DecidableEq N] {P : Poly} {s s1 s2 r : List (Vec3 ℝ)}
    (hcop : arePointsCoplanar (P.pts ++ s) = true) (ha : addIntersectionPoints P.pts s = .ok (r, s1))
    (hk : removeRedundantPoints s1 P.pts P.tri = .ok s2) (h2 : s2.length < 2)
    (pt1 pt2 : Option (Vec3 ℝ)) (name1 name2 : Option N) (rand1 rand2 : N) :
    slicePolygon P s pt1 name1 pt2 name2 rand1 rand2 = .error .geometryError := by
  unfold slicePolygon
  rw [if_neg (by rw [hcop]; simp)]
  simp only [ha, hk]
  rw [if_pos h2]

/-- What all cases have in common. -/
structure Setting (o u w : Vec3 ℝ) (pts : List (ℝ × ℝ)) (p q x y : ℝ × ℝ) (P : Poly) (lx ly : Loc) : Prop where
  fan : Fan o u w pts P
  len : 3 ≤ pts.length
  pos : Pos pts
  start : Found pts x lx
  finish : Found pts y ly
  atX : locatePoint (inPlane o u w x) P.pts P.tri (cycEdges P.pts) = .ok lx
  atY : locatePoint (inPlane o u w y) P.pts P.tri (cycEdges P.pts) = .ok ly
  before : x ≠ p → locatePoint (inPlane o u w p) P.pts P.tri (cycEdges P.pts) = .ok (.exterior, 0)
  after : y ≠ q → locatePoint (inPlane o u w q) P.pts P.tri (cycEdges P.pts) = .ok (.exterior, 0)
  apart : Slice.Apart (atEdge (cycEdges (pts.map (inPlane o u w))))
    (onEdge (pts.map (inPlane o u w)) (cycEdges (pts.map (inPlane o u w)))) (inPlane o u w x, lx) (inPlane o u w y, ly)
  kept : ∃ r, addIntersectionPoints P.pts [inPlane o u w x, inPlane o u w y] = .ok (r, [inPlane o u w x, inPlane o u w y]) ∧
    removeRedundantPoints [inPlane o u w x, inPlane o u w y] P.pts P.tri = .ok [inPlane o u w x, inPlane o u w y]
  keptBack : ∃ r, addIntersectionPoints P.pts [inPlane o u w y, inPlane o u w x] = .ok (r, [inPlane o u w y, inPlane o u w x]) ∧
    removeRedundantPoints [inPlane o u w y, inPlane o u w x] P.pts P.tri = .ok [inPlane o u w y, inPlane o u w x]
  added : ∃ r, addIntersectionPoints P.pts [inPlane o u w p, inPlane o u w q] =
    .ok (r, inPlane o u w p :: crossings o u w pts p q ++ inPlane o u w q :: crossings o u w pts q p)

theorem through_symm (h : Through pts p q x y) : Through pts q p y x := by
  obtain ⟨h, k, l, k0, kl, l1, hk, hl⟩ := h
  refine ⟨chord_symm h, 1 - l, 1 - k, by linarith, by linarith, by linarith, ?_, ?_⟩
  · rw [between_symm]; exact hl
  · rw [between_symm]; exact hk

theorem setting (hx : Axes u w) (hp : ConvexCorners pts) (h : Through pts p q x y) (hc : Crisp m (p :: q :: x :: y :: pts))
    (hr : ∀ z ∈ p :: q :: x :: y :: pts, Reach (m / 100) (inPlane o u w z)) :
    ∃ P lx ly, Setting o u w pts p q x y P lx ly := by
  obtain ⟨hn, hpos⟩ := hp
  have hr' : ∀ z ∈ p :: q :: x :: y :: pts, Reach m (inPlane o u w z) := fun z hz => reach_mono hc.pos (hr z hz)
  have hS : ∀ z ∈ pts, z ∈ p :: q :: x :: y :: pts := fun z hz => by simp [hz]
  have hSx : ∀ z ∈ x :: y :: pts, z ∈ p :: q :: x :: y :: pts := fun z hz => by
    simp only [List.mem_cons] at hz ⊢; tauto
  have hSy : ∀ z ∈ y :: x :: pts, z ∈ p :: q :: x :: y :: pts := fun z hz => by
    simp only [List.mem_cons] at hz ⊢; tauto
  obtain ⟨P, hf⟩ := fan_exists hx (crisp_swap hc hS) (fun z hz => hr' z (hS z hz)) hn hpos
  obtain ⟨lx, fx, ex⟩ := found_exists hx hc hr' hS hn hpos hf h.1.start (by simp)
  obtain ⟨ly, fy, ey⟩ := found_exists hx hc hr' hS hn hpos hf h.1.finish (by simp)
  refine ⟨P, lx, ly, hf, hn, hpos, fx, fy, ex, ey, ?_, ?_, found_apart hx hc hr' hS (by simp) (by simp) h.1 fx fy, ?_, ?_, ?_⟩
  · exact fun hne => locate_outside hx hc hr' hS hn hpos hf (by simp) (beyond_outside hpos h hne) _
  · exact fun hne => locate_outside hx hc hr' hS hn hpos hf (by simp) (beyond_outside hpos (through_symm h) hne) _
  · obtain ⟨r, hr1⟩ := no_points_added hx (crisp_swap hc hSx) (fun z hz => hr' z (hSx z hz)) hn hpos h.1
    exact ⟨r, by rw [hf.points]; exact hr1, (chord_parts hx (crisp_swap hc hSx) (fun z hz => hr' z (hSx z hz)) hn hpos h.1 hf).1⟩
  · obtain ⟨r, hr1⟩ := no_points_added hx (crisp_swap hc hSy) (fun z hz => hr' z (hSy z hz)) hn hpos (chord_symm h.1)
    exact ⟨r, by rw [hf.points]; exact hr1,
      (chord_parts hx (crisp_swap hc hSy) (fun z hz => hr' z (hSy z hz)) hn hpos (chord_symm h.1) hf).1⟩
  · rw [hf.points]; exact added hn

/-! ### The theorems -/

variable (hx : Axes u w) (hp : ConvexCorners pts) (h : Through pts p q x y) (hc : Crisp m (p :: q :: x :: y :: pts))
  (hr : ∀ z ∈ p :: q :: x :: y :: pts, Reach (m / 100) (inPlane o u w z))

include hx hp h hc hr in
/-- **C115, lines across.**  A line with both ends beyond a convex polygon, which comes in at `x` and leaves at `y`, passing no
corner: slicing along it is slicing from `x` to `y` or from `y` to `x`, whatever the names and points for them are. -/
theorem C115_across (hxp : x ≠ p) (hyq : y ≠ q) (cx : x ∉ pts) (cy : y ∉ pts) :
    ∃ P c d, polygonNew (pts.map (inPlane o u w)) none none = .ok P ∧ ((c = x ∧ d = y) ∨ (c = y ∧ d = x)) ∧
      ∀ {N : Type} [DecidableEq N] (pt1 pt2 : Option (Vec3 ℝ)) (name1 name2 : Option N) (rand1 rand2 : N),
        slicePolygon P [inPlane o u w p, inPlane o u w q] pt1 name1 pt2 name2 rand1 rand2 =
          slicePolygon P [inPlane o u w c, inPlane o u w d] pt1 name1 pt2 name2 rand1 rand2 := by
  obtain ⟨P, lx, ly, s⟩ := setting hx hp h hc hr
  have hS : ∀ z ∈ pts, z ∈ p :: q :: x :: y :: pts := fun z hz => by simp [hz]
  have vx : lx.1 ≠ .vertex := fun e => cx ((found_vertex s.len s.pos s.start).1 e)
  have vy : ly.1 ≠ .vertex := fun e => cy ((found_vertex s.len s.pos s.finish).1 e)
  obtain ⟨kx, i⟩ := lx
  obtain ⟨ky, j⟩ := ly
  have ex : kx = .edge := (found_kind s.start).resolve_left vx
  have ey : ky = .edge := (found_kind s.finish).resolve_left vy
  subst ex ey
  have hij : i ≠ j := s.apart
  have hcr := (crossings_eq (o := o) hx hc hr hS (by simp) (by simp) (by simp) (by simp) s.len s.pos h s.start s.finish).1
  have hcr' := (crossings_eq (o := o) hx (crisp_swap hc (T := q :: p :: y :: x :: pts) fun z hz => by
    simp only [List.mem_cons] at hz ⊢; tauto) (fun z hz => hr z (by simp only [List.mem_cons] at hz ⊢; tauto))
    (fun z hz => by simp [hz]) (by simp) (by simp) (by simp) (by simp) s.len s.pos (through_symm h) s.finish s.start).1
  obtain ⟨r, hadd⟩ := s.added
  obtain ⟨r1, k1, k2⟩ := s.kept
  obtain ⟨r2, b1, b2⟩ := s.keptBack
  have cop := fun l => coplanar_with hx s.fan l
  rcases lt_or_gt_of_ne hij with hlt | hgt
  · obtain ⟨e1, e2⟩ := hcr i j rfl rfl hxp hyq hlt
    rw [e1, e2] at hadd
    refine ⟨P, x, y, s.fan.made, .inl ⟨rfl, rfl⟩, ?_⟩
    intro N _ pt1 pt2 name1 name2 rand1 rand2
    refine slice_two (by simpa using cop [p, q]) (by simpa using cop [x, y]) hadd k1 ?_ k2 pt1 pt2 name1 name2 rand1 rand2
    rw [redundant_eq s.fan s.len (by simp) (ls := [(inPlane o u w p, .exterior, 0), (inPlane o u w x, .edge, i),
      (inPlane o u w y, .edge, j), (inPlane o u w q, .exterior, 0), (inPlane o u w x, .edge, i), (inPlane o u w y, .edge, j)])
      (by simp [locateAll, s.before hxp, s.after hyq, s.atX, s.atY]), keep_through hij]
  · obtain ⟨e2, e1⟩ := hcr' j i rfl rfl hyq hxp hgt
    rw [e1, e2] at hadd
    refine ⟨P, y, x, s.fan.made, .inr ⟨rfl, rfl⟩, ?_⟩
    intro N _ pt1 pt2 name1 name2 rand1 rand2
    refine slice_two (by simpa using cop [p, q]) (by simpa using cop [y, x]) hadd b1 ?_ b2 pt1 pt2 name1 name2 rand1 rand2
    rw [redundant_eq s.fan s.len (by simp) (ls := [(inPlane o u w p, .exterior, 0), (inPlane o u w y, .edge, j),
      (inPlane o u w x, .edge, i), (inPlane o u w q, .exterior, 0), (inPlane o u w y, .edge, j), (inPlane o u w x, .edge, i)])
      (by simp [locateAll, s.before hxp, s.after hyq, s.atX, s.atY]), keep_through hij.symm]

include hx hp h hc hr in
/-- **C115, the two sides.**  Slicing along such a line gives two polygons, each of which is what the polygon has on one side of
the line, the line included. -/
theorem C115_sides {N : Type} [DecidableEq N] (hxp : x ≠ p) (hyq : y ≠ q) (cx : x ∉ pts) (cy : y ∉ pts)
    (name1 name2 : Option N) (rand1 rand2 : N) :
    ∃ (P Q1 Q2 : Poly) (k : ℝ), polygonNew (pts.map (inPlane o u w)) none none = .ok P ∧ k ≠ 0 ∧
      slicePolygon P [inPlane o u w p, inPlane o u w q] none name1 none name2 rand1 rand2 =
        .ok ((name1.getD rand1, Q1), (name2.getD rand2, Q2)) ∧
      (∀ z, Region Q1.pts Q1.tri (inPlane o u w z) ↔ Region P.pts P.tri (inPlane o u w z) ∧ 0 ≤ k * signedArea p q z) ∧
      (∀ z, Region Q2.pts Q2.tri (inPlane o u w z) ↔ Region P.pts P.tri (inPlane o u w z) ∧ k * signedArea p q z ≤ 0) := by
  obtain ⟨P, c, d, hP, hcd, heq⟩ := C115_across hx hp h hc hr hxp hyq cx cy
  obtain ⟨hch, k, l, k0, kl, l1, hk, hl⟩ := h
  obtain ⟨f, f0, hf, hcd'⟩ : ∃ f : ℝ, f ≠ 0 ∧ (∀ z, signedArea c d z = f * signedArea p q z) ∧ Chord pts c d := by
    rcases hcd with ⟨rfl, rfl⟩ | ⟨rfl, rfl⟩
    · refine ⟨l - k, by linarith, fun z => ?_, hch⟩
      rw [hk, hl]; unfold signedArea lerp; ring
    · refine ⟨k - l, by linarith, fun z => ?_, chord_symm hch⟩
      rw [hk, hl]; unfold signedArea lerp; ring
  have hS : ∀ z ∈ c :: d :: pts, z ∈ p :: q :: x :: y :: pts := by
    intro z hz
    rcases hcd with ⟨rfl, rfl⟩ | ⟨rfl, rfl⟩ <;> simp only [List.mem_cons] at hz ⊢ <;> tauto
  obtain ⟨P', Q1, Q2, e, hP', he, hs, h1, h2⟩ := C111_sides hx hp hcd' (crisp_swap hc hS)
    (fun z hz => reach_mono hc.pos (hr z (hS z hz))) name1 name2 rand1 rand2
  rw [hP, Except.ok.injEq] at hP'
  subst hP'
  refine ⟨P, Q1, Q2, e * f, hP, mul_ne_zero he f0, by rw [heq, hs], ?_, ?_⟩
  · intro z; rw [h1 z, hf z, mul_assoc]
  · intro z; rw [h2 z, hf z, mul_assoc]

include hx hp h hc hr in
/-- **C115, corners.**  If a line with both ends beyond the polygon passes through a corner, it is refused with
`GeometryError`, although it divides the polygon. -/
theorem C115_corner {N : Type} [DecidableEq N] (hxp : x ≠ p) (hyq : y ≠ q) (hcorner : x ∈ pts ∨ y ∈ pts)
    (pt1 pt2 : Option (Vec3 ℝ)) (name1 name2 : Option N) (rand1 rand2 : N) :
    ∃ P, polygonNew (pts.map (inPlane o u w)) none none = .ok P ∧
      slicePolygon P [inPlane o u w p, inPlane o u w q] pt1 name1 pt2 name2 rand1 rand2 = .error .geometryError := by
  obtain ⟨P, lx, ly, s⟩ := setting hx hp h hc hr
  have hS : ∀ z ∈ pts, z ∈ p :: q :: x :: y :: pts := fun z hz => by simp [hz]
  obtain ⟨-, hcr, hcn⟩ := crossings_eq (o := o) hx hc hr hS (by simp) (by simp) (by simp) (by simp) s.len s.pos h s.start s.finish
  have hcr' := (crossings_eq (o := o) hx (crisp_swap hc (T := q :: p :: y :: x :: pts) fun z hz => by
    simp only [List.mem_cons] at hz ⊢; tauto) (fun z hz => hr z (by simp only [List.mem_cons] at hz ⊢; tauto))
    (fun z hz => by simp [hz]) (by simp) (by simp) (by simp) (by simp) s.len s.pos (through_symm h) s.finish s.start).2.1
  obtain ⟨r, hadd⟩ := s.added
  have cop : arePointsCoplanar (P.pts ++ [inPlane o u w p, inPlane o u w q]) = true := by
    simpa using coplanar_with hx s.fan [p, q]
  refine ⟨P, s.fan.made, ?_⟩
  by_cases vx : lx.1 = .vertex
  · by_cases vy : ly.1 = .vertex
    · obtain ⟨e1, e2⟩ := hcn (.inr vx) (.inr vy)
      rw [e1, e2] at hadd
      refine slice_short cop hadd (redundant_eq s.fan s.len (by simp) (ls := [(inPlane o u w p, .exterior, 0),
        (inPlane o u w q, .exterior, 0)]) (by simp [locateAll, s.before hxp, s.after hyq])) ?_ ..
      rw [keep_none]; simp
    · obtain ⟨ky, j⟩ := ly
      have ey : ky = .edge := (found_kind s.finish).resolve_left vy
      subst ey
      obtain ⟨e2, e1⟩ := hcr' j rfl hyq (.inr vx)
      rw [e1, e2] at hadd
      refine slice_short cop hadd (redundant_eq s.fan s.len (by simp) (ls := [(inPlane o u w p, .exterior, 0),
        (inPlane o u w y, .edge, j), (inPlane o u w q, .exterior, 0), (inPlane o u w y, .edge, j)])
        (by simp [locateAll, s.before hxp, s.after hyq, s.atY])) ?_ ..
      rw [keep_single]; simp
  · have hy : y ∈ pts := hcorner.resolve_left fun e => vx ((found_vertex s.len s.pos s.start).2 e)
    have vy := (found_vertex s.len s.pos s.finish).2 hy
    obtain ⟨kx, i⟩ := lx
    have ex : kx = .edge := (found_kind s.start).resolve_left vx
    subst ex
    obtain ⟨e1, e2⟩ := hcr i rfl hxp (.inr vy)
    rw [e1, e2] at hadd
    refine slice_short cop hadd (redundant_eq s.fan s.len (by simp) (ls := [(inPlane o u w p, .exterior, 0),
      (inPlane o u w x, .edge, i), (inPlane o u w q, .exterior, 0), (inPlane o u w x, .edge, i)])
      (by simp [locateAll, s.before hxp, s.after hyq, s.atX])) ?_ ..
    rw [keep_single]; simp

include hx hp hc hr in
/-- **C115, lines from the outline.**  A line which starts on the outline, at a corner or not, and leaves the polygon at `y`,
which is not a corner: slicing along it is slicing up to `y`.  If it leaves at a corner, it is refused with
`GeometryError`. -/
theorem C115_from (h : Through pts x q x y) (hyq : y ≠ q) :
    ∃ P, polygonNew (pts.map (inPlane o u w)) none none = .ok P ∧
      ∀ {N : Type} [DecidableEq N] (pt1 pt2 : Option (Vec3 ℝ)) (name1 name2 : Option N) (rand1 rand2 : N),
        (y ∉ pts → slicePolygon P [inPlane o u w x, inPlane o u w q] pt1 name1 pt2 name2 rand1 rand2 =
          slicePolygon P [inPlane o u w x, inPlane o u w y] pt1 name1 pt2 name2 rand1 rand2) ∧
        (y ∈ pts → slicePolygon P [inPlane o u w x, inPlane o u w q] pt1 name1 pt2 name2 rand1 rand2 =
          .error .geometryError) := by
  have hc2 : Crisp m (x :: q :: x :: y :: pts) := crisp_swap hc fun z hz => by simp only [List.mem_cons] at hz ⊢; tauto
  have hr2 : ∀ z ∈ x :: q :: x :: y :: pts, Reach (m / 100) (inPlane o u w z) :=
    fun z hz => hr z (by simp only [List.mem_cons] at hz ⊢; tauto)
  obtain ⟨P, lx, ly, s⟩ := setting hx hp h hc2 hr2
  obtain ⟨-, -, hcn⟩ := crossings_eq (o := o) hx hc2 hr2 (fun z hz => by simp [hz]) (by simp) (by simp) (by simp) (by simp)
    s.len s.pos h s.start s.finish
  have hcr' := (crossings_eq (o := o) hx (crisp_swap hc2 (T := q :: x :: y :: x :: pts) fun z hz => by
    simp only [List.mem_cons] at hz ⊢; tauto) (fun z hz => hr2 z (by simp only [List.mem_cons] at hz ⊢; tauto))
    (fun z hz => by simp [hz]) (by simp) (by simp) (by simp) (by simp) s.len s.pos (through_symm h) s.finish s.start).2.1
  obtain ⟨r, hadd⟩ := s.added
  obtain ⟨r1, k1, k2⟩ := s.kept
  have cop : arePointsCoplanar (P.pts ++ [inPlane o u w x, inPlane o u w q]) = true := by
    simpa using coplanar_with hx s.fan [x, q]
  refine ⟨P, s.fan.made, ?_⟩
  intro N _ pt1 pt2 name1 name2 rand1 rand2
  constructor
  · intro cy
    have vy : ly.1 ≠ .vertex := fun e => cy ((found_vertex s.len s.pos s.finish).1 e)
    obtain ⟨ky, j⟩ := ly
    have ey : ky = .edge := (found_kind s.finish).resolve_left vy
    subst ey
    obtain ⟨e2, e1⟩ := hcr' j rfl hyq (.inl rfl)
    rw [e1, e2] at hadd
    refine slice_two cop (by simpa using coplanar_with hx s.fan [x, y]) hadd k1 ?_ k2 pt1 pt2 name1 name2 rand1 rand2
    rw [redundant_eq s.fan s.len (by simp) (ls := [(inPlane o u w x, lx), (inPlane o u w y, .edge, j),
      (inPlane o u w q, .exterior, 0), (inPlane o u w y, .edge, j)])
      (by simp [locateAll, s.after hyq, s.atX, s.atY]), keep_from s.apart]
  · intro cy
    obtain ⟨e1, e2⟩ := hcn (.inl rfl) (.inr ((found_vertex s.len s.pos s.finish).2 cy))
    rw [e1, e2] at hadd
    refine slice_short cop hadd (redundant_eq s.fan s.len (by simp) (ls := [(inPlane o u w x, lx),
      (inPlane o u w q, .exterior, 0)]) (by simp [locateAll, s.after hyq, s.atX])) ?_ ..
    rw [keep_from_none (found_kind s.start)]; simp

include hx hp hc hr in
/-- **C115, lines to the outline.**  The same line the other way round, from beyond the polygon to a point of the outline, is
refused: with `NotImplementedError`, or with `GeometryError` if it comes in at a corner. -/
theorem C115_to (h : Through pts p y x y) (hxp : x ≠ p) :
    ∃ P, polygonNew (pts.map (inPlane o u w)) none none = .ok P ∧
      ∀ {N : Type} [DecidableEq N] (pt1 pt2 : Option (Vec3 ℝ)) (name1 name2 : Option N) (rand1 rand2 : N),
        slicePolygon P [inPlane o u w p, inPlane o u w y] pt1 name1 pt2 name2 rand1 rand2 =
          .error (if x ∈ pts then .geometryError else .notImplementedError) := by
  have hc2 : Crisp m (p :: y :: x :: y :: pts) := crisp_swap hc fun z hz => by simp only [List.mem_cons] at hz ⊢; tauto
  have hr2 : ∀ z ∈ p :: y :: x :: y :: pts, Reach (m / 100) (inPlane o u w z) :=
    fun z hz => hr z (by simp only [List.mem_cons] at hz ⊢; tauto)
  obtain ⟨P, lx, ly, s⟩ := setting hx hp h hc2 hr2
  obtain ⟨-, hcr, hcn⟩ := crossings_eq (o := o) hx hc2 hr2 (fun z hz => by simp [hz]) (by simp) (by simp) (by simp) (by simp)
    s.len s.pos h s.start s.finish
  obtain ⟨r, hadd⟩ := s.added
  have cop : arePointsCoplanar (P.pts ++ [inPlane o u w p, inPlane o u w y]) = true := by
    simpa using coplanar_with hx s.fan [p, y]
  refine ⟨P, s.fan.made, ?_⟩
  intro N _ pt1 pt2 name1 name2 rand1 rand2
  by_cases cx : x ∈ pts
  · rw [if_pos cx]
    obtain ⟨e1, e2⟩ := hcn (.inr ((found_vertex s.len s.pos s.start).2 cx)) (.inl rfl)
    rw [e1, e2] at hadd
    refine slice_short cop hadd (redundant_eq s.fan s.len (by simp) (ls := [(inPlane o u w p, .exterior, 0),
      (inPlane o u w y, ly)]) (by simp [locateAll, s.before hxp, s.atY])) ?_ ..
    rw [keep_to_none (found_kind s.finish)]; simp
  · rw [if_neg cx]
    have vx : lx.1 ≠ .vertex := fun e => cx ((found_vertex s.len s.pos s.start).1 e)
    obtain ⟨kx, i⟩ := lx
    have ex : kx = .edge := (found_kind s.start).resolve_left vx
    subst ex
    obtain ⟨e1, e2⟩ := hcr i rfl hxp (.inl rfl)
    rw [e1, e2] at hadd
    have hk := redundant_eq s.fan s.len (s := [inPlane o u w p, inPlane o u w x, inPlane o u w y, inPlane o u w x]) (by simp)
      (ls := [(inPlane o u w p, .exterior, 0), (inPlane o u w x, .edge, i), (inPlane o u w y, ly), (inPlane o u w x, .edge, i)])
      (by simp [locateAll, s.before hxp, s.atX, s.atY])
    rw [keep_to s.apart] at hk
    have hne : P.pts ≠ [] := by
      have := s.len
      rw [s.fan.points]
      intro e
      rw [List.map_eq_nil_iff] at e
      rw [e] at this
      simp at this
    have hga : getPointArrays P.pts P.tri [inPlane o u w x, inPlane o u w y, inPlane o u w x] =
        .error .notImplementedError := by
      unfold getPointArrays
      rw [if_neg (by simp), polygonEdges_eq 0 P.pts hne]
      simp only [locatePoints, if_neg (List.cons_ne_nil _ _), locateAll, s.atX, s.atY]
      have hap := s.apart
      obtain ⟨ky, j⟩ := ly
      cases ky <;> simp only [Slice.Apart] at hap <;> simp [arrays, count]
    unfold slicePolygon
    rw [if_neg (by rw [cop]; simp)]
    simp only [List.cons_append, List.nil_append] at hadd
    simp only [hadd, hk]
    rw [if_neg (by simp), hga]

/-! ### Non-vacuity

An octagon in a tilted plane, with a line across two sides, and one through two of its corners. -/

private def octagon : List (ℝ × ℝ) := [(2, 0), (5, 0), (7, 2), (7, 6), (5, 8), (2, 8), (0, 6), (0, 2)]

private theorem octagon_convex : ConvexCorners octagon := by
  have := convex_int (L := [(2, 0), (5, 0), (7, 2), (7, 6), (5, 8), (2, 8), (0, 6), (0, 2)]) (by decide) (by decide +kernel)
  simpa [octagon] using this

private theorem octagon_axes : Axes ⟨3 / 5, 4 / 5, 0⟩ ⟨0, 0, 1⟩ :=
  ⟨by norm_num [Vec3.dot], by norm_num [Vec3.dot], by norm_num [Vec3.dot]⟩

private theorem octagon_across : Through octagon (2, -8) (5, 16) (3, 0) (4, 8) := by
  refine ⟨⟨⟨0, (2, 0), (5, 0), 1 / 3, ⟨rfl, rfl⟩, by norm_num, by norm_num, by norm_num [lerp]⟩,
    ⟨4, (5, 8), (2, 8), 1 / 3, ⟨rfl, rfl⟩, by norm_num, by norm_num, by norm_num [lerp]⟩, ?_⟩,
    1 / 3, 2 / 3, by norm_num, by norm_num, by norm_num, by norm_num [lerp], by norm_num [lerp]⟩
  rintro i a b ⟨h1, h2⟩
  have hi := (List.getElem?_eq_some_iff.1 h1).1
  simp only [octagon, List.length_cons, List.length_nil] at hi
  interval_cases i <;> simp [octagon] at h1 h2 <;> subst h1 h2 <;> norm_num [signedArea]

private theorem octagon_corner : Through octagon (-1, -8) (8, 16) (2, 0) (5, 8) := by
  refine ⟨⟨⟨0, (2, 0), (5, 0), 0, ⟨rfl, rfl⟩, by norm_num, by norm_num, by norm_num [lerp]⟩,
    ⟨4, (5, 8), (2, 8), 0, ⟨rfl, rfl⟩, by norm_num, by norm_num, by norm_num [lerp]⟩, ?_⟩,
    1 / 3, 2 / 3, by norm_num, by norm_num, by norm_num, by norm_num [lerp], by norm_num [lerp]⟩
  rintro i a b ⟨h1, h2⟩
  have hi := (List.getElem?_eq_some_iff.1 h1).1
  simp only [octagon, List.length_cons, List.length_nil] at hi
  interval_cases i <;> simp [octagon] at h1 h2 <;> subst h1 h2 <;> norm_num [signedArea]

private theorem octagon_crisp : Crisp 1 ((2, -8) :: (5, 16) :: (3, 0) :: (4, 8) :: octagon) ∧
    Crisp 1 ((-1, -8) :: (8, 16) :: (2, 0) :: (5, 8) :: octagon) := by
  have h1 := crisp_int (pts := [(2, -8), (5, 16), (3, 0), (4, 8), (2, 0), (5, 0), (7, 2), (7, 6), (5, 8), (2, 8), (0, 6), (0, 2)])
    (by decide)
  have h2 := crisp_int (pts := [(-1, -8), (8, 16), (2, 0), (5, 8), (2, 0), (5, 0), (7, 2), (7, 6), (5, 8), (2, 8), (0, 6), (0, 2)])
    (by decide)
  exact ⟨by simpa [octagon] using h1, by simpa [octagon] using h2⟩

private theorem octagon_reach : ∀ z ∈ (2, -8) :: (5, 16) :: (3, 0) :: (4, 8) :: (-1, -8) :: (8, 16) :: octagon,
    Reach (1 / 100) (inPlane ⟨10, -7, 50⟩ ⟨3 / 5, 4 / 5, 0⟩ ⟨0, 0, 1⟩ z) := by
  simp only [octagon, List.mem_cons, List.not_mem_nil, or_false, forall_eq_or_imp, forall_eq, Reach, inPlane]
  norm_num [abs_le]

private theorem octagon_not : ((3, 0) : ℝ × ℝ) ∉ octagon ∧ ((4, 8) : ℝ × ℝ) ∉ octagon ∧ ((2, 0) : ℝ × ℝ) ∈ octagon ∧
    ((5, 8) : ℝ × ℝ) ∈ octagon := by
  simp only [octagon, List.mem_cons, List.not_mem_nil, or_false, Prod.mk.injEq]
  norm_num

/-- The line across two sides is accepted, the line through two corners refused. -/
example : ∃ P, polygonNew (octagon.map (inPlane ⟨10, -7, 50⟩ ⟨3 / 5, 4 / 5, 0⟩ ⟨0, 0, 1⟩)) none none = .ok P ∧
    (∃ Q1 Q2, slicePolygon P [inPlane ⟨10, -7, 50⟩ ⟨3 / 5, 4 / 5, 0⟩ ⟨0, 0, 1⟩ (2, -8),
      inPlane ⟨10, -7, 50⟩ ⟨3 / 5, 4 / 5, 0⟩ ⟨0, 0, 1⟩ (5, 16)] none (some 1) none (some 2) 3 4 = .ok ((1, Q1), (2, Q2))) ∧
    slicePolygon P [inPlane ⟨10, -7, 50⟩ ⟨3 / 5, 4 / 5, 0⟩ ⟨0, 0, 1⟩ (-1, -8),
      inPlane ⟨10, -7, 50⟩ ⟨3 / 5, 4 / 5, 0⟩ ⟨0, 0, 1⟩ (8, 16)] none (some 1) none (some 2) 3 4 = .error .geometryError := by
  obtain ⟨P, Q1, Q2, k, hP, -, h, -⟩ := C115_sides (o := ⟨10, -7, 50⟩) octagon_axes octagon_convex octagon_across octagon_crisp.1
    (fun z hz => octagon_reach z (by simp only [List.mem_cons] at hz ⊢; tauto)) (by norm_num) (by norm_num)
    octagon_not.1 octagon_not.2.1 (some 1) (some 2) 3 4
  obtain ⟨P', hP', h'⟩ := C115_corner (o := ⟨10, -7, 50⟩) octagon_axes octagon_convex octagon_corner octagon_crisp.2
    (fun z hz => octagon_reach z (by
      rcases List.mem_cons.1 hz with rfl | hz
      · simp
      rcases List.mem_cons.1 hz with rfl | hz
      · simp
      rcases List.mem_cons.1 hz with rfl | hz
      · simp [octagon]
      rcases List.mem_cons.1 hz with rfl | hz
      · simp [octagon]
      simp [hz])) (by norm_num) (by norm_num) (.inl octagon_not.2.2.1) none none (some 1) (some 2) 3 4
  rw [hP, Except.ok.injEq] at hP'
  subst hP'
  exact ⟨P, hP, ⟨Q1, Q2, h⟩, h'⟩

/-- The line from (3, 0) to (5, 16) is accepted, the line from (2, -8) to (4, 8) not. -/
example : ∃ P, polygonNew (octagon.map (inPlane ⟨10, -7, 50⟩ ⟨3 / 5, 4 / 5, 0⟩ ⟨0, 0, 1⟩)) none none = .ok P ∧
    slicePolygon P [inPlane ⟨10, -7, 50⟩ ⟨3 / 5, 4 / 5, 0⟩ ⟨0, 0, 1⟩ (3, 0),
      inPlane ⟨10, -7, 50⟩ ⟨3 / 5, 4 / 5, 0⟩ ⟨0, 0, 1⟩ (5, 16)] none (some 1) none (some 2) 3 4 =
    slicePolygon P [inPlane ⟨10, -7, 50⟩ ⟨3 / 5, 4 / 5, 0⟩ ⟨0, 0, 1⟩ (3, 0),
      inPlane ⟨10, -7, 50⟩ ⟨3 / 5, 4 / 5, 0⟩ ⟨0, 0, 1⟩ (4, 8)] none (some 1) none (some 2) 3 4 ∧
    slicePolygon P [inPlane ⟨10, -7, 50⟩ ⟨3 / 5, 4 / 5, 0⟩ ⟨0, 0, 1⟩ (2, -8),
      inPlane ⟨10, -7, 50⟩ ⟨3 / 5, 4 / 5, 0⟩ ⟨0, 0, 1⟩ (4, 8)] none (some 1) none (some 2) 3 4 = .error .notImplementedError := by
  have hr : ∀ z ∈ (2, -8) :: (5, 16) :: (3, 0) :: (4, 8) :: octagon,
      Reach (1 / 100) (inPlane ⟨10, -7, 50⟩ ⟨3 / 5, 4 / 5, 0⟩ ⟨0, 0, 1⟩ z) :=
    fun z hz => octagon_reach z (by simp only [List.mem_cons] at hz ⊢; tauto)
  obtain ⟨P, hP, h⟩ := C115_from (o := ⟨10, -7, 50⟩) octagon_axes octagon_convex octagon_crisp.1 hr
    ⟨octagon_across.1, 0, 1 / 2, by norm_num, by norm_num, by norm_num, by norm_num [lerp], by norm_num [lerp]⟩ (by norm_num)
  obtain ⟨P', hP', h'⟩ := C115_to (o := ⟨10, -7, 50⟩) octagon_axes octagon_convex octagon_crisp.1 hr
    ⟨octagon_across.1, 1 / 2, 1, by norm_num, by norm_num, by norm_num, by norm_num [lerp], by norm_num [lerp]⟩ (by norm_num)
  rw [hP, Except.ok.injEq] at hP'
  subst hP'
  refine ⟨P, hP, (h none none (some 1) (some 2) 3 4).1 octagon_not.2.1, ?_⟩
  rw [h' none none (some 1) (some 2) 3 4, if_neg octagon_not.1]

end B3d.SliceConvex
