import Verif.Props.Slice

/-!
# C41: the two polygons made by slicing

What follows for the areas and for what the two parts cover.
-/

namespace B3d.Slice

open Spec Points Polygon

theorem cross_segment {a b x : Vec3 ℝ} (h : OnSegment a b x) :
    Vec3.cross a x + Vec3.cross x b = Vec3.cross a b := by
  obtain ⟨t, -, -, rfl⟩ := h
  ext <;> simp [Vec3.cross] <;> ring

theorem cr_split {A B S t : ℝ} (h0 : 0 ≤ t) (h1 : t ≤ 1) :
    cr A (A + t * (B - A)) (t * S) + cr (A + t * (B - A)) B ((1 - t) * S) = cr A B S := by
  have pos : ∀ c : ℝ, 0 < c → ((0 < c * S ↔ 0 < S) ∧ (c * S < 0 ↔ S < 0)) := fun c hc =>
    ⟨mul_pos_iff_of_pos_left hc, by rw [← not_le, ← not_le, mul_nonneg_iff_of_pos_left hc]⟩
  obtain ⟨X, hX⟩ : ∃ X, X = A + t * (B - A) := ⟨_, rfl⟩
  rw [← hX]
  rcases le_or_gt A 0 with a | a <;> rcases le_or_gt B 0 with b | b <;> rcases le_or_gt X 0 with x | x
  · rw [cr_low a b, cr_low a x, cr_low x b]; rfl
  · nlinarith
  · have : 0 < 1 - t := by nlinarith
    simp only [cr_up a b, cr_low a x, cr_up x b, (pos _ this).1, zero_add]
  · have : 0 < t := by nlinarith
    simp only [cr_up a b, cr_up a x, cr_high x b, (pos _ this).1, add_zero]
  · have : 0 < t := by nlinarith
    simp only [cr_down a b, cr_down a x, cr_low x b, (pos _ this).2, add_zero]
  · have : 0 < 1 - t := by nlinarith
    simp only [cr_down a b, cr_high a x, cr_down x b, (pos _ this).2, zero_add]
  · exfalso
    rcases le_or_gt t (1 / 2) with h | h <;> nlinarith
  · rw [cr_high a b, cr_high a x, cr_high x b]; rfl

theorem crossing_segment {n u y a b x : Vec3 ℝ} (h : OnSegment a b x) :
    crossing n u y a x + crossing n u y x b = crossing n u y a b := by
  obtain ⟨t, h0, h1, rfl⟩ := h
  have e1 : sideOf n y a (a + t • (b - a)) = t * sideOf n y a b := by
    simp [sideOf, Vec3.cross, Vec3.dot]; ring
  have e2 : sideOf n y (a + t • (b - a)) b = (1 - t) * sideOf n y a b := by
    simp [sideOf, Vec3.cross, Vec3.dot]; ring
  have e3 : Vec3.dot (Vec3.cross n u) (a + t • (b - a) - y) =
      Vec3.dot (Vec3.cross n u) (a - y) + t * (Vec3.dot (Vec3.cross n u) (b - y) - Vec3.dot (Vec3.cross n u) (a - y)) := by
    simp [Vec3.dot]; ring
  rw [crossing_eq, crossing_eq, crossing_eq, e1, e2, e3]
  exact cr_split h0 h1

/-- **C41.**  If a polygon is cut along a line, then the area vectors of the two parts, each taken in the right
direction, add up to the area vector of the polygon, and so do the numbers of times the outlines run around a point. -/
theorem C41_sums {pts s pts1 pts2 : List (Vec3 ℝ)} (h : Cuts pts s pts1 pts2) :
    ∃ A B, (A = pts1 ∨ A = pts1.reverse) ∧ (B = pts2 ∨ B = pts2.reverse) ∧
      cycSum Vec3.cross A + cycSum Vec3.cross B = cycSum Vec3.cross pts ∧
      ∀ n u x, winding n u x A + winding n u x B = winding n u x pts := by
  obtain ⟨A, B, hA, hB, key⟩ := cuts_oriented h
  refine ⟨A, B, hA, hB, key cross_antisymm (fun a b x hx => cross_segment hx), fun n u x => ?_⟩
  have := key (f := crossing n u x) (crossing_antisymm n u x) (fun a b y hy => crossing_segment hy)
  simpa only [cycSum_eq_edges, winding] using this

/-- **C41, the polygons.**  The polygons made of the two parts of a cut polygon, facing like the polygon and no larger
than it: their areas add up to the area of the polygon, and the numbers of times their outlines run around a point add
up to the number of times the outline of the polygon runs around it. -/
theorem C41_polygons_partial {P Q1 Q2 : Poly} {pts s pts1 pts2 : List (Vec3 ℝ)} {nv : Option (Vec3 ℝ)}
    (hP : polygonNew pts none nv = .ok P) (h1 : polygonNew pts1 none P.vn = .ok Q1)
    (h2 : polygonNew pts2 none P.vn = .ok Q2) (hc : Cuts P.pts s pts1 pts2) {a a1 a2 : ℝ} (ha : P.area = some a)
    (ha1 : Q1.area = some a1) (ha2 : Q2.area = some a2) (hs1 : a1 ≤ a) (hs2 : a2 ≤ a) :
    a1 + a2 = a ∧ Q1.vn = P.vn ∧ Q2.vn = P.vn ∧
      ∀ v, P.vn = some v → ∀ u x, winding v u x Q1.pts + winding v u x Q2.pts = winding v u x P.pts := by
  obtain ⟨v, hv, -, -, -, -, ⟨b, hb, bpos, hb2⟩, -⟩ := C70_orientation hP
  rw [hv] at h1 h2 ⊢
  obtain ⟨v1, hv1, e1, d1, -, -, ⟨b1, hb1, b1pos, hb12⟩, -⟩ := C70_orientation h1
  obtain ⟨v2, hv2, e2, d2, -, -, ⟨b2, hb2', b2pos, hb22⟩, -⟩ := C70_orientation h2
  obtain rfl := e1 v rfl
  obtain rfl := e2 v1 rfl
  rw [ha, Option.some.injEq] at hb
  rw [ha1, Option.some.injEq] at hb1
  rw [ha2, Option.some.injEq] at hb2'
  subst hb hb1 hb2'
  obtain ⟨A, B, hA, hB, hsum, hw⟩ := C41_sums hc
  have rev : ∀ (p A q : List (Vec3 ℝ)), (A = p ∨ A = p.reverse) → (q = p ∨ q = p.reverse) → A = q ∨ A = q.reverse := by
    rintro p A q (rfl | rfl) (rfl | rfl) <;> simp
  have hsum' : Vec3.dot (cycSum Vec3.cross A) v2 / 2 + Vec3.dot (cycSum Vec3.cross B) v2 / 2 = a := by
    rw [hb2, ← hsum, Vec3.dot_add_left]
    ring
  have one : ∀ {A q : List (Vec3 ℝ)} {c : ℝ}, (A = q ∨ A = q.reverse) →
      c = Vec3.dot (cycSum Vec3.cross q) v2 / 2 →
      (A = q ∧ Vec3.dot (cycSum Vec3.cross A) v2 / 2 = c) ∨ Vec3.dot (cycSum Vec3.cross A) v2 / 2 = -c := by
    rintro A q c (rfl | rfl) hc
    · exact .inl ⟨rfl, hc.symm⟩
    · right
      rw [hc, cycSum_reverse _ cross_antisymm, Vec3.dot_neg_left]
      ring
  rcases one (rev _ _ _ hA d1) hb12 with ⟨rfl, k1⟩ | k1 <;> rcases one (rev _ _ _ hB d2) hb22 with ⟨rfl, k2⟩ | k2 <;>
    rw [k1, k2] at hsum'
  · refine ⟨hsum', hv1, hv2, fun v hv u x => ?_⟩
    cases hv
    exact hw _ u x
  · linarith
  · linarith
  · linarith

open Classical in
/-- How many triangles of the polygon the point is inside of. -/
noncomputable def cover (P : Poly) (x : Vec3 ℝ) : Nat :=
  P.tri.countP fun t => TriangleWith P.pts t fun a b c => InsideTriangle a b c x

/-- The point is on no edge of a triangle of the polygon. -/
def OffEdges (P : Poly) (x : Vec3 ℝ) : Prop :=
  ∀ t ∈ P.tri, TriangleWith P.pts t fun a b c => InTriangle a b c x → InsideTriangle a b c x

/-- **C41, what the parts cover.**  Every point of the plane of the polygon that is on no edge of a triangle is in as
many triangles of the polygon as it is in triangles of the two parts together: the parts cover the polygon and nothing
else, and they overlap nowhere if the polygon does not overlap itself. -/
theorem C41_cover_partial {P Q1 Q2 : Poly} {pts s pts1 pts2 : List (Vec3 ℝ)} {nv : Option (Vec3 ℝ)}
    (hP : polygonNew pts none nv = .ok P) (h1 : polygonNew pts1 none P.vn = .ok Q1)
    (h2 : polygonNew pts2 none P.vn = .ok Q2) (hc : Cuts P.pts s pts1 pts2) {a a1 a2 : ℝ} (ha : P.area = some a)
    (ha1 : Q1.area = some a1) (ha2 : Q2.area = some a2) (hs1 : a1 ≤ a) (hs2 : a2 ≤ a) {v : Vec3 ℝ} {e : ℝ}
    (hv : P.vn = some v) (hpl : ∀ p ∈ P.pts ++ pts1 ++ pts2, Vec3.dot v p = e) {x : Vec3 ℝ} (hx : Vec3.dot v x = e)
    (x0 : OffEdges P x) (x1 : OffEdges Q1 x) (x2 : OffEdges Q2 x) : cover Q1 x + cover Q2 x = cover P x := by
  obtain ⟨-, e1, e2, hw⟩ := C41_polygons_partial hP h1 h2 hc ha ha1 ha2 hs1 hs2
  obtain ⟨u, hu, hvu⟩ : ∃ u : Vec3 ℝ, u ≠ 0 ∧ Vec3.dot v u = 0 := by
    by_cases h : v.x = 0 ∧ v.y = 0
    · exact ⟨⟨1, 0, 0⟩, fun h => by simpa using congrArg Vec3.x h, by simp [Vec3.dot, h.1]⟩
    · refine ⟨⟨-v.y, v.x, 0⟩, fun hz => h ⟨?_, ?_⟩, by simp [Vec3.dot]; ring⟩
      · simpa using congrArg Vec3.y hz
      · simpa using congrArg Vec3.x hz
  have one : ∀ {q : List (Vec3 ℝ)} {nv : Option (Vec3 ℝ)} {Q : Poly}, polygonNew q none nv = .ok Q → Q.vn = some v →
      (∀ p ∈ q, Vec3.dot v p = e) → OffEdges Q x → winding v u x Q.pts = cover Q x := by
    intro q nv Q h hQ hp ho
    obtain ⟨hn, w, hw, -, ht, -⟩ := polygonNew_ok h
    rw [hQ, Option.some.injEq] at hw
    subst hw
    exact (Triangles.C20_winding hn ht hp hu hvu hx).2 ho
  have hmem : ∀ p ∈ pts, Vec3.dot v p = e := by
    intro p hp
    obtain ⟨_, _, _, d, _⟩ := C70_orientation hP
    apply hpl
    rcases d with d | d <;> simp [d, hp]
  have w0 := one hP hv hmem x0
  have w1 := one h1 (e1.trans hv) (fun p hp => hpl p (by simp [hp])) x1
  have w2 := one h2 (e2.trans hv) (fun p hp => hpl p (by simp [hp])) x2
  have := hw v hv u x
  rw [w0, w1, w2] at this
  exact_mod_cast this

/-! ### `slice_polygon` -/

/-- What is assumed of a slicing line: no two corners of the polygon count as equal, the ends of the line are exactly
where they were located, and if they are both on one edge, then this is not the closing edge and the line starts to the
inner side of it. -/
def GoodLine (pts : List (Vec3 ℝ)) (tri : List Triangles.Tri) (s : List (Vec3 ℝ)) : Prop :=
  Distinct (fun p q => pointsEqual p q) pts ∧
  (∀ q, s.head? = some q ∨ s.getLast? = some q → ∃ l, locatePoint q pts tri (cycEdges pts) = .ok l ∧ ExactAt pts q l) ∧
  ∀ x y e, s.head? = some x → s.getLast? = some y → locatePoint x pts tri (cycEdges pts) = .ok (.edge, e) →
    locatePoint y pts tri (cycEdges pts) = .ok (.edge, e) →
    ∃ a b, pts[e]? = some a ∧ pts[e + 1]? = some b ∧ StartsInto pts s a b

theorem checkNormal_ok {N : Type} [DecidableEq N] {v : Vec3 ℝ} {part : N × Poly} (h : part.2.vn = some v) :
    checkNormal (some v) part = .ok part := by
  unfold checkNormal
  simp only [h]
  rw [if_pos (allClose_self (by norm_num [GEOM_RTOL]) (by norm_num [NP_ATOL]))]

/-- **C41, what slicing does.**  The two polygons returned are made from the two lists of points computed from the part
of the slicing line that was kept, and they face like the polygon. -/
theorem C41_slice {N : Type} [DecidableEq N] {P : Poly} {s : List (Vec3 ℝ)} {pt1 pt2 : Option (Vec3 ℝ)}
    {name1 name2 : Option N} {rand1 rand2 : N} {part1 part2 : N × Poly} {v : Vec3 ℝ} (hv : P.vn = some v)
    (h : slicePolygon P s pt1 name1 pt2 name2 rand1 rand2 = .ok (part1, part2)) :
    ∃ o s1 s2 pts1 pts2, addIntersectionPoints P.pts s = .ok (o, s1) ∧ removeRedundantPoints s1 P.pts P.tri = .ok s2 ∧
      getPointArrays P.pts P.tri s2 = .ok (pts1, pts2) ∧
      ((polygonNew pts1 none P.vn = .ok part1.2 ∧ polygonNew pts2 none P.vn = .ok part2.2) ∨
        (polygonNew pts2 none P.vn = .ok part1.2 ∧ polygonNew pts1 none P.vn = .ok part2.2)) := by
  unfold slicePolygon at h
  split at h
  · cases h
  split at h
  · cases h
  next o s1 h1 =>
  split at h
  · cases h
  next s2 h2 =>
  split at h
  · cases h
  split at h
  · cases h
  next pts1 pts2 h3 =>
  refine ⟨o, s1, s2, pts1, pts2, h1, h2, h3, ?_⟩
  split at h
  · cases h
  next q1 q2 hm =>
  obtain ⟨n1, n2⟩ : ((polygonNew pts1 none P.vn = .ok q1.2 ∧ polygonNew pts2 none P.vn = .ok q2.2) ∨
        (polygonNew pts2 none P.vn = .ok q1.2 ∧ polygonNew pts1 none P.vn = .ok q2.2)) ∧
        q1.2.vn = some v ∧ q2.2.vn = some v := by
    unfold makePolygons at hm
    split at hm
    · cases hm
    next poly1 g1 =>
    split at hm
    · cases hm
    next poly2 g2 =>
    have e1 : poly1.vn = some v := by
      obtain ⟨w, hw, e, -⟩ := C70_orientation g1
      rw [hw, e v hv]
    have e2 : poly2.vn = some v := by
      obtain ⟨w, hw, e, -⟩ := C70_orientation g2
      rw [hw, e v hv]
    unfold nameParts at hm
    split at hm
    · cases hm
    split at hm
    · cases hm
      exact ⟨.inl ⟨g1, g2⟩, e1, e2⟩
    split at hm
    · cases hm
      exact ⟨.inr ⟨g2, g1⟩, e2, e1⟩
    · cases hm
  rw [hv, checkNormal_ok n2.1] at h
  simp only at h
  rw [checkNormal_ok n2.2] at h
  cases h
  exact n1

/-- **C41, slicing.**  If the part of the slicing line that is kept is good, and no part is larger than the polygon, then
both parts face like the polygon, their areas add up to the area of the polygon, and a point that is on no edge of a
triangle is in as many triangles of the polygon as in triangles of the two parts together. -/
theorem C41_slice_partial {N : Type} [DecidableEq N] {P : Poly} {pts s : List (Vec3 ℝ)} {nv : Option (Vec3 ℝ)}
    {pt1 pt2 : Option (Vec3 ℝ)} {name1 name2 : Option N} {rand1 rand2 : N} {part1 part2 : N × Poly}
    (hP : polygonNew pts none nv = .ok P)
    (h : slicePolygon P s pt1 name1 pt2 name2 rand1 rand2 = .ok (part1, part2))
    (hg : ∀ o s1 s2, addIntersectionPoints P.pts s = .ok (o, s1) → removeRedundantPoints s1 P.pts P.tri = .ok s2 →
      GoodLine P.pts P.tri s2)
    {a a1 a2 : ℝ} (ha : P.area = some a) (ha1 : part1.2.area = some a1) (ha2 : part2.2.area = some a2) (hs1 : a1 ≤ a)
    (hs2 : a2 ≤ a) :
    a1 + a2 = a ∧ part1.2.vn = P.vn ∧ part2.2.vn = P.vn ∧
      ∀ v e, P.vn = some v → (∀ p ∈ P.pts ++ part1.2.pts ++ part2.2.pts, Vec3.dot v p = e) → ∀ x, Vec3.dot v x = e →
        OffEdges P x → OffEdges part1.2 x → OffEdges part2.2 x → cover part1.2 x + cover part2.2 x = cover P x := by
  obtain ⟨v, hv, -, -, hlen, -, -, -⟩ := C70_orientation hP
  obtain ⟨o, s1, s2, pts1, pts2, g1, g2, g3, hh⟩ := C41_slice hv h
  obtain ⟨d, k1, k2⟩ := hg o s1 s2 g1 g2
  have hn : 2 ≤ P.pts.length := by
    obtain ⟨hn, -⟩ := polygonNew_ok hP
    obtain ⟨_, _, _, d, _⟩ := C70_orientation hP
    rcases d with d | d
    · rw [d]; omega
    · rw [d, List.length_reverse]; omega
  have hc := C41_cut_partial hn d k1 k2 g3
  have flat : ∀ {q : List (Vec3 ℝ)} {Q : Poly} {v : Vec3 ℝ} {e : ℝ}, polygonNew q none P.vn = .ok Q →
      (∀ p ∈ Q.pts, Vec3.dot v p = e) → ∀ p ∈ q, Vec3.dot v p = e := by
    intro q Q v e hq hp p hpq
    obtain ⟨_, _, _, d, _⟩ := C70_orientation hq
    apply hp
    rcases d with d | d <;> simp [d, hpq]
  rcases hh with ⟨m1, m2⟩ | ⟨m1, m2⟩
  · obtain ⟨r1, r2, r3, -⟩ := C41_polygons_partial hP m1 m2 hc ha ha1 ha2 hs1 hs2
    refine ⟨r1, r2, r3, fun v e hv hpl x hx x0 x1 x2 => ?_⟩
    refine C41_cover_partial hP m1 m2 hc ha ha1 ha2 hs1 hs2 hv (e := e) ?_ hx x0 x1 x2
    simp only [List.mem_append] at hpl ⊢
    rintro p ((hp | hp) | hp)
    · exact hpl p (.inl (.inl hp))
    · exact flat m1 (fun p hp => hpl p (.inl (.inr hp))) p hp
    · exact flat m2 (fun p hp => hpl p (.inr hp)) p hp
  · obtain ⟨r1, r2, r3, -⟩ := C41_polygons_partial hP m2 m1 hc ha ha2 ha1 hs2 hs1
    refine ⟨by rw [add_comm]; exact r1, r3, r2, fun v e hv hpl x hx x0 x1 x2 => ?_⟩
    rw [add_comm]
    refine C41_cover_partial hP m2 m1 hc ha ha2 ha1 hs2 hs1 hv (e := e) ?_ hx x0 x2 x1
    simp only [List.mem_append] at hpl ⊢
    rintro p ((hp | hp) | hp)
    · exact hpl p (.inl (.inl hp))
    · exact flat m2 (fun p hp => hpl p (.inr hp)) p hp
    · exact flat m1 (fun p hp => hpl p (.inl (.inr hp))) p hp

end B3d.Slice
