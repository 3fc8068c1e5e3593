import Verif.Proofs.Planar

/-! # C89: a polygon does not depend on where its outline is drawn -/

namespace B3d.Polygon

open Spec Triangles Points Planar

open Classical in
/-- **C89, the tests.**  For the corners of a set without doubtful cases, in any plane, `is_corner_convex` and
`is_point_inside` give the exact answer. -/
theorem C89_exact_tests {m : ℝ} {pts : List (ℝ × ℝ)} {o u w : Vec3 ℝ} (hx : Axes u w) (h : Crisp m pts)
    (hr : ∀ p ∈ pts, Reach m (inPlane o u w p)) {a b c : ℝ × ℝ} (ha : a ∈ pts) (hb : b ∈ pts) (hc : c ∈ pts) :
    isCornerConvex (Vec3.cross u w) (inPlane o u w a) (inPlane o u w b) (inPlane o u w c) =
      .ok (decide (0 < signedArea a b c)) ∧
    (0 < signedArea a b c → ∀ t ∈ pts,
      Triangles.isPointInside (inPlane o u w t) (inPlane o u w a) (inPlane o u w b) (inPlane o u w c) =
        .ok (decide (InClosed t a b c))) :=
  ⟨isCornerConvex_inPlane hx h ha hb hc, fun hD _ ht => isPointInside_inPlane hx h hr ha hb hc ht hD⟩

/-- The constructor, in terms of the exact ear clipping. -/
theorem polygonNew_inPlane {m : ℝ} {pts : List (ℝ × ℝ)} {o u w : Vec3 ℝ} (hx : Axes u w) (h : Crisp m pts)
    (hr : ∀ p ∈ pts, Reach m (inPlane o u w p)) (hn : 3 ≤ pts.length) {l p0 p1 : ℝ × ℝ} (hl : pts.getLast? = some l)
    (h0 : pts[0]? = some p0) (h1 : pts[1]? = some p1) (hD : 0 < signedArea l p0 p1) :
    match exactTriangulate (2 * pts.length + 2) pts with
    | none => polygonNew (pts.map (inPlane o u w)) none none = .error .runtimeError
    | some (.error e) => polygonNew (pts.map (inPlane o u w)) none none = .error e
    | some (.ok (q, tri)) => ∃ P, polygonNew (pts.map (inPlane o u w)) none none = .ok P ∧
        P.pts = q.map (inPlane o u w) ∧ P.vn = some (Vec3.cross u w) ∧ P.tri = tri := by
  have ht := triangulate_inPlane hx h hr (fuel := 2 * pts.length + 2)
  have hc := coplanar_inPlane (o := o) hx pts
  have hv := chooseNormal_inPlane (o := o) hx h hl h0 h1 hD
  match he : exactTriangulate (2 * pts.length + 2) pts with
  | none =>
    rw [he] at ht
    simp only [polygonNew, hc, hv, chooseTriangles, List.length_map, ht, if_neg (not_not.2 hn), Bool.true_eq_false, if_false]
    rfl
  | some (.error e) =>
    rw [he] at ht
    simp only [polygonNew, hc, hv, chooseTriangles, List.length_map, ht, if_neg (not_not.2 hn), Bool.true_eq_false, if_false]
    rfl
  | some (.ok (q, tri)) =>
    rw [he] at ht
    refine polygonNew_intro hc (by simpa using hn) hv ?_
    rw [List.length_map]
    exact ht

theorem signedArea_scaled (k : ℝ) (a b c : ℝ × ℝ) :
    signedArea (scaled k a) (scaled k b) (scaled k c) = k ^ 2 * signedArea a b c := by
  unfold signedArea scaled; ring

theorem distSq_scaled (k : ℝ) (p q : ℝ × ℝ) : distSq (scaled k p) (scaled k q) = k ^ 2 * distSq p q := by
  unfold distSq scaled; ring

theorem exactTriangulate_scaled {k : ℝ} (hk : 0 < k) {fuel : Nat} (pts : List (ℝ × ℝ)) :
    exactTriangulate fuel (pts.map (scaled k)) =
      (exactTriangulate fuel pts).map fun r => r.map fun x => (x.1.map (scaled k), x.2) := by
  have hk2 : 0 < k ^ 2 := by positivity
  have e1 : ∀ a b c, (0 ≤ signedArea (scaled k a) (scaled k b) (scaled k c)) ↔ 0 ≤ signedArea a b c := by
    intro a b c
    rw [signedArea_scaled]
    exact mul_nonneg_iff_of_pos_left hk2
  unfold exactTriangulate
  refine Grid.tries_map (scaled k) 2 pts ?_ ?_
  · intro a _ b _ c _
    congr 1
    rw [decide_eq_decide, signedArea_scaled]
    exact mul_pos_iff_of_pos_left hk2
  · intro a _ b _ c _ _ t _
    congr 1
    rw [decide_eq_decide]
    unfold InClosed
    rw [e1, e1, e1]

/-- A larger scale for a larger outline. -/
theorem _root_.B3d.Spec.Crisp.scaled {m k : ℝ} {pts : List (ℝ × ℝ)} (h : Crisp m pts) (hk : 0 < k)
    (hs : 1 / 10 ^ 3 ≤ k * m) : Crisp (k * m) (pts.map (scaled k)) := by
  have hk2 : 0 < k ^ 2 := by positivity
  refine ⟨hs, ?_, ?_, ?_⟩
  · intro p hp q hq hne
    obtain ⟨p, hp', rfl⟩ := List.mem_map.1 hp
    obtain ⟨q, hq', rfl⟩ := List.mem_map.1 hq
    have := h.far p hp' q hq' (fun e => hne (by rw [e]))
    rw [distSq_scaled, mul_pow]
    exact mul_le_mul_of_nonneg_left this hk2.le
  · intro p hp q hq
    obtain ⟨p, hp', rfl⟩ := List.mem_map.1 hp
    obtain ⟨q, hq', rfl⟩ := List.mem_map.1 hq
    have := h.near p hp' q hq'
    rw [distSq_scaled, mul_pow]
    nlinarith [mul_le_mul_of_nonneg_left this hk2.le]
  · intro a ha b hb c hc
    obtain ⟨a, ha', rfl⟩ := List.mem_map.1 ha
    obtain ⟨b, hb', rfl⟩ := List.mem_map.1 hb
    obtain ⟨c, hc', rfl⟩ := List.mem_map.1 hc
    rw [signedArea_scaled]
    rcases h.sides a ha' b hb' c hc' with h | h
    · left; rw [h, mul_zero]
    · right
      rw [abs_mul, abs_of_pos hk2, mul_pow]
      exact mul_le_mul_of_nonneg_left h hk2.le

theorem exactTriangulate_pts {fuel : Nat} {pts q : List (ℝ × ℝ)} {tri : List Tri} (hn : 3 ≤ pts.length)
    (h : exactTriangulate fuel pts = some (.ok (q, tri))) : q = pts ∨ q = pts.reverse :=
  (C20_triangulate_valid _ _ _ _ _ _ _ hn h).1

theorem placement_convex {m k : ℝ} {pts : List (ℝ × ℝ)} {o u w o' u' w' : Vec3 ℝ} (hx : Axes u w) (hx' : Axes u' w')
    (h : Crisp m pts) (hk : 0 < k) (hs : 1 / 10 ^ 3 ≤ k * m) (hr : ∀ p ∈ pts, Reach m (inPlane o u w p))
    (hr' : ∀ p ∈ pts, Reach (k * m) (inPlane o' u' w' (scaled k p))) (hn : 3 ≤ pts.length) {l p0 p1 : ℝ × ℝ}
    (hl : pts.getLast? = some l) (h0 : pts[0]? = some p0) (h1 : pts[1]? = some p1) (hD : 0 < signedArea l p0 p1) :
    (∃ e, polygonNew (pts.map (inPlane o u w)) none none = .error e ∧
      polygonNew (pts.map fun p => inPlane o' u' w' (scaled k p)) none none = .error e) ∨
    ∃ P Q q, polygonNew (pts.map (inPlane o u w)) none none = .ok P ∧
      polygonNew (pts.map fun p => inPlane o' u' w' (scaled k p)) none none = .ok Q ∧ (q = pts ∨ q = pts.reverse) ∧
      P.pts = q.map (inPlane o u w) ∧ Q.pts = (q.map fun p => inPlane o' u' w' (scaled k p)) ∧ P.tri = Q.tri ∧
      P.vn = some (Vec3.cross u w) ∧ Q.vn = some (Vec3.cross u' w') := by
  have a := polygonNew_inPlane hx h hr hn hl h0 h1 hD
  have b := polygonNew_inPlane (pts := pts.map (scaled k)) (o := o') hx' (h.scaled hk hs)
    (by
      intro p hp
      obtain ⟨p, hp', rfl⟩ := List.mem_map.1 hp
      exact hr' p hp')
    (by simpa using hn) (l := scaled k l) (p0 := scaled k p0) (p1 := scaled k p1) (by rw [List.getLast?_map, hl]; rfl)
    (by rw [List.getElem?_map, h0]; rfl) (by rw [List.getElem?_map, h1]; rfl)
    (by rw [signedArea_scaled]; positivity)
  rw [List.length_map, exactTriangulate_scaled hk, List.map_map] at b
  match he : exactTriangulate (2 * pts.length + 2) pts with
  | none => rw [he] at a b; exact .inl ⟨_, a, b⟩
  | some (.error e) => rw [he] at a b; exact .inl ⟨_, a, b⟩
  | some (.ok (q, tri)) =>
    rw [he] at a b
    obtain ⟨P, a1, a2, a3, a4⟩ := a
    obtain ⟨Q, b1, b2, b3, b4⟩ := b
    refine .inr ⟨P, Q, q, a1, b1, exactTriangulate_pts hn he, a2, ?_, by rw [a4, b4], a3, b3⟩
    rw [b2, List.map_map]
    rfl

theorem Axes_symm {u w : Vec3 ℝ} (h : Axes u w) : Axes w u :=
  ⟨h.unitW, h.unitU, by rw [← h.perp]; simp only [Vec3.dot]; ring⟩

theorem inPlane_swap (o u w : Vec3 ℝ) (p : ℝ × ℝ) : inPlane o w u p.swap = inPlane o u w p := by
  unfold inPlane
  ext <;> simp <;> ring

theorem signedArea_swapped (a b c : ℝ × ℝ) : signedArea a.swap b.swap c.swap = -signedArea a b c := by
  unfold signedArea; simp

theorem _root_.B3d.Spec.Crisp.swapped {m : ℝ} {pts : List (ℝ × ℝ)} (h : Crisp m pts) : Crisp m (pts.map Prod.swap) := by
  have e : ∀ p q : ℝ × ℝ, distSq p.swap q.swap = distSq p q := by intro p q; unfold distSq; simp; ring
  refine ⟨h.scale, ?_, ?_, ?_⟩
  · intro p hp q hq hne
    obtain ⟨p, hp', rfl⟩ := List.mem_map.1 hp
    obtain ⟨q, hq', rfl⟩ := List.mem_map.1 hq
    rw [e]
    exact h.far p hp' q hq' (fun e => hne (by rw [e]))
  · intro p hp q hq
    obtain ⟨p, hp', rfl⟩ := List.mem_map.1 hp
    obtain ⟨q, hq', rfl⟩ := List.mem_map.1 hq
    rw [e]
    exact h.near p hp' q hq'
  · intro a ha b hb c hc
    obtain ⟨a, ha', rfl⟩ := List.mem_map.1 ha
    obtain ⟨b, hb', rfl⟩ := List.mem_map.1 hb
    obtain ⟨c, hc', rfl⟩ := List.mem_map.1 hc
    rw [signedArea_swapped, abs_neg]
    rcases h.sides a ha' b hb' c hc' with h | h
    · left; rw [h, neg_zero]
    · exact .inr h

/-- **C89.**  An outline without doubtful cases is drawn twice: in the plane through `o` with the axes `u`, `w`, and `k`
times as large in the plane through `o'` with the axes `u'`, `w'`.  Unless the first corner is straight, either both are
rejected with the same exception, or both become polygons with the same triangles, the corners in the same order, and
normals on the same side: `s` times the normal of the plane, with the same `s`. -/
theorem C89_placement_partial {m k : ℝ} {pts : List (ℝ × ℝ)} {o u w o' u' w' : Vec3 ℝ} (hx : Axes u w) (hx' : Axes u' w')
    (h : Crisp m pts) (hk : 0 < k) (hs : 1 / 10 ^ 3 ≤ k * m) (hr : ∀ p ∈ pts, Reach m (inPlane o u w p))
    (hr' : ∀ p ∈ pts, Reach (k * m) (inPlane o' u' w' (scaled k p))) (hn : 3 ≤ pts.length) {l p0 p1 : ℝ × ℝ}
    (hl : pts.getLast? = some l) (h0 : pts[0]? = some p0) (h1 : pts[1]? = some p1) (hD : signedArea l p0 p1 ≠ 0) :
    (∃ e, polygonNew (pts.map (inPlane o u w)) none none = .error e ∧
      polygonNew (pts.map fun p => inPlane o' u' w' (scaled k p)) none none = .error e) ∨
    ∃ P Q q, ∃ s : ℝ, polygonNew (pts.map (inPlane o u w)) none none = .ok P ∧
      polygonNew (pts.map fun p => inPlane o' u' w' (scaled k p)) none none = .ok Q ∧ (q = pts ∨ q = pts.reverse) ∧
      P.pts = q.map (inPlane o u w) ∧ Q.pts = (q.map fun p => inPlane o' u' w' (scaled k p)) ∧ P.tri = Q.tri ∧
      (s = if 0 < signedArea l p0 p1 then 1 else -1) ∧
      P.vn = some (s • Vec3.cross u w) ∧ Q.vn = some (s • Vec3.cross u' w') := by
  rcases lt_or_gt_of_ne hD with hlt | hgt
  · have e1 : (pts.map Prod.swap).map (inPlane o w u) = pts.map (inPlane o u w) := by
      rw [List.map_map]
      exact List.map_congr_left fun p _ => inPlane_swap o u w p
    have e2 : ((pts.map Prod.swap).map fun p => inPlane o' w' u' (scaled k p)) =
        pts.map fun p => inPlane o' u' w' (scaled k p) := by
      rw [List.map_map]
      exact List.map_congr_left fun p _ => inPlane_swap o' u' w' (scaled k p)
    have := placement_convex (o := o) (o' := o') (Axes_symm hx) (Axes_symm hx') h.swapped hk hs
      (by
        intro p hp
        obtain ⟨p, hp', rfl⟩ := List.mem_map.1 hp
        rw [inPlane_swap]; exact hr p hp')
      (by
        intro p hp
        obtain ⟨p, hp', rfl⟩ := List.mem_map.1 hp
        have := inPlane_swap o' u' w' (scaled k p)
        exact this ▸ hr' p hp')
      (by simpa using hn) (l := l.swap) (p0 := p0.swap) (p1 := p1.swap) (by rw [List.getLast?_map, hl]; rfl)
      (by rw [List.getElem?_map, h0]; rfl) (by rw [List.getElem?_map, h1]; rfl)
      (by rw [signedArea_swapped]; linarith)
    rw [e1, e2] at this
    rcases this with ⟨e, a, b⟩ | ⟨P, Q, q, a, b, hq, c, d, f, g1, g2⟩
    · exact .inl ⟨e, a, b⟩
    have neg : ∀ x y : Vec3 ℝ, Vec3.cross y x = (-1 : ℝ) • Vec3.cross x y := by
      intro x y; ext <;> simp <;> ring
    refine .inr ⟨P, Q, q.map Prod.swap, -1, a, b, ?_, ?_, ?_, f, ?_, ?_, ?_⟩
    · rcases hq with rfl | rfl
      · left; rw [List.map_map]; simp
      · right; rw [← List.map_reverse, List.map_map]; simp
    · rw [c, List.map_map]
      refine List.map_congr_left fun p _ => ?_
      have := inPlane_swap o u w p.swap
      rw [Prod.swap_swap] at this
      exact this
    · rw [d, List.map_map]
      refine List.map_congr_left fun p _ => ?_
      have := inPlane_swap o' u' w' (scaled k p.swap)
      exact this
    · rw [if_neg (by linarith)]
    · rw [g1, neg]
    · rw [g2, neg]
  · rcases placement_convex hx hx' h hk hs hr hr' hn hl h0 h1 hgt with ⟨e, a, b⟩ | ⟨P, Q, q, a, b, hq, c, d, f, g1, g2⟩
    · exact .inl ⟨e, a, b⟩
    · exact .inr ⟨P, Q, q, 1, a, b, hq, c, d, f, by rw [if_pos hgt], by rw [g1, one_smul], by rw [g2, one_smul]⟩

/-- Whole-number coordinates are without doubtful cases. -/
theorem crisp_int {pts : List (ℤ × ℤ)} (h : ∀ p ∈ pts, ∀ q ∈ pts, (p.1 - q.1) ^ 2 + (p.2 - q.2) ^ 2 ≤ 5000) :
    Crisp 1 (pts.map fun p => ((p.1 : ℝ), (p.2 : ℝ))) := by
  refine ⟨by norm_num, ?_, ?_, ?_⟩
  · intro p hp q hq hne
    obtain ⟨p, hp', rfl⟩ := List.mem_map.1 hp
    obtain ⟨q, hq', rfl⟩ := List.mem_map.1 hq
    have hpq : p ≠ q := fun e => hne (by rw [e])
    have : 1 ≤ (p.1 - q.1) ^ 2 + (p.2 - q.2) ^ 2 := by
      by_contra hc
      have h1 := sq_nonneg (p.1 - q.1)
      have h2 := sq_nonneg (p.2 - q.2)
      have e1 : (p.1 - q.1) ^ 2 = 0 := by omega
      have e2 : (p.2 - q.2) ^ 2 = 0 := by omega
      rw [pow_eq_zero_iff (by norm_num)] at e1 e2
      exact hpq (Prod.ext (by omega) (by omega))
    unfold distSq
    rw [one_pow]
    simp only
    exact_mod_cast this
  · intro p hp q hq
    obtain ⟨p, hp', rfl⟩ := List.mem_map.1 hp
    obtain ⟨q, hq', rfl⟩ := List.mem_map.1 hq
    have := h p hp' q hq'
    unfold distSq
    rw [one_pow, mul_one]
    simp only
    exact_mod_cast this
  · intro a ha b hb c hc
    obtain ⟨a, ha', rfl⟩ := List.mem_map.1 ha
    obtain ⟨b, hb', rfl⟩ := List.mem_map.1 hb
    obtain ⟨c, hc', rfl⟩ := List.mem_map.1 hc
    have e : signedArea ((a.1 : ℝ), (a.2 : ℝ)) ((b.1 : ℝ), (b.2 : ℝ)) ((c.1 : ℝ), (c.2 : ℝ)) = (Grid.orient a b c : ℤ) := by
      rw [Grid.orient_cast]; rfl
    rw [e]
    by_cases h0 : Grid.orient a b c = 0
    · left; rw [h0]; simp
    · right
      have := Int.one_le_abs h0
      rw [one_pow]
      exact_mod_cast this

/-- Non-vacuity of `C89_placement_partial` and `C89_exact_tests`: a plan with a reflex corner, in the horizontal plane and twice as
large in an inclined plane far from the origin. -/
example : ∃ pts : List (ℝ × ℝ), pts = [(4, 1), (1, 1), (1, 4), (0, 4), (0, 0), (4, 0)] ∧ Crisp 1 pts ∧
    Axes ⟨1, 0, 0⟩ ⟨0, 1, 0⟩ ∧ Axes ⟨3 / 5, 4 / 5, 0⟩ ⟨0, 0, 1⟩ ∧
    (∀ p ∈ pts, Reach 1 (inPlane 0 ⟨1, 0, 0⟩ ⟨0, 1, 0⟩ p)) ∧
    (∀ p ∈ pts, Reach (2 * 1) (inPlane ⟨100, -70, 1000⟩ ⟨3 / 5, 4 / 5, 0⟩ ⟨0, 0, 1⟩ (scaled 2 p))) ∧
    signedArea (4, 0) (4, 1) (1, 1) ≠ 0 := by
  refine ⟨_, rfl, ?_, ⟨by norm_num [Vec3.dot], by norm_num [Vec3.dot], by norm_num [Vec3.dot]⟩,
    ⟨by norm_num [Vec3.dot], by norm_num [Vec3.dot], by norm_num [Vec3.dot]⟩, ?_, ?_, by norm_num [signedArea]⟩
  · have := crisp_int (pts := [(4, 1), (1, 1), (1, 4), (0, 4), (0, 0), (4, 0)]) (by decide)
    simpa using this
  · simp only [List.mem_cons, List.not_mem_nil, or_false, forall_eq_or_imp, forall_eq, Reach, inPlane]
    norm_num [abs_le]
  · simp only [List.mem_cons, List.not_mem_nil, or_false, forall_eq_or_imp, forall_eq, Reach, inPlane, scaled]
    norm_num [abs_le]

/-! ### Far from the origin -/

/-- A point which is not distinguished from a corner counts as inside the triangle, if it is in its bounding box. -/
theorem isPointInside_blurred {t p c n : Vec3 ℝ} (hx : t.x = p.x ∨ t.x = c.x ∨ t.x = n.x)
    (hy : t.y = p.y ∨ t.y = c.y ∨ t.y = n.y) (hz : t.z = p.z) (h : pointsEqual t p GEOM_ATOL = true) :
    Triangles.isPointInside t p c n = .ok true := by
  have hb : Bboxes.isPointInsideBbox t [p, c, n] (1 / 100) = .ok true := by
    obtain ⟨lo, hi, r, h1, h2, h3, -⟩ := Bboxes.C25_inside_bbox [p, c, n] (by simp) t (1 / 100)
    obtain ⟨lo', hi', h1', hin, -⟩ := Bboxes.C25_bounding_box_tight [p, c, n] (by simp)
    rw [h1] at h1'
    cases h1'
    rw [h2]
    congr 1
    rw [h3]
    obtain ⟨⟨a1, a2⟩, ⟨a3, a4⟩, ⟨a5, a6⟩⟩ := hin p (by simp)
    obtain ⟨⟨b1, b2⟩, ⟨b3, b4⟩, ⟨b5, b6⟩⟩ := hin c (by simp)
    obtain ⟨⟨c1, c2⟩, ⟨c3, c4⟩, ⟨c5, c6⟩⟩ := hin n (by simp)
    unfold Bboxes.InBox
    refine ⟨⟨?_, ?_⟩, ⟨?_, ?_⟩, ⟨?_, ?_⟩⟩
    · rcases hx with h | h | h <;> rw [h] <;> simp only <;> linarith
    · rcases hx with h | h | h <;> rw [h] <;> simp only <;> linarith
    · rcases hy with h | h | h <;> rw [h] <;> simp only <;> linarith
    · rcases hy with h | h | h <;> rw [h] <;> simp only <;> linarith
    · rw [hz]; simp only; linarith
    · rw [hz]; simp only; linarith
  unfold Triangles.isPointInside
  simp only [hb, h, bind, Except.bind, pure, Except.pure, Bool.not_true, Bool.false_eq_true, if_false, Bool.true_or, if_true]

/-- **C89 needs outlines near the origin.**  A rectangular floor with sides of at least one metre is rejected if its
distance from both axes is more than 100000 times its size: its corners are not distinguished from each other, so that no
corner can be cut off.  Moved to the origin it is accepted (`C84_convex_partial`). -/
theorem C89_far {x y z a b : ℝ} (ha : 1 ≤ a) (hb : 1 ≤ b) (hx : 10 ^ 5 * a ≤ x) (hy : 10 ^ 5 * b ≤ y) :
    polygonNew [⟨x, y, z⟩, ⟨x + a, y, z⟩, ⟨x + a, y + b, z⟩, ⟨x, y + b, z⟩] none none = .error .triangulationError := by
  have hab : 1 ≤ a * b := by nlinarith
  have x0 : 0 < x := by norm_num at hx; linarith
  have y0 : 0 < y := by norm_num at hy; linarith
  have hclose : ∀ r s k : ℝ, 0 < k → 0 ≤ s → 10 ^ 5 * s ≤ k → (r = k ∨ r = k + s) → ∀ q, (q = k ∨ q = k + s) →
      isClose r q NP_RTOL GEOM_ATOL := by
    intro r s k hk hs hsk hr q hq
    unfold isClose
    have h1 : |r - q| ≤ s := by
      rcases hr with rfl | rfl <;> rcases hq with rfl | rfl <;> rw [abs_le] <;> constructor <;> linarith
    have h2 : k ≤ |q| := by
      rcases hq with rfl | rfl
      · exact le_abs_self _
      · rw [abs_of_pos (by linarith)]; linarith
    norm_num [NP_RTOL, GEOM_ATOL] at *
    linarith
  have eq : ∀ px py qx qy : ℝ, (px = x ∨ px = x + a) → (py = y ∨ py = y + b) → (qx = x ∨ qx = x + a) →
      (qy = y ∨ qy = y + b) → pointsEqual ⟨px, py, z⟩ ⟨qx, qy, z⟩ GEOM_ATOL = true := by
    intro px py qx qy h1 h2 h3 h4
    unfold pointsEqual
    rw [decide_eq_true_eq]
    refine ⟨hclose _ a x x0 (by linarith) hx h1 _ h3, hclose _ b y y0 (by linarith) hy h2 _ h4, ?_⟩
    unfold isClose
    simp only [sub_self, abs_zero]
    have : (0 : ℝ) ≤ NP_RTOL * |z| := mul_nonneg (by norm_num [NP_RTOL]) (abs_nonneg z)
    have : (0 : ℝ) ≤ GEOM_ATOL := by norm_num [GEOM_ATOL]
    linarith
  have i0 : Triangles.isPointInside ⟨x + a, y + b, z⟩ ⟨x, y + b, z⟩ ⟨x, y, z⟩ ⟨x + a, y, z⟩ = .ok true :=
    isPointInside_blurred (by simp) (by simp) rfl (eq _ _ _ _ (by simp) (by simp) (by simp) (by simp))
  have i1 : Triangles.isPointInside ⟨x, y + b, z⟩ ⟨x, y, z⟩ ⟨x + a, y, z⟩ ⟨x + a, y + b, z⟩ = .ok true :=
    isPointInside_blurred (by simp) (by simp) rfl (eq _ _ _ _ (by simp) (by simp) (by simp) (by simp))
  have i2 : Triangles.isPointInside ⟨x, y, z⟩ ⟨x + a, y, z⟩ ⟨x + a, y + b, z⟩ ⟨x, y + b, z⟩ = .ok true :=
    isPointInside_blurred (by simp) (by simp) rfl (eq _ _ _ _ (by simp) (by simp) (by simp) (by simp))
  have i3 : Triangles.isPointInside ⟨x + a, y, z⟩ ⟨x + a, y + b, z⟩ ⟨x, y + b, z⟩ ⟨x, y, z⟩ = .ok true :=
    isPointInside_blurred (by simp) (by simp) rfl (eq _ _ _ _ (by simp) (by simp) (by simp) (by simp))
  have c0 : isCornerConvex ⟨0, 0, 1⟩ ⟨x, y + b, z⟩ ⟨x, y, z⟩ ⟨x + a, y, z⟩ = .ok true :=
    isCornerConvex_z (.inl rfl) (by simp only [if_true]; nlinarith)
  have c1 : isCornerConvex ⟨0, 0, 1⟩ ⟨x, y, z⟩ ⟨x + a, y, z⟩ ⟨x + a, y + b, z⟩ = .ok true :=
    isCornerConvex_z (.inl rfl) (by simp only [if_true]; nlinarith)
  have c2 : isCornerConvex ⟨0, 0, 1⟩ ⟨x + a, y, z⟩ ⟨x + a, y + b, z⟩ ⟨x, y + b, z⟩ = .ok true :=
    isCornerConvex_z (.inl rfl) (by simp only [if_true]; nlinarith)
  have c3 : isCornerConvex ⟨0, 0, 1⟩ ⟨x + a, y + b, z⟩ ⟨x, y + b, z⟩ ⟨x, y, z⟩ = .ok true :=
    isCornerConvex_z (.inl rfl) (by simp only [if_true]; nlinarith)
  have d0 : isCornerConvex ⟨0, 0, 1⟩ ⟨x + a, y, z⟩ ⟨x, y, z⟩ ⟨x, y + b, z⟩ = .ok false :=
    isCornerConvex_z (.inl rfl) (by simp only [Bool.false_eq_true, if_false]; nlinarith)
  have d1 : isCornerConvex ⟨0, 0, 1⟩ ⟨x + a, y + b, z⟩ ⟨x + a, y, z⟩ ⟨x, y, z⟩ = .ok false :=
    isCornerConvex_z (.inl rfl) (by simp only [Bool.false_eq_true, if_false]; nlinarith)
  have d2 : isCornerConvex ⟨0, 0, 1⟩ ⟨x, y + b, z⟩ ⟨x + a, y + b, z⟩ ⟨x + a, y, z⟩ = .ok false :=
    isCornerConvex_z (.inl rfl) (by simp only [Bool.false_eq_true, if_false]; nlinarith)
  have d3 : isCornerConvex ⟨0, 0, 1⟩ ⟨x, y, z⟩ ⟨x, y + b, z⟩ ⟨x + a, y + b, z⟩ = .ok false :=
    isCornerConvex_z (.inl rfl) (by simp only [Bool.false_eq_true, if_false]; nlinarith)
  have hc : arePointsCoplanar ([⟨x, y, z⟩, ⟨x + a, y, z⟩, ⟨x + a, y + b, z⟩, ⟨x, y + b, z⟩] : List (Vec3 ℝ)) = true :=
    coplanar_z [(x, y), (x + a, y), (x + a, y + b), (x, y + b)] z
  have hv : chooseNormal ([⟨x, y, z⟩, ⟨x + a, y, z⟩, ⟨x + a, y + b, z⟩, ⟨x, y + b, z⟩] : List (Vec3 ℝ)) none =
      .ok (some ⟨0, 0, 1⟩) := by
    simp only [chooseNormal, List.getLast?_cons_cons, List.getLast?_singleton, List.getElem?_cons_zero,
      List.getElem?_cons_succ, Except.ok.injEq]
    exact normal_z (.inl rfl) (by nlinarith)
  have ht : triangulate 10 ([⟨x, y, z⟩, ⟨x + a, y, z⟩, ⟨x + a, y + b, z⟩, ⟨x, y + b, z⟩] : List (Vec3 ℝ)) ⟨0, 0, 1⟩ =
      some (.error .triangulationError) := by
    simp [triangulate, triangulateTries, unit_z (.inl rfl), run, step, initState, List.range, List.range.loop,
      anyPointInside, i0, i1, i2, i3, c0, c1, c2, c3, d0, d1, d2, d3]
  simp only [polygonNew, hc, hv, chooseTriangles, List.length_cons, List.length_nil, Bool.true_eq_false, if_false]
  norm_num [ht]

/-- Non-vacuity of `C89_far`: a room of 4 m by 5 m in the metric coordinates of a national grid. -/
example : polygonNew [⟨500000, 5400000, 0⟩, ⟨500000 + 4, 5400000, 0⟩, ⟨500000 + 4, 5400000 + 5, 0⟩,
    ⟨500000, 5400000 + 5, 0⟩] none none = .error .triangulationError :=
  C89_far (by norm_num) (by norm_num) (by norm_num) (by norm_num)

end B3d.Polygon
