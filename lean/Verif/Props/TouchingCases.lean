import Verif.Props.Touching
import Verif.Props.CrossingCases

/-!
# C77: concrete polygons

Rectangles which meet the hypotheses of the theorems on C77, and polygons for which the answer is wrong.
-/

set_option linter.unusedTactic false

namespace B3d.Polygon

open Spec Points Triangles

theorem same_x {p q : Vec3 ℝ} (h : 1 ≤ |p.x - q.x|) (hq : |q.x| ≤ 100) (he : pointsEqual p q = true) : p = q := by
  rw [Slice.notEqual_x h hq] at he
  cases he

theorem same_y {p q : Vec3 ℝ} (h : 1 ≤ |p.y - q.y|) (hq : |q.y| ≤ 100) (he : pointsEqual p q = true) : p = q := by
  rw [Slice.notEqual_y h hq] at he
  cases he

theorem rect_on_outline {x0 x1 y0 y1 : ℝ} (g : GoodBox x0 x1 y0 y1) {p : Vec3 ℝ}
    (h : x0 ≤ p.x ∧ p.x ≤ x1 ∧ y0 ≤ p.y ∧ p.y ≤ y1 ∧ p.z = 0 ∧ (p.x = x0 ∨ p.x = x1 ∨ p.y = y0 ∨ p.y = y1)) :
    OnOutline (rectPts x0 x1 y0 y1) p := by
  obtain ⟨wx, wy, -⟩ := g
  have px : 0 < x1 - x0 := by linarith
  have py : 0 < y1 - y0 := by linarith
  obtain ⟨h1, h2, h3, h4, h5, hc⟩ := h
  unfold OnOutline
  rw [rect_edges]
  rcases hc with hc | hc | hc | hc
  · refine ⟨(⟨x0, y1, 0⟩, ⟨x0, y0, 0⟩), by simp, (y1 - p.y) / (y1 - y0), div_nonneg (by linarith) py.le,
      by rw [div_le_one py]; linarith, ?_⟩
    ext
    · simp [hc]
    · simp only [Vec3.add_y, Vec3.smul_y, Vec3.sub_y]; field_simp; ring
    · simp [h5]
  · refine ⟨(⟨x1, y0, 0⟩, ⟨x1, y1, 0⟩), by simp, (p.y - y0) / (y1 - y0), div_nonneg (by linarith) py.le,
      by rw [div_le_one py]; linarith, ?_⟩
    ext
    · simp [hc]
    · simp only [Vec3.add_y, Vec3.smul_y, Vec3.sub_y]; field_simp; ring
    · simp [h5]
  · refine ⟨(⟨x0, y0, 0⟩, ⟨x1, y0, 0⟩), by simp, (p.x - x0) / (x1 - x0), div_nonneg (by linarith) px.le,
      by rw [div_le_one px]; linarith, ?_⟩
    ext
    · simp only [Vec3.add_x, Vec3.smul_x, Vec3.sub_x]; field_simp; ring
    · simp [hc]
    · simp [h5]
  · refine ⟨(⟨x1, y1, 0⟩, ⟨x0, y1, 0⟩), by simp, (x1 - p.x) / (x1 - x0), div_nonneg (by linarith) px.le,
      by rw [div_le_one px]; linarith, ?_⟩
    ext
    · simp only [Vec3.add_x, Vec3.smul_x, Vec3.sub_x]; field_simp; ring
    · simp [hc]
    · simp [h5]

/-- A point on the outline of a rectangle or a metre outside. -/
theorem rect_spot {x0 x1 y0 y1 : ℝ} (g : GoodBox x0 x1 y0 y1) {p : Vec3 ℝ}
    (h : (x0 ≤ p.x ∧ p.x ≤ x1 ∧ y0 ≤ p.y ∧ p.y ≤ y1 ∧ p.z = 0 ∧ (p.x = x0 ∨ p.x = x1 ∨ p.y = y0 ∨ p.y = y1)) ∨
      (p.x ≤ x0 - 1 ∨ x1 + 1 ≤ p.x ∨ p.y ≤ y0 - 1 ∨ y1 + 1 ≤ p.y)) :
    OnOutline (rectPts x0 x1 y0 y1) p ∨
      ¬ Near (Region (rectPts x0 x1 y0 y1) [(3, 0, 1), (3, 1, 2)]) p (1 / 10 ^ 4 * 150 + 2 / 10 ^ 7) := by
  refine h.imp (rect_on_outline g) ?_
  rintro hx ⟨y, hy, hd⟩
  rw [rect_region g] at hy
  obtain ⟨a1, a2, a3, a4, -⟩ := hy
  have h1 := abs_le.1 ((Vec3.abs_x_le _).trans hd)
  have h2 := abs_le.1 ((Vec3.abs_y_le _).trans hd)
  simp only [Vec3.sub_x, Vec3.sub_y] at h1 h2
  norm_num at h1 h2
  rcases hx with hx | hx | hx | hx <;> linarith [h1.1, h1.2, h2.1, h2.2]

/-- The points that are looked at on a rectangle. -/
theorem rect_quarters {x0 x1 y0 y1 : ℝ} {p : Vec3 ℝ} (h : QuarterPoint (rectPts x0 x1 y0 y1) p) :
    ∃ s ∈ ([0, 1 / 4, 1 / 2, 3 / 4, 1] : List ℝ), p = ⟨x0 + s * (x1 - x0), y0, 0⟩ ∨ p = ⟨x1, y0 + s * (y1 - y0), 0⟩ ∨
      p = ⟨x1 - s * (x1 - x0), y1, 0⟩ ∨ p = ⟨x0, y1 - s * (y1 - y0), 0⟩ := by
  obtain ⟨e, he, j, hj, rfl⟩ := h
  refine ⟨(j : ℝ) / 4, ?_, ?_⟩
  · have : j = 0 ∨ j = 1 ∨ j = 2 ∨ j = 3 ∨ j = 4 := by omega
    rcases this with rfl | rfl | rfl | rfl | rfl <;> norm_num
  · generalize (j : ℝ) / 4 = s
    rw [rect_edges] at he
    simp only [List.mem_cons, List.not_mem_nil, or_false] at he
    rcases he with rfl | rfl | rfl | rfl
    · left; ext <;> simp
    · right; left; ext <;> simp
    · right; right; left
      ext <;> simp
      ring
    · right; right; right
      ext <;> simp
      ring

theorem rects_touching {x0 x1 y0 y1 u0 u1 v0 v1 : ℝ} (g1 : GoodBox x0 x1 y0 y1) (g2 : GoodBox u0 u1 v0 v1) {P Q : Poly}
    (h1 : polygonNew (rectPts x0 x1 y0 y1) none none = .ok P) (hp1 : P.pts = rectPts x0 x1 y0 y1)
    (hv1 : P.vn = some ⟨0, 0, 1⟩) (ht1 : P.tri = [(3, 0, 1), (3, 1, 2)])
    (h2 : polygonNew (rectPts u0 u1 v0 v1) none none = .ok Q) (hp2 : Q.pts = rectPts u0 u1 v0 v1)
    (hv2 : Q.vn = some ⟨0, 0, 1⟩) (ht2 : Q.tri = [(3, 0, 1), (3, 1, 2)])
    (hown : ∃ p ∈ P.pts, ∀ q ∈ Q.pts, pointsEqual p q = false)
    (hq1 : ∀ x, QuarterPoint P.pts x →
      (u0 ≤ x.x ∧ x.x ≤ u1 ∧ v0 ≤ x.y ∧ x.y ≤ v1 ∧ x.z = 0 ∧ (x.x = u0 ∨ x.x = u1 ∨ x.y = v0 ∨ x.y = v1)) ∨
      (x.x ≤ u0 - 1 ∨ u1 + 1 ≤ x.x ∨ x.y ≤ v0 - 1 ∨ v1 + 1 ≤ x.y))
    (hq2 : ∀ x, QuarterPoint Q.pts x →
      (x0 ≤ x.x ∧ x.x ≤ x1 ∧ y0 ≤ x.y ∧ x.y ≤ y1 ∧ x.z = 0 ∧ (x.x = x0 ∨ x.x = x1 ∨ x.y = y0 ∨ x.y = y1)) ∨
      (x.x ≤ x0 - 1 ∨ x1 + 1 ≤ x.x ∨ x.y ≤ y0 - 1 ∨ y1 + 1 ≤ x.y))
    (hb : ∃ p ∈ Q.pts, OnOutline P.pts p) :
    arePolygonsTouching P.pts P.tri Q.pts Q.tri = .ok true :=
  C77_complete_partial (e := 0) (f := 0) (M := 150) h1 h2 hv1 hv2 (by rw [hp1]; exact rect_plane)
    (by rw [hp2]; exact rect_plane) (by rw [hp1]; exact rect_spans g1) (by rw [hp2]; exact rect_spans g2)
    (by rw [hp1]; exact rect_norm g1) (by rw [hp2]; exact rect_norm g2) hown
    (fun x hx => by rw [hp2, ht2]; exact rect_spot g2 (hq1 x hx))
    (fun x hx => by rw [hp1, ht1]; exact rect_spot g1 (hq2 x hx)) (.inl hb)

/-- The square from `(0, 0)` to `(4, 4)` and the rectangle from `(4, 1)` to `(8, 3)` meet the hypotheses of
`C77_complete_partial` and `C77_sound_partial`, and are found to touch. -/
example : ∃ P Q : Poly, polygonNew (rectPts 0 4 0 4) none none = .ok P ∧ polygonNew (rectPts 4 8 1 3) none none = .ok Q ∧
    (∀ p ∈ P.pts ++ Q.pts, Vec3.norm p ≤ 150) ∧ (∀ ed ∈ cycEdges P.pts ++ cycEdges Q.pts, 1 ≤ Vec3.norm (ed.2 - ed.1)) ∧
    arePolygonsTouching P.pts P.tri Q.pts Q.tri = .ok true := by
  have g1 : GoodBox 0 4 0 4 := box_of _ _ _ _ (by norm_num)
  have g2 : GoodBox 4 8 1 3 := box_of _ _ _ _ (by norm_num [abs_le])
  obtain ⟨P, h1, hp1, hv1, ht1⟩ := rect_polygon g1
  obtain ⟨Q, h2, hp2, hv2, ht2⟩ := rect_polygon g2
  refine ⟨P, Q, h1, h2, ?_, ?_, rects_touching g1 g2 h1 hp1 hv1 ht1 h2 hp2 hv2 ht2 ?_ ?_ ?_ ?_⟩
  · rw [hp1, hp2]
    exact fun p hp => (List.mem_append.1 hp).elim (rect_norm g1 p) (rect_norm g2 p)
  · rw [hp1, hp2]
    exact fun p hp => (List.mem_append.1 hp).elim (rect_edge_length g1 p) (rect_edge_length g2 p)
  · refine ⟨⟨0, 0, 0⟩, by rw [hp1]; simp [rectPts], fun q hq => ?_⟩
    rw [hp2] at hq
    simp only [rectPts, List.mem_cons, List.not_mem_nil, or_false] at hq
    rcases hq with rfl | rfl | rfl | rfl <;> exact Slice.notEqual_x (by norm_num) (by norm_num)
  · rw [hp1]
    intro x hx
    obtain ⟨s, hs, hx⟩ := rect_quarters hx
    simp only [List.mem_cons, List.not_mem_nil, or_false] at hs
    rcases hx with rfl | rfl | rfl | rfl <;> rcases hs with rfl | rfl | rfl | rfl | rfl <;> norm_num
  · rw [hp2]
    intro x hx
    obtain ⟨s, hs, hx⟩ := rect_quarters hx
    simp only [List.mem_cons, List.not_mem_nil, or_false] at hs
    rcases hx with rfl | rfl | rfl | rfl <;> rcases hs with rfl | rfl | rfl | rfl | rfl <;> norm_num
  · exact ⟨⟨4, 1, 0⟩, by rw [hp2]; simp [rectPts], by rw [hp1]; exact rect_on_outline g1 (by norm_num)⟩

/-- **C77 is false for bars that overlap.**  A bar from `(0, 41)` to `(90, 42)` and a bar from `(41, 41)` to `(42, 90)`
have a square metre in common, and are reported touching. -/
theorem C77_overlap_reported : ∃ P Q : Poly, polygonNew (rectPts 0 90 41 42) none none = .ok P ∧
    polygonNew (rectPts 41 42 41 90) none none = .ok Q ∧
    (∀ x y : ℝ, 41 ≤ x → x ≤ 42 → 41 ≤ y → y ≤ 42 → Region P.pts P.tri ⟨x, y, 0⟩ ∧ Region Q.pts Q.tri ⟨x, y, 0⟩) ∧
    arePolygonsTouching P.pts P.tri Q.pts Q.tri = .ok true := by
  have g1 : GoodBox 0 90 41 42 := box_of _ _ _ _ (by norm_num)
  have g2 : GoodBox 41 42 41 90 := box_of _ _ _ _ (by norm_num)
  obtain ⟨P, h1, hp1, hv1, ht1⟩ := rect_polygon g1
  obtain ⟨Q, h2, hp2, hv2, ht2⟩ := rect_polygon g2
  refine ⟨P, Q, h1, h2, ?_, rects_touching g1 g2 h1 hp1 hv1 ht1 h2 hp2 hv2 ht2 ?_ ?_ ?_ ?_⟩
  · rw [hp1, hp2, ht1, ht2]
    exact fun x y a b c d => ⟨(rect_region g1 _).2 ⟨by linarith, by linarith, c, d, rfl⟩,
      (rect_region g2 _).2 ⟨a, b, c, by linarith, rfl⟩⟩
  · refine ⟨⟨0, 41, 0⟩, by rw [hp1]; simp [rectPts], fun q hq => ?_⟩
    rw [hp2] at hq
    simp only [rectPts, List.mem_cons, List.not_mem_nil, or_false] at hq
    rcases hq with rfl | rfl | rfl | rfl <;> exact Slice.notEqual_x (by norm_num) (by norm_num)
  · rw [hp1]
    intro x hx
    obtain ⟨s, hs, hx⟩ := rect_quarters hx
    simp only [List.mem_cons, List.not_mem_nil, or_false] at hs
    rcases hx with rfl | rfl | rfl | rfl <;> rcases hs with rfl | rfl | rfl | rfl | rfl <;> norm_num
  · rw [hp2]
    intro x hx
    obtain ⟨s, hs, hx⟩ := rect_quarters hx
    simp only [List.mem_cons, List.not_mem_nil, or_false] at hs
    rcases hx with rfl | rfl | rfl | rfl <;> rcases hs with rfl | rfl | rfl | rfl | rfl <;> norm_num
  · exact ⟨⟨41, 41, 0⟩, by rw [hp2]; simp [rectPts], by rw [hp1]; exact rect_on_outline g1 (by norm_num)⟩

/-- Two squares a metre apart, and a square inside another, meet the hypotheses of `C77_apart`; a square and itself
meet those of `C77_same`. -/
example : ∃ P Q R : Poly, polygonNew (rectPts 0 4 0 4) none none = .ok P ∧ polygonNew (rectPts 5 8 0 4) none none = .ok Q ∧
    polygonNew (rectPts 1 3 1 3) none none = .ok R ∧
    arePolygonsTouching P.pts P.tri Q.pts Q.tri = .ok false ∧ arePolygonsTouching P.pts P.tri R.pts R.tri = .ok false ∧
    arePolygonsTouching P.pts P.tri P.pts P.tri = .ok false := by
  have g1 : GoodBox 0 4 0 4 := box_of _ _ _ _ (by norm_num)
  have g2 : GoodBox 5 8 0 4 := box_of _ _ _ _ (by norm_num [abs_le])
  have g3 : GoodBox 1 3 1 3 := box_of _ _ _ _ (by norm_num [abs_le])
  obtain ⟨P, h1, hp1, hv1, ht1⟩ := rect_polygon g1
  obtain ⟨Q, h2, hp2, hv2, ht2⟩ := rect_polygon g2
  obtain ⟨R, h3, hp3, hv3, ht3⟩ := rect_polygon g3
  have far : ∀ {x y : Vec3 ℝ}, (1 ≤ |x.x - y.x| ∨ 1 ≤ |x.y - y.y|) →
      (1 / 10 ^ 4 * 150 + 1 / 10 ^ 7 + 2 / 10 ^ 13 / 1 : ℝ) < Vec3.norm (x - y) := by
    intro x y h
    refine lt_of_lt_of_le (by norm_num) (b := 1) ?_
    rcases h with h | h
    · exact le_trans h (Vec3.abs_x_le (x - y))
    · exact le_trans h (Vec3.abs_y_le (x - y))
  refine ⟨P, Q, R, h1, h2, h3, C77_apart h1 h2 (M := 150) (L := 1) ?_ one_pos ?_ ?_ ?_,
    C77_apart h1 h3 (M := 150) (L := 1) ?_ one_pos ?_ ?_ ?_, C77_same h1 h1 ?_ (List.Subperm.refl _)⟩
  · rw [hp1, hp2]
    exact fun p hp => (List.mem_append.1 hp).elim (rect_norm g1 p) (rect_norm g2 p)
  · rw [hp1, hp2]
    exact fun p hp => (List.mem_append.1 hp).elim (rect_edge_length g1 p) (rect_edge_length g2 p)
  · rw [hp1, hp2]
    intro p hp y hy
    obtain ⟨-, hy, -⟩ := rect_outline g1 hy
    refine far (.inl (le_trans ?_ (le_abs_self _)))
    simp only [rectPts, List.mem_cons, List.not_mem_nil, or_false] at hp
    rcases hp with rfl | rfl | rfl | rfl <;> norm_num <;> linarith
  · rw [hp1, hp2]
    intro p hp y hy
    obtain ⟨hy, -⟩ := rect_outline g2 hy
    refine far (.inl (le_trans ?_ (neg_le_abs _)))
    simp only [rectPts, List.mem_cons, List.not_mem_nil, or_false] at hp
    rcases hp with rfl | rfl | rfl | rfl <;> norm_num <;> linarith
  · rw [hp1, hp3]
    exact fun p hp => (List.mem_append.1 hp).elim (rect_norm g1 p) (rect_norm g3 p)
  · rw [hp1, hp3]
    exact fun p hp => (List.mem_append.1 hp).elim (rect_edge_length g1 p) (rect_edge_length g3 p)
  · rw [hp1, hp3]
    intro p hp y hy
    obtain ⟨-, -, -, -, -, hy⟩ := rect_outline g1 hy
    apply far
    simp only [rectPts, List.mem_cons, List.not_mem_nil, or_false] at hp
    rcases hp with rfl | rfl | rfl | rfl <;> rcases hy with hy | hy | hy | hy <;> rw [hy] <;> norm_num
  · rw [hp1, hp3]
    intro p hp y hy
    obtain ⟨y1, y2, -⟩ := rect_outline g3 hy
    apply far
    left
    simp only [rectPts, List.mem_cons, List.not_mem_nil, or_false] at hp
    rcases hp with rfl | rfl | rfl | rfl <;> simp only
    · exact le_trans (by linarith) (neg_le_abs _)
    · exact le_trans (by linarith) (le_abs_self _)
    · exact le_trans (by linarith) (le_abs_self _)
    · exact le_trans (by linarith) (neg_le_abs _)
  · rw [hp1]
    intro p hp q hq
    simp only [rectPts, List.mem_cons, List.not_mem_nil, or_false] at hp hq
    rcases hp with rfl | rfl | rfl | rfl <;> rcases hq with rfl | rfl | rfl | rfl <;>
      first
      | exact fun _ => rfl
      | (refine same_x ?_ ?_ <;> norm_num; done)
      | (refine same_y ?_ ?_ <;> norm_num; done)

/-! ### The answer depends on which polygon is asked -/

theorem arrow_sides {p : Vec3 ℝ} {M : ℝ} (hx : 1 + M < p.x) (hy : 1 + M < p.y) :
    ¬ Near (Region arrow [(3, 0, 1), (3, 1, 2)]) p M := by
  rintro ⟨y, ⟨t, ht, a, b, c, ha, hb, hc, r, s, q, hr, hs, hq, h1, rfl⟩, hd⟩
  have h1' := abs_le.1 ((Vec3.abs_x_le _).trans hd)
  have h2' := abs_le.1 ((Vec3.abs_y_le _).trans hd)
  have er : r = 1 - s - q := by linarith
  subst er
  simp only [List.mem_cons, List.not_mem_nil, or_false] at ht
  rcases ht with rfl | rfl
  · simp only [arrow, List.getElem?_cons_zero, List.getElem?_cons_succ, Option.some.injEq] at ha hb hc
    subst ha hb hc
    simp at h1'
    linarith [h1'.1, h1'.2]
  · simp only [arrow, List.getElem?_cons_zero, List.getElem?_cons_succ, Option.some.injEq] at ha hb hc
    subst ha hb hc
    simp at h2'
    linarith [h2'.1, h2'.2]

theorem notch_sides {p : Vec3 ℝ} {M : ℝ} (h : p.x < 1 - M ∨ p.y < 1 - M) :
    ¬ Near (Region [⟨1, 1, 0⟩, ⟨4, 1, 0⟩, ⟨1, 4, 0⟩] [(2, 0, 1)]) p M := by
  rintro ⟨y, ⟨t, ht, a, b, c, ha, hb, hc, r, s, q, hr, hs, hq, h1, rfl⟩, hd⟩
  have h1' := abs_le.1 ((Vec3.abs_x_le _).trans hd)
  have h2' := abs_le.1 ((Vec3.abs_y_le _).trans hd)
  have er : r = 1 - s - q := by linarith
  subst er
  simp only [List.mem_cons, List.not_mem_nil, or_false] at ht
  subst ht
  simp only [List.getElem?_cons_zero, List.getElem?_cons_succ, Option.some.injEq] at ha hb hc
  subst ha hb hc
  simp at h1' h2'
  rcases h with h | h <;> linarith [h1'.1, h1'.2, h2'.1, h2'.2]

/-- **C77 is false for a polygon whose corners are all corners of the other.**  The arrow head and the triangle in its
notch touch along two edges; the arrow head touches the triangle, but the triangle does not touch the arrow head. -/
theorem C77_not_symmetric : ∃ P Q : Poly, polygonNew arrow none none = .ok P ∧
    polygonNew [⟨1, 1, 0⟩, ⟨4, 1, 0⟩, ⟨1, 4, 0⟩] none none = .ok Q ∧
    arePolygonsTouching P.pts P.tri Q.pts Q.tri = .ok true ∧ arePolygonsTouching Q.pts Q.tri P.pts P.tri = .ok false := by
  obtain ⟨P, h1, hp1, hv1, ht1⟩ := arrow_polygon
  obtain ⟨Q, h2, hp2, hv2, ht2⟩ := triangle_z (x1 := 1) (y1 := 1) (x2 := 4) (y2 := 1) (x3 := 1) (y3 := 4) 0 (by norm_num)
  have edges1 : cycEdges P.pts = [((⟨1, 4, 0⟩ : Vec3 ℝ), (⟨0, 0, 0⟩ : Vec3 ℝ)), (⟨0, 0, 0⟩, ⟨4, 1, 0⟩),
      (⟨4, 1, 0⟩, ⟨1, 1, 0⟩), (⟨1, 1, 0⟩, ⟨1, 4, 0⟩)] := by rw [hp1]; rfl
  have edges2 : cycEdges Q.pts = [((⟨1, 1, 0⟩ : Vec3 ℝ), (⟨4, 1, 0⟩ : Vec3 ℝ)), (⟨4, 1, 0⟩, ⟨1, 4, 0⟩),
      (⟨1, 4, 0⟩, ⟨1, 1, 0⟩)] := by rw [hp2]; rfl
  refine ⟨P, Q, h1, h2, ?_, ?_⟩
  · refine C77_complete_partial (e := 0) (f := 0) (M := 5) h1 h2 hv1 hv2 (by rw [hp1]; simp [arrow, Vec3.dot])
      (by rw [hp2]; simp [Vec3.dot]) ?_ ?_ ?_ ?_ ?_ ?_ ?_ ?_
    · rw [hp1]
      refine ⟨⟨0, _, _, _, rfl, rfl, rfl, ?_⟩, 0, _, _, _, rfl, rfl, rfl, ?_, ?_, ?_⟩
      · refine lt_of_lt_of_le ?_ (Vec3.abs_z_le _)
        norm_num
      · refine le_trans ?_ (Vec3.abs_x_le _)
        norm_num
      · refine le_trans ?_ (Vec3.abs_x_le _)
        norm_num
      · norm_num [Vec3.dot, Vec3.normSq]
    · rw [hp2]
      refine ⟨⟨0, _, _, _, rfl, rfl, rfl, ?_⟩, 0, _, _, _, rfl, rfl, rfl, ?_, ?_, ?_⟩
      · refine lt_of_lt_of_le ?_ (Vec3.abs_z_le _)
        norm_num
      · refine le_trans ?_ (Vec3.abs_x_le _)
        norm_num
      · refine le_trans ?_ (Vec3.abs_y_le _)
        norm_num
      · norm_num [Vec3.dot, Vec3.normSq]
    · intro p hp
      rw [hp1] at hp
      apply Vec3.norm_le_of_sq (by norm_num)
      simp only [arrow, List.mem_cons, List.not_mem_nil, or_false] at hp
      rcases hp with rfl | rfl | rfl | rfl <;> norm_num [Vec3.normSq, Vec3.dot]
    · intro p hp
      rw [hp2] at hp
      apply Vec3.norm_le_of_sq (by norm_num)
      simp only [List.mem_cons, List.not_mem_nil, or_false] at hp
      rcases hp with rfl | rfl | rfl <;> norm_num [Vec3.normSq, Vec3.dot]
    · refine ⟨⟨0, 0, 0⟩, by rw [hp1]; simp [arrow], fun q hq => ?_⟩
      rw [hp2] at hq
      simp only [List.mem_cons, List.not_mem_nil, or_false] at hq
      rcases hq with rfl | rfl | rfl <;> exact Slice.notEqual_x (by norm_num) (by norm_num)
    · rintro x ⟨e, he, j, hj, rfl⟩
      rw [edges1] at he
      have j0 : (0 : ℝ) ≤ (j : ℝ) / 4 := by positivity
      have j1 : (j : ℝ) / 4 ≤ 1 := by
        rw [div_le_one (by norm_num)]
        exact_mod_cast hj
      have jc : j = 0 ∨ (1 / 4 : ℝ) ≤ (j : ℝ) / 4 := by
        by_cases h : j = 0
        · exact .inl h
        · right
          have : (1 : ℝ) ≤ j := by exact_mod_cast Nat.one_le_iff_ne_zero.2 h
          linarith
      have jd : j = 4 ∨ (j : ℝ) / 4 ≤ 3 / 4 := by
        by_cases h : j = 4
        · exact .inl h
        · right
          have : (j : ℝ) ≤ 3 := by exact_mod_cast (by omega : j ≤ 3)
          linarith
      simp only [List.mem_cons, List.not_mem_nil, or_false] at he
      rcases he with rfl | rfl | rfl | rfl
      · rcases jc with rfl | jc
        · left
          refine ⟨(⟨4, 1, 0⟩, ⟨1, 4, 0⟩), by rw [edges2]; simp, 1, zero_le_one, le_refl _, ?_⟩
          ext <;> norm_num
        · right
          rw [hp2, ht2]
          apply notch_sides
          left
          norm_num
          norm_num at jc
          linarith
      · rcases jd with rfl | jd
        · left
          refine ⟨(⟨1, 1, 0⟩, ⟨4, 1, 0⟩), by rw [edges2]; simp, 1, zero_le_one, le_refl _, ?_⟩
          ext <;> norm_num
        · right
          rw [hp2, ht2]
          apply notch_sides
          right
          norm_num
          norm_num at jd
          linarith
      · left
        refine ⟨(⟨1, 1, 0⟩, ⟨4, 1, 0⟩), by rw [edges2]; simp, 1 - (j : ℝ) / 4, by linarith, by linarith, ?_⟩
        ext <;> norm_num
        ring
      · left
        refine ⟨(⟨1, 4, 0⟩, ⟨1, 1, 0⟩), by rw [edges2]; simp, 1 - (j : ℝ) / 4, by linarith, by linarith, ?_⟩
        ext <;> norm_num
        ring
    · rintro x ⟨e, he, j, hj, rfl⟩
      rw [edges2] at he
      have j0 : (0 : ℝ) ≤ (j : ℝ) / 4 := by positivity
      have j1 : (j : ℝ) / 4 ≤ 1 := by
        rw [div_le_one (by norm_num)]
        exact_mod_cast hj
      have jc : j = 0 ∨ j = 4 ∨ ((1 / 4 : ℝ) ≤ (j : ℝ) / 4 ∧ (j : ℝ) / 4 ≤ 3 / 4) := by
        by_cases h : j = 0
        · exact .inl h
        by_cases h' : j = 4
        · exact .inr (.inl h')
        · right; right
          have h1 : (1 : ℝ) ≤ j := by exact_mod_cast Nat.one_le_iff_ne_zero.2 h
          have h2 : (j : ℝ) ≤ 3 := by exact_mod_cast (by omega : j ≤ 3)
          constructor <;> linarith
      simp only [List.mem_cons, List.not_mem_nil, or_false] at he
      rcases he with rfl | rfl | rfl
      · left
        refine ⟨(⟨4, 1, 0⟩, ⟨1, 1, 0⟩), by rw [edges1]; simp, 1 - (j : ℝ) / 4, by linarith, by linarith, ?_⟩
        ext <;> norm_num
        ring
      · rcases jc with rfl | rfl | ⟨ja, jb⟩
        · left
          refine ⟨(⟨0, 0, 0⟩, ⟨4, 1, 0⟩), by rw [edges1]; simp, 1, zero_le_one, le_refl _, ?_⟩
          ext <;> norm_num
        · left
          refine ⟨(⟨1, 1, 0⟩, ⟨1, 4, 0⟩), by rw [edges1]; simp, 1, zero_le_one, le_refl _, ?_⟩
          ext <;> norm_num
        · right
          rw [hp1, ht1]
          norm_num at ja jb
          apply arrow_sides <;> norm_num <;> linarith
      · left
        refine ⟨(⟨1, 1, 0⟩, ⟨1, 4, 0⟩), by rw [edges1]; simp, 1 - (j : ℝ) / 4, by linarith, by linarith, ?_⟩
        ext <;> norm_num
        ring
    · left
      refine ⟨⟨4, 1, 0⟩, by rw [hp2]; simp, (⟨0, 0, 0⟩, ⟨4, 1, 0⟩), by rw [edges1]; simp, 1, zero_le_one, le_refl _, ?_⟩
      ext <;> norm_num
  · refine C77_same h2 h1 ?_ ?_
    · rw [hp1, hp2]
      intro p hp q hq
      simp only [arrow, List.mem_cons, List.not_mem_nil, or_false] at hp hq
      rcases hp with rfl | rfl | rfl <;> rcases hq with rfl | rfl | rfl | rfl <;>
        first
        | exact fun _ => rfl
        | (refine same_x ?_ ?_ <;> norm_num; done)
        | (refine same_y ?_ ?_ <;> norm_num; done)
    · rw [hp1, hp2]
      have hnd : ([⟨1, 1, 0⟩, ⟨4, 1, 0⟩, ⟨1, 4, 0⟩] : List (Vec3 ℝ)).Nodup := by simp
      refine List.Nodup.subperm hnd ?_
      intro p hp
      simp only [List.mem_cons, List.not_mem_nil, or_false] at hp
      rcases hp with rfl | rfl | rfl <;> simp [arrow]

/-! ### Edges that cross in space -/

/-- **C77 is false for polygons in different planes.**  The square from `(0, 0)` to `(4, 4)` and an upright rectangle
have a point in common where an edge of one crosses an edge of the other; they are reported as not touching. -/
theorem C77_crossing_edges : ∃ P Q : Poly, polygonNew (rectPts 0 4 0 4) none none = .ok P ∧
    polygonNew [⟨2, 0, -1⟩, ⟨2, 0, 1⟩, ⟨2, -3, 1⟩, ⟨2, -3, -1⟩] none none = .ok Q ∧
    OnOutline P.pts ⟨2, 0, 0⟩ ∧ OnOutline Q.pts ⟨2, 0, 0⟩ ∧
    (∀ x, Region P.pts P.tri x → Region Q.pts Q.tri x → x = ⟨2, 0, 0⟩) ∧
    arePolygonsTouching P.pts P.tri Q.pts Q.tri = .ok false := by
  have g1 : GoodBox 0 4 0 4 := box_of _ _ _ _ (by norm_num)
  obtain ⟨P, h1, hp1, hv1, ht1⟩ := rect_polygon g1
  have nu : Vec3.norm (⟨0, 0, 2⟩ : Vec3 ℝ) = 2 := norm_of_sq (by norm_num) (by norm_num [Vec3.normSq, Vec3.dot])
  have nw : Vec3.norm (⟨0, -3, 0⟩ : Vec3 ℝ) = 3 := norm_of_sq (by norm_num) (by norm_num [Vec3.normSq, Vec3.dot])
  have eb : (⟨2, 0, -1⟩ : Vec3 ℝ) + ⟨0, 0, 2⟩ = ⟨2, 0, 1⟩ := by ext <;> norm_num
  have ec : (⟨2, 0, 1⟩ : Vec3 ℝ) + ⟨0, -3, 0⟩ = ⟨2, -3, 1⟩ := by ext <;> norm_num
  have ed : (⟨2, 0, -1⟩ : Vec3 ℝ) + ⟨0, -3, 0⟩ = ⟨2, -3, -1⟩ := by ext <;> norm_num
  have gr : GoodRect ⟨2, 0, -1⟩ ⟨0, 0, 2⟩ ⟨0, -3, 0⟩ := by
    refine ⟨by norm_num [Vec3.dot], by rw [nu, nw]; norm_num, by norm_num [Vec3.normSq, Vec3.dot],
      by norm_num [Vec3.normSq, Vec3.dot], by rw [nu]; norm_num, by rw [nw]; norm_num, ?_, ?_, ?_⟩
    · rw [eb, ec, ed]
      norm_num [pointsEqual, allClose, isClose, NP_RTOL, GEOM_ATOL]
    · rw [eb, ec]
      exact Slice.notEqual_y (by norm_num) (by norm_num)
    · rw [eb, ec]
      exact Slice.notEqual_y (by norm_num) (by norm_num)
  obtain ⟨Q, h2, hp2, -, -, ht2⟩ := gr.new
  rw [eb, ec, ed] at h2 hp2
  have edges2 : cycEdges Q.pts = [((⟨2, 0, -1⟩ : Vec3 ℝ), (⟨2, 0, 1⟩ : Vec3 ℝ)), (⟨2, 0, 1⟩, ⟨2, -3, 1⟩),
      (⟨2, -3, 1⟩, ⟨2, -3, -1⟩), (⟨2, -3, -1⟩, ⟨2, 0, -1⟩)] := by rw [hp2]; rfl
  refine ⟨P, Q, h1, h2, by rw [hp1]; exact rect_on_outline g1 (by norm_num), ?_, ?_, ?_⟩
  · refine ⟨(⟨2, 0, -1⟩, ⟨2, 0, 1⟩), by rw [edges2]; simp, 1 / 2, by norm_num, by norm_num, ?_⟩
    ext <;> norm_num
  · intro x hx hy
    rw [hp1, ht1] at hx
    obtain ⟨-, -, x3, -, x5⟩ := (rect_region g1 x).1 hx
    rw [hp2, ht2] at hy
    obtain ⟨t, ht, a, b, c, ha, hb, hc, r, s, q, hr, hs, hq, h1, rfl⟩ := hy
    have er : r = 1 - s - q := by linarith
    subst er
    simp only [List.mem_cons, List.not_mem_nil, or_false] at ht
    rcases ht with rfl | rfl
    · simp only [List.getElem?_cons_zero, List.getElem?_cons_succ, Option.some.injEq] at ha hb hc
      subst ha hb hc
      simp at x3 x5
      ext <;> simp <;> linarith
    · simp only [List.getElem?_cons_zero, List.getElem?_cons_succ, Option.some.injEq] at ha hb hc
      subst ha hb hc
      simp at x3 x5
      ext <;> simp <;> linarith
  · have far : ∀ {x y : Vec3 ℝ}, (1 ≤ |x.x - y.x| ∨ 1 ≤ |x.z - y.z|) →
        (1 / 10 ^ 4 * 150 + 1 / 10 ^ 7 + 2 / 10 ^ 13 / 1 : ℝ) < Vec3.norm (x - y) := by
      intro x y h
      refine lt_of_lt_of_le (by norm_num) (b := 1) ?_
      rcases h with h | h
      · exact le_trans h (Vec3.abs_x_le (x - y))
      · exact le_trans h (Vec3.abs_z_le (x - y))
    refine C77_apart h1 h2 (M := 150) (L := 1) ?_ one_pos ?_ ?_ ?_
    · intro p hp
      rcases List.mem_append.1 hp with hp | hp
      · rw [hp1] at hp
        exact rect_norm g1 p hp
      · rw [hp2] at hp
        apply Vec3.norm_le_of_sq (by norm_num)
        simp only [List.mem_cons, List.not_mem_nil, or_false] at hp
        rcases hp with rfl | rfl | rfl | rfl <;> norm_num [Vec3.normSq, Vec3.dot]
    · intro e he
      rcases List.mem_append.1 he with he | he
      · rw [hp1] at he
        exact rect_edge_length g1 e he
      · rw [edges2] at he
        apply Vec3.le_norm_of_sq
        simp only [List.mem_cons, List.not_mem_nil, or_false] at he
        rcases he with rfl | rfl | rfl | rfl <;> norm_num [Vec3.normSq, Vec3.dot]
    · rw [hp1, hp2]
      intro p hp y hy
      obtain ⟨-, -, -, -, hy, -⟩ := rect_outline g1 hy
      apply far
      right
      rw [hy]
      simp only [List.mem_cons, List.not_mem_nil, or_false] at hp
      rcases hp with rfl | rfl | rfl | rfl <;> norm_num
    · intro p hp y hy
      obtain ⟨e, he, t, -, -, rfl⟩ := hy
      apply far
      left
      rw [hp1] at hp
      rw [edges2] at he
      simp only [rectPts, List.mem_cons, List.not_mem_nil, or_false] at hp he
      rcases hp with rfl | rfl | rfl | rfl <;> rcases he with rfl | rfl | rfl | rfl <;> norm_num

end B3d.Polygon
