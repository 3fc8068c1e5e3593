import Verif.Props.Crossing
import Verif.Proofs.Rects

/-!
# C76: concrete polygons

Rectangles which meet the hypotheses of the theorems on C76, and polygons for which the answer is wrong.
-/

namespace B3d.Polygon

open Spec Points Triangles

theorem big_not_close {r : ℝ} (h : 1 ≤ |r|) : ¬ |r| ≤ NP_ATOL := by
  intro h2
  norm_num [NP_ATOL] at h2
  linarith

theorem notShort_x {r : ℝ} (h : 1 ≤ |r|) : ¬ TooShort ⟨r, 0, 0⟩ := by
  rintro ⟨hx, -⟩
  exact big_not_close h (by simpa [isClose] using hx)

theorem notShort_y {r : ℝ} (h : 1 ≤ |r|) : ¬ TooShort ⟨0, r, 0⟩ := by
  rintro ⟨-, hx, -⟩
  exact big_not_close h (by simpa [isClose] using hx)

theorem unit_abs {a : Vec3 ℝ} {r : ℝ} (h : Vec3.normSq a = r ^ 2) (h1 : 1 ≤ |r|) : |1 / Vec3.norm a * r| = 1 := by
  have : Vec3.norm a = |r| := norm_of_sq (abs_nonneg r) (by rw [h, sq_abs])
  rw [this, abs_mul, abs_div, abs_abs, abs_one, one_div, inv_mul_cancel₀ (by linarith)]

theorem notParallel_xy {r s : ℝ} (h : 1 ≤ |r|) : ¬ NearlyParallel ⟨r, 0, 0⟩ ⟨0, s, 0⟩ := by
  have h1 := unit_abs (a := ⟨r, 0, 0⟩) (r := r) (by simp [Vec3.normSq, Vec3.dot]; ring) h
  rintro (⟨h, -⟩ | ⟨h, -⟩)
  · exact big_not_close h1.ge (by simpa [isClose, unit] using h)
  · exact big_not_close h1.ge (by simpa [isClose, unit] using h)

theorem notParallel_yx {r s : ℝ} (h : 1 ≤ |r|) : ¬ NearlyParallel ⟨0, r, 0⟩ ⟨s, 0, 0⟩ := by
  have h1 := unit_abs (a := ⟨0, r, 0⟩) (r := r) (by simp [Vec3.normSq, Vec3.dot]; ring) h
  rintro (⟨-, h, -⟩ | ⟨-, h, -⟩)
  · exact big_not_close h1.ge (by simpa [isClose, unit] using h)
  · exact big_not_close h1.ge (by simpa [isClose, unit] using h)

/-- A point in the lower left half of a rectangle of at most 7 by 7 metres, at least half a metre away from its edges and
well away from the diagonal. -/
theorem rect_deep {x0 x1 y0 y1 x y : ℝ} (h : GoodBox x0 x1 y0 y1) (lx : x1 - x0 ≤ 7) (ly : y1 - y0 ≤ 7)
    (hx : x0 + 1 / 2 ≤ x) (hy : y0 + 1 / 2 ≤ y) (hx1 : x + 1 / 2 ≤ x1) (hy1 : y + 1 / 2 ≤ y1)
    (hd : (x - x0) * (y1 - y0) + (y - y0) * (x1 - x0) + 1 / 2 ≤ (x1 - x0) * (y1 - y0)) {P : Poly}
    (hp : P.pts = rectPts x0 x1 y0 y1) (ht : P.tri = [(3, 0, 1), (3, 1, 2)]) : DeepInside P ⟨x, y, 0⟩ := by
  have px : 0 < x1 - x0 := by linarith [h.wx]
  have py : 0 < y1 - y0 := by linarith [h.wy]
  have wx := h.wx
  have wy := h.wy
  refine ⟨⟨(3, 0, 1), by rw [ht]; simp, ⟨x0, y1, 0⟩, ⟨x0, y0, 0⟩, ⟨x1, y0, 0⟩, by rw [hp]; rfl, by rw [hp]; rfl,
    by rw [hp]; rfl, .inl ?_⟩, 150, 1, by rw [hp]; exact rect_norm h, one_pos, by rw [hp]; exact rect_edge_length h, ?_⟩
  · refine wellInside_z (r := (y - y0) / (y1 - y0)) (s := 1 - (y - y0) / (y1 - y0) - (x - x0) / (x1 - x0))
      (t := (x - x0) / (x1 - x0)) (div_nonneg (by linarith) py.le) ?_ (div_nonneg (by linarith) px.le) (by ring) ?_ ?_ ?_
      ?_ ?_ ?_ ?_ ?_ ?_ ?_ ?_
    · have : (y - y0) / (y1 - y0) + (x - x0) / (x1 - x0) ≤ 1 := by
        rw [div_add_div _ _ py.ne' px.ne', div_le_one (mul_pos py px)]
        nlinarith
      linarith
    · field_simp; ring
    · field_simp; ring
    · nlinarith
    · nlinarith
    · nlinarith
    · nlinarith
    · nlinarith
    · nlinarith
    · have e : (x0 - x0) * (y - y1) - (y0 - y1) * (x - x0) = (y1 - y0) * (x - x0) := by ring
      have : 1 / 2 ≤ (y1 - y0) * (x - x0) := by nlinarith
      rw [e]
      nlinarith
    · have e : (x1 - x0) * (y - y0) - (y0 - y0) * (x - x0) = (x1 - x0) * (y - y0) := by ring
      have : 1 / 2 ≤ (x1 - x0) * (y - y0) := by nlinarith
      rw [e]
      nlinarith
    · have : 1 / 2 ≤ (x0 - x1) * (y - y0) - (y1 - y0) * (x - x1) := by nlinarith
      nlinarith
  · rw [hp]
    intro p ho
    obtain ⟨-, -, -, -, -, hc⟩ := rect_outline h ho
    have key : 1 / 2 ≤ Vec3.norm (⟨x, y, 0⟩ - p) := by
      rcases hc with hc | hc | hc | hc
      · refine le_trans ?_ (Vec3.abs_x_le _)
        simp only [Vec3.sub_x, hc]
        exact le_trans (by linarith) (le_abs_self _)
      · refine le_trans ?_ (Vec3.abs_x_le _)
        simp only [Vec3.sub_x, hc]
        exact le_trans (by linarith) (neg_le_abs _)
      · refine le_trans ?_ (Vec3.abs_y_le _)
        simp only [Vec3.sub_y, hc]
        exact le_trans (by linarith) (le_abs_self _)
      · refine le_trans ?_ (Vec3.abs_y_le _)
        simp only [Vec3.sub_y, hc]
        exact le_trans (by linarith) (neg_le_abs _)
    norm_num at key ⊢
    linarith

theorem noShared_of {a b c d : Vec3 ℝ} (h1 : 1 ≤ |a.x - c.x| ∨ 1 ≤ |a.y - c.y|) (h2 : 1 ≤ |a.x - d.x| ∨ 1 ≤ |a.y - d.y|)
    (h3 : 1 ≤ |b.x - d.x| ∨ 1 ≤ |b.y - d.y|) (h4 : 1 ≤ |b.x - c.x| ∨ 1 ≤ |b.y - c.y|) (hc : |c.x| ≤ 100)
    (hc' : |c.y| ≤ 100) (hd : |d.x| ≤ 100) (hd' : |d.y| ≤ 100) : NoSharedEnd (a, b) (c, d) := by
  refine ⟨?_, ?_, ?_, ?_⟩
  · exact h1.elim (fun h => Slice.notEqual_x h hc) fun h => Slice.notEqual_y h hc'
  · exact h2.elim (fun h => Slice.notEqual_x h hd) fun h => Slice.notEqual_y h hd'
  · exact h3.elim (fun h => Slice.notEqual_x h hd) fun h => Slice.notEqual_y h hd'
  · exact h4.elim (fun h => Slice.notEqual_x h hc) fun h => Slice.notEqual_y h hc'

theorem box_of (x0 x1 y0 y1 : ℝ) (h : 1 ≤ x1 - x0 ∧ 1 ≤ y1 - y0 ∧ x1 - x0 ≤ 100 ∧ y1 - y0 ≤ 100 ∧ |x0| ≤ 100 ∧ |x1| ≤ 100 ∧
    |y0| ≤ 100 ∧ |y1| ≤ 100) : GoodBox x0 x1 y0 y1 :=
  ⟨h.1, h.2.1, h.2.2.1, h.2.2.2.1, h.2.2.2.2.1, h.2.2.2.2.2.1, h.2.2.2.2.2.2.1, h.2.2.2.2.2.2.2⟩

/-- The squares from `(0, 0)` to `(4, 4)` and from `(3, 1)` to `(7, 5)` overlap, meet the hypotheses of
`C76_sound_partial` and `C76_complete_partial`, and are found to cross. -/
theorem squares_cross : ∃ P Q : Poly, polygonNew (rectPts 0 4 0 4) none none = .ok P ∧ polygonNew (rectPts 3 7 1 5) none none = .ok Q ∧
    SpansPlane P.pts ∧ SpansPlane Q.pts ∧ (∀ p ∈ P.pts, Vec3.norm p ≤ 150) ∧ (∀ p ∈ Q.pts, Vec3.norm p ≤ 150) ∧
    arePolygonsCrossing P.pts P.tri Q.pts Q.tri = .ok true := by
  have g1 : GoodBox 0 4 0 4 := box_of _ _ _ _ (by norm_num)
  have g2 : GoodBox 3 7 1 5 := box_of _ _ _ _ (by norm_num [abs_le])
  obtain ⟨P, h1, hp1, hv1, ht1⟩ := rect_polygon g1
  obtain ⟨Q, h2, hp2, hv2, ht2⟩ := rect_polygon g2
  refine ⟨P, Q, h1, h2, by rw [hp1]; exact rect_spans g1, by rw [hp2]; exact rect_spans g2,
    by rw [hp1]; exact rect_norm g1, by rw [hp2]; exact rect_norm g2, ?_⟩
  have s1 : (⟨4, 4, 0⟩ : Vec3 ℝ) - ⟨4, 0, 0⟩ = ⟨0, 4, 0⟩ := by ext <;> simp
  have s2 : (⟨7, 1, 0⟩ : Vec3 ℝ) - ⟨3, 1, 0⟩ = ⟨4, 0, 0⟩ := by ext <;> norm_num
  refine C76_complete_partial h1 h2 hv1 hv2 (e := 0) (f := 0) (n := ⟨0, 0, 1⟩) (g := 0) (by rw [hp1]; exact rect_plane)
    (by rw [hp2]; exact rect_plane) ?_ ?_ (e1 := (⟨4, 0, 0⟩, ⟨4, 4, 0⟩)) (e2 := (⟨3, 1, 0⟩, ⟨7, 1, 0⟩)) ?_ ?_ ?_
    ?_ ?_ ?_ (x := ⟨4, 1, 0⟩) ?_ ?_ ⟨6, by norm_num, .inl ?_⟩
  · intro e
    have := congrArg Vec3.z e
    simp at this
  · rw [hp1, hp2]
    intro p hp
    exact (List.mem_append.1 hp).elim (rect_plane p) (rect_plane p)
  · rw [hp1, rect_edges]; simp
  · rw [hp2, rect_edges]; simp
  · refine noShared_of ?_ ?_ ?_ ?_ ?_ ?_ ?_ ?_ <;> norm_num
  · simp only [s1]; exact notShort_y (by norm_num)
  · simp only [s2]; exact notShort_x (by norm_num)
  · simp only [s1, s2]; exact notParallel_yx (by norm_num)
  · exact ⟨1 / 4, by norm_num, by norm_num, by simp only [s1]; ext <;> norm_num⟩
  · exact ⟨1 / 4, by norm_num, by norm_num, by simp only [s2]; ext <;> norm_num⟩
  · have := rect_deep (x := 4) (y := 8 / 3) g2 (by norm_num) (by norm_num) (by norm_num) (by norm_num) (by norm_num)
      (by norm_num) (by norm_num) hp2 ht2
    convert this using 1
    simp only [s1]
    ext <;> norm_num

/-- The square from `(1, 1)` to `(3, 3)` inside the square from `(0, 0)` to `(4, 4)` meets the hypotheses of
`C76_outlines_apart`, and the larger one those of `C76_same`. -/
example : ∃ P Q : Poly, polygonNew (rectPts 0 4 0 4) none none = .ok P ∧ polygonNew (rectPts 1 3 1 3) none none = .ok Q ∧
    (∀ x y, OnOutline P.pts x → OnOutline Q.pts y → 2 / 10 ^ 4 * 150 + 5 / 10 ^ 5 < Vec3.norm (x - y)) ∧
    SimpleOutline P.pts (2 / 10 ^ 4 * 150 + 5 / 10 ^ 5) ∧
    (∀ x, Region Q.pts Q.tri x → Region P.pts P.tri x) ∧
    arePolygonsCrossing P.pts P.tri Q.pts Q.tri = .ok false ∧ arePolygonsCrossing P.pts P.tri P.pts P.tri = .ok false := by
  have g1 : GoodBox 0 4 0 4 := box_of _ _ _ _ (by norm_num)
  have g2 : GoodBox 1 3 1 3 := box_of _ _ _ _ (by norm_num)
  obtain ⟨P, h1, hp1, hv1, ht1⟩ := rect_polygon g1
  obtain ⟨Q, h2, hp2, hv2, ht2⟩ := rect_polygon g2
  have far : ∀ {x y : Vec3 ℝ}, (1 ≤ |x.x - y.x| ∨ 1 ≤ |x.y - y.y|) →
      (2 / 10 ^ 4 * 150 + 5 / 10 ^ 5 : ℝ) < Vec3.norm (x - y) := by
    intro x y h
    refine lt_of_lt_of_le (by norm_num) (b := 1) ?_
    rcases h with h | h
    · exact le_trans h (Vec3.abs_x_le (x - y))
    · exact le_trans h (Vec3.abs_y_le (x - y))
  have hap : ∀ x y, OnOutline P.pts x → OnOutline Q.pts y → (2 / 10 ^ 4 * 150 + 5 / 10 ^ 5 : ℝ) < Vec3.norm (x - y) := by
    rw [hp1, hp2]
    intro x y hx hy
    obtain ⟨-, -, -, -, -, hx⟩ := rect_outline g1 hx
    obtain ⟨y1, y2, y3, y4, -⟩ := rect_outline g2 hy
    apply far
    rcases hx with hx | hx | hx | hx <;> rw [hx]
    · exact .inl (le_trans (by linarith) (neg_le_abs _))
    · exact .inl (le_trans (by linarith) (le_abs_self _))
    · exact .inr (le_trans (by linarith) (neg_le_abs _))
    · exact .inr (le_trans (by linarith) (le_abs_self _))
  have hsim : SimpleOutline P.pts (2 / 10 ^ 4 * 150 + 5 / 10 ^ 5) := by
    rw [hp1, SimpleOutline, rect_edges]
    intro e he e' he'
    simp only [List.mem_cons, List.not_mem_nil, or_false] at he he'
    rcases he with rfl | rfl | rfl | rfl <;> rcases he' with rfl | rfl | rfl | rfl
    any_goals
      left; simp; done
    all_goals
      right
      rintro x y ⟨t, -, -, rfl⟩ ⟨s, -, -, rfl⟩
      apply far
      norm_num
  refine ⟨P, Q, h1, h2, hap, hsim, ?_, C76_outlines_apart h1 h2 (by rw [hp1]; exact rect_norm g1)
    (by rw [hp2]; exact rect_norm g2) hap, C76_same h1 h1 (by rw [hp1]; exact rect_norm g1) hsim fun e he => .inl he⟩
  rw [hp1, hp2, ht1, ht2]
  intro x hx
  obtain ⟨a, b, c, d, e⟩ := (rect_region g2 x).1 hx
  exact (rect_region g1 x).2 ⟨by linarith, by linarith, by linarith, by linarith, e⟩

/-- **C76 is false for polygons inside which touch the outline.**  The square from `(1, 0)` to `(3, 2)` is inside the
square from `(0, 0)` to `(4, 4)`, and has a part of an edge in common with it; they are reported crossing, although the
answer should be `False` if "one polygon is completely inside the other". -/
theorem C76_inside_reported : ∃ P Q : Poly, polygonNew (rectPts 0 4 0 4) none none = .ok P ∧
    polygonNew (rectPts 1 3 0 2) none none = .ok Q ∧ (∀ x, Region Q.pts Q.tri x → Region P.pts P.tri x) ∧
    arePolygonsCrossing P.pts P.tri Q.pts Q.tri = .ok true := by
  have g1 : GoodBox 0 4 0 4 := box_of _ _ _ _ (by norm_num)
  have g2 : GoodBox 1 3 0 2 := box_of _ _ _ _ (by norm_num)
  obtain ⟨P, h1, hp1, hv1, ht1⟩ := rect_polygon g1
  obtain ⟨Q, h2, hp2, hv2, ht2⟩ := rect_polygon g2
  refine ⟨P, Q, h1, h2, ?_, ?_⟩
  · rw [hp1, hp2, ht1, ht2]
    intro x hx
    obtain ⟨a, b, c, d, e⟩ := (rect_region g2 x).1 hx
    exact (rect_region g1 x).2 ⟨by linarith, by linarith, by linarith, by linarith, e⟩
  have s1 : (⟨4, 0, 0⟩ : Vec3 ℝ) - ⟨0, 0, 0⟩ = ⟨4, 0, 0⟩ := by ext <;> simp
  have s2 : (⟨1, 0, 0⟩ : Vec3 ℝ) - ⟨1, 2, 0⟩ = ⟨0, -2, 0⟩ := by ext <;> norm_num
  refine C76_complete_partial h1 h2 hv1 hv2 (e := 0) (f := 0) (n := ⟨0, 0, 1⟩) (g := 0) (by rw [hp1]; exact rect_plane)
    (by rw [hp2]; exact rect_plane) ?_ ?_ (e1 := (⟨0, 0, 0⟩, ⟨4, 0, 0⟩)) (e2 := (⟨1, 2, 0⟩, ⟨1, 0, 0⟩)) ?_ ?_ ?_
    ?_ ?_ ?_ (x := ⟨1, 0, 0⟩) ?_ ?_ ⟨3, by norm_num, .inr ?_⟩
  · intro e
    have := congrArg Vec3.z e
    simp at this
  · rw [hp1, hp2]
    intro p hp
    exact (List.mem_append.1 hp).elim (rect_plane p) (rect_plane p)
  · rw [hp1, rect_edges]; simp
  · rw [hp2, rect_edges]; simp
  · refine noShared_of ?_ ?_ ?_ ?_ ?_ ?_ ?_ ?_ <;> norm_num
  · simp only [s1]; exact notShort_x (by norm_num)
  · simp only [s2]; exact notShort_y (by norm_num)
  · simp only [s1, s2]; exact notParallel_xy (by norm_num)
  · exact ⟨1 / 4, by norm_num, by norm_num, by simp only [s1]; ext <;> norm_num⟩
  · exact ⟨1, by norm_num, by norm_num, by simp only [s2]; ext <;> norm_num⟩
  · have := rect_deep (x := 1) (y := 4 / 3) g1 (by norm_num) (by norm_num) (by norm_num) (by norm_num) (by norm_num)
      (by norm_num) (by norm_num) hp1 ht1
    convert this using 1
    simp only [s2]
    ext <;> norm_num

/-! ### Overlapping polygons which are not found -/

theorem bars_samples (k : Nat) : (k : ℝ) / 9 * 90 ≤ 40 ∨ 50 ≤ (k : ℝ) / 9 * 90 := by
  have : k ≤ 4 ∨ 5 ≤ k := by omega
  rcases this with h | h
  · have h' : (k : ℝ) ≤ 4 := by exact_mod_cast h
    exact .inl (by linarith)
  · have h' : (5 : ℝ) ≤ k := by exact_mod_cast h
    exact .inr (by linarith)

/-- A point a metre outside of a rectangle is not found inside. -/
theorem rect_outside {x0 x1 y0 y1 : ℝ} (g : GoodBox x0 x1 y0 y1) {P : Poly}
    (h : polygonNew (rectPts x0 x1 y0 y1) none none = .ok P) (hp : P.pts = rectPts x0 x1 y0 y1)
    (hv : P.vn = some ⟨0, 0, 1⟩) (ht : P.tri = [(3, 0, 1), (3, 1, 2)]) {x : Vec3 ℝ}
    (hx : x.x ≤ x0 - 1 ∨ x1 + 1 ≤ x.x ∨ x.y ≤ y0 - 1 ∨ y1 + 1 ≤ x.y) (b : Bool) :
    Polygon.isPointInside x P.pts P.tri b ≠ .ok true := by
  intro hin
  obtain ⟨y, hy, hd⟩ := C71_sound_partial h hv (e := 0) (M := 150) (by rw [hp]; exact rect_plane)
    (by rw [hp]; exact rect_spans g) (by rw [hp]; exact rect_norm g) hin
  rw [hp, ht, rect_region g] at hy
  obtain ⟨a1, a2, a3, a4, -⟩ := hy
  have h1 := abs_le.1 ((Vec3.abs_x_le _).trans hd)
  have h2 := abs_le.1 ((Vec3.abs_y_le _).trans hd)
  simp only [Vec3.sub_x, Vec3.sub_y] at h1 h2
  norm_num at h1 h2
  rcases hx with hx | hx | hx | hx <;> linarith [h1.1, h1.2, h2.1, h2.2]

theorem intersection_xx {a b c d x0 x1 x2 x3 : ℝ} {k : ℝ} (h : x3 - x2 = k * (x1 - x0)) (hb : b = a) (hd : d = c) :
    lineSegmentIntersection ⟨x0, a, 0⟩ ⟨x1, b, 0⟩ ⟨x2, c, 0⟩ ⟨x3, d, 0⟩ = none := by
  subst hb hd
  have e1 : (⟨x1, b, 0⟩ : Vec3 ℝ) - ⟨x0, b, 0⟩ = ⟨x1 - x0, 0, 0⟩ := by ext <;> simp
  have e2 : (⟨x3, d, 0⟩ : Vec3 ℝ) - ⟨x2, d, 0⟩ = k • ⟨x1 - x0, 0, 0⟩ := by ext <;> simp [h]
  rw [lineSegmentIntersection, e1, e2, (C37_parallel _ _ _ _).1]

theorem not_off {x0 x1 y x y0 y1 t s : ℝ} {p : Vec3 ℝ} (hx : 1 ≤ |x1 - x0|) (hy : 1 ≤ |y1 - y0|) (t0 : 0 ≤ t) (t1 : t ≤ 1)
    (s0 : 0 ≤ s) (s1 : s ≤ 1) (ht : x = x0 + t * (x1 - x0)) (hs : y = y0 + s * (y1 - y0))
    (h : lineSegmentIntersection ⟨x0, y, 0⟩ ⟨x1, y, 0⟩ ⟨x, y0, 0⟩ ⟨x, y1, 0⟩ = some p)
    (ho : OffEdge p (⟨x0, y, 0⟩, ⟨x1, y, 0⟩)) : False := by
  rw [Slice.intersection_xy hx hy t0 t1 s0 s1 ht hs, Option.some.injEq] at h
  subst h
  have := ho ⟨x, y, 0⟩ ⟨t, t0, t1, by ext <;> simp [ht]⟩
  rw [sub_self, Vec3.norm_eq_zero.2 rfl] at this
  norm_num [NP_ATOL] at this

/-- **C76 is false for bars that cross.**  A bar from `(0, 41)` to `(90, 42)` and a bar from `(41, 0)` to `(42, 90)` have
a square metre in common, and neither contains the other; they are reported as not crossing, because none of the ten
points which are tried on each edge is in that square metre. -/
theorem C76_overlap_missed : ∃ P Q : Poly, polygonNew (rectPts 0 90 41 42) none none = .ok P ∧
    polygonNew (rectPts 41 42 0 90) none none = .ok Q ∧
    (∀ x y : ℝ, 41 ≤ x → x ≤ 42 → 41 ≤ y → y ≤ 42 → Region P.pts P.tri ⟨x, y, 0⟩ ∧ Region Q.pts Q.tri ⟨x, y, 0⟩) ∧
    Region P.pts P.tri ⟨0, 41, 0⟩ ∧ ¬ Region Q.pts Q.tri ⟨0, 41, 0⟩ ∧
    Region Q.pts Q.tri ⟨41, 0, 0⟩ ∧ ¬ Region P.pts P.tri ⟨41, 0, 0⟩ ∧
    arePolygonsCrossing P.pts P.tri Q.pts Q.tri = .ok false := by
  have g1 : GoodBox 0 90 41 42 := box_of _ _ _ _ (by norm_num)
  have g2 : GoodBox 41 42 0 90 := box_of _ _ _ _ (by norm_num)
  obtain ⟨P, h1, hp1, hv1, ht1⟩ := rect_polygon g1
  obtain ⟨Q, h2, hp2, hv2, ht2⟩ := rect_polygon g2
  refine ⟨P, Q, h1, h2, ?_⟩
  rw [hp1, hp2, ht1, ht2]
  refine ⟨fun x y a b c d => ⟨(rect_region g1 _).2 ⟨by linarith, by linarith, c, d, rfl⟩,
    (rect_region g2 _).2 ⟨a, b, by linarith, by linarith, rfl⟩⟩, (rect_region g1 _).2 (by norm_num), ?_,
    (rect_region g2 _).2 (by norm_num), ?_, ?_⟩
  · rw [rect_region g2]; norm_num
  · rw [rect_region g1]; norm_num
  obtain ⟨r, b1, b2, hr, hb1, hb2, hir⟩ := crossing_iff (polygonNew_sturdy h1) (polygonNew_sturdy h2)
    (fun e he => polygonNew_edges_ne h1 he) (fun e he => polygonNew_edges_ne h2 he)
  have hsamp : ∀ e1 ∈ cycEdges P.pts, ∀ e2 ∈ cycEdges Q.pts, ¬ SampleInside P.pts P.tri Q.pts Q.tri e1 e2 := by
    rintro e1 he1 e2 he2 ⟨k, hk, h⟩
    have hb := bars_samples k
    have k0 : (0 : ℝ) ≤ (k : ℝ) / 9 := by positivity
    have k1 : (k : ℝ) / 9 ≤ 1 := by
      rw [div_le_one (by norm_num)]
      exact_mod_cast hk
    generalize (k : ℝ) / 9 = s at *
    rcases h with h | h
    · refine rect_outside g2 h2 hp2 hv2 ht2 ?_ false h
      rw [hp1, rect_edges] at he1
      simp only [List.mem_cons, List.not_mem_nil, or_false] at he1
      rcases he1 with rfl | rfl | rfl | rfl <;> norm_num
      · rcases hb with hb | hb
        · left; linarith
        · right; linarith
      · rcases hb with hb | hb
        · right; linarith
        · left; linarith
    · refine rect_outside g1 h1 hp1 hv1 ht1 ?_ false h
      rw [hp2, rect_edges] at he2
      simp only [List.mem_cons, List.not_mem_nil, or_false] at he2
      rcases he2 with rfl | rfl | rfl | rfl <;> norm_num
      · rcases hb with hb | hb
        · left; linarith
        · right; linarith
      · rcases hb with hb | hb
        · right; linarith
        · left; linarith
  have hres : r = false := by
    rw [Bool.eq_false_iff]
    intro hrt
    obtain ⟨-, -, e1, he1, e2, he2, hns, p, hp, ⟨o1, -⟩ | hs⟩ := hir.1 hrt
    · have hn1 := rect_norm g1
      have hn2 := rect_norm g2
      have m1 := mem_of_edge he1
      have m2 := mem_of_edge he2
      rw [hp1] at he1 m1
      rw [hp2] at he2 m2
      obtain ⟨y, z, hy, hz, hd⟩ := intersection_near (hn1 _ m1.1) (hn1 _ m1.2) (hn2 _ m2.1) (hn2 _ m2.2) hp
      have far : |(y - z).x| < 1 := lt_of_le_of_lt ((Vec3.abs_x_le _).trans hd) (by norm_num)
      rw [rect_edges] at he1 he2
      simp only [List.mem_cons, List.not_mem_nil, or_false] at he1 he2
      rcases he1 with rfl | rfl | rfl | rfl <;> rcases he2 with rfl | rfl | rfl | rfl
      · rw [intersection_xx (k := 1 / 90) (by norm_num) rfl rfl] at hp; cases hp
      · exact not_off (t := 42 / 90) (s := 41 / 90) (by norm_num) (by norm_num) (by norm_num) (by norm_num) (by norm_num)
          (by norm_num) (by norm_num) (by norm_num) hp o1
      · rw [intersection_xx (k := -1 / 90) (by norm_num) rfl rfl] at hp; cases hp
      · exact not_off (t := 41 / 90) (s := 49 / 90) (by norm_num) (by norm_num) (by norm_num) (by norm_num) (by norm_num)
          (by norm_num) (by norm_num) (by norm_num) hp o1
      · obtain ⟨t, t0, t1, rfl⟩ := hy
        obtain ⟨s, s0, s1, rfl⟩ := hz
        norm_num [abs_lt] at far
        linarith
      · rw [Slice.intersection_yy (k := 90) (by norm_num) rfl rfl] at hp; cases hp
      · obtain ⟨t, t0, t1, rfl⟩ := hy
        obtain ⟨s, s0, s1, rfl⟩ := hz
        norm_num [abs_lt] at far
        linarith
      · rw [Slice.intersection_yy (k := -90) (by norm_num) rfl rfl] at hp; cases hp
      · rw [intersection_xx (k := -1 / 90) (by norm_num) rfl rfl] at hp; cases hp
      · exact not_off (t := 48 / 90) (s := 42 / 90) (by norm_num) (by norm_num) (by norm_num) (by norm_num) (by norm_num)
          (by norm_num) (by norm_num) (by norm_num) hp o1
      · rw [intersection_xx (k := 1 / 90) (by norm_num) rfl rfl] at hp; cases hp
      · exact not_off (t := 49 / 90) (s := 48 / 90) (by norm_num) (by norm_num) (by norm_num) (by norm_num) (by norm_num)
          (by norm_num) (by norm_num) (by norm_num) hp o1
      · obtain ⟨t, t0, t1, rfl⟩ := hy
        obtain ⟨s, s0, s1, rfl⟩ := hz
        norm_num [abs_lt] at far
        linarith
      · rw [Slice.intersection_yy (k := -90) (by norm_num) rfl rfl] at hp; cases hp
      · obtain ⟨t, t0, t1, rfl⟩ := hy
        obtain ⟨s, s0, s1, rfl⟩ := hz
        norm_num [abs_lt] at far
        linarith
      · rw [Slice.intersection_yy (k := 90) (by norm_num) rfl rfl] at hp; cases hp
    · exact hsamp e1 he1 e2 he2 hs
  rw [hres, hp1, hp2, ht1, ht2] at hr
  exact hr

/-! ### Polygons apart which are reported -/

theorem far_meet : lineSegmentIntersection ⟨999.991, 999.991, 0⟩ ⟨900, 900, 0⟩ ⟨1000.009, 999.991, 0⟩ ⟨1100, 900, 0⟩ =
    some (⟨1000, 1000, 0⟩ : Vec3 ℝ) := by
  have e1 : (⟨900, 900, 0⟩ : Vec3 ℝ) - ⟨999.991, 999.991, 0⟩ = ⟨-99.991, -99.991, 0⟩ := by ext <;> norm_num
  have e2 : (⟨1100, 900, 0⟩ : Vec3 ℝ) - ⟨1000.009, 999.991, 0⟩ = ⟨99.991, -99.991, 0⟩ := by ext <;> norm_num
  have hn : ∀ d : Vec3 ℝ, Vec3.normSq d = 2 * 99.991 ^ 2 → 1 / 2 ≤ 1 / Vec3.norm d * 99.991 := by
    intro d hd
    have h1 : Vec3.norm d ≤ 2 * 99.991 := Vec3.norm_le_of_sq (by norm_num) (by rw [hd]; norm_num)
    have h2 : 0 < Vec3.norm d := Triangles.norm_pos' (by
      rintro rfl
      norm_num [Vec3.normSq, Vec3.dot] at hd)
    rw [one_div_mul_eq_div, le_div_iff₀ h2]
    linarith
  have hl : lineIntersection ⟨999.991, 999.991, 0⟩ ⟨-99.991, -99.991, 0⟩ ⟨1000.009, 999.991, 0⟩ ⟨99.991, -99.991, 0⟩ =
      some (⟨1000, 1000, 0⟩ : Vec3 ℝ) := by
    rw [C37_lines (-0.009 / 99.991) (-0.009 / 99.991)]
    · congr 1
      ext <;> norm_num
    · rintro ⟨h, -⟩
      norm_num [isClose, NP_ATOL] at h
    · rintro ⟨h, -⟩
      norm_num [isClose, NP_ATOL] at h
    · have n1 := hn ⟨-99.991, -99.991, 0⟩ (by norm_num [Vec3.normSq, Vec3.dot])
      have n2 := hn ⟨99.991, -99.991, 0⟩ (by norm_num [Vec3.normSq, Vec3.dot])
      rintro (⟨h, -⟩ | ⟨-, h, -⟩)
      · simp only [isClose, unit, Vec3.smul_x, mul_neg, NP_ATOL, NP_RTOL] at h
        generalize 1 / Vec3.norm (⟨-99.991, -99.991, 0⟩ : Vec3 ℝ) * 99.991 = a at *
        generalize 1 / Vec3.norm (⟨99.991, -99.991, 0⟩ : Vec3 ℝ) * 99.991 = b at *
        rw [abs_of_neg (by linarith), abs_of_pos (by linarith)] at h
        norm_num at h
        linarith
      · simp only [isClose, unit, Vec3.smul_y, mul_neg, NP_ATOL, NP_RTOL] at h
        generalize 1 / Vec3.norm (⟨-99.991, -99.991, 0⟩ : Vec3 ℝ) * 99.991 = a at *
        generalize 1 / Vec3.norm (⟨99.991, -99.991, 0⟩ : Vec3 ℝ) * 99.991 = b at *
        rw [abs_of_neg (by linarith), abs_of_pos (by linarith)] at h
        norm_num at h
        linarith
    · ext <;> norm_num
  rw [lineSegmentIntersection, e1, e2, hl]
  have c1 : isPointOnSegment (⟨1000, 1000, 0⟩ : Vec3 ℝ) ⟨999.991, 999.991, 0⟩ ⟨900, 900, 0⟩ = true := by
    unfold isPointOnSegment
    rw [if_pos]
    left
    norm_num [allClose, isClose, NP_RTOL, GEOM_ATOL]
  have c2 : isPointOnSegment (⟨1000, 1000, 0⟩ : Vec3 ℝ) ⟨1000.009, 999.991, 0⟩ ⟨1100, 900, 0⟩ = true := by
    unfold isPointOnSegment
    rw [if_pos]
    left
    norm_num [allClose, isClose, NP_RTOL, GEOM_ATOL, abs_le]
  simp only [c1, c2, Bool.and_self, if_true]

/-- **C76 is false far from the origin.**  Two triangles 1 km from the origin, more than 1 cm apart, are reported
crossing: the lines of two edges meet at a point which is "equal" to an end of either edge, but so far from the edges
that no point is tried. -/
theorem C76_apart_reported : ∃ P Q : Poly,
    polygonNew [⟨999.991, 999.991, 0⟩, ⟨900, 900, 0⟩, ⟨1010, 800, 0⟩] none none = .ok P ∧
    polygonNew [⟨1000.009, 999.991, 0⟩, ⟨1100, 900, 0⟩, ⟨1100, 1050, 0⟩] none none = .ok Q ∧
    arePolygonsCrossing P.pts P.tri Q.pts Q.tri = .ok true ∧
    ∀ x y, Region P.pts P.tri x → Region Q.pts Q.tri y → 1 / 100 < Vec3.norm (x - y) := by
  obtain ⟨P, h1, hp1, hv1, ht1⟩ := triangle_z (x1 := 999.991) (y1 := 999.991) (x2 := 900) (y2 := 900) (x3 := 1010)
    (y3 := 800) 0 (by norm_num)
  obtain ⟨Q, h2, hp2, hv2, ht2⟩ := triangle_z (x1 := 1000.009) (y1 := 999.991) (x2 := 1100) (y2 := 900) (x3 := 1100)
    (y3 := 1050) 0 (by norm_num)
  refine ⟨P, Q, h1, h2, ?_, ?_⟩
  · obtain ⟨r, b1, b2, hr, hb1, hb2, hir⟩ := crossing_iff (polygonNew_sturdy h1) (polygonNew_sturdy h2)
      (fun e he => polygonNew_edges_ne h1 he) (fun e he => polygonNew_edges_ne h2 he)
    rw [hr, Except.ok.injEq, hir]
    rw [hp1] at hb1
    rw [hp2] at hb2
    rw [hp1, hp2]
    refine ⟨?_, ?_, (⟨999.991, 999.991, 0⟩, ⟨900, 900, 0⟩), by simp [cycEdges], (⟨1000.009, 999.991, 0⟩, ⟨1100, 900, 0⟩),
      by simp [cycEdges], ?_, ⟨1000, 1000, 0⟩, ?_, .inl ⟨?_, ?_⟩⟩
    · norm_num [Bboxes.boundingBox, Bboxes.npMin, Bboxes.npMax, bind, Except.bind, pure, Except.pure] at hb1 hb2
      subst hb1 hb2
      norm_num [Bboxes.areBboxesOverlapping, Bboxes.anyLt]
    · have := coplanar_z [(999.991, 999.991), (900, 900), (1010, 800), (1000.009, 999.991), (1100, 900), (1100, 1050)]
      simpa using this
    · refine ⟨?_, ?_, ?_, ?_⟩ <;>
        norm_num [pointsEqual, allClose, isClose, NP_RTOL, GEOM_ATOL]
    · exact far_meet
    · rintro y ⟨t, t0, t1, rfl⟩
      refine lt_of_lt_of_le ?_ (Vec3.abs_x_le _)
      refine lt_of_lt_of_le ?_ (le_abs_self _)
      norm_num [NP_ATOL]
      linarith
    · rintro y ⟨t, t0, t1, rfl⟩
      refine lt_of_lt_of_le ?_ (Vec3.abs_x_le _)
      refine lt_of_lt_of_le ?_ (neg_le_abs _)
      norm_num [NP_ATOL]
      linarith
  · rw [hp1, hp2, ht1, ht2]
    rintro x y ⟨t, ht, a, b, c, ha, hb, hc, r, s, q, hr, hs, hq, h1, rfl⟩
      ⟨t', ht', a', b', c', ha', hb', hc', r', s', q', hr', hs', hq', h1', rfl⟩
    simp only [List.mem_cons, List.not_mem_nil, or_false] at ht ht'
    subst ht ht'
    simp only [List.getElem?_cons_zero, List.getElem?_cons_succ, Option.some.injEq] at ha hb hc ha' hb' hc'
    subst ha hb hc ha' hb' hc'
    have er : r = 1 - s - q := by linarith
    have er' : r' = 1 - s' - q' := by linarith
    by_contra hle
    rw [not_lt] at hle
    have kx := abs_le.1 ((Vec3.abs_x_le _).trans hle)
    have ky := abs_le.1 ((Vec3.abs_y_le _).trans hle)
    simp at kx ky
    subst er er'
    norm_num at kx ky
    linarith [kx.1, kx.2, ky.1, ky.2]

end B3d.Polygon
