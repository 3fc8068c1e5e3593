import Verif.Proofs.TriangleEdges
import Verif.Props.PolygonBasic

/-!
# C20, C21 (triangulation), C23 (area from a triangulation), C24 (centroid), C30 (triangle area and
tetrahedron volume)
-/

set_option linter.unusedSectionVars false

namespace B3d.Triangles
open B3d.Spec

section ears
variable {α : Type} (convex : α → α → α → Except PyErr Bool)
  (inside : α → α → α → α → Except PyErr Bool)

/-- C20: whatever the convexity and containment tests answer, a successful triangulation of
`n ≥ 3` points returns the points (possibly reversed) and `n - 2` triangles; each triangle has
valid, distinct indices in the cyclic order of the outline and passed the convexity test. -/
theorem C20_triangulate_valid (zeroNormal : Bool) (fuel : Nat) (pts pts' : List α)
    (tri : List Tri) (hn : 3 ≤ pts.length)
    (h : triangulateTries zeroNormal convex inside fuel 2 pts = some (.ok (pts', tri))) :
    (pts' = pts ∨ pts' = pts.reverse) ∧ tri.length = pts.length - 2 ∧
    ∀ i j k, (i, j, k) ∈ tri →
      i < pts.length ∧ j < pts.length ∧ k < pts.length ∧ i ≠ j ∧ j ≠ k ∧ i ≠ k ∧
      ((i < j ∧ j < k) ∨ (j < k ∧ k < i) ∨ (k < i ∧ i < j)) ∧
      ∃ a b c, pts'[i]? = some a ∧ pts'[j]? = some b ∧ pts'[k]? = some c ∧
        convex a b c = .ok true := by
  obtain ⟨h1, hg⟩ := triangulateTries_good convex inside zeroNormal fuel 2 pts hn pts' tri h
  have hlen : pts'.length = pts.length := by
    rcases h1 with rfl | rfl <;> simp
  refine ⟨h1, by have := hg.count; omega, ?_⟩
  intro i j k ht
  obtain ⟨hc, a, b, c, ha, hb, hc', hconv⟩ := hg.each _ ht
  have hi := (List.getElem?_eq_some_iff.1 ha).1
  have hj := (List.getElem?_eq_some_iff.1 hb).1
  have hk := (List.getElem?_eq_some_iff.1 hc').1
  simp only [CyclicIncreasing] at hc hi hj hk
  refine ⟨by omega, by omega, by omega, by omega, by omega, by omega, hc, a, b, c, ha, hb, hc',
    hconv⟩

/-- C20: in a successful triangulation every outline edge belongs to exactly one triangle, in the
direction of the outline; every other pair of vertices is either not joined or joined by exactly
one triangle edge in each direction. -/
theorem C20_triangulate_edges (zeroNormal : Bool) (fuel : Nat) (pts pts' : List α)
    (tri : List Tri) (hn : 3 ≤ pts.length)
    (h : triangulateTries zeroNormal convex inside fuel 2 pts = some (.ok (pts', tri))) :
    let edges := tri.flatMap fun t => [(t.1, t.2.1), (t.2.1, t.2.2), (t.2.2, t.1)]
    (∀ i < pts.length, edges.count (i, (i + 1) % pts.length) = 1 ∧
      edges.count ((i + 1) % pts.length, i) = 0) ∧
    (∀ i < pts.length, ∀ j < pts.length, j ≠ (i + 1) % pts.length → i ≠ (j + 1) % pts.length →
      edges.count (i, j) = edges.count (j, i) ∧ edges.count (i, j) ≤ 1) := by
  intro edges
  obtain ⟨h1, hg⟩ := triangulateTries_good convex inside zeroNormal fuel 2 pts hn pts' tri h
  have hnd : edges.Nodup := triangulateTries_edges convex inside zeroNormal fuel 2 pts hn pts' tri h
  have hlen : pts'.length = pts.length := by
    rcases h1 with rfl | rfl <;> simp
  have hcount : ∀ i j, (edges.count (i, j) : ℤ) - edges.count (j, i) = _ :=
    good_counts convex hg
  simp only [hlen] at hcount
  have hle : ∀ e, edges.count e ≤ 1 := List.nodup_iff_count_le_one.1 hnd
  constructor
  · intro i hi
    have hlt : (i + 1) % pts.length < pts.length := Nat.mod_lt _ (by omega)
    have hne : ¬ (i = ((i + 1) % pts.length + 1) % pts.length) := by
      intro he
      by_cases h2 : i + 1 < pts.length
      · rw [Nat.mod_eq_of_lt h2] at he
        by_cases h3 : i + 2 < pts.length
        · rw [Nat.mod_eq_of_lt (by omega)] at he; omega
        · have : i + 1 + 1 = pts.length := by omega
          rw [this, Nat.mod_self] at he; omega
      · have : i + 1 = pts.length := by omega
        rw [this, Nat.mod_self, Nat.mod_eq_of_lt (by omega)] at he; omega
    have := hcount i ((i + 1) % pts.length)
    rw [if_pos ⟨hi, rfl⟩, if_neg (fun h => hne h.2)] at this
    have l1 := hle (i, (i + 1) % pts.length)
    omega
  · intro i hi j hj h1 h2
    have := hcount i j
    rw [if_neg (fun h => h1 h.2), if_neg (fun h => h2 h.2)] at this
    exact ⟨by omega, hle _⟩

/-- C20: every vertex of the polygon is a corner of some triangle. -/
theorem C20_triangulate_uses_every_vertex (zeroNormal : Bool) (fuel : Nat) (pts pts' : List α)
    (tri : List Tri) (hn : 3 ≤ pts.length)
    (h : triangulateTries zeroNormal convex inside fuel 2 pts = some (.ok (pts', tri)))
    (i : Nat) (hi : i < pts.length) : ∃ t ∈ tri, i = t.1 ∨ i = t.2.1 ∨ i = t.2.2 := by
  have h1 := ((C20_triangulate_edges convex inside zeroNormal fuel pts pts' tri hn h).1 i hi).1
  have h2 := List.count_pos_iff.1 (by rw [h1]; exact Nat.one_pos)
  obtain ⟨t, ht, he⟩ := List.mem_flatMap.1 h2
  refine ⟨t, ht, ?_⟩
  simp only [List.mem_cons, Prod.mk.injEq, List.not_mem_nil, or_false] at he
  rcases he with h | h | h
  · exact Or.inl h.1
  · exact Or.inr (Or.inl h.1)
  · exact Or.inr (Or.inr h.1)

/-- C21: one call of `triangulate` runs each of its two loops at most `2n + 2` times, whatever the
tests answer: with that many iterations allowed it has a result, and allowing more does not change
it. -/
theorem C21_triangulate_terminates (zeroNormal : Bool) (pts : List α) (fuel : Nat)
    (hf : 2 * pts.length + 2 ≤ fuel) :
    triangulateTries zeroNormal convex inside fuel 2 pts ≠ none ∧
    triangulateTries zeroNormal convex inside fuel 2 pts =
      triangulateTries zeroNormal convex inside (2 * pts.length + 2) 2 pts :=
  triangulateTries_fuel convex inside zeroNormal fuel 2 pts hf

/-- C21: if the two tests do not raise, the only exception is `TriangulationError`. -/
theorem C21_triangulate_only_triangulation_error (zeroNormal : Bool) (pts : List α) (fuel : Nat)
    (hconv : ∀ a b c, ∃ r, convex a b c = .ok r)
    (hin : ∀ a b c, convex a b c = .ok true → ∀ t, ∃ r, inside t a b c = .ok r) (e : PyErr)
    (h : triangulateTries zeroNormal convex inside fuel 2 pts = some (.error e)) :
    e = .triangulationError :=
  triangulateTries_errors convex inside zeroNormal fuel hconv hin 2 pts e h

end ears

/-- A test pair for the examples: every corner is convex and no point is inside. -/
def yes {α : Type} : α → α → α → Except PyErr Bool := fun _ _ _ => .ok true
/-- See `yes`. -/
def no4 {α : Type} : α → α → α → α → Except PyErr Bool := fun _ _ _ _ => .ok false

/-- Non-vacuity of C20: a pentagon whose corner 0 is not convex is triangulated. -/
example : triangulateTries false (fun _ c _ => .ok (c != 10)) no4 12 2 [10, 11, 12, 13, 14] =
    some (.ok ([10, 11, 12, 13, 14], [(0, 1, 2), (0, 2, 3), (0, 3, 4)])) := by decide +kernel

/-- Non-vacuity of C20: the reversed outline can be the one that works. -/
example : triangulateTries false (fun a b c => .ok (decide
      ((a > b ∧ b > c) ∨ (b > c ∧ c > a) ∨ (c > a ∧ a > b)))) no4 10 2 [1, 2, 3, 4] =
    some (.ok ([4, 3, 2, 1], [(3, 0, 1), (3, 1, 2)])) := by decide +kernel

/-! ### The actual tests over the reals -/

theorem abs_sub_lt_bounds {x y c r : ℝ} (h : |x - y| ≤ c + r * |y|) :
    y * y - |y| * (c + r * |y|) ≤ x * y := by
  have h1 : |(x - y) * y| ≤ |y| * (c + r * |y|) := by
    rw [abs_mul, mul_comm]; exact mul_le_mul_of_nonneg_left h (abs_nonneg y)
  have := (abs_le.1 h1).1
  nlinarith

/-- A corner accepted as convex turns left as seen from the tip of the normal vector. -/
theorem isCornerConvex_sound {vn a b c : Vec3 ℝ} (h : isCornerConvex vn a b c = .ok true) :
    0 < Vec3.dot (Vec3.cross (b - a) (c - b)) vn := by
  unfold isCornerConvex at h
  split at h
  · cases h
  next hunit =>
  rw [not_not] at hunit
  simp only [] at h
  split at h
  · cases h
  next hlen =>
  simp only [Except.ok.injEq, decide_eq_true_eq] at h
  set w := Vec3.cross (b - a) (c - b) with hw
  have hL : 0 < Vec3.norm w := by
    have : (0 : ℝ) < GEOM_ATOL := by norm_num [GEOM_ATOL]
    linarith
  obtain ⟨h1, h2, h3⟩ := h
  simp only [isClose, Vec3.smul_x, Vec3.smul_y, Vec3.smul_z] at h1 h2 h3
  have b1 := abs_sub_lt_bounds h1
  have b2 := abs_sub_lt_bounds h2
  have b3 := abs_sub_lt_bounds h3
  have hn : Vec3.norm vn ^ 2 = vn.x * vn.x + vn.y * vn.y + vn.z * vn.z := by
    rw [Vec3.norm_sq, Vec3.normSq_def]
  have hn0 := Vec3.norm_nonneg vn
  have hup : Vec3.norm vn < 2 := by
    have := (abs_lt.1 hunit).2
    norm_num [GEOM_ATOL] at this
    linarith
  have hlo : 1 / 2 < Vec3.norm vn := by
    have := (abs_lt.1 hunit).1
    norm_num [GEOM_ATOL] at this
    linarith
  have ax : |vn.x| * |vn.x| = vn.x * vn.x := abs_mul_abs_self _
  have ay : |vn.y| * |vn.y| = vn.y * vn.y := abs_mul_abs_self _
  have az : |vn.z| * |vn.z| = vn.z * vn.z := abs_mul_abs_self _
  have bx : |vn.x| ≤ 1 + vn.x * vn.x := by nlinarith [abs_nonneg vn.x, sq_nonneg (|vn.x| - 1)]
  have by' : |vn.y| ≤ 1 + vn.y * vn.y := by nlinarith [abs_nonneg vn.y, sq_nonneg (|vn.y| - 1)]
  have bz : |vn.z| ≤ 1 + vn.z * vn.z := by nlinarith [abs_nonneg vn.z, sq_nonneg (|vn.z| - 1)]
  have hq : 1 / 4 < vn.x * vn.x + vn.y * vn.y + vn.z * vn.z := by rw [← hn]; nlinarith
  have hpos : 0 < 1 / Vec3.norm w * Vec3.dot w vn := by
    have e : 1 / Vec3.norm w * Vec3.dot w vn = 1 / Vec3.norm w * w.x * vn.x +
        1 / Vec3.norm w * w.y * vn.y + 1 / Vec3.norm w * w.z * vn.z := by
      simp only [Vec3.dot]; ring
    rw [e]
    simp only [NP_ATOL, GEOM_RTOL] at b1 b2 b3
    nlinarith
  have := (mul_pos_iff.1 hpos)
  rcases this with ⟨_, h⟩ | ⟨h, _⟩
  · exact h
  · exact absurd h (not_lt.2 (by positivity))

/-- Twice the signed area of the triangle with the given vertex indices, measured along `vn`. -/
noncomputable def signedArea2 (pts : List (Vec3 ℝ)) (vn : Vec3 ℝ) (t : Tri) : ℝ :=
  match pts[t.1]?, pts[t.2.1]?, pts[t.2.2]? with
  | some a, some b, some c => Vec3.dot (Vec3.cross (b - a) (c - a)) vn
  | _, _, _ => 0

/-- C20, C23: for any list of triangles returned by a successful triangulation (whatever the tests
answered), the area vectors of the triangles add up to the area vector of the outline. -/
theorem triangles_sum (convex : Vec3 ℝ → Vec3 ℝ → Vec3 ℝ → Except PyErr Bool)
    (pts : List (Vec3 ℝ)) (tri : List Tri) (vn : Vec3 ℝ) (hg : Good convex pts tri) :
    (tri.map (signedArea2 pts vn)).sum = Vec3.dot (cycSum Vec3.cross pts) vn := by
  let P : Nat → Vec3 ℝ := fun i => (pts[i]?).getD 0
  have hpts : pts = (List.range pts.length).map P := by
    apply List.ext_getElem?
    intro k
    by_cases hk : k < pts.length
    · rw [List.getElem?_map, List.getElem?_range hk, List.getElem?_eq_getElem hk]
      simp [P, hk]
    · rw [List.getElem?_eq_none (by omega), List.getElem?_eq_none (by simpa using hk)]
  have hs := hg.sum (Vec3 ℝ) (fun i j => Vec3.cross (P i) (P j))
    (fun a b => Polygon.cross_antisymm _ _)
  conv_rhs => rw [hpts]
  rw [cycSum_map, ← hs]
  have : ∀ l : List Tri, (∀ t ∈ l, t ∈ tri) → (l.map (signedArea2 pts vn)).sum =
      Vec3.dot ((l.map (triSum fun i j => Vec3.cross (P i) (P j))).sum) vn := by
    intro l
    induction l with
    | nil => intro _; simp [Vec3.dot]
    | cons t l ih =>
      intro hl
      obtain ⟨_, a, b, c, ha, hb, hc, _⟩ := hg.each t (hl t (by simp))
      rw [List.map_cons, List.sum_cons, List.map_cons, List.sum_cons, Vec3.dot_add_left,
        ih (fun t ht => hl t (List.mem_cons_of_mem _ ht))]
      congr 1
      simp only [signedArea2, ha, hb, hc, triSum, P, Option.getD_some]
      simp only [Vec3.dot, Vec3.cross_x, Vec3.cross_y, Vec3.cross_z, Vec3.sub_x, Vec3.sub_y,
        Vec3.sub_z, Vec3.add_x, Vec3.add_y, Vec3.add_z]
      ring
  exact this tri (fun t ht => ht)

/-- C20, with the actual convexity and containment tests: if `triangulate(pts, vn)` succeeds then
every triangle is oriented counter-clockwise around `vn` (positive signed area), and the triangle
areas add up to the area of the polygon, so the triangles neither miss nor double-count area. -/
theorem C20_triangulate_area (fuel : Nat) (pts pts' : List (Vec3 ℝ)) (vn : Vec3 ℝ)
    (tri : List Tri) (hn : 3 ≤ pts.length)
    (h : triangulate fuel pts vn = some (.ok (pts', tri))) :
    (∀ t ∈ tri, 0 < signedArea2 pts' vn t) ∧
    (tri.map fun t => signedArea2 pts' vn t / 2).sum = Polygon.polygonArea pts vn := by
  obtain ⟨h1, hg⟩ := triangulateTries_good _ _ _ _ _ pts hn pts' tri h
  have hpos : ∀ t ∈ tri, 0 < signedArea2 pts' vn t := by
    intro t ht
    obtain ⟨_, a, b, c, ha, hb, hc, hconv⟩ := hg.each t ht
    simp only [signedArea2, ha, hb, hc]
    have := isCornerConvex_sound hconv
    have e : Vec3.cross (b - a) (c - b) = Vec3.cross (b - a) (c - a) := by
      ext <;> simp <;> ring
    rwa [e] at this
  refine ⟨hpos, ?_⟩
  have hsum := triangles_sum _ pts' tri vn hg
  have hsum2 : (tri.map fun t => signedArea2 pts' vn t / 2).sum =
      (tri.map (signedArea2 pts' vn)).sum / 2 := by
    generalize tri = l
    induction l with
    | nil => simp
    | cons t l ih => simp only [List.map_cons, List.sum_cons, ih]; ring
  have hnn : 0 ≤ (tri.map (signedArea2 pts' vn)).sum := by
    apply List.sum_nonneg
    intro x hx
    obtain ⟨t, ht, rfl⟩ := List.mem_map.1 hx
    exact (hpos t ht).le
  have harea : Polygon.polygonArea pts vn = Polygon.polygonArea pts' vn := by
    rcases h1 with rfl | rfl
    · rfl
    · exact (Polygon.C23_polygon_area_renumber pts pts vn (List.IsRotated.refl _)).2.1.symm
  rw [hsum2, harea, Polygon.C23_polygon_area_spec, Polygon.specArea, ← hsum, abs_of_nonneg hnn]

/-- C23: `polygon_area` is the absolute value of the sum of the signed triangle areas of any
triangulation obtained by cutting ears, whatever decides where to cut. -/
theorem C23_polygon_area_of_triangulation
    (convex : Vec3 ℝ → Vec3 ℝ → Vec3 ℝ → Except PyErr Bool)
    (inside : Vec3 ℝ → Vec3 ℝ → Vec3 ℝ → Vec3 ℝ → Except PyErr Bool)
    (fuel : Nat) (pts pts' : List (Vec3 ℝ)) (vn : Vec3 ℝ) (tri : List Tri) (hn : 3 ≤ pts.length)
    (h : triangulateTries false convex inside fuel 2 pts = some (.ok (pts', tri))) :
    Polygon.polygonArea pts vn = |(tri.map fun t => signedArea2 pts' vn t / 2).sum| := by
  obtain ⟨h1, hg⟩ := triangulateTries_good _ _ _ _ _ pts hn pts' tri h
  have hsum := triangles_sum _ pts' tri vn hg
  have hsum2 : (tri.map fun t => signedArea2 pts' vn t / 2).sum =
      (tri.map (signedArea2 pts' vn)).sum / 2 := by
    generalize tri = l
    induction l with
    | nil => simp
    | cons t l ih => simp only [List.map_cons, List.sum_cons, ih]; ring
  have harea : Polygon.polygonArea pts vn = Polygon.polygonArea pts' vn := by
    rcases h1 with rfl | rfl
    · rfl
    · exact (Polygon.C23_polygon_area_renumber pts pts vn (List.IsRotated.refl _)).2.1.symm
  rw [hsum2, harea, Polygon.C23_polygon_area_spec, Polygon.specArea, hsum, abs_div]
  norm_num

/-- Non-vacuity of `C20_triangulate_area`: a right triangle is triangulated by the real tests. -/
example : triangulate 8 [⟨0, 0, 0⟩, ⟨1, 0, 0⟩, ⟨0, 1, 0⟩] ⟨0, 0, 1⟩ =
    some (.ok ([⟨0, 0, 0⟩, ⟨1, 0, 0⟩, ⟨0, 1, 0⟩], [(2, 0, 1)])) := by
  have hn1 : Vec3.norm (⟨0, 0, 1⟩ : Vec3 ℝ) = 1 := by
    unfold Vec3.norm; norm_num [Vec3.normSq, Vec3.dot]
  have hw : Vec3.cross ((⟨0, 0, 0⟩ : Vec3 ℝ) - ⟨0, 1, 0⟩) (⟨1, 0, 0⟩ - ⟨0, 0, 0⟩) = ⟨0, 0, 1⟩ := by
    ext <;> norm_num
  have hc : isCornerConvex ⟨0, 0, 1⟩ ⟨0, 1, 0⟩ ⟨0, 0, 0⟩ ⟨1, 0, 0⟩ = .ok true := by
    unfold isCornerConvex
    simp only [hn1, hw]
    norm_num [GEOM_ATOL, allClose, isClose, NP_ATOL, GEOM_RTOL]
  have hz : ¬ isClose (Vec3.norm (⟨0, 0, 1⟩ : Vec3 ℝ)) 0 NP_RTOL NP_ATOL := by
    rw [hn1]; norm_num [isClose, NP_ATOL]
  have hst : step (fun p c n => isCornerConvex ⟨0, 0, 1⟩ p c n) (fun t p c n => isPointInside t p c n)
      [⟨0, 0, 0⟩, ⟨1, 0, 0⟩, ⟨0, 1, 0⟩] (initState [⟨0, 0, 0⟩, ⟨1, 0, 0⟩, ⟨0, 1, 0⟩]) =
      .cont ⟨[(1, ⟨1, 0, 0⟩), (2, ⟨0, 1, 0⟩)], [(2, 0, 1)], 0, 0⟩ := by
    simp [step, initState, List.range_succ_eq_map, hc, anyPointInside]
  unfold triangulate triangulateTries
  simp only [hz, decide_false, Bool.false_eq_true, if_false]
  rw [run, hst]
  simp [run, step]

theorem bboxTest_ok (t a b c : Vec3 ℝ) (atol : ℝ) :
    ∃ r, Bboxes.isPointInsideBbox t [a, b, c] atol = .ok r := by
  unfold Bboxes.isPointInsideBbox Bboxes.boundingBox
  simp only [List.map_cons, List.map_nil, Bboxes.npMin, Bboxes.npMax, bind, Except.bind, pure,
    Except.pure]
  split
  · exact ⟨_, rfl⟩
  · exact ⟨_, rfl⟩

theorem sameSide_ok (p1 p2 t r : Vec3 ℝ)
    (h : ¬ Vec3.norm (Vec3.cross (p2 - p1) (r - p1)) < GEOM_ATOL) :
    ∃ b, isPointOnSameSide p1 p2 t r = .ok b := by
  unfold isPointOnSameSide
  simp only [if_neg h]
  split
  · exact ⟨_, rfl⟩
  · exact ⟨_, rfl⟩

/-- The containment test does not raise for a triangle that is not degenerate. -/
theorem isPointInside_ok_of_len {a b c : Vec3 ℝ} (hlen : ¬ Vec3.norm (Vec3.cross (b - a) (c - b)) < GEOM_ATOL)
    (t : Vec3 ℝ) : ∃ r, isPointInside t a b c = .ok r := by
  have e1 : Vec3.cross (b - a) (c - a) = Vec3.cross (b - a) (c - b) := by
    ext <;> simp <;> ring
  have e2 : Vec3.cross (c - b) (a - b) = Vec3.cross (b - a) (c - b) := by
    ext <;> simp <;> ring
  have e3 : Vec3.cross (a - c) (b - c) = Vec3.cross (b - a) (c - b) := by
    ext <;> simp <;> ring
  obtain ⟨r1, h1⟩ := sameSide_ok a b t c (by rw [e1]; exact hlen)
  obtain ⟨r2, h2⟩ := sameSide_ok b c t a (by rw [e2]; exact hlen)
  obtain ⟨r3, h3⟩ := sameSide_ok c a t b (by rw [e3]; exact hlen)
  obtain ⟨rb, hb⟩ := bboxTest_ok t a b c (1 / 100)
  unfold isPointInside
  simp only [hb, h1, h2, h3, bind, Except.bind, pure, Except.pure]
  split
  · exact ⟨_, rfl⟩
  · split
    · exact ⟨_, rfl⟩
    · split
      · exact ⟨_, rfl⟩
      · split
        · exact ⟨_, rfl⟩
        · split
          · exact ⟨_, rfl⟩
          · exact ⟨_, rfl⟩

/-- The containment test does not raise for an ear accepted by the convexity test: its corners are
not collinear. -/
theorem isPointInside_ok {vn a b c : Vec3 ℝ} (h : isCornerConvex vn a b c = .ok true)
    (t : Vec3 ℝ) : ∃ r, isPointInside t a b c = .ok r := by
  refine isPointInside_ok_of_len ?_ t
  unfold isCornerConvex at h
  split at h
  · cases h
  · simp only [] at h
    split at h
    · cases h
    · assumption

/-- C21, with the actual tests: for every list of points and every unit normal vector, `triangulate`
ends and either succeeds or raises `TriangulationError`. -/
theorem C21_triangulate_outcome (pts : List (Vec3 ℝ)) (vn : Vec3 ℝ)
    (hvn : |Vec3.norm vn - 1| < GEOM_ATOL) :
    (∃ pts' tri, triangulate (2 * pts.length + 2) pts vn = some (.ok (pts', tri))) ∨
    triangulate (2 * pts.length + 2) pts vn = some (.error .triangulationError) := by
  have hconv : ∀ a b c, ∃ r, isCornerConvex vn a b c = .ok r := by
    intro a b c
    unfold isCornerConvex
    rw [if_neg (not_not.2 hvn)]
    simp only []
    split
    · exact ⟨_, rfl⟩
    · exact ⟨_, rfl⟩
  cases hr : triangulate (2 * pts.length + 2) pts vn with
  | none => exact absurd hr (C21_triangulate_terminates _ _ _ pts _ (le_refl _)).1
  | some r =>
    cases r with
    | ok x => exact Or.inl ⟨x.1, x.2, rfl⟩
    | error e =>
      right
      have := C21_triangulate_only_triangulation_error _ _ _ pts _ hconv
        (fun a b c h t => isPointInside_ok h t) e hr
      rw [this]

/-- C21: a normal vector that is not a unit vector (and not zero) is reported by the assertion. -/
theorem C21_triangulate_bad_normal (pts : List (Vec3 ℝ)) (vn : Vec3 ℝ) (hn : 3 ≤ pts.length)
    (hvn : ¬ |Vec3.norm vn - 1| < GEOM_ATOL) (h0 : ¬ isClose (Vec3.norm vn) 0 NP_RTOL NP_ATOL) :
    triangulate (2 * pts.length + 2) pts vn = some (.error .assertionError) := by
  unfold triangulate triangulateTries
  simp only [h0, decide_false, Bool.false_eq_true, if_false]
  have hstep : step (fun p c n => isCornerConvex vn p c n) (fun t p c n => isPointInside t p c n)
      pts (initState pts) = .raise .assertionError := by
    have hl : (initState pts).vertices.length > 2 := by rw [length_initVertices]; omega
    have hf : ¬ (initState pts).numFail > pts.length := by simp [initState]
    unfold step
    rw [if_pos hl, if_neg hf]
    simp only []
    have hp : ¬ (initState pts).pos > (initState pts).vertices.length - 1 := by simp [initState]
    rw [if_neg hp]
    have h00 : (initState pts).pos = 0 := rfl
    rw [h00]
    simp only [gt_iff_lt, lt_self_iff_false, if_false]
    rw [if_pos (by omega : 0 < (initState pts).vertices.length - 1)]
    rw [List.getElem?_eq_getElem (by omega), List.getElem?_eq_getElem (by omega),
      List.getElem?_eq_getElem (by omega)]
    simp only [isCornerConvex, hvn, not_false_eq_true, if_true]
  unfold run
  rw [hstep]

/-! ### C30 -/

/-- Heron's expression is a quarter of the squared cross product. -/
theorem heron (p1 p2 p3 : Vec3 ℝ) :
    triangleArea p1 p2 p3 =
      Real.sqrt ((Vec3.norm (Vec3.cross (p2 - p1) (p3 - p1)) / 2) ^ 2 + EPSILON) := by
  unfold triangleArea
  simp only []
  congr 2
  have ha := Vec3.norm_sq (p2 - p1)
  have hb := Vec3.norm_sq (p3 - p2)
  have hc := Vec3.norm_sq (p3 - p1)
  have hw := Vec3.norm_sq (Vec3.cross (p2 - p1) (p3 - p1))
  generalize Vec3.norm (p2 - p1) = a at *
  generalize Vec3.norm (p3 - p2) = b at *
  generalize Vec3.norm (p3 - p1) = c at *
  generalize Vec3.norm (Vec3.cross (p2 - p1) (p3 - p1)) = w at *
  have e1 : 1 / 2 * (a + b + c) * (1 / 2 * (a + b + c) - a) * (1 / 2 * (a + b + c) - b) *
      (1 / 2 * (a + b + c) - c) =
      (2 * (a ^ 2 * b ^ 2 + b ^ 2 * c ^ 2 + c ^ 2 * a ^ 2) - (a ^ 2) ^ 2 - (b ^ 2) ^ 2 -
        (c ^ 2) ^ 2) / 16 := by ring
  have e2 : (w / 2) ^ 2 = w ^ 2 / 4 := by ring
  rw [e1, e2, ha, hb, hc, hw]
  simp only [Vec3.normSq_def, Vec3.cross_x, Vec3.cross_y, Vec3.cross_z, Vec3.sub_x, Vec3.sub_y,
    Vec3.sub_z]
  ring

theorem sqrt_reg_bounds {x e : ℝ} (hx : 0 ≤ x) (he : 0 ≤ e) :
    x ≤ Real.sqrt (x ^ 2 + e) ∧ Real.sqrt (x ^ 2 + e) ≤ x + Real.sqrt e := by
  constructor
  · exact Real.le_sqrt_of_sq_le (by linarith)
  · apply Real.sqrt_le_iff.2
    have h0 := Real.sqrt_nonneg e
    have h1 := Real.sq_sqrt he
    exact ⟨by positivity, by nlinarith [mul_nonneg hx h0]⟩

theorem sqrt_EPSILON : Real.sqrt (EPSILON : ℝ) = 1 / 10 ^ 6 := by
  rw [show (EPSILON : ℝ) = (1 / 10 ^ 6) ^ 2 by norm_num [EPSILON]]
  exact Real.sqrt_sq (by norm_num)

/-- C30: `triangle_area` is half the length of the cross product of two sides, up to the
regularisation: never smaller, and larger by at most `1e-6`. -/
theorem C30_triangle_area (p1 p2 p3 : Vec3 ℝ) :
    let exact := Vec3.norm (Vec3.cross (p2 - p1) (p3 - p1)) / 2
    triangleArea p1 p2 p3 = Real.sqrt (exact ^ 2 + 1 / 10 ^ 12) ∧
    exact ≤ triangleArea p1 p2 p3 ∧ triangleArea p1 p2 p3 ≤ exact + 1 / 10 ^ 6 := by
  intro exact'
  have h := heron p1 p2 p3
  have hb := sqrt_reg_bounds (x := exact') (e := EPSILON)
    (div_nonneg (Vec3.norm_nonneg _) (by norm_num)) (by norm_num [EPSILON])
  rw [sqrt_EPSILON] at hb
  refine ⟨h, ?_, ?_⟩
  · rw [h]; exact hb.1
  · rw [h]; exact hb.2

/-- C30: `triangle_area` and `triangle_centroid` do not depend on the order of the vertices; the
area does not change under translation and the centroid moves along. -/
theorem C30_triangle_laws (p1 p2 p3 t : Vec3 ℝ) :
    triangleArea p2 p1 p3 = triangleArea p1 p2 p3 ∧
    triangleArea p1 p3 p2 = triangleArea p1 p2 p3 ∧
    triangleArea (p1 + t) (p2 + t) (p3 + t) = triangleArea p1 p2 p3 ∧
    triangleCentroid p2 p1 p3 = triangleCentroid p1 p2 p3 ∧
    triangleCentroid p1 p3 p2 = triangleCentroid p1 p2 p3 ∧
    triangleCentroid (p1 + t) (p2 + t) (p3 + t) = triangleCentroid p1 p2 p3 + t := by
  refine ⟨?_, ?_, ?_, ?_, ?_, ?_⟩
  · rw [heron, heron]
    have : Vec3.cross (p1 - p2) (p3 - p2) = -Vec3.cross (p2 - p1) (p3 - p1) := by
      ext <;> simp <;> ring
    rw [this, Vec3.norm_neg]
  · rw [heron, heron]
    have : Vec3.cross (p3 - p1) (p2 - p1) = -Vec3.cross (p2 - p1) (p3 - p1) := by
      ext <;> simp <;> ring
    rw [this, Vec3.norm_neg]
  · unfold triangleArea
    simp only [add_sub_add_right_eq_sub]
  · unfold triangleCentroid; ext <;> simp <;> ring
  · unfold triangleCentroid; ext <;> simp <;> ring
  · unfold triangleCentroid; ext <;> simp <;> ring

/-- Six times the signed volume of a tetrahedron. -/
def det6 {K : Type} [CommRing K] (p0 p1 p2 p3 : Vec3 K) : K :=
  Vec3.dot (p1 - p0) (Vec3.cross (p2 - p0) (p3 - p0))

theorem tetra_eq (p0 p1 p2 p3 : Vec3 ℝ) :
    tetrahedronVolume p0 p1 p2 p3 =
      Real.sqrt ((2 * |det6 p0 p1 p2 p3|) ^ 2 + EPSILON) / 12 := by
  unfold tetrahedronVolume
  simp only []
  congr 3
  simp only [Vec3.norm_sq]
  rw [mul_pow, sq_abs]
  simp only [det6, Vec3.dot, Vec3.normSq_def, Vec3.cross_x, Vec3.cross_y, Vec3.cross_z,
    Vec3.sub_x, Vec3.sub_y, Vec3.sub_z]
  ring

/-- C30: `tetrahedron_volume` is `|det| / 6` up to the regularisation: never smaller, and larger by
at most `1e-6 / 12`. -/
theorem C30_tetrahedron_volume (p0 p1 p2 p3 : Vec3 ℝ) :
    let exact := |Vec3.dot (p1 - p0) (Vec3.cross (p2 - p0) (p3 - p0))| / 6
    exact ≤ tetrahedronVolume p0 p1 p2 p3 ∧
    tetrahedronVolume p0 p1 p2 p3 ≤ exact + 1 / 10 ^ 6 / 12 := by
  intro exact'
  have h := tetra_eq p0 p1 p2 p3
  have hb := sqrt_reg_bounds (x := 2 * |det6 p0 p1 p2 p3|) (e := EPSILON)
    (by positivity) (by norm_num [EPSILON])
  rw [sqrt_EPSILON] at hb
  have he : exact' = 2 * |det6 p0 p1 p2 p3| / 12 := by
    simp only [exact', det6]; ring
  rw [h, he]
  constructor
  · linarith [hb.1]
  · linarith [hb.2]

/-- C30: `tetrahedron_volume` does not depend on the order of the vertices (three transpositions
generate all permutations) nor on translation, and `tetrahedron_centroid` is the mean of the
vertices, so it is symmetric and moves with them. -/
theorem C30_tetrahedron_laws (p0 p1 p2 p3 t : Vec3 ℝ) :
    tetrahedronVolume p1 p0 p2 p3 = tetrahedronVolume p0 p1 p2 p3 ∧
    tetrahedronVolume p0 p2 p1 p3 = tetrahedronVolume p0 p1 p2 p3 ∧
    tetrahedronVolume p0 p1 p3 p2 = tetrahedronVolume p0 p1 p2 p3 ∧
    tetrahedronVolume (p0 + t) (p1 + t) (p2 + t) (p3 + t) = tetrahedronVolume p0 p1 p2 p3 ∧
    tetrahedronCentroid p1 p0 p2 p3 = tetrahedronCentroid p0 p1 p2 p3 ∧
    tetrahedronCentroid p0 p2 p1 p3 = tetrahedronCentroid p0 p1 p2 p3 ∧
    tetrahedronCentroid p0 p1 p3 p2 = tetrahedronCentroid p0 p1 p2 p3 ∧
    tetrahedronCentroid (p0 + t) (p1 + t) (p2 + t) (p3 + t) =
      tetrahedronCentroid p0 p1 p2 p3 + t := by
  have hd : ∀ a b c d a' b' c' d' : Vec3 ℝ, det6 a b c d = -det6 a' b' c' d' →
      tetrahedronVolume a b c d = tetrahedronVolume a' b' c' d' := by
    intro a b c d a' b' c' d' h
    rw [tetra_eq, tetra_eq, h, abs_neg]
  refine ⟨hd _ _ _ _ _ _ _ _ ?_, hd _ _ _ _ _ _ _ _ ?_, hd _ _ _ _ _ _ _ _ ?_, ?_, ?_, ?_, ?_, ?_⟩
  · simp only [det6, Vec3.dot, Vec3.cross_x, Vec3.cross_y, Vec3.cross_z, Vec3.sub_x, Vec3.sub_y,
      Vec3.sub_z]; ring
  · simp only [det6, Vec3.dot, Vec3.cross_x, Vec3.cross_y, Vec3.cross_z, Vec3.sub_x, Vec3.sub_y,
      Vec3.sub_z]; ring
  · simp only [det6, Vec3.dot, Vec3.cross_x, Vec3.cross_y, Vec3.cross_z, Vec3.sub_x, Vec3.sub_y,
      Vec3.sub_z]; ring
  · unfold tetrahedronVolume
    simp only [add_sub_add_right_eq_sub]
  · unfold tetrahedronCentroid; ext <;> simp <;> ring
  · unfold tetrahedronCentroid; ext <;> simp <;> ring
  · unfold tetrahedronCentroid; ext <;> simp <;> ring
  · unfold tetrahedronCentroid; ext <;> simp <;> ring

/-- A concrete value: the corner tetrahedron of the `1 × 2 × 3` box has volume 1 up to `1e-7`. -/
example : 1 ≤ tetrahedronVolume ⟨0, 0, 0⟩ ⟨1, 0, 0⟩ ⟨0, 2, 0⟩ ⟨0, 0, 3⟩ ∧
    tetrahedronVolume ⟨0, 0, 0⟩ ⟨1, 0, 0⟩ ⟨0, 2, 0⟩ ⟨0, 0, 3⟩ ≤ 1 + 1 / 10 ^ 7 := by
  have h := C30_tetrahedron_volume ⟨0, 0, 0⟩ ⟨1, 0, 0⟩ ⟨0, 2, 0⟩ ⟨0, 0, 3⟩
  norm_num [Vec3.dot] at h
  exact ⟨h.1, by norm_num; linarith [h.2]⟩

/-! ### C24 -/

theorem triangleArea_pos (a b c : Vec3 ℝ) : 0 < triangleArea a b c := by
  rw [heron]; apply Real.sqrt_pos.2
  have : (0 : ℝ) < EPSILON := by norm_num [EPSILON]
  positivity

/-- The weights used by `polygon_centroid`: the triangle areas. -/
noncomputable def totalWeight (pts : List (Vec3 ℝ)) (tri : List Tri) : ℝ :=
  (tri.map fun t => match pts[t.1]?, pts[t.2.1]?, pts[t.2.2]? with
    | some a, some b, some c => triangleArea a b c
    | _, _, _ => 0).sum

theorem foldl_terms (l : List (Vec3 ℝ × ℝ)) (z : Vec3 ℝ) :
    l.foldl (fun ctr t => ctr + t.2 • t.1) z = z + (l.map fun t => t.2 • t.1).sum := by
  induction l generalizing z with
  | nil => simp
  | cons t l ih => simp only [List.foldl_cons, List.map_cons, List.sum_cons, ih]; abel

theorem centroidTerms_spec (pts : List (Vec3 ℝ)) : ∀ (tri : List Tri) terms,
    centroidTerms pts tri = .ok terms →
    (terms.map Prod.snd).sum = totalWeight pts tri ∧
    ∀ x ∈ terms, 0 < x.2 ∧ ∃ a ∈ pts, ∃ b ∈ pts, ∃ c ∈ pts, x.1 = triangleCentroid a b c := by
  intro tri
  induction tri with
  | nil => intro terms h; cases h; simp [totalWeight]
  | cons t tri ih =>
    intro terms h
    obtain ⟨i, j, k⟩ := t
    unfold centroidTerms at h
    split at h
    next a b c ha hb hc =>
      split at h
      next l hl =>
        cases h
        obtain ⟨h1, h2⟩ := ih l hl
        refine ⟨?_, ?_⟩
        · simp only [totalWeight, List.map_cons, List.sum_cons, ha, hb, hc] at h1 ⊢
          rw [h1]
        · intro x hx
          rcases List.mem_cons.1 hx with rfl | hx
          · exact ⟨triangleArea_pos _ _ _, a, List.mem_of_getElem? ha, b, List.mem_of_getElem? hb,
              c, List.mem_of_getElem? hc, rfl⟩
          · exact h2 x hx
      next => cases h
    next => cases h

theorem dot_sum (m : Vec3 ℝ) (l : List (Vec3 ℝ × ℝ)) :
    Vec3.dot m (l.map fun t => t.2 • t.1).sum = (l.map fun t => t.2 * Vec3.dot m t.1).sum := by
  induction l with
  | nil => simp [Vec3.dot]
  | cons t l ih =>
    simp only [List.map_cons, List.sum_cons, Vec3.dot_add_right, Vec3.dot_smul_right, ih]

theorem dot_centroid_le (m : Vec3 ℝ) (d : ℝ) (a b c : Vec3 ℝ) (ha : Vec3.dot m a ≤ d)
    (hb : Vec3.dot m b ≤ d) (hc : Vec3.dot m c ≤ d) : Vec3.dot m (triangleCentroid a b c) ≤ d := by
  unfold triangleCentroid
  rw [Vec3.dot_smul_right, Vec3.dot_add_right, Vec3.dot_add_right]
  linarith

/-- C24 (partial): what `polygon_centroid` returns is `W` times a point of the convex hull of the
vertices (`m · x ≤ d` for all vertices implies it for the point), `W` being the total triangle
area.  The missing division by `W` is why the full property fails, see
`C24_polygon_centroid_not_in_plane`. -/
theorem C24_polygon_centroid_scaled_partial (pts : List (Vec3 ℝ)) (tri : List Tri) (ctr : Vec3 ℝ)
    (h : polygonCentroid pts tri = .ok ctr) :
    0 < totalWeight pts tri ∧ ∃ q : Vec3 ℝ, ctr = totalWeight pts tri • q ∧
      ∀ (m : Vec3 ℝ) (d : ℝ), (∀ p ∈ pts, Vec3.dot m p ≤ d) → Vec3.dot m q ≤ d := by
  unfold polygonCentroid at h
  split at h
  · cases h
  next hne =>
  split at h
  · cases h
  next terms hterms =>
  cases h
  obtain ⟨hw, hx⟩ := centroidTerms_spec pts tri terms hterms
  have hpos : 0 < totalWeight pts tri := by
    rw [← hw]
    cases terms with
    | nil =>
      exfalso
      cases tri with
      | nil => exact hne rfl
      | cons t tri =>
        unfold centroidTerms at hterms
        split at hterms
        · split at hterms <;> cases hterms
        · cases hterms
    | cons x l =>
      simp only [List.map_cons, List.sum_cons]
      have h1 := (hx x (by simp)).1
      have h2 : 0 ≤ (l.map Prod.snd).sum := by
        apply List.sum_nonneg
        intro y hy
        obtain ⟨z, hz, rfl⟩ := List.mem_map.1 hy
        exact (hx z (List.mem_cons_of_mem _ hz)).1.le
      linarith
  refine ⟨hpos, (1 / totalWeight pts tri) • (terms.foldl (fun ctr t => ctr + t.2 • t.1) 0),
    ?_, ?_⟩
  · rw [smul_smul, mul_one_div_cancel hpos.ne', one_smul]
  · intro m d hm
    rw [Vec3.dot_smul_right, foldl_terms, zero_add, dot_sum]
    rw [one_div, inv_mul_le_iff₀ hpos, ← hw]
    clear hterms hw hpos hne
    induction terms with
    | nil => simp
    | cons x l ih =>
      simp only [List.map_cons, List.sum_cons]
      obtain ⟨hx0, a, ha, b, hb, c, hc, hxe⟩ := hx x (by simp)
      have h1 := ih (fun y hy => hx y (List.mem_cons_of_mem _ hy))
      have h2 : x.2 * Vec3.dot m x.1 ≤ x.2 * d := by
        apply mul_le_mul_of_nonneg_left _ hx0.le
        rw [hxe]
        exact dot_centroid_le m d a b c (hm a ha) (hm b hb) (hm c hc)
      nlinarith

/-- C24 (partial): when the triangle areas happen to add up to one, the result does lie in the
convex hull of the vertices, and in particular in the plane of a planar polygon. -/
theorem C24_polygon_centroid_unit_area_partial (pts : List (Vec3 ℝ)) (tri : List Tri)
    (ctr : Vec3 ℝ) (h : polygonCentroid pts tri = .ok ctr) (hw : totalWeight pts tri = 1) :
    (∀ (m : Vec3 ℝ) (d : ℝ), (∀ p ∈ pts, Vec3.dot m p ≤ d) → Vec3.dot m ctr ≤ d) ∧
    (∀ (m : Vec3 ℝ) (d : ℝ), (∀ p ∈ pts, Vec3.dot m p = d) → Vec3.dot m ctr = d) := by
  obtain ⟨_, q, rfl, hq⟩ := C24_polygon_centroid_scaled_partial pts tri ctr h
  rw [hw, one_smul]
  refine ⟨hq, fun m d hm => le_antisymm (hq m d fun p hp => (hm p hp).le) ?_⟩
  have := hq (-m) (-d) (fun p hp => by rw [Vec3.dot_neg_left, hm p hp])
  rw [Vec3.dot_neg_left] at this
  linarith

theorem centroidTerms_translate (pts : List (Vec3 ℝ)) (t : Vec3 ℝ) : ∀ (tri : List Tri),
    centroidTerms (pts.map (· + t)) tri =
      (centroidTerms pts tri).map (fun l => l.map fun x => (x.1 + t, x.2)) := by
  intro tri
  induction tri with
  | nil => rfl
  | cons x tri ih =>
    obtain ⟨i, j, k⟩ := x
    unfold centroidTerms
    simp only [List.getElem?_map]
    cases pts[i]? <;> cases pts[j]? <;> cases pts[k]? <;> try rfl
    next a b c =>
    simp only [Option.map_some]
    rw [ih]
    obtain ⟨_, _, h3, _, _, h6⟩ := C30_triangle_laws a b c t
    cases centroidTerms pts tri with
    | error e => rfl
    | ok l => simp only [Except.map, h3, h6, List.map_cons]

/-- C24 (partial): translating the polygon by `t` moves the result by `W t`, not by `t`. -/
theorem C24_polygon_centroid_translate_partial (pts : List (Vec3 ℝ)) (tri : List Tri)
    (t ctr : Vec3 ℝ) (h : polygonCentroid pts tri = .ok ctr) :
    polygonCentroid (pts.map (· + t)) tri = .ok (ctr + totalWeight pts tri • t) := by
  unfold polygonCentroid at h ⊢
  split at h
  · cases h
  next hne =>
  rw [if_neg hne, centroidTerms_translate]
  split at h
  · cases h
  next terms hterms =>
  cases h
  rw [hterms]
  simp only [Except.map, Except.ok.injEq]
  have hw := (centroidTerms_spec pts tri terms hterms).1
  rw [foldl_terms, foldl_terms, ← hw, zero_add, zero_add]
  clear hterms hw hne
  induction terms with
  | nil => simp
  | cons x l ih =>
    simp only [List.map_cons, List.sum_cons, smul_add, add_smul]
    rw [ih]
    abel

/-- C24 fails as stated: the centroid of the triangle `(0,0,1), (2,0,1), (0,2,1)` returned by
`polygon_centroid` is not in the plane `z = 1` of the triangle, because the weighted sum is not
divided by the area (here about 2). -/
theorem C24_polygon_centroid_not_in_plane :
    ∃ ctr, polygonCentroid [⟨0, 0, 1⟩, ⟨2, 0, 1⟩, ⟨0, 2, 1⟩] [(0, 1, 2)] = .ok ctr ∧ 1 < ctr.z := by
  refine ⟨_, rfl, ?_⟩
  have h := (C30_triangle_area ⟨0, 0, 1⟩ ⟨2, 0, 1⟩ ⟨0, 2, 1⟩).2.1
  have hw : Vec3.norm (Vec3.cross ((⟨2, 0, 1⟩ : Vec3 ℝ) - ⟨0, 0, 1⟩) (⟨0, 2, 1⟩ - ⟨0, 0, 1⟩)) = 4 := by
    have : Vec3.cross ((⟨2, 0, 1⟩ : Vec3 ℝ) - ⟨0, 0, 1⟩) (⟨0, 2, 1⟩ - ⟨0, 0, 1⟩) = ⟨0, 0, 4⟩ := by
      ext <;> norm_num
    rw [this]
    unfold Vec3.norm
    rw [show Vec3.normSq (⟨0, 0, 4⟩ : Vec3 ℝ) = 4 ^ 2 by norm_num [Vec3.normSq, Vec3.dot]]
    exact Real.sqrt_sq (by norm_num)
  rw [hw] at h
  simp only [List.foldl_cons, List.foldl_nil, Vec3.add_z, Vec3.zero_z, Vec3.smul_z,
    triangleCentroid]
  norm_num at h ⊢
  linarith

end B3d.Triangles
