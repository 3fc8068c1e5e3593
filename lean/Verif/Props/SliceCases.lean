import Verif.Props.SliceParts
import Verif.Props.PointInPolygonCases
import Verif.Proofs.Rectangle
import Verif.Props.Intersect

/-!
# C41: concrete slices

Slices of a square which meet the hypotheses of the theorems on C41, and one from the closing edge which does not come
out right.
-/

namespace B3d.Slice

open Spec Points Polygon Triangles

/-! ### Where points are located -/

theorem locateEdge_hit {x a b : Vec3 ℝ} {i : Nat} {rest : List (Vec3 ℝ × Vec3 ℝ)} (hne : a ≠ b) (h : OnSegment a b x) :
    locateEdge x i ((a, b) :: rest) = .ok (.edge, i) := by
  obtain ⟨d, hd, ⟨t, -, -, ht⟩, hmin⟩ := (C27_distance_point_to_edge x a b).1 hne
  obtain ⟨r, h0, h1, rfl⟩ := h
  have hz : d = 0 := by
    apply le_antisymm
    · refine (hmin r h0 h1).trans ?_
      rw [sub_self]
      simp [Vec3.norm, Vec3.normSq, Vec3.dot]
    · rw [ht]; exact Vec3.norm_nonneg _
  simp only [locateEdge, hd, hz]
  rw [if_pos]
  simp [isClose, NP_ATOL]

theorem locateEdge_skip {x a b : Vec3 ℝ} {i : Nat} {rest : List (Vec3 ℝ × Vec3 ℝ)} (hne : a ≠ b)
    (h : AwayFromLine a b x (1 / 1000)) : locateEdge x i ((a, b) :: rest) = locateEdge x (i + 1) rest := by
  obtain ⟨d, hd, ⟨t, -, -, ht⟩, -⟩ := (C27_distance_point_to_edge x a b).1 hne
  have hz : 1 / 1000 ≤ d := by
    rw [ht, Vec3.norm_sub_comm]
    exact h t
  simp only [locateEdge, hd]
  rw [if_neg]
  simp only [isClose, NP_ATOL, NP_RTOL, abs_zero, mul_zero, sub_zero, not_le]
  rw [abs_of_nonneg (by linarith)]
  norm_num
  linarith

theorem locatePoint_inside {x : Vec3 ℝ} {pts : List (Vec3 ℝ)} {tri : List Tri} {edges : List (Vec3 ℝ × Vec3 ℝ)}
    (h : Polygon.isPointInside x pts tri = .ok true) (hv : ∀ p ∈ pts, pointsEqual x p = false) :
    locatePoint x pts tri edges = locateEdge x 0 edges := by
  unfold locatePoint
  rw [h]
  simp only
  have : (pts.findIdx? fun p => pointsEqual x p) = none := by
    rw [List.findIdx?_eq_none_iff]
    intro p hp
    simpa using hv p hp
  rw [this]

theorem wellOnEdge_z {x1 y1 x2 y2 x3 y3 x y z t : ℝ} (h0 : 0 ≤ t) (h1 : t ≤ 1)
    (hx : x = x1 + t * (x2 - x1)) (hy : y = y1 + t * (y2 - y1))
    (l1 : (x2 - x1) ^ 2 + (y2 - y1) ^ 2 ≤ 100) (l2 : (x3 - x2) ^ 2 + (y3 - y2) ^ 2 ≤ 100)
    (l3 : (x1 - x3) ^ 2 + (y1 - y3) ^ 2 ≤ 100)
    (p2 : 0 < (x3 - x2) ^ 2 + (y3 - y2) ^ 2) (p3 : 0 < (x1 - x3) ^ 2 + (y1 - y3) ^ 2)
    (d2 : 1 / 10 ^ 4 ≤ ((x3 - x2) * (y - y2) - (y3 - y2) * (x - x2)) ^ 2)
    (d3 : 1 / 10 ^ 4 ≤ ((x1 - x3) * (y - y3) - (y1 - y3) * (x - x3)) ^ 2) :
    WellOnEdge ⟨x1, y1, z⟩ ⟨x2, y2, z⟩ ⟨x3, y3, z⟩ ⟨x, y, z⟩ := by
  refine ⟨⟨t, h0, h1, ?_⟩, 10, norm_le_z (by norm_num) (by linarith), norm_le_z (by norm_num) (by linarith),
    norm_le_z (by norm_num) (by linarith), ?_⟩
  · ext
    · simpa using hx
    · simpa using hy
    · simp
  · rw [show max (1 / 10 ^ 6 : ℝ) (1 / 10 ^ 4 * 10) = 1 / 10 ^ 3 by norm_num]
    refine ⟨away_z p2 ?_, away_z p3 ?_⟩ <;> norm_num at d2 d3 l1 l2 l3 ⊢ <;> linarith

/-! ### A square -/

/-- A square of side 4. -/
noncomputable def square : List (Vec3 ℝ) := [⟨0, 0, 0⟩, ⟨4, 0, 0⟩, ⟨4, 4, 0⟩, ⟨0, 4, 0⟩]

/-- Its triangles. -/
def squareTri : List Tri := [(3, 0, 1), (3, 1, 2)]

theorem rectNormal_z {x1 y1 x2 y2 : ℝ} (h : 0 < x1 * y2 - y1 * x2) :
    rectNormal ⟨x1, y1, 0⟩ ⟨x2, y2, 0⟩ = ⟨0, 0, 1⟩ := by
  have e : Vec3.cross (⟨x1, y1, 0⟩ : Vec3 ℝ) ⟨x2, y2, 0⟩ = ⟨0, 0, x1 * y2 - y1 * x2⟩ := by
    ext <;> simp
  rw [rectNormal, e, norm_z, abs_of_pos h]
  ext <;> simp [h.ne']

theorem notEqual_x {p q : Vec3 ℝ} (h : 1 ≤ |p.x - q.x|) (hq : |q.x| ≤ 100) : pointsEqual p q = false := by
  rw [pointsEqual, decide_eq_false_iff_not]
  rintro ⟨hx, -⟩
  simp only [isClose, NP_RTOL, GEOM_ATOL] at hx
  linarith

theorem notEqual_y {p q : Vec3 ℝ} (h : 1 ≤ |p.y - q.y|) (hq : |q.y| ≤ 100) : pointsEqual p q = false := by
  rw [pointsEqual, decide_eq_false_iff_not]
  rintro ⟨-, hx, -⟩
  simp only [isClose, NP_RTOL, GEOM_ATOL] at hx
  linarith

/-- A horizontal rectangle. -/
theorem rect_good {a b c d : Vec3 ℝ} {x1 y1 x2 y2 p q : ℝ} (hb : b = a + ⟨x1, y1, 0⟩)
    (hc : c = a + ⟨x1, y1, 0⟩ + ⟨x2, y2, 0⟩) (hd : d = a + ⟨x2, y2, 0⟩) (h : x1 * x2 + y1 * y2 = 0)
    (hu : x1 ^ 2 + y1 ^ 2 = p ^ 2) (hw : x2 ^ 2 + y2 ^ 2 = q ^ 2) (p1 : 1 ≤ p)
    (p2 : p ≤ 100) (q1 : 1 ≤ q) (q2 : q ≤ 100) (cd : pointsEqual c d = false) (ca : pointsEqual c a = false)
    (cb : pointsEqual c b = false) : GoodRect a ⟨x1, y1, 0⟩ ⟨x2, y2, 0⟩ := by
  have hu' : Vec3.normSq (⟨x1, y1, 0⟩ : Vec3 ℝ) = p ^ 2 := by
    rw [← hu]; simp [Vec3.normSq, Vec3.dot]; ring
  have hw' : Vec3.normSq (⟨x2, y2, 0⟩ : Vec3 ℝ) = q ^ 2 := by
    rw [← hw]; simp [Vec3.normSq, Vec3.dot]; ring
  have nu := norm_of_sq (by linarith) hu'
  have nw := norm_of_sq (by linarith) hw'
  subst hb hc hd
  refine ⟨by simpa [Vec3.dot] using h, ?_, ?_, ?_, ?_, ?_, cd, ca, cb⟩
  · rw [nu, nw]; nlinarith
  · rw [hu', hw']; nlinarith
  · rw [hu', hw']; nlinarith
  · rw [nu]; linarith
  · rw [nw]; linarith

/-- The triangles of a horizontal rectangle. -/
theorem rect_triangulate {a b c d : Vec3 ℝ} {x1 y1 x2 y2 p q : ℝ} (hb : b = a + ⟨x1, y1, 0⟩)
    (hc : c = a + ⟨x1, y1, 0⟩ + ⟨x2, y2, 0⟩) (hd : d = a + ⟨x2, y2, 0⟩) (h : x1 * x2 + y1 * y2 = 0)
    (h2 : 0 < x1 * y2 - y1 * x2) (hu : x1 ^ 2 + y1 ^ 2 = p ^ 2) (hw : x2 ^ 2 + y2 ^ 2 = q ^ 2) (p1 : 1 ≤ p)
    (p2 : p ≤ 100) (q1 : 1 ≤ q) (q2 : q ≤ 100) (cd : pointsEqual c d = false) (ca : pointsEqual c a = false)
    (cb : pointsEqual c b = false) :
    triangulate 10 [a, b, c, d] ⟨0, 0, 1⟩ = some (.ok ([a, b, c, d], [(3, 0, 1), (3, 1, 2)])) := by
  have hr := rect_good hb hc hd h hu hw p1 p2 q1 q2 cd ca cb
  subst hb hc hd
  have := hr.triangles
  rwa [rectNormal_z h2] at this

theorem square_polygon : ∃ P, polygonNew square none none = .ok P ∧ P.pts = square ∧ P.vn = some ⟨0, 0, 1⟩ ∧
    P.tri = squareTri := by
  have hc : arePointsCoplanar square = true := by
    have := coplanar_z [(0, 0), (4, 0), (4, 4), (0, 4)]
    simpa [square] using this
  refine polygonNew_intro hc (by simp [square]) ?_ (rect_triangulate (x1 := 4) (y1 := 0) (x2 := 0) (y2 := 4) (p := 4)
    (q := 4) (by ext <;> simp) (by ext <;> simp) (by ext <;> simp) (by norm_num) (by norm_num) (by norm_num)
    (by norm_num) (by norm_num) (by norm_num) (by norm_num) (by norm_num) (notEqual_x (by norm_num) (by norm_num))
    (notEqual_x (by norm_num) (by norm_num)) (notEqual_y (by norm_num) (by norm_num)))
  simp only [chooseNormal, square, List.getLast?_cons_cons, List.getLast?_singleton, List.getElem?_cons_zero,
    List.getElem?_cons_succ, Except.ok.injEq]
  exact normal_z (.inl rfl) (by norm_num)

theorem square_edges : cycEdges square = [(⟨0, 0, 0⟩, ⟨4, 0, 0⟩), (⟨4, 0, 0⟩, ⟨4, 4, 0⟩), (⟨4, 4, 0⟩, ⟨0, 4, 0⟩),
    (⟨0, 4, 0⟩, ⟨0, 0, 0⟩)] := rfl

theorem square_distinct : Distinct (fun p q => pointsEqual p q) square := by
  intro i j p q hi hj h
  match i, j, hi, hj with
  | 0, 0, _, _ | 1, 1, _, _ | 2, 2, _, _ | 3, 3, _, _ => rfl
  | 0, 1, hi, hj | 0, 2, hi, hj | 1, 0, hi, hj | 1, 3, hi, hj | 2, 0, hi, hj | 2, 3, hi, hj | 3, 1, hi, hj
  | 3, 2, hi, hj =>
    cases hi
    cases hj
    simp only at h
    rw [notEqual_x (by norm_num) (by norm_num)] at h
    cases h
  | 0, 3, hi, hj | 3, 0, hi, hj | 1, 2, hi, hj | 2, 1, hi, hj =>
    cases hi
    cases hj
    simp only at h
    rw [notEqual_y (by norm_num) (by norm_num)] at h
    cases h
  | n + 4, _, hi, _ => cases hi
  | _, n + 4, _, hj => cases hj

theorem square_flat : ∀ p ∈ square, Vec3.dot ⟨0, 0, 1⟩ p = 0 := by simp [square, Vec3.dot]

theorem square_inside {x y r s t : ℝ} (hr : 1 / 10 ≤ r) (hs : 1 / 10 ≤ s) (ht : 1 / 10 ≤ t) (h1 : r + s + t = 1)
    (hx : x = t * 4) (hy : y = r * 4) : Polygon.isPointInside ⟨x, y, 0⟩ square squareTri = .ok true := by
  obtain ⟨P, h, hp, hv, htri⟩ := square_polygon
  rw [← hp, ← htri]
  refine C71_accepts_partial (e := 0) h hv (by rw [hp]; exact square_flat) (.inl ?_)
  rw [hp, htri]
  refine ⟨(3, 0, 1), by simp [squareTri], _, _, _, rfl, rfl, rfl, ?_⟩
  subst hx hy
  refine wellInside_z (r := r) (s := s) (t := t) (by linarith) (by linarith) (by linarith) h1 (by ring) (by ring)
    (by norm_num) (by norm_num) (by norm_num) (by norm_num) (by norm_num) (by norm_num) ?_ ?_ ?_
  · nlinarith
  · nlinarith
  · have : s = 1 - r - t := by linarith
    subst this
    nlinarith

theorem square_first {x y : ℝ} (h : (∃ t : ℝ, 1 / 4 ≤ t ∧ t ≤ 3 / 4 ∧ x = 4 * t ∧ y = 0) ∨
    ∃ t : ℝ, 1 / 4 ≤ t ∧ t ≤ 3 / 4 ∧ x = 0 ∧ y = 4 * t) :
    Polygon.isPointInside ⟨x, y, 0⟩ square squareTri = .ok true := by
  obtain ⟨P, hP, hp, hv, htri⟩ := square_polygon
  rw [← hp, ← htri]
  refine C71_accepts_edge_partial (e := 0) hP hv (by rw [hp]; exact square_flat) ?_
  rw [hp, htri]
  refine ⟨(3, 0, 1), by simp [squareTri], _, _, _, rfl, rfl, rfl, ?_⟩
  rcases h with ⟨t, h0, h1, rfl, rfl⟩ | ⟨t, h0, h1, rfl, rfl⟩
  · right; left
    refine wellOnEdge_z (t := t) (by linarith) (by linarith) (by ring) (by ring) (by norm_num) (by norm_num) (by norm_num)
      (by norm_num) (by norm_num) ?_ ?_ <;> nlinarith
  · left
    refine wellOnEdge_z (t := 1 - t) (by linarith) (by linarith) (by ring) (by ring) (by norm_num) (by norm_num)
      (by norm_num) (by norm_num) (by norm_num) ?_ ?_ <;> nlinarith

theorem square_second {x y t : ℝ} (h0 : 1 / 4 ≤ t) (h1 : t ≤ 3 / 4) (hx : x = 4 * t) (hy : y = 4) :
    Polygon.isPointInside ⟨x, y, 0⟩ square squareTri = .ok true := by
  obtain ⟨P, hP, hp, hv, htri⟩ := square_polygon
  rw [← hp, ← htri]
  refine C71_accepts_edge_partial (e := 0) hP hv (by rw [hp]; exact square_flat) ?_
  rw [hp, htri]
  refine ⟨(3, 1, 2), by simp [squareTri], _, _, _, rfl, rfl, rfl, ?_⟩
  subst hx hy
  right; right
  refine wellOnEdge_z (t := 1 - t) (by linarith) (by linarith) (by ring) (by ring) (by norm_num) (by norm_num)
    (by norm_num) (by norm_num) (by norm_num) ?_ ?_ <;> nlinarith

theorem square_corners {x y : ℝ} (h : (1 ≤ x ∧ x ≤ 3) ∨ (1 ≤ y ∧ y ≤ 3)) :
    ∀ p ∈ square, pointsEqual (⟨x, y, 0⟩ : Vec3 ℝ) p = false := by
  intro p hp
  simp only [square, List.mem_cons, List.not_mem_nil, or_false] at hp
  have key : ∀ r s : ℝ, 1 ≤ r → r ≤ 3 → s = 0 ∨ s = 4 → 1 ≤ |r - s| ∧ |s| ≤ 100 := by
    rintro r s h1 h3 (rfl | rfl)
    · exact ⟨le_abs.2 (.inl (by linarith)), by norm_num⟩
    · exact ⟨le_abs.2 (.inr (by linarith)), by norm_num⟩
  rcases h with ⟨h1, h2⟩ | ⟨h1, h2⟩
  · have := key x p.x h1 h2 (by rcases hp with rfl | rfl | rfl | rfl <;> simp)
    exact notEqual_x this.1 this.2
  · have := key y p.y h1 h2 (by rcases hp with rfl | rfl | rfl | rfl <;> simp)
    exact notEqual_y this.1 this.2

theorem square_bottom {x : ℝ} (h1 : 1 ≤ x) (h3 : x ≤ 3) :
    locatePoint ⟨x, 0, 0⟩ square squareTri (cycEdges square) = .ok (.edge, 0) := by
  rw [locatePoint_inside (square_first (.inl ⟨x / 4, by linarith, by linarith, by ring, rfl⟩))
    (square_corners (.inl ⟨h1, h3⟩)), square_edges]
  exact locateEdge_hit (fun h => by simpa using congrArg Vec3.x h)
    ⟨x / 4, by linarith, by linarith, by ext <;> simp⟩

theorem square_left {y : ℝ} (h1 : 1 ≤ y) (h3 : y ≤ 3) :
    locatePoint ⟨0, y, 0⟩ square squareTri (cycEdges square) = .ok (.edge, 3) := by
  rw [locatePoint_inside (square_first (.inr ⟨y / 4, by linarith, by linarith, rfl, by ring⟩))
    (square_corners (.inr ⟨h1, h3⟩)), square_edges]
  rw [locateEdge_skip (fun h => by simpa using congrArg Vec3.x h) (away_z (by norm_num) (by nlinarith)),
    locateEdge_skip (fun h => by simpa using congrArg Vec3.y h) (away_z (by norm_num) (by nlinarith)),
    locateEdge_skip (fun h => by simpa using congrArg Vec3.x h) (away_z (by norm_num) (by nlinarith))]
  exact locateEdge_hit (fun h => by simpa using congrArg Vec3.y h)
    ⟨1 - y / 4, by linarith, by linarith, by ext <;> simp; ring⟩

theorem square_top {x : ℝ} (h1 : 1 ≤ x) (h3 : x ≤ 3) :
    locatePoint ⟨x, 4, 0⟩ square squareTri (cycEdges square) = .ok (.edge, 2) := by
  rw [locatePoint_inside (square_second (t := x / 4) (by linarith) (by linarith) (by ring) rfl)
    (square_corners (.inl ⟨h1, h3⟩)), square_edges]
  rw [locateEdge_skip (fun h => by simpa using congrArg Vec3.x h) (away_z (by norm_num) (by nlinarith)),
    locateEdge_skip (fun h => by simpa using congrArg Vec3.y h) (away_z (by norm_num) (by nlinarith))]
  exact locateEdge_hit (fun h => by simpa using congrArg Vec3.x h)
    ⟨1 - x / 4, by linarith, by linarith, by ext <;> simp; ring⟩

theorem square_interior {x y : ℝ} (hx : 1 ≤ x) (hy : 1 ≤ y) (h : x + y ≤ 3) :
    locatePoint ⟨x, y, 0⟩ square squareTri (cycEdges square) = .ok (.interior, 0) := by
  rw [locatePoint_inside (square_inside (r := y / 4) (s := 1 - y / 4 - x / 4) (t := x / 4) (by linarith) (by linarith)
    (by linarith) (by ring) (by ring) (by ring)) (square_corners (.inl ⟨hx, by linarith⟩)), square_edges]
  rw [locateEdge_skip (fun h => by simpa using congrArg Vec3.x h) (away_z (by norm_num) (by nlinarith)),
    locateEdge_skip (fun h => by simpa using congrArg Vec3.y h) (away_z (by norm_num) (by nlinarith)),
    locateEdge_skip (fun h => by simpa using congrArg Vec3.x h) (away_z (by norm_num) (by nlinarith)),
    locateEdge_skip (fun h => by simpa using congrArg Vec3.y h) (away_z (by norm_num) (by nlinarith)), locateEdge]

theorem square_polygonEdges : polygonEdges 0 square = .ok (cycEdges square) :=
  polygonEdges_eq 0 square (by simp [square])

/-- The square is cut from the bottom to the top. -/
theorem square_across : getPointArrays square squareTri [⟨1, 0, 0⟩, ⟨1, 4, 0⟩] =
    .ok ([⟨1, 0, 0⟩, ⟨1, 4, 0⟩, ⟨4, 4, 0⟩, ⟨4, 0, 0⟩], [⟨1, 0, 0⟩, ⟨1, 4, 0⟩, ⟨0, 4, 0⟩, ⟨0, 0, 0⟩]) := by
  have l0 := lastMatch_eq (fun p => pointsEqual_refl p) square_distinct (k := 0) rfl
  have l1 := lastMatch_eq (fun p => pointsEqual_refl p) square_distinct (k := 1) rfl
  have l2 := lastMatch_eq (fun p => pointsEqual_refl p) square_distinct (k := 2) rfl
  have l3 := lastMatch_eq (fun p => pointsEqual_refl p) square_distinct (k := 3) rfl
  have hl : locatePoints [⟨1, 0, 0⟩, ⟨1, 4, 0⟩] square squareTri (cycEdges square) =
      .ok [(⟨1, 0, 0⟩, .edge, 0), (⟨1, 4, 0⟩, .edge, 2)] := by
    simp [locatePoints, locateAll, square_bottom (le_refl (1 : ℝ)) (by norm_num),
      square_top (le_refl (1 : ℝ)) (by norm_num)]
  simp only [getPointArrays, square_polygonEdges, hl]
  have h2 : ∀ (turn : Except PyErr Bool), arrays (fun p q => pointsEqual p q) turn square (cycEdges square)
      [((⟨1, 0, 0⟩ : Vec3 ℝ), Kind.edge, 0), (⟨1, 4, 0⟩, .edge, 2)] =
      caseEdges (fun p q => pointsEqual p q) square (cycEdges square) [⟨1, 0, 0⟩, ⟨1, 4, 0⟩] 0 2 := by
    intro turn
    simp [arrays, count, numbersAt]
  rw [if_neg (by simp), h2, square_edges]
  simp only [caseEdges, List.getElem?_cons_zero, List.getElem?_cons_succ, l0, l1, l2, l3]
  simp [square, walk, stepBack, stepOn]

theorem square_exact_bottom {x : ℝ} (h1 : 1 ≤ x) (h3 : x ≤ 3) : ExactAt square ⟨x, 0, 0⟩ (.edge, 0) :=
  .inr ⟨rfl, _, _, rfl, rfl, x / 4, by linarith, by linarith, by ext <;> simp⟩

theorem square_exact_top {x : ℝ} (h1 : 1 ≤ x) (h3 : x ≤ 3) : ExactAt square ⟨x, 4, 0⟩ (.edge, 2) :=
  .inr ⟨rfl, _, _, rfl, rfl, 1 - x / 4, by linarith, by linarith, by ext <;> simp; ring⟩

/-- The line across the square is good. -/
theorem across_good : GoodLine square squareTri [⟨1, 0, 0⟩, ⟨1, 4, 0⟩] := by
  have b1 := square_bottom (le_refl (1 : ℝ)) (by norm_num)
  have t1 := square_top (le_refl (1 : ℝ)) (by norm_num)
  refine ⟨square_distinct, ?_, ?_⟩
  · intro q hq
    simp only [List.head?_cons, List.getLast?_cons_cons, List.getLast?_singleton, Option.some.injEq] at hq
    rcases hq with rfl | rfl
    · exact ⟨_, b1, square_exact_bottom (le_refl _) (by norm_num)⟩
    · exact ⟨_, t1, square_exact_top (le_refl _) (by norm_num)⟩
  · intro x y e hx hy h1 h2
    simp only [List.head?_cons, List.getLast?_cons_cons, List.getLast?_singleton, Option.some.injEq] at hx hy
    subst hx hy
    rw [b1] at h1
    rw [t1] at h2
    cases h1
    cases h2

/-- A rectangle given clockwise is turned around. -/
theorem triangulate_quad_cw {a b c d v : Vec3 ℝ} (h0 : ¬ isClose (Vec3.norm v) 0 NP_RTOL NP_ATOL)
    (h1 : isCornerConvex v a d c = .ok false) (h2 : isCornerConvex v d c b = .ok false)
    (h3 : isCornerConvex v c b a = .ok false) (h4 : isCornerConvex v b a d = .ok false)
    (h6 : isCornerConvex v d a b = .ok true) (h7 : Triangles.isPointInside c d a b = .ok false)
    (h8 : isCornerConvex v d b c = .ok true) :
    triangulate 10 [d, c, b, a] v = some (.ok ([a, b, c, d], [(3, 0, 1), (3, 1, 2)])) := by
  simp [triangulate, triangulateTries, h0, run, step, initState, List.range, List.range.loop, h1, h2, h3,
    h4, h6, h7, h8, anyPointInside]

/-- Where a line along the x axis and a line along the y axis cross. -/
theorem intersection_xy {x0 x1 y x y0 y1 t s : ℝ} (hx : 1 ≤ |x1 - x0|) (hy : 1 ≤ |y1 - y0|) (t0 : 0 ≤ t) (t1 : t ≤ 1)
    (s0 : 0 ≤ s) (s1 : s ≤ 1) (ht : x = x0 + t * (x1 - x0)) (hs : y = y0 + s * (y1 - y0)) :
    lineSegmentIntersection ⟨x0, y, 0⟩ ⟨x1, y, 0⟩ ⟨x, y0, 0⟩ ⟨x, y1, 0⟩ = some (⟨x, y, 0⟩ : Vec3 ℝ) := by
  have e1 : (⟨x1, y, 0⟩ : Vec3 ℝ) - ⟨x0, y, 0⟩ = ⟨x1 - x0, 0, 0⟩ := by ext <;> simp
  have e2 : (⟨x, y1, 0⟩ : Vec3 ℝ) - ⟨x, y0, 0⟩ = ⟨0, y1 - y0, 0⟩ := by ext <;> simp
  have big : ∀ r : ℝ, 1 ≤ |r| → ¬ |r| ≤ NP_ATOL := by
    intro r h h2
    norm_num [NP_ATOL] at h2
    linarith
  have hu : ∀ (a : Vec3 ℝ) (r : ℝ), Vec3.normSq a = r ^ 2 → 1 ≤ |r| → |1 / Vec3.norm a * r| = 1 := by
    intro a r h h1
    have : Vec3.norm a = |r| := norm_of_sq (abs_nonneg r) (by rw [h, sq_abs])
    rw [this, abs_mul, abs_div, abs_abs, abs_one, one_div, inv_mul_cancel₀ (by linarith)]
  have := C37_complete_partial (pa1 := ⟨x0, y, 0⟩) (pb1 := ⟨x1, y, 0⟩) (pa2 := ⟨x, y0, 0⟩) (pb2 := ⟨x, y1, 0⟩)
    (t := t) (s := s) ?_ ?_ ?_ ⟨t0, t1⟩ ⟨s0, s1⟩ ?_
  · rw [this, e1]
    congr 1
    ext <;> simp [ht]
  · rw [e1]
    rintro ⟨h, -⟩
    exact big _ hx (by simpa [isClose] using h)
  · rw [e2]
    rintro ⟨-, h, -⟩
    exact big _ hy (by simpa [isClose] using h)
  · rw [e1, e2]
    have h1 := hu ⟨x1 - x0, 0, 0⟩ (x1 - x0) (by simp [Vec3.normSq, Vec3.dot]; ring) hx
    rintro (⟨h, -⟩ | ⟨h, -⟩)
    · apply big _ h1.ge
      simpa [isClose, unit] using h
    · apply big _ h1.ge
      simpa [isClose, unit] using h
  · rw [e1, e2]
    ext <;> simp [ht, hs]

theorem intersection_yy {a b c d y0 y1 y2 y3 : ℝ} {k : ℝ} (h : y3 - y2 = k * (y1 - y0)) (hb : b = a) (hd : d = c) :
    lineSegmentIntersection ⟨a, y0, 0⟩ ⟨b, y1, 0⟩ ⟨c, y2, 0⟩ ⟨d, y3, 0⟩ = none := by
  subst hb hd
  have e1 : (⟨b, y1, 0⟩ : Vec3 ℝ) - ⟨b, y0, 0⟩ = ⟨0, y1 - y0, 0⟩ := by ext <;> simp
  have e2 : (⟨d, y3, 0⟩ : Vec3 ℝ) - ⟨d, y2, 0⟩ = k • ⟨0, y1 - y0, 0⟩ := by ext <;> simp [h]
  rw [lineSegmentIntersection, e1, e2, (C37_parallel _ _ _ _).1]

/-- The ends of the line across are all the points where it meets the square. -/
theorem across_intersections : addIntersectionPoints square [⟨1, 0, 0⟩, ⟨1, 4, 0⟩] =
    .ok (square, [⟨1, 0, 0⟩, ⟨1, 4, 0⟩]) := by
  have he : polygonEdges 0 ([⟨1, 0, 0⟩, ⟨1, 4, 0⟩] : List (Vec3 ℝ)) =
      .ok [(⟨1, 0, 0⟩, ⟨1, 4, 0⟩), (⟨1, 4, 0⟩, ⟨1, 0, 0⟩)] := polygonEdges_eq 0 _ (by simp)
  have b1 : lineSegmentIntersection ⟨0, 0, 0⟩ ⟨4, 0, 0⟩ ⟨1, 0, 0⟩ ⟨1, 4, 0⟩ = some (⟨1, 0, 0⟩ : Vec3 ℝ) :=
    intersection_xy (t := 1 / 4) (s := 0) (by norm_num) (by norm_num) (by norm_num) (by norm_num) (by norm_num)
      (by norm_num) (by norm_num) (by norm_num)
  have b2 : lineSegmentIntersection ⟨0, 0, 0⟩ ⟨4, 0, 0⟩ ⟨1, 4, 0⟩ ⟨1, 0, 0⟩ = some (⟨1, 0, 0⟩ : Vec3 ℝ) :=
    intersection_xy (t := 1 / 4) (s := 1) (by norm_num) (by norm_num) (by norm_num) (by norm_num) (by norm_num)
      (by norm_num) (by norm_num) (by norm_num)
  have t1 : lineSegmentIntersection ⟨4, 4, 0⟩ ⟨0, 4, 0⟩ ⟨1, 0, 0⟩ ⟨1, 4, 0⟩ = some (⟨1, 4, 0⟩ : Vec3 ℝ) :=
    intersection_xy (t := 3 / 4) (s := 1) (by norm_num) (by norm_num) (by norm_num) (by norm_num) (by norm_num)
      (by norm_num) (by norm_num) (by norm_num)
  have t2 : lineSegmentIntersection ⟨4, 4, 0⟩ ⟨0, 4, 0⟩ ⟨1, 4, 0⟩ ⟨1, 0, 0⟩ = some (⟨1, 4, 0⟩ : Vec3 ℝ) :=
    intersection_xy (t := 3 / 4) (s := 0) (by norm_num) (by norm_num) (by norm_num) (by norm_num) (by norm_num)
      (by norm_num) (by norm_num) (by norm_num)
  have r1 : lineSegmentIntersection (⟨4, 0, 0⟩ : Vec3 ℝ) ⟨4, 4, 0⟩ ⟨1, 0, 0⟩ ⟨1, 4, 0⟩ = none :=
    intersection_yy (k := 1) (by norm_num) rfl rfl
  have r2 : lineSegmentIntersection (⟨4, 0, 0⟩ : Vec3 ℝ) ⟨4, 4, 0⟩ ⟨1, 4, 0⟩ ⟨1, 0, 0⟩ = none :=
    intersection_yy (k := -1) (by norm_num) rfl rfl
  have l1 : lineSegmentIntersection (⟨0, 4, 0⟩ : Vec3 ℝ) ⟨0, 0, 0⟩ ⟨1, 0, 0⟩ ⟨1, 4, 0⟩ = none :=
    intersection_yy (k := -1) (by norm_num) rfl rfl
  have l2 : lineSegmentIntersection (⟨0, 4, 0⟩ : Vec3 ℝ) ⟨0, 0, 0⟩ ⟨1, 4, 0⟩ ⟨1, 0, 0⟩ = none :=
    intersection_yy (k := 1) (by norm_num) rfl rfl
  have hi : intersections (cycEdges square) [(⟨1, 0, 0⟩, ⟨1, 4, 0⟩), (⟨1, 4, 0⟩, ⟨1, 0, 0⟩)] = [] := by
    simp [intersections, square_edges, b1, b2, t1, t2, r1, r2, l1, l2, pointsEqual_refl]
  simp only [addIntersectionPoints, square_polygonEdges, he, hi]
  rw [square_edges]
  simp [square]

theorem across_kept : removeRedundantPoints [⟨1, 0, 0⟩, ⟨1, 4, 0⟩] square squareTri = .ok [⟨1, 0, 0⟩, ⟨1, 4, 0⟩] := by
  have hl : locatePoints [⟨1, 0, 0⟩, ⟨1, 4, 0⟩] square squareTri (cycEdges square) =
      .ok [(⟨1, 0, 0⟩, .edge, 0), (⟨1, 4, 0⟩, .edge, 2)] := by
    simp [locatePoints, locateAll, square_bottom (le_refl (1 : ℝ)) (by norm_num),
      square_top (le_refl (1 : ℝ)) (by norm_num)]
  simp only [removeRedundantPoints, square_polygonEdges, hl]
  simp [rollAndKeep, keepPoints, keepLoop, keepPoint, nextLoc, count]

/-- Slicing the square along the line across it gives two rectangles. -/
theorem across_polygons : ∃ P Q1 Q2 : Poly, polygonNew square none none = .ok P ∧ P.vn = some ⟨0, 0, 1⟩ ∧
    (∃ pts1 pts2, getPointArrays P.pts P.tri [⟨1, 0, 0⟩, ⟨1, 4, 0⟩] = .ok (pts1, pts2) ∧
      polygonNew pts1 none P.vn = .ok Q1 ∧ polygonNew pts2 none P.vn = .ok Q2) ∧
    2 ≤ P.pts.length ∧ GoodLine P.pts P.tri [⟨1, 0, 0⟩, ⟨1, 4, 0⟩] ∧
    P.pts = square ∧ P.tri = squareTri ∧ P.area = some 16 ∧ Q1.area = some 12 ∧ Q2.area = some 4 ∧
    Q1.pts = [⟨4, 0, 0⟩, ⟨4, 4, 0⟩, ⟨1, 4, 0⟩, ⟨1, 0, 0⟩] ∧ Q2.pts = [⟨1, 0, 0⟩, ⟨1, 4, 0⟩, ⟨0, 4, 0⟩, ⟨0, 0, 0⟩] := by
  obtain ⟨P, hP, hp, hv, htri⟩ := square_polygon
  have hin : Triangles.isPointInside (⟨1, 4, 0⟩ : Vec3 ℝ) ⟨1, 0, 0⟩ ⟨4, 0, 0⟩ ⟨4, 4, 0⟩ = .ok false := by
    have := (rect_good (a := ⟨4, 0, 0⟩) (b := ⟨4, 4, 0⟩) (c := ⟨1, 4, 0⟩) (d := ⟨1, 0, 0⟩) (x1 := 0) (y1 := 4) (x2 := -3)
      (y2 := 0) (p := 4) (q := 3) (by ext <;> simp) (by ext <;> norm_num) (by ext <;> norm_num) (by norm_num)
      (by norm_num) (by norm_num) (by norm_num) (by norm_num) (by norm_num) (by norm_num)
      (notEqual_y (by norm_num) (by norm_num)) (notEqual_x (by norm_num) (by norm_num))
      (notEqual_x (by norm_num) (by norm_num))).inside
    have e1 : (⟨4, 0, 0⟩ + ⟨0, 4, 0⟩ + ⟨-3, 0, 0⟩ : Vec3 ℝ) = ⟨1, 4, 0⟩ := by ext <;> norm_num
    have e2 : (⟨4, 0, 0⟩ + ⟨-3, 0, 0⟩ : Vec3 ℝ) = ⟨1, 0, 0⟩ := by ext <;> norm_num
    have e3 : (⟨4, 0, 0⟩ + ⟨0, 4, 0⟩ : Vec3 ℝ) = ⟨4, 4, 0⟩ := by ext <;> norm_num
    rwa [e1, e2, e3] at this
  have c1 : arePointsCoplanar ([⟨1, 0, 0⟩, ⟨1, 4, 0⟩, ⟨4, 4, 0⟩, ⟨4, 0, 0⟩] : List (Vec3 ℝ)) = true := by
    have := coplanar_z [(1, 0), (1, 4), (4, 4), (4, 0)]
    simpa using this
  have c2 : arePointsCoplanar ([⟨1, 0, 0⟩, ⟨1, 4, 0⟩, ⟨0, 4, 0⟩, ⟨0, 0, 0⟩] : List (Vec3 ℝ)) = true := by
    have := coplanar_z [(1, 0), (1, 4), (0, 4), (0, 0)]
    simpa using this
  obtain ⟨Q1, g1, gp1, gv1, -⟩ := polygonNew_intro (vn := some ⟨0, 0, 1⟩) (v := ⟨0, 0, 1⟩) c1 (by simp) rfl
    (triangulate_quad_cw (unit_z (.inl rfl)) (isCornerConvex_z (.inl rfl) (by norm_num))
      (isCornerConvex_z (.inl rfl) (by norm_num)) (isCornerConvex_z (.inl rfl) (by norm_num))
      (isCornerConvex_z (.inl rfl) (by norm_num)) (isCornerConvex_z (.inl rfl) (by norm_num)) hin
      (isCornerConvex_z (.inl rfl) (by norm_num)))
  obtain ⟨Q2, g2, gp2, gv2, -⟩ := polygonNew_intro (vn := some ⟨0, 0, 1⟩) (v := ⟨0, 0, 1⟩) c2 (by simp) rfl
    (rect_triangulate (x1 := 0) (y1 := 4) (x2 := -1) (y2 := 0) (p := 4)
    (q := 1) (by ext <;> simp) (by ext <;> simp) (by ext <;> simp) (by norm_num) (by norm_num) (by norm_num)
    (by norm_num) (by norm_num) (by norm_num) (by norm_num) (by norm_num) (notEqual_y (by norm_num) (by norm_num))
    (notEqual_x (by norm_num) (by norm_num)) (notEqual_x (by norm_num) (by norm_num)))
  have area : ∀ {q : List (Vec3 ℝ)} {nv : Option (Vec3 ℝ)} {Q : Poly}, polygonNew q none nv = .ok Q →
      Q.vn = some ⟨0, 0, 1⟩ → Q.area = some (Vec3.dot (cycSum Vec3.cross Q.pts) ⟨0, 0, 1⟩ / 2) := by
    intro q nv Q h hv
    obtain ⟨v, hv', -, -, -, -, ⟨a, ha, -, e⟩, -⟩ := C70_orientation h
    rw [hv, Option.some.injEq] at hv'
    rw [ha, e, hv']
  refine ⟨P, Q1, Q2, hP, hv, ⟨_, _, by rw [hp, htri]; exact square_across, by rw [hv]; exact g1, by rw [hv]; exact g2⟩,
    by rw [hp]; simp [square], by rw [hp, htri]; exact across_good, hp, htri, ?_, ?_, ?_, gp1, gp2⟩
  · rw [area hP hv, hp]
    norm_num [square, cycSum, pathSum, Vec3.dot]
  · rw [area g1 gv1, gp1]
    norm_num [square, cycSum, pathSum, Vec3.dot]
  · rw [area g2 gv2, gp2]
    norm_num [square, cycSum, pathSum, Vec3.dot]

/-- Slicing the square meets the hypotheses of the theorems on C41. -/
example : ∃ (P : Poly) (part1 part2 : String × Poly), polygonNew square none none = .ok P ∧
    slicePolygon P [⟨1, 0, 0⟩, ⟨1, 4, 0⟩] none (some "right") none (some "left") "a" "b" = .ok (part1, part2) ∧
    (∀ o s1 s2, addIntersectionPoints P.pts [⟨1, 0, 0⟩, ⟨1, 4, 0⟩] = .ok (o, s1) →
      removeRedundantPoints s1 P.pts P.tri = .ok s2 → GoodLine P.pts P.tri s2) ∧
    P.area = some 16 ∧ part1.2.area = some 12 ∧ part2.2.area = some 4 ∧ part1.1 = "right" ∧ part2.1 = "left" := by
  obtain ⟨P, Q1, Q2, hP, hv, ⟨pts1, pts2, h1, h2, h3⟩, -, hg, hp, htri, a, a1, a2, -⟩ := across_polygons
  have hc : arePointsCoplanar (P.pts ++ ([⟨1, 0, 0⟩, ⟨1, 4, 0⟩] : List (Vec3 ℝ))) = true := by
    have := coplanar_z [(0, 0), (4, 0), (4, 4), (0, 4), (1, 0), (1, 4)]
    rw [hp]
    simpa [square] using this
  have e1 : Q1.vn = some ⟨0, 0, 1⟩ := by
    obtain ⟨w, hw, e, -⟩ := C70_orientation h2
    rw [hw, e _ hv]
  have e2 : Q2.vn = some ⟨0, 0, 1⟩ := by
    obtain ⟨w, hw, e, -⟩ := C70_orientation h3
    rw [hw, e _ hv]
  have i1 : addIntersectionPoints P.pts [⟨1, 0, 0⟩, ⟨1, 4, 0⟩] = .ok (square, [⟨1, 0, 0⟩, ⟨1, 4, 0⟩]) := by
    rw [hp, across_intersections]
  have i2 : removeRedundantPoints [⟨1, 0, 0⟩, ⟨1, 4, 0⟩] P.pts P.tri = .ok [⟨1, 0, 0⟩, ⟨1, 4, 0⟩] := by
    rw [hp, htri, across_kept]
  refine ⟨P, ("right", Q1), ("left", Q2), hP, ?_, ?_, a, a1, a2, rfl, rfl⟩
  · have hm : makePolygons P.vn pts1 pts2 none (some "right") none (some "left") "a" "b" =
        .ok (("right", Q1), ("left", Q2)) := by
      simp [makePolygons, h2, h3, nameParts, chooseNames]
    simp only [slicePolygon, hc, i1, i2, h1, hm]
    rw [hv, checkNormal_ok e1]
    simp only
    rw [checkNormal_ok e2]
    simp
  · intro o s1 s2 g1 g2
    rw [i1] at g1
    cases g1
    rw [i2] at g2
    cases g2
    exact hg

/-- A notch in the bottom of the square: the line that cuts it out is good. -/
example : GoodLine square squareTri [⟨1, 0, 0⟩, ⟨1, 1, 0⟩, ⟨2, 1, 0⟩, ⟨2, 0, 0⟩] ∧
    ∃ pts1 pts2, getPointArrays square squareTri [⟨1, 0, 0⟩, ⟨1, 1, 0⟩, ⟨2, 1, 0⟩, ⟨2, 0, 0⟩] = .ok (pts1, pts2) := by
  have b1 := square_bottom (le_refl (1 : ℝ)) (by norm_num)
  have b2 := square_bottom (x := 2) (by norm_num) (by norm_num)
  have i1 := square_interior (x := 1) (y := 1) (by norm_num) (by norm_num) (by norm_num)
  have i2 := square_interior (x := 2) (y := 1) (by norm_num) (by norm_num) (by norm_num)
  have n1 : normal (⟨0, 4, 0⟩ : Vec3 ℝ) ⟨0, 0, 0⟩ ⟨4, 0, 0⟩ = some ⟨0, 0, 1⟩ := normal_z (.inl rfl) (by norm_num)
  have n2 : normal (⟨2, 0, 0⟩ : Vec3 ℝ) ⟨1, 0, 0⟩ ⟨1, 1, 0⟩ = some ⟨0, 0, -1⟩ := normal_z (.inr rfl) (by norm_num)
  refine ⟨⟨square_distinct, ?_, ?_⟩, ?_⟩
  · intro q hq
    simp only [List.head?_cons, List.getLast?_cons_cons, List.getLast?_singleton, Option.some.injEq] at hq
    rcases hq with rfl | rfl
    · exact ⟨_, b1, square_exact_bottom (le_refl _) (by norm_num)⟩
    · exact ⟨_, b2, square_exact_bottom (by norm_num) (by norm_num)⟩
  · intro x y e hx hy h1 h2
    simp only [List.head?_cons, List.getLast?_cons_cons, List.getLast?_singleton, Option.some.injEq] at hx hy
    subst hx hy
    rw [b1] at h1
    cases h1
    refine ⟨_, _, rfl, rfl, ?_⟩
    rintro l p0 p1 v s0 s1 hl h0 h1 hn g0 g1
    cases hl; cases h0; cases h1; cases g0; cases g1
    obtain rfl : v = ⟨0, 0, 1⟩ := Option.some.inj (hn.symm.trans n1)
    norm_num [Vec3.dot]
  · have hl : locatePoints [⟨1, 0, 0⟩, ⟨1, 1, 0⟩, ⟨2, 1, 0⟩, ⟨2, 0, 0⟩] square squareTri (cycEdges square) =
        .ok [(⟨1, 0, 0⟩, .edge, 0), (⟨1, 1, 0⟩, .interior, 0), (⟨2, 1, 0⟩, .interior, 0), (⟨2, 0, 0⟩, .edge, 0)] := by
      simp [locatePoints, locateAll, b1, b2, i1, i2]
    have ht : turnNeeded square [⟨1, 0, 0⟩, ⟨1, 1, 0⟩, ⟨2, 1, 0⟩, ⟨2, 0, 0⟩] = .ok false := by
      simp only [turnNeeded, square, List.getLast?_cons_cons, List.getLast?_singleton, List.getElem?_cons_zero,
        List.getElem?_cons_succ, n1, n2]
      rw [if_pos]
      norm_num [allClose, isClose, NP_RTOL, NP_ATOL]
    simp only [getPointArrays, square_polygonEdges, hl, ht]
    rw [if_neg (by simp)]
    simp [arrays, count, numbersAt, caseSameEdge, square_edges]

/-- **C41, the surprising case.**  A notch cut out of the edge from the last point to the first one is put after the
first point of the polygon instead of the last one: the remaining part crosses itself, and the polygon is not cut along
the line.  The areas of the parts of this square are 1 and 13 instead of 1 and 15. -/
theorem C41_closing_edge : ∃ s pts1 pts2 : List (Vec3 ℝ),
    (∃ P, polygonNew square none none = .ok P ∧ P.pts = square ∧ getPointArrays P.pts P.tri s = .ok (pts1, pts2)) ∧
    ¬ Cuts square s pts1 pts2 ∧
    pts2 = [⟨0, 0, 0⟩, ⟨0, 2, 0⟩, ⟨1, 2, 0⟩, ⟨1, 1, 0⟩, ⟨0, 1, 0⟩, ⟨4, 0, 0⟩, ⟨4, 4, 0⟩, ⟨0, 4, 0⟩] ∧
    |Vec3.dot (cycSum Vec3.cross square) ⟨0, 0, 1⟩ / 2| = 16 ∧
    |Vec3.dot (cycSum Vec3.cross pts1) ⟨0, 0, 1⟩ / 2| = 1 ∧ |Vec3.dot (cycSum Vec3.cross pts2) ⟨0, 0, 1⟩ / 2| = 13 := by
  have b1 := square_left (le_refl (1 : ℝ)) (by norm_num)
  have b2 := square_left (y := 2) (by norm_num) (by norm_num)
  have i1 := square_interior (x := 1) (y := 1) (by norm_num) (by norm_num) (by norm_num)
  have i2 := square_interior (x := 1) (y := 2) (by norm_num) (by norm_num) (by norm_num)
  have n1 : normal (⟨0, 4, 0⟩ : Vec3 ℝ) ⟨0, 0, 0⟩ ⟨4, 0, 0⟩ = some ⟨0, 0, 1⟩ := normal_z (.inl rfl) (by norm_num)
  have n2 : normal (⟨0, 2, 0⟩ : Vec3 ℝ) ⟨0, 1, 0⟩ ⟨1, 1, 0⟩ = some ⟨0, 0, 1⟩ := normal_z (.inl rfl) (by norm_num)
  have hl : locatePoints [⟨0, 1, 0⟩, ⟨1, 1, 0⟩, ⟨1, 2, 0⟩, ⟨0, 2, 0⟩] square squareTri (cycEdges square) =
      .ok [(⟨0, 1, 0⟩, .edge, 3), (⟨1, 1, 0⟩, .interior, 0), (⟨1, 2, 0⟩, .interior, 0), (⟨0, 2, 0⟩, .edge, 3)] := by
    simp [locatePoints, locateAll, b1, b2, i1, i2]
  have ht : turnNeeded square [⟨0, 1, 0⟩, ⟨1, 1, 0⟩, ⟨1, 2, 0⟩, ⟨0, 2, 0⟩] = .ok true := by
    simp only [turnNeeded, square, List.getLast?_cons_cons, List.getLast?_singleton, List.getElem?_cons_zero,
      List.getElem?_cons_succ, n1, n2]
    rw [if_neg, if_pos]
    · norm_num [allClose, isClose, NP_RTOL, NP_ATOL]
    · norm_num [allClose, isClose, NP_RTOL, NP_ATOL]
  have hg : getPointArrays square squareTri [⟨0, 1, 0⟩, ⟨1, 1, 0⟩, ⟨1, 2, 0⟩, ⟨0, 2, 0⟩] =
      .ok ([⟨0, 1, 0⟩, ⟨1, 1, 0⟩, ⟨1, 2, 0⟩, ⟨0, 2, 0⟩],
        [⟨0, 0, 0⟩, ⟨0, 2, 0⟩, ⟨1, 2, 0⟩, ⟨1, 1, 0⟩, ⟨0, 1, 0⟩, ⟨4, 0, 0⟩, ⟨4, 4, 0⟩, ⟨0, 4, 0⟩]) := by
    simp only [getPointArrays, square_polygonEdges, hl, ht]
    rw [if_neg (by simp)]
    simp only [square_edges]
    simp [arrays, count, numbersAt, caseSameEdge, square, insertAfter, pointsEqual_refl]
  have a0 : Vec3.dot (cycSum Vec3.cross square) ⟨0, 0, 1⟩ = 32 := by norm_num [square, cycSum, pathSum, Vec3.dot]
  have a1 : Vec3.dot (cycSum Vec3.cross ([⟨0, 1, 0⟩, ⟨1, 1, 0⟩, ⟨1, 2, 0⟩, ⟨0, 2, 0⟩] : List (Vec3 ℝ))) ⟨0, 0, 1⟩ = 2 := by
    norm_num [cycSum, pathSum, Vec3.dot]
  have a2 : Vec3.dot (cycSum Vec3.cross ([⟨0, 0, 0⟩, ⟨0, 2, 0⟩, ⟨1, 2, 0⟩, ⟨1, 1, 0⟩, ⟨0, 1, 0⟩, ⟨4, 0, 0⟩, ⟨4, 4, 0⟩,
      ⟨0, 4, 0⟩] : List (Vec3 ℝ))) ⟨0, 0, 1⟩ = 26 := by
    norm_num [cycSum, pathSum, Vec3.dot]
  obtain ⟨P, hP, hp, -, htri⟩ := square_polygon
  refine ⟨_, _, _, ⟨P, hP, hp, by rw [hp, htri]; exact hg⟩, ?_, rfl, ?_, ?_, ?_⟩
  · intro hc
    obtain ⟨A, B, hA, hB, hs, -⟩ := C41_sums hc
    have rev : ∀ l : List (Vec3 ℝ), cycSum Vec3.cross l.reverse = -cycSum Vec3.cross l := fun l =>
      cycSum_reverse Vec3.cross cross_antisymm l
    have hs' := congrArg (fun p => Vec3.dot p ⟨0, 0, 1⟩) hs
    simp only [Vec3.dot_add_left, a0] at hs'
    rcases hA with rfl | rfl <;> rcases hB with rfl | rfl <;>
      simp only [rev, Vec3.dot_neg_left, a1, a2] at hs' <;> norm_num at hs'
  · rw [a0]; norm_num
  · rw [a1]; norm_num
  · rw [a2]; norm_num

end B3d.Slice
