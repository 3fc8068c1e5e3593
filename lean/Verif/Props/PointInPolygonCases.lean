import Verif.Props.PointInPolygon

/-!
# C71: concrete polygons

Instances of the hypotheses of the theorems on C71, and points for which the tests give wrong answers.
-/

namespace B3d.Polygon

open Spec Triangles Points

theorem norm_of_sq {a : Vec3 ℝ} {r : ℝ} (hr : 0 ≤ r) (h : Vec3.normSq a = r ^ 2) : Vec3.norm a = r := by
  unfold Vec3.norm
  rw [h, Real.sqrt_sq hr]

theorem centroidTerms_ok {pts : List (Vec3 ℝ)} : ∀ tri : List Tri,
    (∀ t ∈ tri, TriangleWith pts t fun _ _ _ => True) → ∃ l, centroidTerms pts tri = .ok l
  | [], _ => ⟨[], rfl⟩
  | (i, j, k) :: ts, h => by
    obtain ⟨l, hl⟩ := centroidTerms_ok ts fun t ht => h t (List.mem_cons_of_mem _ ht)
    obtain ⟨a, b, c, ha, hb, hc, -⟩ := h _ List.mem_cons_self
    simp only at ha hb hc
    unfold centroidTerms
    simp only [ha, hb, hc, hl]
    exact ⟨_, rfl⟩

/-- The constructor succeeds when the triangulation does. -/
theorem polygonNew_intro {pts pts' : List (Vec3 ℝ)} {vn : Option (Vec3 ℝ)} {v : Vec3 ℝ} {tri : List Tri}
    (hp : Points.arePointsCoplanar pts = true) (hn : 3 ≤ pts.length) (hv : chooseNormal pts vn = .ok (some v))
    (ht : triangulate (2 * pts.length + 2) pts v = some (.ok (pts', tri))) :
    ∃ P, polygonNew pts none vn = .ok P ∧ P.pts = pts' ∧ P.vn = some v ∧ P.tri = tri := by
  obtain ⟨h1, h2, h3⟩ := C20_triangulate_valid _ _ _ _ _ _ _ hn ht
  have hlen : pts'.length = pts.length := by rcases h1 with h1 | h1 <;> rw [h1]; simp
  obtain ⟨l, hl⟩ := centroidTerms_ok (pts := pts') tri (by
    rintro ⟨i, j, k⟩ hm
    obtain ⟨-, -, -, -, -, -, -, a, b, c, ha, hb, hc, -⟩ := h3 i j k hm
    exact ⟨a, b, c, ha, hb, hc, trivial⟩)
  obtain ⟨pc, hpc⟩ : ∃ pc, planeCoefficients pts' = .ok pc := by
    match pts', hlen with
    | p0 :: p1 :: rest, _ =>
      unfold planeCoefficients
      rw [List.getLast?_eq_some_getLast (by simp)]
      exact ⟨_, rfl⟩
    | [_], hlen => simp at hlen; omega
    | [], hlen => simp at hlen; omega
  refine ⟨⟨pts', some v, tri, l.foldl (fun ctr t => ctr + t.2 • t.1) 0, some (polygonArea pts' v), pc⟩, ?_, rfl, rfl,
    rfl⟩
  have ht0 : ¬ tri.length = 0 := by omega
  simp only [polygonNew, hp, hv, chooseTriangles, ht, polygonCentroid, if_neg ht0, hl, hpc, Bool.true_eq_false,
    if_false, if_neg (not_not.2 hn), Option.map_some]

/-- A triangle in a horizontal plane. -/
theorem triangle_z {x1 y1 x2 y2 x3 y3 : ℝ} (z : ℝ) (hD : 1 ≤ (x2 - x1) * (y3 - y2) - (y2 - y1) * (x3 - x2)) :
    ∃ P, polygonNew [⟨x1, y1, z⟩, ⟨x2, y2, z⟩, ⟨x3, y3, z⟩] none none = .ok P ∧
      P.pts = [⟨x1, y1, z⟩, ⟨x2, y2, z⟩, ⟨x3, y3, z⟩] ∧ P.vn = some ⟨0, 0, 1⟩ ∧ P.tri = [(2, 0, 1)] := by
  have hc : Points.arePointsCoplanar ([⟨x1, y1, z⟩, ⟨x2, y2, z⟩, ⟨x3, y3, z⟩] : List (Vec3 ℝ)) = true := by
    simp [Points.arePointsCoplanar]
  have hn : chooseNormal [(⟨x1, y1, z⟩ : Vec3 ℝ), ⟨x2, y2, z⟩, ⟨x3, y3, z⟩] none = .ok (some ⟨0, 0, 1⟩) := by
    simp only [chooseNormal, List.getLast?_cons_cons, List.getLast?_singleton, List.getElem?_cons_zero,
      List.getElem?_cons_succ, Except.ok.injEq]
    exact normal_z (.inl rfl) (by linarith)
  have ht : triangulate 8 [(⟨x1, y1, z⟩ : Vec3 ℝ), ⟨x2, y2, z⟩, ⟨x3, y3, z⟩] ⟨0, 0, 1⟩ =
      some (.ok ([⟨x1, y1, z⟩, ⟨x2, y2, z⟩, ⟨x3, y3, z⟩], [(2, 0, 1)])) := by
    have h1 : isCornerConvex ⟨0, 0, 1⟩ ⟨x3, y3, z⟩ ⟨x1, y1, z⟩ ⟨x2, y2, z⟩ = .ok true :=
      isCornerConvex_z (.inl rfl) (by simp only [if_true]; linarith)
    simp [triangulate, triangulateTries, unit_z (.inl rfl), run, step, initState, List.range, List.range.loop, h1,
      anyPointInside]
  exact polygonNew_intro hc (by simp) hn ht

/-- The distance from a line in a horizontal plane. -/
theorem away_z {x y px py qx qy z d : ℝ} (hne : 0 < (qx - px) ^ 2 + (qy - py) ^ 2)
    (h : d ^ 2 * ((qx - px) ^ 2 + (qy - py) ^ 2) ≤ ((qx - px) * (y - py) - (qy - py) * (x - px)) ^ 2) :
    AwayFromLine ⟨px, py, z⟩ ⟨qx, qy, z⟩ ⟨x, y, z⟩ d := by
  intro t
  apply Vec3.le_norm_of_sq
  have e : Vec3.normSq ((⟨x, y, z⟩ : Vec3 ℝ) - (⟨px, py, z⟩ + t • (⟨qx, qy, z⟩ - ⟨px, py, z⟩))) =
      (x - (px + t * (qx - px))) ^ 2 + (y - (py + t * (qy - py))) ^ 2 := by
    simp [Vec3.normSq, Vec3.dot]; ring
  rw [e]
  by_contra hc
  have h1 := mul_lt_mul_of_pos_right (not_le.1 hc) hne
  have h2 : ((x - (px + t * (qx - px))) ^ 2 + (y - (py + t * (qy - py))) ^ 2) * ((qx - px) ^ 2 + (qy - py) ^ 2) =
      ((qx - px) * (y - py) - (qy - py) * (x - px)) ^ 2 +
      ((x - (px + t * (qx - px))) * (qx - px) + (y - (py + t * (qy - py))) * (qy - py)) ^ 2 := by ring
  nlinarith [sq_nonneg ((x - (px + t * (qx - px))) * (qx - px) + (y - (py + t * (qy - py))) * (qy - py))]

theorem norm_le_z {x1 y1 x2 y2 z D : ℝ} (hD : 0 ≤ D) (h : (x2 - x1) ^ 2 + (y2 - y1) ^ 2 ≤ D ^ 2) :
    Vec3.norm ((⟨x2, y2, z⟩ : Vec3 ℝ) - ⟨x1, y1, z⟩) ≤ D := by
  apply Vec3.norm_le_of_sq hD
  simp [Vec3.normSq, Vec3.dot]
  linarith

/-- The arrow head as a polygon. -/
theorem arrow_polygon : ∃ P, polygonNew arrow none none = .ok P ∧ P.pts = arrow ∧ P.vn = some ⟨0, 0, 1⟩ ∧
    P.tri = [(3, 0, 1), (3, 1, 2)] := by
  have hc : Points.arePointsCoplanar arrow = true := by
    have := coplanar_z [(1, 4), (0, 0), (4, 1), (1, 1)]
    simpa [arrow] using this
  refine polygonNew_intro hc (by simp [arrow]) ?_ arrow_triangulate
  simp only [chooseNormal, arrow, List.getLast?_cons_cons, List.getLast?_singleton, List.getElem?_cons_zero,
    List.getElem?_cons_succ, Except.ok.injEq]
  exact normal_z (.inl rfl) (by norm_num)

theorem wellInside_z {x1 y1 x2 y2 x3 y3 x y z r s t : ℝ} (hr : 0 ≤ r) (hs : 0 ≤ s) (ht : 0 ≤ t) (h1 : r + s + t = 1)
    (hx : x = r * x1 + s * x2 + t * x3) (hy : y = r * y1 + s * y2 + t * y3)
    (l1 : (x2 - x1) ^ 2 + (y2 - y1) ^ 2 ≤ 100) (l2 : (x3 - x2) ^ 2 + (y3 - y2) ^ 2 ≤ 100)
    (l3 : (x1 - x3) ^ 2 + (y1 - y3) ^ 2 ≤ 100)
    (p1 : 0 < (x2 - x1) ^ 2 + (y2 - y1) ^ 2) (p2 : 0 < (x3 - x2) ^ 2 + (y3 - y2) ^ 2)
    (p3 : 0 < (x1 - x3) ^ 2 + (y1 - y3) ^ 2)
    (d1 : 1 / 10 ^ 4 ≤ ((x2 - x1) * (y - y1) - (y2 - y1) * (x - x1)) ^ 2)
    (d2 : 1 / 10 ^ 4 ≤ ((x3 - x2) * (y - y2) - (y3 - y2) * (x - x2)) ^ 2)
    (d3 : 1 / 10 ^ 4 ≤ ((x1 - x3) * (y - y3) - (y1 - y3) * (x - x3)) ^ 2) :
    WellInside ⟨x1, y1, z⟩ ⟨x2, y2, z⟩ ⟨x3, y3, z⟩ ⟨x, y, z⟩ := by
  refine ⟨⟨r, s, t, hr, hs, ht, h1, ?_⟩, 10, norm_le_z (by norm_num) (by linarith), norm_le_z (by norm_num) (by linarith),
    norm_le_z (by norm_num) (by linarith), ?_⟩
  · ext
    · simpa using hx
    · simpa using hy
    · simp; rw [← add_mul, ← add_mul, h1, one_mul]
  · rw [show max (1 / 10 ^ 6 : ℝ) (1 / 10 ^ 4 * 10) = 1 / 10 ^ 3 by norm_num]
    refine ⟨away_z p1 ?_, away_z p2 ?_, away_z p3 ?_⟩ <;> norm_num at d1 d2 d3 l1 l2 l3 ⊢ <;> linarith

/-- The arrow head and the point `(1/2, 1)` meet the hypotheses of the theorems on C71. -/
example : ∃ P, polygonNew arrow none none = .ok P ∧ P.vn = some ⟨0, 0, 1⟩ ∧
    (∀ p ∈ P.pts, Vec3.dot ⟨0, 0, 1⟩ p = 0) ∧ SpansPlane P.pts ∧ (∀ p ∈ P.pts, Vec3.norm p ≤ 5) ∧
    (∃ t ∈ P.tri, TriangleWith P.pts t fun a b c => WellInside a b c ⟨1 / 2, 1, 0⟩) ∧
    (∀ y, OnOutline P.pts y → 1 / 100 ≤ Vec3.norm (⟨1 / 2, 1, 0⟩ - y)) ∧
    (∀ ed ∈ cycEdges P.pts, 1 ≤ Vec3.norm (ed.2 - ed.1)) := by
  obtain ⟨P, h, hp, hv, ht⟩ := arrow_polygon
  refine ⟨P, h, hv, ?_, ?_, ?_, ?_, ?_, ?_⟩ <;> rw [hp]
  · simp [arrow, Vec3.dot]
  · refine ⟨⟨0, _, _, _, rfl, rfl, rfl, ?_⟩, 0, _, _, _, rfl, rfl, rfl, ?_, ?_, ?_⟩
    · refine lt_of_lt_of_le ?_ (Vec3.abs_z_le _)
      norm_num
    · refine le_trans ?_ (Vec3.abs_x_le _)
      norm_num
    · refine le_trans ?_ (Vec3.abs_x_le _)
      norm_num
    · norm_num [Vec3.dot, Vec3.normSq]
  · intro p hp
    apply Vec3.norm_le_of_sq (by norm_num)
    simp only [arrow, List.mem_cons, List.not_mem_nil, or_false] at hp
    rcases hp with rfl | rfl | rfl | rfl <;> norm_num [Vec3.normSq, Vec3.dot]
  · rw [ht]
    refine ⟨(3, 0, 1), by simp, _, _, _, rfl, rfl, rfl, ?_⟩
    exact wellInside_z (r := 1 / 3) (s := 1 / 6) (t := 1 / 2) (by norm_num) (by norm_num) (by norm_num) (by norm_num)
      (by norm_num) (by norm_num) (by norm_num) (by norm_num) (by norm_num) (by norm_num) (by norm_num) (by norm_num)
      (by norm_num) (by norm_num) (by norm_num)
  · rintro y ⟨ed, he, t, h0, h1, rfl⟩
    have he : ed ∈ [((⟨1, 4, 0⟩ : Vec3 ℝ), (⟨0, 0, 0⟩ : Vec3 ℝ)), (⟨0, 0, 0⟩, ⟨4, 1, 0⟩), (⟨4, 1, 0⟩, ⟨1, 1, 0⟩),
      (⟨1, 1, 0⟩, ⟨1, 4, 0⟩)] := he
    simp only [List.mem_cons, List.not_mem_nil, or_false] at he
    rcases he with rfl | rfl | rfl | rfl
    · exact away_z (by norm_num) (by norm_num) t
    · exact away_z (by norm_num) (by norm_num) t
    · rw [← sub_nonneg] at h1
      refine le_trans ?_ (Vec3.abs_x_le _)
      simp only [Vec3.sub_x, Vec3.add_x, Vec3.smul_x]
      rw [abs_of_nonpos] <;> norm_num at * <;> linarith
    · exact away_z (by norm_num) (by norm_num) t
  · intro ed he
    have he : ed ∈ [((⟨1, 4, 0⟩ : Vec3 ℝ), (⟨0, 0, 0⟩ : Vec3 ℝ)), (⟨0, 0, 0⟩, ⟨4, 1, 0⟩), (⟨4, 1, 0⟩, ⟨1, 1, 0⟩),
      (⟨1, 1, 0⟩, ⟨1, 4, 0⟩)] := he
    simp only [List.mem_cons, List.not_mem_nil, or_false] at he
    rcases he with rfl | rfl | rfl | rfl <;> apply Vec3.le_norm_of_sq <;> norm_num [Vec3.normSq, Vec3.dot]

/-- **C71 fails for polygons in polygons.**  A triangle with all corners in the arrow head, reported as contained
in it although it covers points outside. -/
theorem C71_contains_nonconvex : ∃ P Q : Poly, ∃ pts, polygonNew arrow none none = .ok P ∧
    polygonNew pts none none = .ok Q ∧ containsPolygon P Q = .ok true ∧
    ∃ y, Region Q.pts Q.tri y ∧ ¬ Region P.pts P.tri y := by
  obtain ⟨P, h, hp, hv, ht⟩ := arrow_polygon
  obtain ⟨Q, hQ, hQp, hQv, hQt⟩ := triangle_z (x1 := 3 / 5) (y1 := 7 / 10) (x2 := 5 / 2) (y2 := 4 / 5) (x3 := 4 / 5)
    (y3 := 5 / 2) 0 (by norm_num)
  refine ⟨P, Q, _, h, hQ, ?_, ⟨33 / 20, 33 / 20, 0⟩, ?_, ?_⟩
  · obtain ⟨r, hr, hir⟩ := C71_contains_partial h Q GEOM_ATOL
    rw [hr, Except.ok.injEq, hir]
    intro q hq
    rw [hQp] at hq
    have acc : (∃ t ∈ P.tri, TriangleWith P.pts t fun a b c => WellInside a b c q) →
        isPointInside q P.pts P.tri = .ok true := fun hw =>
      C71_accepts_partial h hv (e := 0) (by rw [hp]; simp [arrow, Vec3.dot]) (.inl hw)
    rw [hp, ht] at acc ⊢
    constructor
    · apply acc
      simp only [List.mem_cons, List.not_mem_nil, or_false] at hq
      rcases hq with rfl | rfl | rfl
      · refine ⟨(3, 0, 1), by simp, _, _, _, rfl, rfl, rfl, ?_⟩
        exact wellInside_z (r := 17 / 30) (s := 1 / 30) (t := 2 / 5) (by norm_num) (by norm_num) (by norm_num)
          (by norm_num) (by norm_num) (by norm_num) (by norm_num) (by norm_num) (by norm_num) (by norm_num)
          (by norm_num) (by norm_num) (by norm_num) (by norm_num) (by norm_num)
      · refine ⟨(3, 1, 2), by simp, _, _, _, rfl, rfl, rfl, ?_⟩
        exact wellInside_z (r := 7 / 30) (s := 1 / 5) (t := 17 / 30) (by norm_num) (by norm_num) (by norm_num)
          (by norm_num) (by norm_num) (by norm_num) (by norm_num) (by norm_num) (by norm_num) (by norm_num)
          (by norm_num) (by norm_num) (by norm_num) (by norm_num) (by norm_num)
      · refine ⟨(3, 0, 1), by simp, _, _, _, rfl, rfl, rfl, ?_⟩
        exact wellInside_z (r := 7 / 30) (s := 17 / 30) (t := 1 / 5) (by norm_num) (by norm_num) (by norm_num)
          (by norm_num) (by norm_num) (by norm_num) (by norm_num) (by norm_num) (by norm_num) (by norm_num)
          (by norm_num) (by norm_num) (by norm_num) (by norm_num) (by norm_num)
    · rintro y ⟨ed, he, t, h0, h1, rfl⟩
      have he : ed ∈ [((⟨1, 4, 0⟩ : Vec3 ℝ), (⟨0, 0, 0⟩ : Vec3 ℝ)), (⟨0, 0, 0⟩, ⟨4, 1, 0⟩), (⟨4, 1, 0⟩, ⟨1, 1, 0⟩),
        (⟨1, 1, 0⟩, ⟨1, 4, 0⟩)] := he
      simp only [List.mem_cons, List.not_mem_nil, or_false] at he hq
      rcases he with rfl | rfl | rfl | rfl <;> rcases hq with rfl | rfl | rfl <;>
        exact away_z (by norm_num) (by norm_num [GEOM_ATOL]) t
  · rw [hQp, hQt]
    exact ⟨(2, 0, 1), by simp, _, _, _, rfl, rfl, rfl, 1 / 2, 0, 1 / 2, by norm_num, by norm_num, by norm_num,
      by norm_num, by ext <;> norm_num⟩
  · rw [hp, ht]
    rintro ⟨t, ht, a, b, c, ha, hb, hc, r, s, q, hr, hs, hq, h1, h2⟩
    simp only [List.mem_cons, List.not_mem_nil, or_false] at ht
    rcases ht with rfl | rfl <;> simp [arrow] at ha hb hc <;> subst ha hb hc <;>
      have hx := congrArg Vec3.x h2 <;> have hy := congrArg Vec3.y h2 <;> simp at hx hy <;> linarith

/-- **C71 fails far from the origin.**  With coordinates of the size of geographic ones, a point more than a metre
outside a triangle is inside. -/
theorem C71_far_from_origin : ∃ P : Poly, polygonNew [⟨500000, 5500000, 0⟩, ⟨500010, 5500000, 0⟩, ⟨500000, 5500010, 0⟩]
      none none = .ok P ∧ ∃ x, isPointInside x P.pts P.tri = .ok true ∧
      ∀ y, Region P.pts P.tri y → 1 ≤ Vec3.norm (x - y) := by
  obtain ⟨P, h, hp, hv, ht⟩ := triangle_z (x1 := 500000) (y1 := 5500000) (x2 := 500010) (y2 := 5500000) (x3 := 500000)
    (y3 := 5500010) 0 (by norm_num)
  refine ⟨P, h, ⟨500006, 5500006, 0⟩, ?_, ?_⟩
  · obtain ⟨r, hr, hir⟩ := isPointInside_iff (x := ⟨500006, 5500006, 0⟩) true GEOM_ATOL (polygonNew_sturdy h)
    rw [hr, Except.ok.injEq, hir]
    rw [hp, ht]
    have hbox : Bboxes.isPointInsideBbox (⟨500006, 5500006, 0⟩ : Vec3 ℝ) [⟨500000, 5500000, 0⟩, ⟨500010, 5500000, 0⟩,
        ⟨500000, 5500010, 0⟩] (1 / 100) = .ok true := by
      norm_num [Bboxes.isPointInsideBbox, Bboxes.boundingBox, Bboxes.npMin, Bboxes.npMax, bind, Except.bind, pure,
        Except.pure, Bboxes.anyLt, Bboxes.addScalar]
    have hbox' : Bboxes.isPointInsideBbox (⟨500006, 5500006, 0⟩ : Vec3 ℝ) [⟨500000, 5500010, 0⟩,
        ⟨500000, 5500000, 0⟩, ⟨500010, 5500000, 0⟩] (1 / 100) = .ok true := by
      norm_num [Bboxes.isPointInsideBbox, Bboxes.boundingBox, Bboxes.npMin, Bboxes.npMax, bind, Except.bind, pure,
        Except.pure, Bboxes.anyLt, Bboxes.addScalar]
    refine ⟨hbox, ?_, ⟨(2, 0, 1), by simp, _, _, _, rfl, rfl, rfl, ?_⟩, by simp⟩
    · have := coplanar_z [(500000, 5500000), (500010, 5500000), (500000, 5500010), (500006, 5500006)]
      simpa using this
    · show Triangles.isPointInside (⟨500006, 5500006, 0⟩ : Vec3 ℝ) ⟨500000, 5500010, 0⟩ ⟨500000, 5500000, 0⟩
        ⟨500010, 5500000, 0⟩ = .ok true
      unfold Triangles.isPointInside
      rw [hbox']
      have : pointsEqual (⟨500006, 5500006, 0⟩ : Vec3 ℝ) ⟨500010, 5500000, 0⟩ GEOM_ATOL = true := by
        simp only [pointsEqual, allClose, isClose, NP_RTOL, GEOM_ATOL]
        norm_num [abs_le]
      simp only [this, bind, Except.bind, pure, Except.pure, Bool.not_true, Bool.false_eq_true, if_false, Bool.or_true,
        if_true]
  · rw [hp, ht]
    rintro y ⟨t, ht, a, b, c, ha, hb, hc, r, s, q, hr, hs, hq, h1, h2⟩
    simp only [List.mem_cons, List.not_mem_nil, or_false] at ht
    subst ht
    simp at ha hb hc
    subst ha hb hc
    apply Vec3.le_norm_of_sq
    have hx := congrArg Vec3.x h2
    have hy := congrArg Vec3.y h2
    simp at hx hy
    have hr' : s = 1 - r - q := by linarith
    have h3 : y.x + y.y ≤ 6000010 := by rw [hx, hy, hr']; nlinarith
    have h4 : Vec3.normSq ((⟨500006, 5500006, 0⟩ : Vec3 ℝ) - y) = (500006 - y.x) ^ 2 + (5500006 - y.y) ^ 2 + y.z ^ 2 := by
      simp [Vec3.normSq, Vec3.dot]; ring
    rw [h4]
    nlinarith [sq_nonneg ((500006 - y.x) - (5500006 - y.y)), sq_nonneg y.z]

/-- A point of a triangle, close to a corner, which is rejected with every tolerance. -/
theorem inner_rejected : ∃ P : Poly, polygonNew [⟨-6, -8, 0⟩, ⟨0, 0, 0⟩, ⟨0, 10, 0⟩] none none = .ok P ∧
    ∃ x : Vec3 ℝ, (∃ t ∈ P.tri, TriangleWith P.pts t fun a b c => InsideTriangle a b c x) ∧ x.z = 0 ∧
      |x.x| ≤ 1 / 10 ^ 4 ∧ |x.y| ≤ 1 / 10 ^ 4 ∧ ∀ atol : ℝ, isPointInside x P.pts P.tri true atol = .ok false := by
  obtain ⟨P, h, hp, hv, ht⟩ := triangle_z (x1 := -6) (y1 := -8) (x2 := 0) (y2 := 0) (x3 := 0) (y3 := 10) 0
    (by norm_num)
  obtain ⟨c, hc⟩ : ∃ c : ℝ, c = (1 - (1 / (2 * 10 ^ 6)) ^ 2) / (1 + (1 / (2 * 10 ^ 6)) ^ 2) := ⟨_, rfl⟩
  obtain ⟨s, hs⟩ : ∃ s : ℝ, s = 2 * (1 / (2 * 10 ^ 6)) / (1 + (1 / (2 * 10 ^ 6)) ^ 2) := ⟨_, rfl⟩
  have hcs : c ^ 2 + s ^ 2 = 1 := by rw [hc, hs]; norm_num
  have hc1 : 1 - 1 / 10 ^ 11 < c := by rw [hc]; norm_num
  have hc2 : c < 1 := by rw [hc]; norm_num
  have hs1 : 999 / 10 ^ 9 < s := by rw [hs]; norm_num
  have hs2 : s < 1001 / 10 ^ 9 := by rw [hs]; norm_num
  clear hc hs
  norm_num at hc1 hs1 hs2
  obtain ⟨x, hx⟩ : ∃ x : Vec3 ℝ, x = ⟨-6 + 6 * c - 8 * s, -8 + 8 * c + 6 * s, 0⟩ := ⟨_, rfl⟩
  have hpe : ∀ a : Vec3 ℝ, (1 / 10 ^ 3 < |x.x - a.x| ∧ |a.x| ≤ 10 ∨ 1 / 10 ^ 3 < |x.y - a.y| ∧ |a.y| ≤ 10) →
      pointsEqual x a GEOM_ATOL = false := by
    intro a ha
    rw [pointsEqual, decide_eq_false_iff_not]
    simp only [allClose, isClose, NP_RTOL, GEOM_ATOL]
    rintro ⟨h1, h2, -⟩
    norm_num at h1 h2 ha
    rcases ha with ⟨ha, hb⟩ | ⟨ha, hb⟩ <;> linarith
  refine ⟨P, h, x, ?_, ?_⟩
  · rw [hp, ht]
    refine ⟨(2, 0, 1), by simp, _, _, _, rfl, rfl, rfl, ?_⟩
    refine ⟨(5 * s) / 3, 1 - c + 4 / 3 * s, c - 3 * s, by linarith, by linarith, by linarith, by ring, ?_⟩
    rw [hx]
    ext <;> simp <;> ring
  · refine ⟨by rw [hx], ?_, ?_, ?_⟩
    · rw [hx, abs_le]; norm_num; constructor <;> linarith
    · rw [hx, abs_le]; norm_num; constructor <;> linarith
    intro atol
    obtain ⟨r, hr, hir⟩ := isPointInside_iff (x := x) true atol (polygonNew_sturdy h)
    rw [hp, ht] at *
    have hfalse : Triangles.isPointInside x ⟨0, 10, 0⟩ ⟨-6, -8, 0⟩ ⟨0, 0, 0⟩ = .ok false := by
      unfold Triangles.isPointInside
      obtain ⟨rb, hb⟩ := Triangles.bboxTest_ok x ⟨0, 10, 0⟩ ⟨-6, -8, 0⟩ ⟨0, 0, 0⟩ (1 / 100)
      rw [hb]
      have e1 : edgeTest x ⟨0, 10, 0⟩ ⟨-6, -8, 0⟩ GEOM_ATOL = none := by
        unfold edgeTest
        rw [notCollinear]
        · refine lt_of_lt_of_le ?_ (Vec3.abs_x_le _)
          norm_num [EPSILON]
        · refine lt_of_lt_of_le ?_ (Vec3.abs_y_le _)
          rw [hx]
          simp only [Vec3.sub_y]
          rw [abs_of_nonpos (by linarith)]
          norm_num [EPSILON]
          linarith
        · rw [hx]
          simp only [Vec3.dot, Vec3.normSq, Vec3.sub_x, Vec3.sub_y, Vec3.sub_z]
          nlinarith
      have e2 : edgeTest x ⟨-6, -8, 0⟩ ⟨0, 0, 0⟩ GEOM_ATOL = some false := by
        have hcol : arePointsCollinear [(⟨-6, -8, 0⟩ : Vec3 ℝ), ⟨0, 0, 0⟩, x] = .ok true := by
          have n1 : Vec3.norm ((⟨0, 0, 0⟩ : Vec3 ℝ) - ⟨-6, -8, 0⟩) = 10 :=
            norm_of_sq (by norm_num) (by norm_num [Vec3.normSq, Vec3.dot])
          have n2 : Vec3.norm (x - ⟨-6, -8, 0⟩) = 10 := by
            apply norm_of_sq (by norm_num)
            rw [hx]
            simp only [Vec3.dot, Vec3.normSq, Vec3.sub_x, Vec3.sub_y, Vec3.sub_z]
            nlinarith
          simp only [arePointsCollinear, List.map_cons, List.map_nil, collinearLoop, unitFrom, n1, n2, Except.ok.injEq]
          have hE : (10 : ℝ) > EPSILON := by norm_num [EPSILON]
          simp only [if_pos hE]
          rw [if_pos]
          left
          rw [hx]
          simp only [allClose, isClose, Vec3.smul_x, Vec3.smul_y, Vec3.smul_z, Vec3.sub_x, Vec3.sub_y, Vec3.sub_z,
            NP_RTOL, GEOM_ATOL]
          norm_num
          rw [abs_le, abs_le]
          refine ⟨⟨?_, ?_⟩, ?_, ?_⟩ <;> linarith
        unfold edgeTest
        rw [hcol]
        simp only [Option.some.injEq, decide_eq_false_iff_not, not_not]
        right; left; left
        have a1 := abs_le.1 (npRound_close x.y)
        have a2 := abs_le.1 (npRound_close (-8))
        have a3 : npRound 0 = 0 := by simp [npRound]
        rw [gt_iff_lt, a3, max_eq_right (by linarith [a2.2])]
        have : x.y = -8 + 8 * c + 6 * s := by rw [hx]
        rw [this] at a1 ⊢
        simp only [GEOM_ATOL]
        norm_num at a1 ⊢
        linarith
      have v1 : pointsEqual x ⟨0, 10, 0⟩ GEOM_ATOL = false := hpe _ (.inr (by
        rw [hx]; simp only []
        rw [abs_of_nonpos (by linarith)]
        norm_num
        linarith))
      have v2 : pointsEqual x ⟨-6, -8, 0⟩ GEOM_ATOL = false := hpe _ (.inr (by
        rw [hx]; simp only []
        rw [abs_of_nonneg (by linarith)]
        norm_num
        linarith))
      have v3 : pointsEqual x ⟨0, 0, 0⟩ GEOM_ATOL = false := by
        rw [hx]
        rw [pointsEqual, decide_eq_false_iff_not]
        simp only [allClose, isClose, NP_RTOL, GEOM_ATOL]
        rintro ⟨-, h2, -⟩
        norm_num [abs_le] at h2
        linarith
      simp only [v1, v2, v3, e1, e2, bind, Except.bind, pure, Except.pure, Bool.or_self, Bool.false_eq_true, if_false]
      split <;> rfl
    cases r with
    | false => exact hr
    | true =>
      exfalso
      obtain ⟨-, -, ⟨t, hm, a, b, c', ha, hb, hc', hin⟩, -⟩ := hir.1 rfl
      simp only [List.mem_cons, List.not_mem_nil, or_false] at hm
      subst hm
      simp at ha hb hc'
      subst ha hb hc'
      rw [hfalse] at hin
      cases hin

/-- **C71 fails next to a corner.**  A point of the triangle, a hundredth of a millimetre from a corner, which is
rejected: it looks collinear with an edge and is just outside the bounding box of the edge. -/
theorem C71_rejects_inner_point : ∃ P : Poly, polygonNew [⟨-6, -8, 0⟩, ⟨0, 0, 0⟩, ⟨0, 10, 0⟩] none none = .ok P ∧
    ∃ x, (∃ t ∈ P.tri, TriangleWith P.pts t fun a b c => InsideTriangle a b c x) ∧
      isPointInside x P.pts P.tri = .ok false := by
  obtain ⟨P, h, x, hx, -, -, -, hr⟩ := inner_rejected
  exact ⟨P, h, x, hx, hr _⟩

end B3d.Polygon
