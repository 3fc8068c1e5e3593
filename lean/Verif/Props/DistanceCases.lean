import Verif.Props.Distance

/-! # C72, C73: cases meeting the hypotheses, and cases where the properties fail -/

namespace B3d.Polygon

open Spec Triangles Points

theorem cornerNormal_z {pts : List (Vec3 ℝ)} {s x1 y1 x2 y2 x3 y3 z : ℝ} (hs : s = 1 ∨ s = -1)
    (hl : pts.getLast? = some ⟨x1, y1, z⟩) (ho : pts[0]? = some ⟨x2, y2, z⟩) (hq : pts[1]? = some ⟨x3, y3, z⟩)
    (h : 1 ≤ s * ((x2 - x1) * (y3 - y1) - (y2 - y1) * (x3 - x1))) : CornerNormal pts ⟨0, 0, s⟩ := by
  have e : Vec3.cross ((⟨x2, y2, z⟩ : Vec3 ℝ) - ⟨x1, y1, z⟩) (⟨x3, y3, z⟩ - ⟨x1, y1, z⟩) =
      ⟨0, 0, (x2 - x1) * (y3 - y1) - (y2 - y1) * (x3 - x1)⟩ := by
    ext <;> simp [Vec3.cross]
  generalize (x2 - x1) * (y3 - y1) - (y2 - y1) * (x3 - x1) = D at *
  refine ⟨?_, _, _, _, hl, ho, hq, ?_, ?_⟩
  · rw [norm_z]
    rcases hs with rfl | rfl <;> simp
  · rw [e, norm_z]
    rcases hs with rfl | rfl
    · rw [abs_of_pos (by linarith)]; norm_num; linarith
    · rw [abs_of_neg (by linarith)]; norm_num; linarith
  · rw [e, norm_z]
    ext
    · simp
    · simp
    · simp only [Vec3.smul_z]
      rcases hs with rfl | rfl
      · rw [abs_of_pos (by linarith), mul_one]
      · rw [abs_of_neg (by linarith)]; ring

theorem cornerNormal_arrow : CornerNormal arrow ⟨0, 0, 1⟩ :=
  cornerNormal_z (x1 := 1) (y1 := 1) (x2 := 1) (y2 := 4) (x3 := 0) (y3 := 0) (z := 0) (.inl rfl) rfl rfl rfl
    (by norm_num)

/-- The arrow head, the point `(1/2, 1, 3)` above it and the vertical ray down from this point meet the hypotheses of
the theorems on C72 and C73. -/
example : ∃ P, polygonNew arrow none none = .ok P ∧ P.vn = some ⟨0, 0, 1⟩ ∧
    (∀ p ∈ P.pts, Vec3.dot ⟨0, 0, 1⟩ p = 0) ∧ CornerNormal P.pts ⟨0, 0, 1⟩ ∧ (∀ p ∈ P.pts, Vec3.norm p ≤ 5) ∧
    (⟨1 / 2, 1, 3⟩ : Vec3 ℝ) = ⟨1 / 2, 1, 0⟩ + (3 : ℝ) • ⟨0, 0, 1⟩ ∧
    (∃ t ∈ P.tri, TriangleWith P.pts t fun a b c =>
      WellInside a b c (⟨1 / 2, 1, 3⟩ + (3 : ℝ) • (⟨0, 0, -1⟩ : Vec3 ℝ))) ∧
    (GEOM_ATOL : ℝ) ≤ |Vec3.dot (⟨0, 0, 1⟩ : Vec3 ℝ) ⟨0, 0, -1⟩| ∧
    distancePointToPolygon ⟨1 / 2, 1, 3⟩ P.pts P.tri ⟨0, 0, 1⟩ = .ok (some 3) ∧
    isPointInsideProjection ⟨1 / 2, 1, 3⟩ ⟨0, 0, -1⟩ P.pts P.tri = .ok true := by
  obtain ⟨P, h, hp, hv, ht⟩ := arrow_polygon
  have hpl : ∀ p ∈ P.pts, Vec3.dot ⟨0, 0, 1⟩ p = 0 := by rw [hp]; simp [arrow, Vec3.dot]
  have hw : CornerNormal P.pts ⟨0, 0, 1⟩ := by rw [hp]; exact cornerNormal_arrow
  have hM : ∀ p ∈ P.pts, Vec3.norm p ≤ 5 := by
    rw [hp]
    intro p hp
    apply Vec3.norm_le_of_sq (by norm_num)
    simp only [arrow, List.mem_cons, List.not_mem_nil, or_false] at hp
    rcases hp with rfl | rfl | rfl | rfl <;> norm_num [Vec3.normSq, Vec3.dot]
  have hx : (⟨1 / 2, 1, 3⟩ : Vec3 ℝ) = ⟨1 / 2, 1, 0⟩ + (3 : ℝ) • ⟨0, 0, 1⟩ := by ext <;> simp
  have hx' : (⟨1 / 2, 1, 3⟩ + (3 : ℝ) • (⟨0, 0, -1⟩ : Vec3 ℝ)) = ⟨1 / 2, 1, 0⟩ := by ext <;> simp
  have hwell : ∃ t ∈ P.tri, TriangleWith P.pts t fun a b c => WellInside a b c ⟨1 / 2, 1, 0⟩ := by
    rw [ht, hp]
    refine ⟨(3, 0, 1), by simp, _, _, _, rfl, rfl, rfl, ?_⟩
    exact wellInside_z (r := 1 / 3) (s := 1 / 6) (t := 1 / 2) (by norm_num) (by norm_num) (by norm_num) (by norm_num)
      (by norm_num) (by norm_num) (by norm_num) (by norm_num) (by norm_num) (by norm_num) (by norm_num) (by norm_num)
      (by norm_num) (by norm_num) (by norm_num)
  have hat : (GEOM_ATOL : ℝ) ≤ |Vec3.dot (⟨0, 0, 1⟩ : Vec3 ℝ) ⟨0, 0, -1⟩| := by
    simp [Vec3.dot]; norm_num [GEOM_ATOL]
  refine ⟨P, h, hv, hpl, hw, hM, hx, ?_, hat, ?_, ?_⟩
  · rw [hx']; exact hwell
  · obtain ⟨r, hr, -, -, -, ⟨-, h1⟩, -⟩ := distance_spec h hv hpl hw hM hx (by simp [Vec3.dot])
    rw [hr, h1 hwell]
    simp
  · exact C73_hit_partial h hv hpl hw GEOM_ATOL_pos hat true (s := 3) (fun _ => by norm_num) (.inl (by rwa [hx']))

/-- The arrow head, starting with the reflex corner. -/
theorem triangulate_reflex {a b c d v : Vec3 ℝ} (h0 : ¬ isClose (Vec3.norm v) 0 NP_RTOL NP_ATOL)
    (h1 : isCornerConvex v d a b = .ok false) (h2 : isCornerConvex v a b c = .ok true)
    (h3 : Triangles.isPointInside d a b c = .ok false) (h4 : isCornerConvex v a c d = .ok true) :
    triangulate 10 [a, b, c, d] v = some (.ok ([a, b, c, d], [(0, 1, 2), (0, 2, 3)])) := by
  simp [triangulate, triangulateTries, h0, run, step, initState, List.range, List.range.loop, h1, h2, h3, h4,
    anyPointInside]

/-- **C72 fails with the normal of the polygon itself.**  If the first corner is reflex, the normal of the polygon is
opposite to the normal of the first corner; with the normal of the polygon the function returns 3 for a point at the
distance 1. -/
theorem C72_own_normal : ∃ (pts : List (Vec3 ℝ)) (v : Vec3 ℝ) (P : Poly) (x : Vec3 ℝ),
    polygonNew pts none (some v) = .ok P ∧ P.vn = some v ∧
    distancePointToPolygon x P.pts P.tri v = .ok (some 3) ∧
    ∃ y, Region P.pts P.tri y ∧ Vec3.norm (x - y) = 1 := by
  have hc : Points.arePointsCoplanar ([⟨1, 1, 1⟩, ⟨1, 4, 1⟩, ⟨0, 0, 1⟩, ⟨4, 1, 1⟩] : List (Vec3 ℝ)) = true := by
    have := coplanar_z [(1, 1), (1, 4), (0, 0), (4, 1)] 1
    simpa using this
  obtain ⟨P, h, hp, hv, ht⟩ := polygonNew_intro (vn := some ⟨0, 0, 1⟩) hc (by simp) rfl
    (triangulate_reflex (v := ⟨0, 0, 1⟩) (unit_z (.inl rfl))
      (isCornerConvex_z (.inl rfl) (by norm_num)) (isCornerConvex_z (.inl rfl) (by norm_num))
      (isPointInside_far (m := 1) Vec3.x (.inl rfl) (.inr (by norm_num)))
      (isCornerConvex_z (.inl rfl) (by norm_num)))
  have hpl : ∀ p ∈ P.pts, Vec3.dot ⟨0, 0, 1⟩ p = 1 := by rw [hp]; simp [Vec3.dot]
  have hw : CornerNormal P.pts ⟨0, 0, -1⟩ := by
    rw [hp]
    exact cornerNormal_z (x1 := 4) (y1 := 1) (x2 := 1) (y2 := 1) (x3 := 1) (y3 := 4) (z := 1) (.inr rfl) rfl rfl rfl
      (by norm_num)
  have hwell : ∃ t ∈ P.tri, TriangleWith P.pts t fun a b c => WellInside a b c ⟨1 / 2, 1, 1⟩ := by
    rw [ht, hp]
    refine ⟨(0, 1, 2), by simp, _, _, _, rfl, rfl, rfl, ?_⟩
    exact wellInside_z (r := 1 / 3) (s := 1 / 6) (t := 1 / 2) (by norm_num) (by norm_num) (by norm_num) (by norm_num)
      (by norm_num) (by norm_num) (by norm_num) (by norm_num) (by norm_num) (by norm_num) (by norm_num) (by norm_num)
      (by norm_num) (by norm_num) (by norm_num)
  refine ⟨_, _, P, ⟨1 / 2, 1, 2⟩, h, hv, ?_, ⟨1 / 2, 1, 1⟩, ?_, ?_⟩
  · have hort := isPointInsideOrtho_true (polygonNew_flat h hv hpl) (polygonNew_sturdy h) hw
      (x := ⟨1 / 2, 1, 2⟩) (k := -1) (by ext <;> norm_num) (by simp [Vec3.dot]) hwell
    have hpc : planeCoefficients P.pts = .ok (some (0, 0, -1, 1)) := by
      rw [hp]
      simp only [planeCoefficients, List.getLast?_cons_cons, List.getLast?_singleton, List.getElem?_cons_zero,
        List.getElem?_cons_succ]
      rw [normal_z (s := -1) (.inr rfl) (by norm_num)]
      simp [projectionCoefficients, Vec3.dot]
    unfold distancePointToPolygon
    rw [hpc]
    simp only [hort, norm_z]
    norm_num [Vec3.dot]
  · obtain ⟨t, htm, a, b, c, ha, hb, hc, hwi⟩ := hwell
    exact ⟨t, htm, a, b, c, ha, hb, hc, hwi.1⟩
  · apply norm_of_sq (by norm_num)
    norm_num [Vec3.normSq, Vec3.dot]

/-- **C72 fails next to a corner.**  A point inside the polygon at a positive distance: the inner point of C71 which is
rejected by the test. -/
theorem C72_inner_point : ∃ (pts : List (Vec3 ℝ)) (P : Poly) (w x : Vec3 ℝ) (r : ℝ), polygonNew pts none none = .ok P ∧
    P.vn = some w ∧ CornerNormal P.pts w ∧ Region P.pts P.tri x ∧
    distancePointToPolygon x P.pts P.tri w = .ok (some r) ∧ 0 < r := by
  obtain ⟨P, h, x, ⟨t, htm, a, b, c, ha, hb, hc, hins⟩, hrej⟩ := C71_rejects_inner_point
  obtain ⟨P', h', hp, hv, ht⟩ := triangle_z (x1 := -6) (y1 := -8) (x2 := 0) (y2 := 0) (x3 := 0) (y3 := 10) 0
    (by norm_num)
  rw [h, Except.ok.injEq] at h'
  subst h'
  have hpl : ∀ p ∈ P.pts, Vec3.dot ⟨0, 0, 1⟩ p = 0 := by rw [hp]; simp [Vec3.dot]
  have hf := polygonNew_flat h hv hpl
  have hw : CornerNormal P.pts ⟨0, 0, 1⟩ := by
    rw [hp]
    exact cornerNormal_z (x1 := 0) (y1 := 10) (x2 := -6) (y2 := -8) (x3 := 0) (y3 := 0) (z := 0) (.inl rfl) rfl rfl rfl
      (by norm_num)
  have hin : InTriangle a b c x := by
    obtain ⟨r, s, t, hr, hs, ht, h1, h2⟩ := hins
    exact ⟨r, s, t, hr.le, hs.le, ht.le, h1, h2⟩
  have hpa := hf.plane a (List.mem_of_getElem? ha)
  have hpb := hf.plane b (List.mem_of_getElem? hb)
  have hpc := hf.plane c (List.mem_of_getElem? hc)
  have hxe := inTriangle_plane hpa hpb hpc hin
  have hort := isPointInsideOrtho_eq hf hw (x := x) (k := 0) (by rw [zero_smul, add_zero]) hxe
  simp only [zero_smul, add_zero, List.map_id'] at hort
  rw [hrej] at hort
  obtain ⟨r, hr, r1, y, hy, hry⟩ := edgeMin_outline (x := x) (polygonNew_sturdy h).1 fun e he =>
    polygonNew_edges_ne h he
  obtain ⟨o, ho, hpc'⟩ := planeCoefficients_eq hw
  refine ⟨_, P, ⟨0, 0, 1⟩, x, r, h, hv, hw, ⟨t, htm, a, b, c, ha, hb, hc, hin⟩, ?_, ?_⟩
  · unfold distancePointToPolygon
    rw [hpc']
    simp only [hort]
    rw [polygonEdges_eq 0 _ (polygonNew_sturdy h).1]
    exact hr
  · refine lt_of_le_of_ne (by rw [hry]; exact Vec3.norm_nonneg _) ?_
    intro h0
    rw [← h0] at hry
    have hxy : x = y := sub_eq_zero.1 (Vec3.norm_eq_zero.1 hry.symm)
    subst hxy
    have hA := (triangleWith_eq ha hb hc).1 (hf.pos t htm)
    obtain ⟨s1, s2, s3⟩ := (insideTriangle_iff hf.ne hpa hpb hpc hxe hA).1 hins
    obtain ⟨ed, he, τ, -, -, hx⟩ := hy
    have hz : sideOf ⟨0, 0, 1⟩ x ed.1 ed.2 = 0 := by
      rw [hx]
      simp [sideOf, Vec3.dot]
      ring
    rw [ht, List.mem_singleton] at htm
    subst htm
    rw [hp] at ha hb hc he
    simp at ha hb hc
    subst ha hb hc
    simp [cycEdges] at he
    rcases he with rfl | rfl | rfl <;> simp only at hz
    · exact s2.ne' hz
    · exact s3.ne' hz
    · exact s1.ne' hz

end B3d.Polygon
