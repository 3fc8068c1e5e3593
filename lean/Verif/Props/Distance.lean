import Verif.Proofs.Distance
import Verif.Props.PointInPolygonCases

/-!
# C72 (distance of a point from a polygon), C73 (where a ray hits a polygon)

The statements are about polygons made by the constructor, whose points lie exactly in a plane perpendicular to
the normal.  `Region` is what the triangles cover; C20 says that this is what the outline encloses.
-/

namespace B3d.Polygon

open Spec Triangles Points

/-! ## The orthogonal projection -/

theorem plane_of_corner {pts : List (Vec3 ℝ)} {tri : List Tri} {v w : Vec3 ℝ} {e : ℝ} (hf : Flat pts tri v e)
    (hw : CornerNormal pts w) {y y' : Vec3 ℝ} (hy : Vec3.dot v y = e) (hy' : Vec3.dot v y' = e) :
    Vec3.dot w y = Vec3.dot w y' := by
  obtain ⟨k, hk, rfl⟩ := cornerNormal_plane hw hf.ne hf.plane
  rw [Vec3.dot_smul_left] at hy hy'
  exact mul_left_cancel₀ hk (hy.trans hy'.symm)

/-- The orthogonal projection tests the polygon moved along its normal. -/
theorem isPointInsideOrtho_eq {pts : List (Vec3 ℝ)} {tri : List Tri} {v w : Vec3 ℝ} {e : ℝ} (hf : Flat pts tri v e)
    (hw : CornerNormal pts w) {x x' : Vec3 ℝ} {k : ℝ} (hx : x = x' + k • w) (hx' : Vec3.dot v x' = e) :
    isPointInsideOrtho x pts tri = isPointInside x (pts.map fun p => p + k • w) tri := by
  obtain ⟨o, ho, hpc⟩ := planeCoefficients_eq hw
  have h1 := plane_of_corner hf hw hx' (hf.plane o ho)
  have h2 : Vec3.dot w w = 1 := by
    rw [show Vec3.dot w w = Vec3.normSq w from rfl, ← Vec3.norm_sq, hw.1]; norm_num
  unfold isPointInsideOrtho
  rw [hpc]
  simp only [projectionCoefficients]
  have h3 : -Vec3.dot w o - -1 * Vec3.dot (⟨w.x, w.y, w.z⟩ : Vec3 ℝ) x = k := by
    show -Vec3.dot w o - -1 * Vec3.dot w x = k
    rw [hx, Vec3.dot_add_right, Vec3.dot_smul_right, h1, h2]
    ring
  rw [h3]

theorem isPointInsideOrtho_true {pts : List (Vec3 ℝ)} {tri : List Tri} {v w : Vec3 ℝ} {e : ℝ} (hf : Flat pts tri v e)
    (hst : Sturdy pts tri) (hw : CornerNormal pts w) {x x' : Vec3 ℝ} {k : ℝ} (hx : x = x' + k • w)
    (hx' : Vec3.dot v x' = e) (hin : ∃ t ∈ tri, TriangleWith pts t fun a b c => WellInside a b c x') :
    isPointInsideOrtho x pts tri = .ok true := by
  rw [isPointInsideOrtho_eq hf hw hx hx']
  obtain ⟨t, ht, h⟩ := hin
  refine isPointInside_of_triangle (sturdy_moved _ hst) (flat_moved _ hf) GEOM_ATOL_pos ht
    (triangleWith_moved h fun a b c h => ?_)
  have := wellInside_moved (u := k • w) h
  rw [← hx] at this
  exact ⟨this.1, isPointInside_complete this⟩

theorem exists_bound (l : List (Vec3 ℝ)) : ∃ M, ∀ p ∈ l, Vec3.norm p ≤ M := by
  induction l with
  | nil => exact ⟨0, by simp⟩
  | cons p l ih =>
    obtain ⟨M, hM⟩ := ih
    refine ⟨max (Vec3.norm p) M, ?_⟩
    rw [List.forall_mem_cons]
    exact ⟨le_max_left _ _, fun q hq => (hM q hq).trans (le_max_right _ _)⟩

/-! ## C72 -/

/-- What the function returns, in all cases. -/
theorem distance_spec {pts : List (Vec3 ℝ)} {vn : Option (Vec3 ℝ)} {P : Poly} {v w : Vec3 ℝ} {e M k : ℝ}
    (h : polygonNew pts none vn = .ok P) (hv : P.vn = some v) (hpl : ∀ p ∈ P.pts, Vec3.dot v p = e)
    (hw : CornerNormal P.pts w) (hM : ∀ p ∈ P.pts, Vec3.norm p ≤ M) {x x' : Vec3 ℝ} (hx : x = x' + k • w)
    (hx' : Vec3.dot v x' = e) :
    ∃ r, distancePointToPolygon x P.pts P.tri w = .ok (some r) ∧ 0 ≤ r ∧
      Near (Region P.pts P.tri) x (r + (1 / 10 ^ 4 * (M + |k|) + 1 / 10 ^ 7)) ∧
      (∀ y, OnOutline P.pts y → r ≤ Vec3.norm (x - y)) ∧
      ((∀ y, Region P.pts P.tri y → |k| ≤ Vec3.norm (x - y)) ∧
        ((∃ t ∈ P.tri, TriangleWith P.pts t fun a b c => WellInside a b c x') → r = |k|)) ∧
      (r ≠ |k| → ∃ y, OnOutline P.pts y ∧ r = Vec3.norm (x - y)) := by
  have hst := polygonNew_sturdy h
  have hf := polygonNew_flat h hv hpl
  obtain ⟨o, ho, hpc⟩ := planeCoefficients_eq hw
  have h1 := plane_of_corner hf hw hx' (hf.plane o ho)
  have h2 : Vec3.dot w w = 1 := by
    rw [show Vec3.dot w w = Vec3.normSq w from rfl, ← Vec3.norm_sq, hw.1]; norm_num
  have hdist : (Vec3.dot w x + -Vec3.dot w o) / Vec3.norm w = k := by
    rw [hw.1, hx, Vec3.dot_add_right, Vec3.dot_smul_right, h1, h2]
    ring
  have hlow : ∀ y, Region P.pts P.tri y → |k| ≤ Vec3.norm (x - y) := by
    intro y hy
    have h3 := plane_of_corner hf hw hx' (region_plane hf.plane hy)
    have h4 : Vec3.dot w (x - y) = k := by
      rw [hx, Vec3.dot_sub_right, Vec3.dot_add_right, Vec3.dot_smul_right, h3, h2]
      ring
    have h5 := Vec3.abs_dot_le w (x - y)
    rwa [h4, hw.1, one_mul] at h5
  have hM0 : 0 ≤ M := (Vec3.norm_nonneg o).trans (hM o ho)
  have htol : 0 ≤ 1 / 10 ^ 4 * (M + |k|) + 1 / 10 ^ 7 := by positivity
  obtain ⟨b, hb, -⟩ := isPointInside_iff (x := x) true GEOM_ATOL (sturdy_moved (k • w) hst)
  have hort := isPointInsideOrtho_eq hf hw hx hx'
  have hwell := isPointInsideOrtho_true hf hst hw hx hx'
  rw [hb] at hort
  unfold distancePointToPolygon
  rw [hpc]
  simp only [hdist]
  rw [hort, polygonEdges_eq 0 _ hst.1]
  rw [hort] at hwell
  cases b with
  | true =>
    refine ⟨|k|, rfl, abs_nonneg _, ?_, ?_, ⟨hlow, fun _ => rfl⟩, fun hne => absurd rfl hne⟩
    · have hnear := near_of_inside (M := M + |k|) (sturdy_moved (k • w) hst) (flat_moved (k • w) hf) (by
        intro p hp
        obtain ⟨q, hq, rfl⟩ := List.mem_map.1 hp
        have h4 := Vec3.norm_add_le q (k • w)
        rw [Vec3.norm_smul, hw.1, mul_one] at h4
        exact h4.trans (add_le_add_left (hM q hq) _)) (by rw [hx, Vec3.dot_add_right, hx']) hb
      obtain ⟨y, hy, hd⟩ := hnear
      refine ⟨_, region_moved hy, ?_⟩
      have e1 : x - (y - k • w) = k • w + (x - y) := by abel
      rw [e1]
      refine (Vec3.norm_add_le _ _).trans ?_
      rw [Vec3.norm_smul, hw.1, mul_one]
      exact add_le_add_right hd _
    · exact fun y hy => hlow y (polygonNew_outline_region h hy)
  | false =>
    obtain ⟨r, hr, r1, y, hy, hry⟩ := edgeMin_outline (x := x) hst.1 fun e he => polygonNew_edges_ne h he
    refine ⟨r, hr, by rw [hry]; exact Vec3.norm_nonneg _, ⟨y, polygonNew_outline_region h hy, ?_⟩, r1,
      ⟨hlow, fun hw' => ?_⟩, fun _ => ⟨y, hy, hry⟩⟩
    · rw [← hry]; linarith
    · have := hwell hw'
      cases this

/-- **C72, the distance is attained.**  For a polygon with a proper first corner, the distance is a number, and the
polygon has a point at no more than this distance, up to a tolerance relative to the size of the coordinates; it
never exceeds the distance to a point of the outline.  The normal passed to the function is the one of the first
corner, as in the simulation; `x'` is the orthogonal projection of the point to the plane of the polygon. -/
theorem C72_distance_attained {pts : List (Vec3 ℝ)} {vn : Option (Vec3 ℝ)} {P : Poly} {v w : Vec3 ℝ} {e M k : ℝ}
    (h : polygonNew pts none vn = .ok P) (hv : P.vn = some v) (hpl : ∀ p ∈ P.pts, Vec3.dot v p = e)
    (hw : CornerNormal P.pts w) (hM : ∀ p ∈ P.pts, Vec3.norm p ≤ M) {x x' : Vec3 ℝ} (hx : x = x' + k • w)
    (hx' : Vec3.dot v x' = e) :
    ∃ r, distancePointToPolygon x P.pts P.tri w = .ok (some r) ∧ 0 ≤ r ∧
      Near (Region P.pts P.tri) x (r + (1 / 10 ^ 4 * (M + |k|) + 1 / 10 ^ 7)) ∧
      (∀ y, OnOutline P.pts y → r ≤ Vec3.norm (x - y)) := by
  obtain ⟨r, h1, h2, h3, h4, -⟩ := distance_spec h hv hpl hw hM hx hx'
  exact ⟨r, h1, h2, h3, h4⟩

/-- **C72, in front of the polygon.**  If the projection of the point falls well inside one of the triangles, the
distance is the one to the projection, and no point of the polygon is closer. -/
theorem C72_distance_in_front {pts : List (Vec3 ℝ)} {vn : Option (Vec3 ℝ)} {P : Poly} {v w : Vec3 ℝ} {e k : ℝ}
    (h : polygonNew pts none vn = .ok P) (hv : P.vn = some v) (hpl : ∀ p ∈ P.pts, Vec3.dot v p = e)
    (hw : CornerNormal P.pts w) {x x' : Vec3 ℝ} (hx : x = x' + k • w)
    (hwell : ∃ t ∈ P.tri, TriangleWith P.pts t fun a b c => WellInside a b c x') :
    distancePointToPolygon x P.pts P.tri w = .ok (some (Vec3.norm (x - x'))) ∧ Region P.pts P.tri x' ∧
      ∀ y, Region P.pts P.tri y → Vec3.norm (x - x') ≤ Vec3.norm (x - y) := by
  obtain ⟨M, hM⟩ := exists_bound P.pts
  have hreg : Region P.pts P.tri x' := by
    obtain ⟨t, ht, a, b, c, ha, hb, hc, hin⟩ := hwell
    exact ⟨t, ht, a, b, c, ha, hb, hc, hin.1⟩
  have e1 : Vec3.norm (x - x') = |k| := by
    have e1 : x - x' = k • w := by rw [hx]; abel
    rw [e1, Vec3.norm_smul, hw.1, mul_one]
  obtain ⟨r, h1, -, -, -, ⟨h2, h3⟩, -⟩ := distance_spec h hv hpl hw hM hx (region_plane hpl hreg)
  rw [e1, ← h3 hwell]
  refine ⟨h1, hreg, ?_⟩
  rw [h3 hwell]
  exact h2

/-- **C72, the distance is minimal**, unless the projection of the point falls into the polygon very close to an
edge between two of its triangles: no point of the polygon is closer than the distance returned. -/
theorem C72_distance_minimal_partial {pts : List (Vec3 ℝ)} {vn : Option (Vec3 ℝ)} {P : Poly} {v w : Vec3 ℝ}
    {e k : ℝ} (h : polygonNew pts none vn = .ok P) (hv : P.vn = some v) (hpl : ∀ p ∈ P.pts, Vec3.dot v p = e)
    (hw : CornerNormal P.pts w) {x x' : Vec3 ℝ} (hx : x = x' + k • w) (hx' : Vec3.dot v x' = e)
    (hin : Region P.pts P.tri x' →
      (∃ t ∈ P.tri, TriangleWith P.pts t fun a b c => WellInside a b c x') ∨ OnOutline P.pts x') :
    ∃ r, distancePointToPolygon x P.pts P.tri w = .ok (some r) ∧
      ∀ y, Region P.pts P.tri y → r ≤ Vec3.norm (x - y) := by
  have hf := polygonNew_flat h hv hpl
  obtain ⟨M, hM⟩ := exists_bound P.pts
  obtain ⟨r, hr, -, -, h1, ⟨h2, h3⟩, h4⟩ := distance_spec h hv hpl hw hM hx hx'
  refine ⟨r, hr, ?_⟩
  by_cases hreg : Region P.pts P.tri x'
  · rcases hin hreg with hwell | hout
    · rw [h3 hwell]; exact h2
    · intro y hy
      refine (h1 x' hout).trans ?_
      have e1 : x - x' = k • w := by rw [hx]; abel
      rw [e1, Vec3.norm_smul, hw.1, mul_one]
      exact h2 y hy
  · by_cases hrk : r = |k|
    · rw [hrk]; exact h2
    intro y hy
    obtain ⟨z, hz, t, ht0, ht1, hzt⟩ := meets_outline hf (polygonNew_joined h) hy hx' hreg
    refine (h1 z hz).trans ?_
    -- the point `z` of the outline is closer than `y`
    have hperp : Vec3.dot w (x' - y) = 0 := by
      rw [Vec3.dot_sub_right, plane_of_corner hf hw hx' (region_plane hf.plane hy), sub_self]
    apply Vec3.norm_le_norm
    have e1 : x - z = k • w + (1 - t) • (x' - y) := by
      rw [hx, hzt, sub_smul, one_smul]; abel
    have e2 : x - y = k • w + (x' - y) := by rw [hx]; abel
    have e3 : ∀ s : ℝ, Vec3.normSq (k • w + s • (x' - y)) =
        k ^ 2 * Vec3.normSq w + s ^ 2 * Vec3.normSq (x' - y) + 2 * k * s * Vec3.dot w (x' - y) := by
      intro s
      simp only [Vec3.normSq, Vec3.dot, Vec3.add_x, Vec3.add_y, Vec3.add_z, Vec3.smul_x, Vec3.smul_y, Vec3.smul_z]
      ring
    have e4 := e3 1
    rw [one_smul] at e4
    rw [e1, e2, e3, e4, hperp]
    have h5 : (1 - t) ^ 2 * Vec3.normSq (x' - y) ≤ 1 * Vec3.normSq (x' - y) :=
      mul_le_mul_of_nonneg_right (by nlinarith) (Vec3.normSq_nonneg _)
    linarith

/-! ## C73 -/

/-- **C73, no exceptions.** -/
theorem C73_total {pts : List (Vec3 ℝ)} {vn : Option (Vec3 ℝ)} {P : Poly} (h : polygonNew pts none vn = .ok P)
    (x u : Vec3 ℝ) (fwd : Bool) (atol : ℝ) : ∃ r, isPointInsideProjection x u P.pts P.tri fwd atol = .ok r := by
  obtain ⟨-, -, -, -, -, -, hpc⟩ := polygonNew_ok h
  unfold isPointInsideProjection
  rw [hpc]
  rcases P.plane with - | ⟨a, b, c, d⟩
  · exact ⟨false, rfl⟩
  · simp only []
    split
    · exact C71_total h _ _ _
    · split
      · exact ⟨false, rfl⟩
      · exact C71_total h _ _ _

/-- The projection, in terms of the plane of the polygon. -/
theorem isPointInsideProjection_eq {pts : List (Vec3 ℝ)} {tri : List Tri} {v w : Vec3 ℝ} {e : ℝ}
    (hf : Flat pts tri v e) (hw : CornerNormal pts w) (x u : Vec3 ℝ) (fwd : Bool) (atol : ℝ) :
    (|Vec3.dot w u| < atol → isPointInsideProjection x u pts tri fwd atol = isPointInside x pts tri true atol) ∧
    (¬ |Vec3.dot w u| < atol → Vec3.dot w u ≠ 0 → ∃ s : ℝ, Vec3.dot v (x + s • u) = e ∧
      isPointInsideProjection x u pts tri fwd atol =
        if fwd ∧ s < 0 then .ok false else isPointInside (x + s • u) pts tri true atol) := by
  obtain ⟨o, ho, hpc⟩ := planeCoefficients_eq hw
  obtain ⟨k, hk, hvw⟩ := cornerNormal_plane hw hf.ne hf.plane
  have hpo := hf.plane o ho
  have hu : w.x * u.x + w.y * u.y + w.z * u.z = Vec3.dot w u := rfl
  unfold isPointInsideProjection
  rw [hpc]
  simp only [hu]
  constructor
  · intro h
    rw [if_pos h]
  · intro h h0
    refine ⟨(- -Vec3.dot w o - w.x * x.x - w.y * x.y - w.z * x.z) / Vec3.dot w u, ?_, ?_⟩
    · have e1 : - -Vec3.dot w o - w.x * x.x - w.y * x.y - w.z * x.z = Vec3.dot w o - Vec3.dot w x := by
        simp only [Vec3.dot]; ring
      rw [e1, ← hpo, hvw, Vec3.dot_smul_left, Vec3.dot_smul_left, Vec3.dot_add_right, Vec3.dot_smul_right]
      field_simp
      ring
    · rw [if_neg h]

/-- **C73, hits.**  A ray that comes forward to a point well inside one of the triangles, or to a corner, hits the
polygon, unless it is almost parallel to it. -/
theorem C73_hit_partial {pts : List (Vec3 ℝ)} {vn : Option (Vec3 ℝ)} {P : Poly} {v w : Vec3 ℝ} {e atol s : ℝ}
    (h : polygonNew pts none vn = .ok P) (hv : P.vn = some v) (hpl : ∀ p ∈ P.pts, Vec3.dot v p = e)
    (hw : CornerNormal P.pts w) {x u : Vec3 ℝ} (hat : 0 < atol) (hu : atol ≤ |Vec3.dot w u|) (fwd : Bool)
    (hs : fwd = true → 0 ≤ s)
    (hin : (∃ t ∈ P.tri, TriangleWith P.pts t fun a b c => WellInside a b c (x + s • u)) ∨ x + s • u ∈ P.pts) :
    isPointInsideProjection x u P.pts P.tri fwd atol = .ok true := by
  have hf := polygonNew_flat h hv hpl
  have hst := polygonNew_sturdy h
  have hu0 : Vec3.dot w u ≠ 0 := by
    intro h0
    rw [h0, abs_zero] at hu
    linarith
  obtain ⟨s', hs', heq⟩ := (isPointInsideProjection_eq hf hw x u fwd atol).2 (not_lt.2 hu) hu0
  have hp : Vec3.dot v (x + s • u) = e := by
    rcases hin with ⟨t, ht, a, b, c, ha, hb, hc, hwell⟩ | hmem
    · exact inTriangle_plane (hpl a (List.mem_of_getElem? ha)) (hpl b (List.mem_of_getElem? hb))
        (hpl c (List.mem_of_getElem? hc)) hwell.1
    · exact hpl _ hmem
  have hss : s' = s := by
    have := plane_of_corner hf hw hs' hp
    rw [Vec3.dot_add_right, Vec3.dot_add_right, Vec3.dot_smul_right, Vec3.dot_smul_right] at this
    exact mul_right_cancel₀ hu0 (add_left_cancel this)
  subst hss
  rw [heq, if_neg (by rintro ⟨h1, h2⟩; have := hs h1; linarith)]
  rcases hin with ⟨t, ht, a, b, c, ha, hb, hc, hwell⟩ | hmem
  · exact isPointInside_of_triangle hst hf hat ht ⟨a, b, c, ha, hb, hc, hwell.1, isPointInside_complete hwell⟩
  · obtain ⟨t, ht, a, b, c, ha, hb, hc, hcor⟩ := polygonNew_vertex h hmem
    refine isPointInside_of_triangle hst hf hat ht ⟨a, b, c, ha, hb, hc, ?_, isPointInside_corner hcor⟩
    rcases hcor with e1 | e1 | e1 <;> rw [e1]
    · exact ⟨1, 0, 0, zero_le_one, le_refl _, le_refl _, by ring, by simp⟩
    · exact ⟨0, 1, 0, le_refl _, zero_le_one, le_refl _, by ring, by simp⟩
    · exact ⟨0, 0, 1, le_refl _, le_refl _, zero_le_one, by ring, by simp⟩

/-- **C73, soundness.**  If a ray not almost parallel to the polygon is reported to hit it, it comes to a point of the
plane of the polygon which is in the polygon up to the tolerance; only the forward direction counts if the backward one
is excluded. -/
theorem C73_sound_partial {pts : List (Vec3 ℝ)} {vn : Option (Vec3 ℝ)} {P : Poly} {v w : Vec3 ℝ} {e atol M : ℝ}
    (h : polygonNew pts none vn = .ok P) (hv : P.vn = some v) (hpl : ∀ p ∈ P.pts, Vec3.dot v p = e)
    (hw : CornerNormal P.pts w) (hM : ∀ p ∈ P.pts, Vec3.norm p ≤ M) {x u : Vec3 ℝ} (hat : 0 < atol)
    (hu : atol ≤ |Vec3.dot w u|) {fwd : Bool}
    (hin : isPointInsideProjection x u P.pts P.tri fwd atol = .ok true) :
    ∃ s : ℝ, (fwd = true → 0 ≤ s) ∧ Vec3.dot v (x + s • u) = e ∧
      Near (Region P.pts P.tri) (x + s • u) (1 / 10 ^ 4 * M + 1 / 10 ^ 7) := by
  have hf := polygonNew_flat h hv hpl
  have hst := polygonNew_sturdy h
  have hu0 : Vec3.dot w u ≠ 0 := by
    intro h0
    rw [h0, abs_zero] at hu
    linarith
  obtain ⟨s, hs, heq⟩ := (isPointInsideProjection_eq hf hw x u fwd atol).2 (not_lt.2 hu) hu0
  rw [heq] at hin
  split at hin
  · cases hin
  · rename_i hneg
    refine ⟨s, fun hfw => ?_, hs, near_of_inside hst hf hM hs hin⟩
    by_contra hc
    exact hneg ⟨hfw, not_le.1 hc⟩

/-- **C73, almost parallel rays** hit the polygon exactly if they start in it. -/
theorem C73_parallel {pts : List (Vec3 ℝ)} {vn : Option (Vec3 ℝ)} {P : Poly} {v w : Vec3 ℝ} {e atol : ℝ}
    (h : polygonNew pts none vn = .ok P) (hv : P.vn = some v) (hpl : ∀ p ∈ P.pts, Vec3.dot v p = e)
    (hw : CornerNormal P.pts w) {x u : Vec3 ℝ} (hu : |Vec3.dot w u| < atol) (fwd : Bool) :
    isPointInsideProjection x u P.pts P.tri fwd atol = isPointInside x P.pts P.tri true atol :=
  (isPointInsideProjection_eq (polygonNew_flat h hv hpl) hw x u fwd atol).1 hu

end B3d.Polygon
