import Verif.Proofs.PointInPolygon

/-!
# C71 (points inside polygons)

The statements are about polygons made by the constructor, whose points lie exactly in a plane perpendicular to
the normal.  `Region` is what the triangles cover; C20 says that this is what the outline encloses.
-/

namespace B3d.Polygon

open Spec Triangles Points

/-- **C71, no exceptions.**  Testing any point against any polygon made by the constructor ends with an answer,
with the boundary included or not, for every tolerance. -/
theorem C71_total {pts : List (Vec3 ℝ)} {vn : Option (Vec3 ℝ)} {P : Poly} (h : polygonNew pts none vn = .ok P)
    (x : Vec3 ℝ) (b : Bool) (atol : ℝ) : ∃ r, isPointInside x P.pts P.tri b atol = .ok r := by
  obtain ⟨r, hr, -⟩ := isPointInside_iff (x := x) b atol (polygonNew_sturdy h)
  exact ⟨r, hr⟩

/-- **C71, points well inside.**  A point in one of the triangles, not too close to the edges of the triangle, is
inside, and so is every corner of the polygon. -/
theorem C71_accepts_partial {pts : List (Vec3 ℝ)} {vn : Option (Vec3 ℝ)} {P : Poly} {v : Vec3 ℝ} {e : ℝ}
    (h : polygonNew pts none vn = .ok P) (hv : P.vn = some v) (hpl : ∀ p ∈ P.pts, Vec3.dot v p = e) {x : Vec3 ℝ}
    (hx : (∃ t ∈ P.tri, TriangleWith P.pts t fun a b c => WellInside a b c x) ∨ x ∈ P.pts) :
    isPointInside x P.pts P.tri = .ok true := by
  have hs := polygonNew_sturdy h
  have hf := polygonNew_flat h hv hpl
  rcases hx with ⟨t, ht, a, b, c, ha, hb, hc, hw⟩ | hx
  · exact isPointInside_of_triangle hs hf GEOM_ATOL_pos ht ⟨a, b, c, ha, hb, hc, hw.1, isPointInside_complete hw⟩
  · obtain ⟨t, ht, a, b, c, ha, hb, hc, hw⟩ := polygonNew_vertex h hx
    refine isPointInside_of_triangle hs hf GEOM_ATOL_pos ht ⟨a, b, c, ha, hb, hc, ?_, isPointInside_corner hw⟩
    rcases hw with rfl | rfl | rfl
    · exact ⟨1, 0, 0, zero_le_one, le_refl _, le_refl _, by ring, by simp⟩
    · exact ⟨0, 1, 0, le_refl _, zero_le_one, le_refl _, by ring, by simp⟩
    · exact ⟨0, 0, 1, le_refl _, le_refl _, zero_le_one, by ring, by simp⟩

/-- **C71, points on the edges.**  A point on an edge of the polygon, or on the edge shared by two of the triangles, is
inside (for the default setting, which includes the boundary), unless it is close to the other edges of the triangle. -/
theorem C71_accepts_edge_partial {pts : List (Vec3 ℝ)} {vn : Option (Vec3 ℝ)} {P : Poly} {v : Vec3 ℝ} {e : ℝ}
    (h : polygonNew pts none vn = .ok P) (hv : P.vn = some v) (hpl : ∀ p ∈ P.pts, Vec3.dot v p = e) {x : Vec3 ℝ}
    (hx : ∃ t ∈ P.tri, TriangleWith P.pts t fun a b c =>
      WellOnEdge a b c x ∨ WellOnEdge b c a x ∨ WellOnEdge c a b x) :
    isPointInside x P.pts P.tri = .ok true := by
  obtain ⟨t, ht, a, b, c, ha, hb, hc, hw⟩ := hx
  exact isPointInside_of_triangle (polygonNew_sturdy h) (polygonNew_flat h hv hpl) GEOM_ATOL_pos ht
    ⟨a, b, c, ha, hb, hc, isPointInside_edge hw⟩

/-- **C71, soundness.**  A point reported inside is close to the region covered by the polygon: within a tolerance
relative to the distance `M` of the corners from the origin. -/
theorem C71_sound_partial {pts : List (Vec3 ℝ)} {vn : Option (Vec3 ℝ)} {P : Poly} {v : Vec3 ℝ} {e M : ℝ}
    (h : polygonNew pts none vn = .ok P) (hv : P.vn = some v) (hpl : ∀ p ∈ P.pts, Vec3.dot v p = e)
    (hs : SpansPlane P.pts) (hM : ∀ p ∈ P.pts, Vec3.norm p ≤ M) {x : Vec3 ℝ} {b : Bool}
    (hx : isPointInside x P.pts P.tri b = .ok true) :
    Near (Region P.pts P.tri) x (1 / 10 ^ 4 * M + 2 / 10 ^ 7) := by
  have hf := polygonNew_flat h hv hpl
  obtain ⟨r, hr, hir⟩ := isPointInside_iff (x := x) b GEOM_ATOL (polygonNew_sturdy h)
  rw [hx, Except.ok.injEq] at hr
  obtain ⟨-, hcop, ⟨t, ht, a, b', c, ha, hb, hc, hin⟩, -⟩ := hir.1 hr.symm
  have ma := List.mem_of_getElem? ha
  have mb := List.mem_of_getElem? hb
  have mc := List.mem_of_getElem? hc
  have hM0 : 0 ≤ M := (Vec3.norm_nonneg a).trans (hM a ma)
  have hA := (triangleWith_eq ha hb hc).1 (hf.pos t ht)
  rcases Triangles.isPointInside_sound hf.ne (hpl a ma) (hpl b' mb) (hpl c mc) hA (hM a ma) (hM b' mb) (hM c mc) hin
    with ⟨y, hy, hd⟩ | hy
  · refine ⟨y, ⟨t, ht, a, b', c, ha, hb, hc, hy⟩, hd.trans ?_⟩
    norm_num
  · refine ⟨_, ⟨t, ht, a, b', c, ha, hb, hc, hy⟩, ?_⟩
    rw [norm_foot hf.ne]
    have h1 := coplanar_near hf.ne hf.plane hs (le_refl _) hcop
    have h2 := norm_pos' hf.ne
    rw [div_le_iff₀ h2]
    have h3 : GEOM_ATOL * Vec3.norm v ≤ (1 / 10 ^ 4 * M + 2 / 10 ^ 7) * Vec3.norm v := by
      apply mul_le_mul_of_nonneg_right _ h2.le
      have : (GEOM_ATOL : ℝ) ≤ 2 / 10 ^ 7 := by norm_num [GEOM_ATOL]
      have : 0 ≤ 1 / 10 ^ 4 * M := by positivity
      linarith
    linarith

/-- **C71, points off the plane** are rejected. -/
theorem C71_off_plane {pts : List (Vec3 ℝ)} {vn : Option (Vec3 ℝ)} {P : Poly} {v : Vec3 ℝ} {e : ℝ}
    (h : polygonNew pts none vn = .ok P) (hv : P.vn = some v) (hpl : ∀ p ∈ P.pts, Vec3.dot v p = e)
    (hs : SpansPlane P.pts) {x : Vec3 ℝ} (b : Bool) (hx : GEOM_ATOL * Vec3.norm v ≤ |Vec3.dot v x - e|) :
    isPointInside x P.pts P.tri b = .ok false := by
  have hf := polygonNew_flat h hv hpl
  obtain ⟨r, hr, hir⟩ := isPointInside_iff (x := x) b GEOM_ATOL (polygonNew_sturdy h)
  cases r with
  | false => exact hr
  | true =>
    have h1 := coplanar_near hf.ne hf.plane hs (le_refl _) (hir.1 rfl).2.1
    linarith

theorem mem_cycEdges_iff {α : Type} {l : List α} {e : α × α} : e ∈ cycEdges l ↔
    ∃ k, ∃ hk : k < l.length, e = (l[k], l[(k + 1) % l.length]'(Nat.mod_lt _ (by omega))) := by
  constructor
  · intro h
    obtain ⟨k, hk, rfl⟩ := List.mem_iff_getElem.1 h
    rw [length_cycEdges] at hk
    refine ⟨k, hk, ?_⟩
    have := cycEdges_getElem? l k hk
    rw [List.getElem?_eq_getElem (by rw [length_cycEdges]; exact hk), Option.some.injEq] at this
    exact this
  · rintro ⟨k, hk, rfl⟩
    exact List.mem_of_getElem? (cycEdges_getElem? l k hk)

/-- Every edge of the outline is an edge of a triangle, in the same direction. -/
theorem polygonNew_outline {pts : List (Vec3 ℝ)} {vn : Option (Vec3 ℝ)} {P : Poly}
    (h : polygonNew pts none vn = .ok P) {ed : Vec3 ℝ × Vec3 ℝ} (he : ed ∈ cycEdges P.pts) :
    ∃ t ∈ P.tri, TriangleWith P.pts t fun a b c => ed = (a, b) ∨ ed = (b, c) ∨ ed = (c, a) := by
  obtain ⟨hn, v', hv', hc, ht, -⟩ := polygonNew_ok h
  obtain ⟨h1, -⟩ := C20_triangulate_valid _ _ _ _ _ _ _ hn ht
  have hlen : P.pts.length = pts.length := by rcases h1 with h1 | h1 <;> rw [h1]; simp
  obtain ⟨-, hst⟩ := polygonNew_sturdy h
  obtain ⟨k, hk, rfl⟩ := mem_cycEdges_iff.1 he
  have h2 := ((C20_triangulate_edges _ _ _ _ _ _ _ hn ht).1 k (by omega)).1
  have h3 := List.count_pos_iff.1 (by rw [h2]; exact Nat.one_pos)
  obtain ⟨t, htm, hm⟩ := List.mem_flatMap.1 h3
  obtain ⟨a, b, c, ha, hb, hc', -⟩ := hst t htm
  refine ⟨t, htm, a, b, c, ha, hb, hc', ?_⟩
  have e1 : P.pts[k]? = some P.pts[k] := List.getElem?_eq_getElem hk
  have e2 : P.pts[(k + 1) % P.pts.length]? = some (P.pts[(k + 1) % P.pts.length]'(Nat.mod_lt _ (by omega))) :=
    List.getElem?_eq_getElem _
  rw [← hlen] at hm
  simp only [List.mem_cons, Prod.mk.injEq, List.not_mem_nil, or_false] at hm
  rcases hm with ⟨i1, i2⟩ | ⟨i1, i2⟩ | ⟨i1, i2⟩
  · left; rw [← i1, e1, Option.some.injEq] at ha; rw [← i2, e2, Option.some.injEq] at hb; rw [ha, hb]
  · right; left; rw [← i1, e1, Option.some.injEq] at hb; rw [← i2, e2, Option.some.injEq] at hc'; rw [hb, hc']
  · right; right; rw [← i1, e1, Option.some.injEq] at hc'; rw [← i2, e2, Option.some.injEq] at ha; rw [hc', ha]

theorem polygonNew_edges_ne {pts : List (Vec3 ℝ)} {vn : Option (Vec3 ℝ)} {P : Poly}
    (h : polygonNew pts none vn = .ok P) {ed : Vec3 ℝ × Vec3 ℝ} (he : ed ∈ cycEdges P.pts) : ed.1 ≠ ed.2 := by
  obtain ⟨t, ht, a, b, c, ha, hb, hc, hed⟩ := polygonNew_outline h he
  have hlen := (triangleWith_eq ha hb hc).1 ((polygonNew_sturdy h).2 t ht)
  intro hne
  apply hlen
  have : Vec3.cross (b - a) (c - b) = 0 := by
    rcases hed with rfl | rfl | rfl <;> simp only at hne <;> subst hne <;> ext <;> simp <;> ring
  rw [this, Vec3.norm_eq_zero.2 rfl]
  exact GEOM_ATOL_pos

theorem onSegment_near {x p q : Vec3 ℝ} {M L : ℝ} (hp : Vec3.norm p ≤ M) (hq : Vec3.norm q ≤ M) (hL : 0 < L)
    (hpq : L ≤ Vec3.norm (q - p)) (h : isPointOnSegment x p q = true) :
    ∃ y, OnSegment p q y ∧ Vec3.norm (x - y) ≤ 1 / 10 ^ 4 * M + 1 / 10 ^ 7 + 2 / 10 ^ 13 / L := by
  have hM0 : 0 ≤ M := (Vec3.norm_nonneg p).trans hp
  have hL2 : 0 < 2 / 10 ^ 13 / L := by positivity
  by_cases h1 : pointsEqual x p = true
  · exact ⟨p, ⟨0, le_refl _, zero_le_one, by simp⟩, (Triangles.pointsEqual_close hp h1).trans (by linarith)⟩
  by_cases h2 : pointsEqual x q = true
  · exact ⟨q, ⟨1, zero_le_one, le_refl _, by simp⟩, (Triangles.pointsEqual_close hq h2).trans (by linarith)⟩
  have hne : p ≠ q := by
    rintro rfl
    rw [sub_self, Vec3.norm_eq_zero.2 rfl] at hpq
    linarith
  obtain ⟨t, h0, h1, hd⟩ := C38_point_on_segment_sound_partial x p q GEOM_ATOL hne h (by simpa using h1)
    (by simpa using h2)
  refine ⟨_, ⟨t, h0, h1, rfl⟩, ?_⟩
  have h3 : Vec3.norm (x - (p + t • (q - p))) ≤ 2 / 10 ^ 13 / L := by
    rw [le_div_iff₀ hL]
    have h4 : (Vec3.norm (x - (p + t • (q - p))) * Vec3.norm (q - p)) ^ 2 ≤ (2 / 10 ^ 13) ^ 2 := by
      rw [mul_pow, Vec3.norm_sq, Vec3.norm_sq]
      refine hd.trans ?_
      norm_num [GEOM_ATOL]
    have h5 := abs_le_of_sq_le_sq h4 (by norm_num)
    refine le_trans ?_ h5
    rw [abs_of_nonneg (mul_nonneg (Vec3.norm_nonneg _) (Vec3.norm_nonneg _))]
    exact mul_le_mul_of_nonneg_left hpq (Vec3.norm_nonneg _)
  have : 0 ≤ 1 / 10 ^ 4 * M := by positivity
  norm_num at this ⊢
  norm_num at h3
  linarith

/-- **C71, without the boundary.**  With `boundary_in=False` every point of the outline is rejected, and a point
which is further from the outline than the tolerance gets the same answer as with the boundary. -/
theorem C71_boundary {pts : List (Vec3 ℝ)} {vn : Option (Vec3 ℝ)} {P : Poly} (h : polygonNew pts none vn = .ok P)
    (x : Vec3 ℝ) :
    (OnOutline P.pts x → isPointInside x P.pts P.tri false = .ok false) ∧
    (∀ M L : ℝ, (∀ p ∈ P.pts, Vec3.norm p ≤ M) → 0 < L → (∀ ed ∈ cycEdges P.pts, L ≤ Vec3.norm (ed.2 - ed.1)) →
      (∀ y, OnOutline P.pts y → 1 / 10 ^ 4 * M + 1 / 10 ^ 7 + 2 / 10 ^ 13 / L < Vec3.norm (x - y)) →
      isPointInside x P.pts P.tri false = isPointInside x P.pts P.tri true) := by
  have hs := polygonNew_sturdy h
  obtain ⟨r, hr, hir⟩ := isPointInside_iff (x := x) false GEOM_ATOL hs
  obtain ⟨r', hr', hir'⟩ := isPointInside_iff (x := x) true GEOM_ATOL hs
  rw [atBoundary_eq hs.1] at hir
  constructor
  · rintro ⟨ed, he, t, h0, h1, rfl⟩
    cases r with
    | false => exact hr
    | true =>
      exfalso
      have h2 := (hir.1 rfl).2.2.2 rfl
      rw [Except.ok.injEq] at h2
      have h3 := (boundaryLoop_iff (x := ed.1 + t • (ed.2 - ed.1)) (atol := GEOM_ATOL) (cycEdges P.pts)).2
        ⟨ed, he, C38_point_on_segment_complete ed.1 ed.2 t GEOM_ATOL h0 h1 GEOM_ATOL_pos.le⟩
      rw [h3] at h2
      cases h2
  · intro M L hM hL hedge hfar
    have hb : boundaryLoop x GEOM_ATOL (cycEdges P.pts) = false := by
      cases hb : boundaryLoop x GEOM_ATOL (cycEdges P.pts) with
      | false => rfl
      | true =>
        exfalso
        obtain ⟨ed, he, hseg⟩ := (boundaryLoop_iff _).1 hb
        obtain ⟨k, hk, hed⟩ := mem_cycEdges_iff.1 he
        obtain ⟨y, hy, hd⟩ := onSegment_near (M := M) (hM _ (by rw [hed]; exact List.getElem_mem _))
          (hM _ (by rw [hed]; exact List.getElem_mem _)) hL (hedge ed he) hseg
        exact absurd hd (not_le.2 (hfar y ⟨ed, he, hy⟩))
    rw [hb] at hir
    rw [hr, hr']
    congr 1
    rw [Bool.eq_iff_iff, hir, hir']
    simp

theorem marginLoop_iff {x : Vec3 ℝ} {m : ℝ} : ∀ es : List (Vec3 ℝ × Vec3 ℝ), (∀ e ∈ es, e.1 ≠ e.2) →
    ∃ r, marginLoop x m es = .ok r ∧ (r = true ↔ ∀ e ∈ es, ∀ y, OnSegment e.1 e.2 y → m ≤ Vec3.norm (x - y))
  | [], _ => ⟨true, rfl, by simp⟩
  | (p, q) :: es, h => by
    obtain ⟨r, hr, hir⟩ := marginLoop_iff (x := x) (m := m) es fun e he => h e (List.mem_cons_of_mem _ he)
    obtain ⟨d, hd, ⟨t, h0, h1, hdt⟩, hmin⟩ := (C27_distance_point_to_edge x p q).1 (h _ List.mem_cons_self)
    have hsw : ∀ y : Vec3 ℝ, Vec3.norm (x - y) = Vec3.norm (y - x) := fun y => by
      rw [← Vec3.norm_neg]; simp
    unfold marginLoop
    simp only [hd]
    by_cases hdm : d < m
    · rw [if_pos hdm]
      refine ⟨false, rfl, ?_⟩
      simp only [Bool.false_eq_true, false_iff]
      intro hall
      have := hall _ List.mem_cons_self _ ⟨t, h0, h1, rfl⟩
      rw [hsw, ← hdt] at this
      linarith
    · rw [if_neg hdm]
      refine ⟨r, hr, ?_⟩
      rw [hir, List.forall_mem_cons]
      constructor
      · intro hall
        refine ⟨?_, hall⟩
        rintro y ⟨t', h0', h1', rfl⟩
        rw [hsw]
        exact (not_lt.1 hdm).trans (hmin t' h0' h1')
      · exact fun h => h.2

/-- **C71, margin.**  A point is inside with a margin exactly if it is inside and every point of the outline is
at least the margin away. -/
theorem C71_margin {pts : List (Vec3 ℝ)} {vn : Option (Vec3 ℝ)} {P : Poly} (h : polygonNew pts none vn = .ok P)
    (x : Vec3 ℝ) (m : ℝ) : ∃ r, isPointInsideMargin x m P.pts P.tri = .ok r ∧
      (r = true ↔ isPointInside x P.pts P.tri = .ok true ∧ ∀ y, OnOutline P.pts y → m ≤ Vec3.norm (x - y)) := by
  obtain ⟨r, hr⟩ := C71_total h x true GEOM_ATOL
  obtain ⟨r', hr', hir'⟩ := marginLoop_iff (x := x) (m := m) (cycEdges P.pts) fun e he => polygonNew_edges_ne h he
  unfold isPointInsideMargin
  rw [hr, polygonEdges_eq 0 _ (polygonNew_sturdy h).1]
  cases r with
  | false => exact ⟨false, rfl, by simp⟩
  | true =>
    refine ⟨r', hr', ?_⟩
    rw [hir']
    constructor
    · exact fun hall => ⟨rfl, fun y ⟨e, he, hy⟩ => hall e he y hy⟩
    · exact fun hall e he y hy => hall.2 y ⟨e, he, hy⟩

/-- **C71, interior point.**  The interior point of a polygon is strictly inside one of its triangles; if the
corners of this triangle are not too close to the opposite edges, it is inside for the test as well. -/
theorem C71_interior_point {pts : List (Vec3 ℝ)} {vn : Option (Vec3 ℝ)} {P : Poly} {v : Vec3 ℝ} {e : ℝ}
    (h : polygonNew pts none vn = .ok P) (hv : P.vn = some v) (hpl : ∀ p ∈ P.pts, Vec3.dot v p = e) :
    ∃ x, someInteriorPoint P = .ok x ∧ ∃ t ∈ P.tri, TriangleWith P.pts t fun a b c => InsideTriangle a b c x ∧
      ∀ D : ℝ, Vec3.norm (b - a) ≤ D → Vec3.norm (c - b) ≤ D → Vec3.norm (a - c) ≤ D →
        AwayFromLine a b c (3 * max (1 / 10 ^ 6) (1 / 10 ^ 4 * D)) →
        AwayFromLine b c a (3 * max (1 / 10 ^ 6) (1 / 10 ^ 4 * D)) →
        AwayFromLine c a b (3 * max (1 / 10 ^ 6) (1 / 10 ^ 4 * D)) →
        isPointInside x P.pts P.tri = .ok true := by
  have hst := (polygonNew_sturdy h).2
  obtain ⟨hn, v', hv', hc, ht, -⟩ := polygonNew_ok h
  obtain ⟨-, h2, -⟩ := C20_triangulate_valid _ _ _ _ _ _ _ hn ht
  have hall := fun t => C71_accepts_partial h hv hpl (x := t)
  obtain ⟨t, ts, htri⟩ : ∃ t ts, P.tri = t :: ts := by
    cases hP : P.tri with
    | nil => rw [hP] at h2; simp at h2; omega
    | cons t ts => exact ⟨t, ts, rfl⟩
  have hmem : t ∈ P.tri := by rw [htri]; exact List.mem_cons_self
  obtain ⟨a, b, c, ha, hb, hc', -⟩ := hst t hmem
  have h3 : ∀ p q r : Vec3 ℝ, ∀ s : ℝ, (1 / 3 : ℝ) • (p + q + r) - (p + s • (q - p)) =
      (1 / 3 : ℝ) • (r - (p + (3 * s - 1) • (q - p))) := by
    intro p q r s
    ext <;> simp <;> ring
  have h4 : ∀ {p q r : Vec3 ℝ} {d : ℝ}, AwayFromLine p q r (3 * d) →
      AwayFromLine p q ((1 / 3 : ℝ) • (p + q + r)) d := by
    intro p q r d h s
    rw [h3, Vec3.norm_smul, abs_of_pos (by norm_num : (0 : ℝ) < 1 / 3)]
    have := h (3 * s - 1)
    linarith
  have hrot1 : b + c + a = a + b + c := by abel
  have hrot2 : c + a + b = a + b + c := by abel
  refine ⟨triangleCentroid a b c, ?_, t, hmem, a, b, c, ha, hb, hc', ?_, ?_⟩
  · unfold someInteriorPoint
    rw [htri]
    obtain ⟨i, j, k⟩ := t
    simp only at ha hb hc'
    simp only [ha, hb, hc']
  · exact ⟨1 / 3, 1 / 3, 1 / 3, by norm_num, by norm_num, by norm_num, by norm_num, by
      unfold triangleCentroid; rw [smul_add, smul_add]⟩
  · intro D h1 h2 h3 ha' hb'' hc''
    refine hall _ (.inl ⟨t, hmem, a, b, c, ha, hb, hc', ?_, D, h1, h2, h3, ?_, ?_, ?_⟩)
    · exact ⟨1 / 3, 1 / 3, 1 / 3, by norm_num, by norm_num, by norm_num, by norm_num, by
        unfold triangleCentroid; rw [smul_add, smul_add]⟩
    · exact h4 ha'
    · have := h4 hb''
      rwa [hrot1] at this
    · have := h4 hc''
      rwa [hrot2] at this

/-- **C71, polygons in polygons.**  `contains_polygon` says whether all corners of the other polygon are inside
with the margin. -/
theorem C71_contains_partial {pts : List (Vec3 ℝ)} {vn : Option (Vec3 ℝ)} {P : Poly}
    (h : polygonNew pts none vn = .ok P) (Q : Poly) (m : ℝ) : ∃ r, containsPolygon P Q m = .ok r ∧
      (r = true ↔ ∀ q ∈ Q.pts, isPointInside q P.pts P.tri = .ok true ∧
        ∀ y, OnOutline P.pts y → m ≤ Vec3.norm (q - y)) := by
  unfold containsPolygon
  generalize Q.pts = l
  induction l with
  | nil => exact ⟨true, rfl, by simp⟩
  | cons q l ih =>
    obtain ⟨r, hr, hir⟩ := ih
    obtain ⟨r', hr', hir'⟩ := C71_margin h q m
    unfold containsLoop
    rw [hr']
    cases r' with
    | false =>
      refine ⟨false, rfl, ?_⟩
      rw [List.forall_mem_cons, ← hir']
      simp
    | true =>
      refine ⟨r, hr, ?_⟩
      rw [List.forall_mem_cons, ← hir', hir]
      simp

end B3d.Polygon
