import Verif.Proofs.PolygonObj
import Verif.Props.Points

/-! # Polygon objects: C33 (flip), C34 (facing), C70 (orientation) -/

namespace B3d.Polygon

open Triangles Spec

/-! ### C70: orientation of polygons -/

theorem triangulate_orientation {fuel : Nat} {pts pts' : List (Vec3 ℝ)} {vn : Vec3 ℝ} {tri : List Tri}
    (hn : 3 ≤ pts.length) (h : triangulate fuel pts vn = some (.ok (pts', tri))) :
    (pts' = pts ∨ pts' = pts.reverse) ∧ tri.length = pts.length - 2 ∧
    (∀ t ∈ tri, 0 < signedArea2 pts' vn t) ∧ 0 < Vec3.dot (cycSum Vec3.cross pts') vn := by
  obtain ⟨h1, hg⟩ := triangulateTries_good _ _ _ _ _ pts hn pts' tri h
  obtain ⟨h2, _⟩ := C20_triangulate_area fuel pts pts' vn tri hn h
  obtain ⟨_, h3, _⟩ := C20_triangulate_valid _ _ _ fuel pts pts' tri hn h
  refine ⟨h1, h3, h2, ?_⟩
  rw [← triangles_sum _ pts' tri vn hg]
  match tri, h3, h2 with
  | [], h3, _ => simp at h3; omega
  | t :: ts, _, h2 =>
    rw [List.map_cons, List.sum_cons]
    have a := h2 t List.mem_cons_self
    have b : 0 ≤ (ts.map (signedArea2 pts' vn)).sum := by
      apply List.sum_nonneg
      intro x hx
      obtain ⟨t, ht, rfl⟩ := List.mem_map.1 hx
      exact (h2 t (List.mem_cons_of_mem _ ht)).le
    linarith

theorem cycSum_cross_reverse (pts : List (Vec3 ℝ)) (v : Vec3 ℝ) :
    Vec3.dot (cycSum Vec3.cross pts.reverse) v = -Vec3.dot (cycSum Vec3.cross pts) v := by
  rw [cycSum_reverse _ cross_antisymm, Vec3.dot_neg_left]

/-- What the constructor has computed. -/
theorem polygonNew_ok {pts : List (Vec3 ℝ)} {vn : Option (Vec3 ℝ)} {P : Poly}
    (h : polygonNew pts none vn = .ok P) : 3 ≤ pts.length ∧ ∃ v, P.vn = some v ∧
      chooseNormal pts vn = .ok (some v) ∧
      triangulate (2 * pts.length + 2) pts v = some (.ok (P.pts, P.tri)) ∧
      P.area = some (polygonArea P.pts v) ∧ planeCoefficients P.pts = .ok P.plane := by
  simp only [polygonNew] at h
  split at h
  · cases h
  split at h
  · cases h
  rename_i hlen
  split at h
  · cases h
  rename_i v hv
  split at h
  · cases h
  rename_i pts' tri' ht
  split at h
  · cases h
  split at h
  · cases h
  rename_i pc hpc
  rw [Except.ok.injEq] at h
  subst h
  refine ⟨not_not.1 hlen, ?_⟩
  simp only [chooseTriangles] at ht
  split at ht
  · cases ht
  rename_i v'
  split at ht
  · cases ht
  rename_i r hr
  subst ht
  exact ⟨v', rfl, hv, hr, rfl, hpc⟩

/-- **C70.**  A polygon made from points, without triangles given: the points are the given ones, in the
given order or reversed; its triangles and its outline run counter-clockwise around its normal, which is the
given one if there was one; the area is positive.  The points keep their order exactly if the outline runs
counter-clockwise around the normal. -/
theorem C70_orientation {pts : List (Vec3 ℝ)} {vn : Option (Vec3 ℝ)} {P : Poly}
    (h : polygonNew pts none vn = .ok P) :
    ∃ v, P.vn = some v ∧ (∀ v0, vn = some v0 → v = v0) ∧
      (P.pts = pts ∨ P.pts = pts.reverse) ∧ P.tri.length = pts.length - 2 ∧
      (∀ t ∈ P.tri, 0 < signedArea2 P.pts v t) ∧
      (∃ a, P.area = some a ∧ 0 < a ∧ a = Vec3.dot (cycSum Vec3.cross P.pts) v / 2) ∧
      (P.pts = pts ↔ 0 < Vec3.dot (cycSum Vec3.cross pts) v) := by
  obtain ⟨hn, v, hv, hc, ht, ha, _⟩ := polygonNew_ok h
  obtain ⟨h1, h2, h3, h4⟩ := triangulate_orientation hn ht
  refine ⟨v, hv, ?_, h1, h2, h3, ⟨_, ha, ?_, ?_⟩, ?_⟩
  · rintro v0 rfl
    simp only [chooseNormal, Except.ok.injEq, Option.some.injEq] at hc
    exact hc.symm
  · rw [C23_polygon_area_spec, specArea]
    have := abs_pos.2 h4.ne'
    linarith
  · rw [C23_polygon_area_spec, specArea, abs_of_pos (by linarith)]
  · constructor
    · intro e; rw [e] at h4; exact h4
    · intro hp
      rcases h1 with e | e
      · exact e
      · rw [e, cycSum_cross_reverse] at h4
        linarith

/-- **C70, the surprising case.**  Without a normal given, the normal is taken at the first corner.  If that
corner is reflex (its normal points against the outline), the polygon is the one with the reversed
outline: its normal is opposite to the one of the outline as given. -/
theorem C70_reflex_first_corner {pts : List (Vec3 ℝ)} {P : Poly} (h : polygonNew pts none none = .ok P)
    {l p0 p1 v : Vec3 ℝ} (hl : pts.getLast? = some l) (h0 : pts[0]? = some p0) (h1 : pts[1]? = some p1)
    (hv : normal l p0 p1 = some v) (hr : Vec3.dot (cycSum Vec3.cross pts) v < 0) :
    P.vn = some v ∧ P.pts = pts.reverse := by
  obtain ⟨hn, w, hw, hc, -⟩ := polygonNew_ok h
  obtain ⟨w', hw', -, ho, -, -, -, hi⟩ := C70_orientation h
  simp only [chooseNormal, hl, h0, h1, Except.ok.injEq] at hc
  rw [hv, Option.some.injEq] at hc
  subst hc
  rw [hw, Option.some.injEq] at hw'
  subst hw'
  refine ⟨hw, ho.resolve_left fun e => ?_⟩
  have := hi.1 e
  linarith

/-- **C70, triangles given.**  With triangles given, the points, the triangles and (if given) the normal
are taken as they are; no triangles at all is an AssertionError. -/
theorem C70_given {pts : List (Vec3 ℝ)} {vn : Option (Vec3 ℝ)} {tri : List Tri} :
    (∀ P, polygonNew pts (some tri) vn = .ok P → P.pts = pts ∧ P.tri = tri ∧ tri ≠ [] ∧
      (∀ v, vn = some v → P.vn = some v)) ∧
    (3 ≤ pts.length → polygonNew pts (some []) vn = .error .assertionError) := by
  refine ⟨?_, ?_⟩
  · intro P h
    simp only [polygonNew, chooseTriangles] at h
    split at h
    · cases h
    split at h
    · cases h
    split at h
    · cases h
    rename_i v hv
    cases tri with
    | nil => simp at h
    | cons t ts =>
      simp only [List.length_cons, gt_iff_lt, Nat.zero_lt_succ, if_true] at h
      split at h
      · cases h
      split at h
      · cases h
      cases h
      refine ⟨rfl, rfl, by simp, ?_⟩
      rintro v0 rfl
      simp only [chooseNormal, Except.ok.injEq] at hv
      exact hv.symm
  · intro h3
    simp only [polygonNew, chooseTriangles]
    split
    · rfl
    rw [if_neg (by simp)]
    split
    · rename_i e he
      cases vn with
      | some v => simp [chooseNormal] at he
      | none =>
        match pts, h3 with
        | a :: b :: l, _ =>
          have : (a :: b :: l).getLast?.isSome := by simp
          obtain ⟨x, hx⟩ := Option.isSome_iff_exists.1 this
          simp [chooseNormal, hx] at he
    · simp

/-! ### C33: flipping -/

/-- Swapping the outer points of a corner turns its normal round. -/
theorem normal_swap (a b c : Vec3 ℝ) : normal c b a = (normal a b c).map fun v => -v := by
  have e : Vec3.cross (b - c) (a - c) = -Vec3.cross (b - a) (c - a) := by
    ext <;> simp [Vec3.cross] <;> ring
  have e' : Vec3.norm (-Vec3.cross (b - a) (c - a)) = Vec3.norm (Vec3.cross (b - a) (c - a)) := by
    rw [show -Vec3.cross (b - a) (c - a) = (-1 : ℝ) • Vec3.cross (b - a) (c - a) by ext <;> simp,
      Vec3.norm_smul]
    simp
  unfold normal
  simp only [e, e']
  split
  · rfl
  · simp

/-- The normal at the last corner of an outline. -/
noncomputable def lastCornerNormal (pts : List (Vec3 ℝ)) : Option (Vec3 ℝ) :=
  match pts[pts.length - 2]?, pts[pts.length - 1]?, pts[0]? with
  | some a, some b, some c => normal a b c
  | _, _, _ => none

theorem chooseNormal_reverse {pts : List (Vec3 ℝ)} (hn : 3 ≤ pts.length) :
    chooseNormal pts.reverse none = .ok ((lastCornerNormal pts).map fun v => -v) := by
  have h0 : pts.reverse.getLast? = pts[0]? := by
    rw [List.getLast?_reverse, List.head?_eq_getElem?]
  have h1 : pts.reverse[0]? = pts[pts.length - 1]? := by
    rw [List.getElem?_reverse (by omega)]; rfl
  have h2 : pts.reverse[1]? = pts[pts.length - 2]? := by
    rw [List.getElem?_reverse (by omega)]; rfl
  unfold chooseNormal lastCornerNormal
  rw [h0, h1, h2, List.getElem?_eq_getElem (by omega : 0 < pts.length),
    List.getElem?_eq_getElem (by omega : pts.length - 1 < pts.length),
    List.getElem?_eq_getElem (by omega : pts.length - 2 < pts.length)]
  simp only
  rw [normal_swap]

/-- **C33.**  If the last corner of the polygon is convex, a flipped polygon has the reversed points, the
opposite normal, the same area and the same number of triangles. -/
theorem C33_flip_partial {pts : List (Vec3 ℝ)} {vn : Option (Vec3 ℝ)} {P Q : Poly} {v : Vec3 ℝ}
    (h : polygonNew pts none vn = .ok P) (hv : P.vn = some v)
    (hc : lastCornerNormal P.pts = some v) (hf : flip P = .ok Q) :
    Q.vn = some (-v) ∧ Q.pts = P.pts.reverse ∧ Q.area = P.area ∧ Q.tri.length = P.tri.length ∧
      ∀ t ∈ Q.tri, 0 < signedArea2 Q.pts (-v) t := by
  obtain ⟨hn, -⟩ := polygonNew_ok h
  obtain ⟨v', hv', -, hp, hl, -, ⟨a, ha, ha0, hae⟩, -⟩ := C70_orientation h
  obtain rfl : v = v' := by rw [hv, Option.some.injEq] at hv'; exact hv'
  have hlen : P.pts.length = pts.length := by
    rcases hp with e | e <;> rw [e]
    rw [List.length_reverse]
  unfold flip at hf
  obtain ⟨-, w, hw, hcw, -⟩ := polygonNew_ok hf
  rw [chooseNormal_reverse (by omega), hc, Option.map_some, Except.ok.injEq, Option.some.injEq] at hcw
  subst hcw
  obtain ⟨w', hw', -, -, hl', ht', ⟨b, hb, hb0, hbe⟩, hi⟩ := C70_orientation hf
  obtain rfl : -v = w' := by rw [hw, Option.some.injEq] at hw'; exact hw'
  have hrev : Q.pts = P.pts.reverse := by
    rw [hi, cycSum_cross_reverse, Vec3.dot_neg_right]
    linarith
  refine ⟨hw, hrev, ?_, ?_, ht'⟩
  · rw [ha, hb, hae, hbe, hrev, cycSum_cross_reverse, Vec3.dot_neg_right]
    congr 1
    ring
  · rw [hl', hl, List.length_reverse, hlen]

/-- **C33, twice.**  If moreover the polygon was made without a normal and kept the order of its points,
flipping twice gives exactly the original polygon back. -/
theorem C33_twice_partial {pts : List (Vec3 ℝ)} {P Q R : Poly} {v : Vec3 ℝ}
    (h : polygonNew pts none none = .ok P) (hk : P.pts = pts) (hv : P.vn = some v)
    (hc : lastCornerNormal P.pts = some v) (hf : flip P = .ok Q) (hg : flip Q = .ok R) : R = P := by
  obtain ⟨-, hq, -⟩ := C33_flip_partial h hv hc hf
  unfold flip at hg
  rw [hq, List.reverse_reverse, hk, h, Except.ok.injEq] at hg
  exact hg.symm

/-- **C33 fails.**  If the last corner of the polygon is reflex, the flipped polygon has the normal and the
points of the original: nothing is flipped. -/
theorem C33_flip_reflex {pts : List (Vec3 ℝ)} {vn : Option (Vec3 ℝ)} {P Q : Poly} {v : Vec3 ℝ}
    (h : polygonNew pts none vn = .ok P) (hv : P.vn = some v)
    (hc : lastCornerNormal P.pts = some (-v)) (hf : flip P = .ok Q) :
    Q.vn = some v ∧ Q.pts = P.pts := by
  obtain ⟨hn, -⟩ := polygonNew_ok h
  obtain ⟨v', hv', -, hp, -, -, ⟨a, -, ha0, hae⟩, -⟩ := C70_orientation h
  obtain rfl : v = v' := by rw [hv, Option.some.injEq] at hv'; exact hv'
  have hlen : P.pts.length = pts.length := by
    rcases hp with e | e <;> rw [e]
    rw [List.length_reverse]
  unfold flip at hf
  obtain ⟨-, w, hw, hcw, -⟩ := polygonNew_ok hf
  rw [chooseNormal_reverse (by omega), hc, Option.map_some, Except.ok.injEq, Option.some.injEq,
    neg_neg] at hcw
  subst hcw
  obtain ⟨w', hw', -, ho, -, -, -, hi⟩ := C70_orientation hf
  obtain rfl : v = w' := by rw [hw, Option.some.injEq] at hw'; exact hw'
  refine ⟨hw, ?_⟩
  rcases ho with e | e
  · have := hi.1 e
    rw [cycSum_cross_reverse] at this
    linarith
  · rw [e, List.reverse_reverse]

/-- **C33 fails.**  If the last corner of the polygon is straight, flipping raises. -/
theorem C33_flip_straight {P : Poly} (hn : 3 ≤ P.pts.length) (hc : lastCornerNormal P.pts = none) :
    flip P = .error .assertionError := by
  unfold flip polygonNew
  rw [chooseNormal_reverse hn, hc]
  split
  · rfl
  · rw [if_neg (by simpa using hn)]
    simp [chooseTriangles]

/-! #### Concrete polygons -/

theorem triangulate_quad {a b c d v : Vec3 ℝ} (h0 : ¬ isClose (Vec3.norm v) 0 NP_RTOL NP_ATOL)
    (h1 : isCornerConvex v d a b = .ok true) (h2 : isPointInside c d a b = .ok false)
    (h3 : isCornerConvex v d b c = .ok true) :
    triangulate 10 [a, b, c, d] v = some (.ok ([a, b, c, d], [(3, 0, 1), (3, 1, 2)])) := by
  simp [triangulate, triangulateTries, h0, run, step, initState, List.range, List.range.loop, h1, h2, h3,
    anyPointInside]

/-- The first try cuts off a wrong triangle and fails, the second one succeeds. -/
theorem triangulate_quad_flip {a b c d v : Vec3 ℝ} (h0 : ¬ isClose (Vec3.norm v) 0 NP_RTOL NP_ATOL)
    (h1 : isCornerConvex v a d c = .ok true) (h2 : isPointInside b a d c = .ok false)
    (h3 : isCornerConvex v a c b = .ok false) (h4 : isCornerConvex v c b a = .ok false)
    (h5 : isCornerConvex v b a c = .ok false)
    (h6 : isCornerConvex v d a b = .ok true) (h7 : isPointInside c d a b = .ok false)
    (h8 : isCornerConvex v d b c = .ok true) :
    triangulate 10 [d, c, b, a] v = some (.ok ([a, b, c, d], [(3, 0, 1), (3, 1, 2)])) := by
  simp [triangulate, triangulateTries, h0, run, step, initState, List.range, List.range.loop, h1, h2, h3,
    h4, h5, h6, h7, h8, anyPointInside]

theorem polygonNew_quad {a b c d v a' b' c' d' : Vec3 ℝ} {vn : Option (Vec3 ℝ)}
    (hp : Points.arePointsCoplanar [a, b, c, d] = true)
    (hv : chooseNormal [a, b, c, d] vn = .ok (some v))
    (ht : triangulate 10 [a, b, c, d] v = some (.ok ([a', b', c', d'], [(3, 0, 1), (3, 1, 2)]))) :
    ∃ P, polygonNew [a, b, c, d] none vn = .ok P ∧ P.pts = [a', b', c', d'] ∧ P.vn = some v := by
  refine ⟨⟨[a', b', c', d'], some v, [(3, 0, 1), (3, 1, 2)],
    (0 : Vec3 ℝ) + triangleArea d' a' b' • triangleCentroid d' a' b' +
      triangleArea d' b' c' • triangleCentroid d' b' c', some (polygonArea [a', b', c', d'] v),
    (normal d' a' b').map fun vn => projectionCoefficients a' vn⟩, ?_, rfl, rfl⟩
  simp [polygonNew, hp, hv, chooseTriangles, ht, polygonCentroid, centroidTerms, planeCoefficients]

theorem norm_z (z : ℝ) : Vec3.norm (⟨0, 0, z⟩ : Vec3 ℝ) = |z| := by
  simp [Vec3.norm, Vec3.normSq, Vec3.dot, Real.sqrt_mul_self_eq_abs]

theorem div_abs_self {D : ℝ} {s : ℝ} (hs : s = 1 ∨ s = -1) (h : 0 < s * D) : 1 / |D| * D = s := by
  rcases hs with rfl | rfl
  · have : 0 < D := by linarith
    rw [abs_of_pos this]
    field_simp
  · have : D < 0 := by linarith
    rw [abs_of_neg this]
    have := this.ne
    field_simp

/-- Corners in the plane `z = 0`. -/
theorem isCornerConvex_z {s : ℝ} (hs : s = 1 ∨ s = -1) {x1 y1 x2 y2 x3 y3 z : ℝ} {r : Bool}
    (h : if r then 1 ≤ s * ((x2 - x1) * (y3 - y2) - (y2 - y1) * (x3 - x2))
      else s * ((x2 - x1) * (y3 - y2) - (y2 - y1) * (x3 - x2)) ≤ -1) :
    isCornerConvex ⟨0, 0, s⟩ ⟨x1, y1, z⟩ ⟨x2, y2, z⟩ ⟨x3, y3, z⟩ = .ok r := by
  obtain ⟨D, hD⟩ : ∃ D, D = (x2 - x1) * (y3 - y2) - (y2 - y1) * (x3 - x2) := ⟨_, rfl⟩
  rw [← hD] at h
  have e : Vec3.cross ((⟨x2, y2, z⟩ : Vec3 ℝ) - ⟨x1, y1, z⟩) (⟨x3, y3, z⟩ - ⟨x2, y2, z⟩) = ⟨0, 0, D⟩ := by
    ext <;> simp [Vec3.cross, hD]
  have hs1 : |s| = 1 := by rcases hs with rfl | rfl <;> simp
  unfold isCornerConvex
  simp only [e, norm_z, hs1]
  have hat : (0 : ℝ) < GEOM_ATOL := Points.GEOM_ATOL_pos
  have hat1 : (GEOM_ATOL : ℝ) < 1 := by norm_num [GEOM_ATOL]
  rw [if_neg (by simpa using hat)]
  have hD1 : 1 ≤ |D| := by
    have : |s * D| = |D| := by rw [abs_mul, hs1, one_mul]
    rw [← this]
    cases r
    · simp only [Bool.false_eq_true, if_false] at h
      rw [abs_of_neg (by linarith)]; linarith
    · simp only [if_true] at h
      rw [abs_of_pos (by linarith)]; linarith
  rw [if_neg (by linarith)]
  congr 1
  cases r
  · simp only [Bool.false_eq_true, if_false] at h
    have e2 : 1 / |D| * D = -s :=
      div_abs_self (by rcases hs with rfl | rfl <;> simp) (by linarith)
    simp only [decide_eq_false_iff_not, allClose, Vec3.smul_z, e2]
    rintro ⟨-, -, h3⟩
    simp only [isClose, hs1, NP_ATOL, GEOM_RTOL] at h3
    rcases hs with rfl | rfl <;> norm_num at h3
  · simp only [if_true] at h
    have e2 : 1 / |D| * D = s := div_abs_self hs (by linarith)
    have : (1 / |D|) • (⟨0, 0, D⟩ : Vec3 ℝ) = ⟨0, 0, s⟩ := by ext <;> simp; simpa using e2
    rw [this, decide_eq_true_eq]
    exact Points.allClose_self (by norm_num [GEOM_RTOL]) (by norm_num [NP_ATOL])

theorem normal_z {s : ℝ} (hs : s = 1 ∨ s = -1) {x1 y1 x2 y2 x3 y3 z : ℝ}
    (h : 1 ≤ s * ((x2 - x1) * (y3 - y1) - (y2 - y1) * (x3 - x1))) :
    normal ⟨x1, y1, z⟩ ⟨x2, y2, z⟩ ⟨x3, y3, z⟩ = some ⟨0, 0, s⟩ := by
  obtain ⟨D, hD⟩ : ∃ D, D = (x2 - x1) * (y3 - y1) - (y2 - y1) * (x3 - x1) := ⟨_, rfl⟩
  rw [← hD] at h
  have e : Vec3.cross ((⟨x2, y2, z⟩ : Vec3 ℝ) - ⟨x1, y1, z⟩) (⟨x3, y3, z⟩ - ⟨x1, y1, z⟩) = ⟨0, 0, D⟩ := by
    ext <;> simp [Vec3.cross, hD]
  have hs1 : |s| = 1 := by rcases hs with rfl | rfl <;> simp
  unfold normal
  simp only [e, norm_z]
  have hD1 : 1 ≤ |D| := by
    have : |s * D| = |D| := by rw [abs_mul, hs1, one_mul]
    rw [← this, abs_of_pos (by linarith)]; linarith
  rw [if_neg]
  · have e2 : 1 / |D| * D = s := div_abs_self hs (by linarith)
    congr 1
    ext <;> simp
    simpa using e2
  · simp only [isClose, sub_zero, abs_abs, abs_zero, mul_zero, add_zero, NP_ATOL]
    norm_num
    linarith

theorem isPointInside_far {t a b c : Vec3 ℝ} {m : ℝ} (g : Vec3 ℝ → ℝ)
    (hg : g = Vec3.x ∨ g = Vec3.y)
    (h : m ≤ g a ∧ m ≤ g b ∧ m ≤ g c ∧ g t < m - 1 / 100 ∨ g a ≤ m ∧ g b ≤ m ∧ g c ≤ m ∧ m + 1 / 100 < g t) :
    isPointInside t a b c = .ok false := by
  obtain ⟨lo, hi, r, hb, hr, hir, -⟩ := Bboxes.C25_inside_bbox [a, b, c] (by simp) t (1 / 100)
  have hrf : r = false := by
    by_contra hne
    have hr1 := hir.1 (by simpa using hne)
    obtain ⟨lo', hi', hb', hin, ⟨p1, m1, e1⟩, ⟨p2, m2, e2⟩, -, ⟨q1, n1, f1⟩, ⟨q2, n2, f2⟩, -⟩ :=
      Bboxes.boundingBox_spec (pts := [a, b, c]) (by simp)
    rw [hb, Except.ok.injEq, Prod.mk.injEq] at hb'
    obtain ⟨rfl, rfl⟩ := hb'
    obtain ⟨⟨i1, i2⟩, ⟨i3, i4⟩, -⟩ := hr1
    simp only at i1 i2 i3 i4
    simp only [List.mem_cons, List.not_mem_nil, or_false] at m1 m2 n1 n2
    rcases hg with rfl | rfl
    · rcases h with ⟨h1, h2, h3, h4⟩ | ⟨h1, h2, h3, h4⟩
      · have : m ≤ p1.x := by rcases m1 with rfl | rfl | rfl <;> assumption
        linarith
      · have : q1.x ≤ m := by rcases n1 with rfl | rfl | rfl <;> assumption
        linarith
    · rcases h with ⟨h1, h2, h3, h4⟩ | ⟨h1, h2, h3, h4⟩
      · have : m ≤ p2.y := by rcases m2 with rfl | rfl | rfl <;> assumption
        linarith
      · have : q2.y ≤ m := by rcases n2 with rfl | rfl | rfl <;> assumption
        linarith
  subst hrf
  unfold isPointInside
  rw [hr]
  rfl

theorem coplanar_z (pts : List (ℝ × ℝ)) (z : ℝ := 0) :
    Points.arePointsCoplanar (pts.map fun p => (⟨p.1, p.2, z⟩ : Vec3 ℝ)) = true := by
  apply Points.C36_coplanar_complete _ ⟨0, 0, 1⟩ z
  · intro e
    have := congrArg Vec3.z e
    simp at this
  · exact Points.GEOM_ATOL_pos
  · intro p hp
    obtain ⟨q, -, rfl⟩ := List.mem_map.1 hp
    simp [Vec3.dot]

theorem unit_z {s : ℝ} (hs : s = 1 ∨ s = -1) : ¬ isClose (Vec3.norm (⟨0, 0, s⟩ : Vec3 ℝ)) 0 NP_RTOL NP_ATOL := by
  rw [norm_z]
  rcases hs with rfl | rfl <;> norm_num [isClose, NP_ATOL]

/-- A tilted square and its flipped version. -/
example : ∃ P Q v, polygonNew [⟨0, 0, 0⟩, ⟨3, 1, 0⟩, ⟨2, 4, 0⟩, ⟨-1, 3, 0⟩] none none = .ok P ∧
    P.pts = [⟨0, 0, 0⟩, ⟨3, 1, 0⟩, ⟨2, 4, 0⟩, ⟨-1, 3, 0⟩] ∧ P.vn = some v ∧
    lastCornerNormal P.pts = some v ∧ flip P = .ok Q ∧ ∃ R, flip Q = .ok R := by
  have c0 := coplanar_z [(0, 0), (3, 1), (2, 4), (-1, 3)]
  have c1 := coplanar_z [(-1, 3), (2, 4), (3, 1), (0, 0)]
  simp only [List.map_cons, List.map_nil] at c0 c1
  obtain ⟨P, h1, h2, h3⟩ := polygonNew_quad (vn := none) (v := ⟨0, 0, 1⟩) c0
    (by simp only [chooseNormal, List.getLast?_cons_cons, List.getLast?_singleton, List.getElem?_cons_zero,
          List.getElem?_cons_succ]
        rw [normal_z (s := 1) (.inl rfl) (by norm_num)])
    (triangulate_quad (unit_z (.inl rfl))
      (isCornerConvex_z (.inl rfl) (by norm_num))
      (isPointInside_far (m := 3) Vec3.y (.inr rfl) (.inr (by norm_num)))
      (isCornerConvex_z (.inl rfl) (by norm_num)))
  obtain ⟨Q, g1, g2, g3⟩ := polygonNew_quad (vn := none) (v := ⟨0, 0, -1⟩) c1
    (by simp only [chooseNormal, List.getLast?_cons_cons, List.getLast?_singleton, List.getElem?_cons_zero,
          List.getElem?_cons_succ]
        rw [normal_z (s := -1) (.inr rfl) (by norm_num)])
    (triangulate_quad (unit_z (.inr rfl))
      (isCornerConvex_z (.inr rfl) (by norm_num))
      (isPointInside_far (m := 2) Vec3.x (.inl rfl) (.inr (by norm_num)))
      (isCornerConvex_z (.inr rfl) (by norm_num)))
  refine ⟨P, Q, ⟨0, 0, 1⟩, h1, h2, h3, ?_, ?_, P, ?_⟩
  · rw [h2]
    exact normal_z (.inl rfl) (by norm_num)
  · rw [flip, h2]; exact g1
  · rw [flip, g2]; exact h1

/-- An arrow head whose last corner is reflex: flipping it gives the same polygon. -/
theorem C33_arrow (z : ℝ) : ∃ P : Poly,
    polygonNew [⟨1, 4, z⟩, ⟨0, 0, z⟩, ⟨4, 1, z⟩, ⟨1, 1, z⟩] none none = .ok P ∧
    P.pts = [⟨1, 4, z⟩, ⟨0, 0, z⟩, ⟨4, 1, z⟩, ⟨1, 1, z⟩] ∧ P.vn = some ⟨0, 0, 1⟩ ∧
    lastCornerNormal P.pts = some (-⟨0, 0, 1⟩) ∧ ∃ Q, flip P = .ok Q ∧ Q.vn = P.vn ∧ Q.pts = P.pts := by
  have c0 := coplanar_z [(1, 4), (0, 0), (4, 1), (1, 1)] z
  have c1 := coplanar_z [(1, 1), (4, 1), (0, 0), (1, 4)] z
  simp only [List.map_cons, List.map_nil] at c0 c1
  have t1 : isCornerConvex ⟨0, 0, 1⟩ ⟨1, 1, z⟩ ⟨1, 4, z⟩ ⟨0, 0, z⟩ = .ok true :=
    isCornerConvex_z (.inl rfl) (by norm_num)
  have t2 : isPointInside ⟨4, 1, z⟩ ⟨1, 1, z⟩ ⟨1, 4, z⟩ ⟨0, 0, z⟩ = .ok false :=
    isPointInside_far (m := 1) Vec3.x (.inl rfl) (.inr (by norm_num))
  have t3 : isCornerConvex ⟨0, 0, 1⟩ ⟨1, 1, z⟩ ⟨0, 0, z⟩ ⟨4, 1, z⟩ = .ok true :=
    isCornerConvex_z (.inl rfl) (by norm_num)
  obtain ⟨P, h1, h2, h3⟩ := polygonNew_quad (vn := none) (v := ⟨0, 0, 1⟩) c0
    (by simp only [chooseNormal, List.getLast?_cons_cons, List.getLast?_singleton, List.getElem?_cons_zero,
          List.getElem?_cons_succ]
        rw [normal_z (s := 1) (.inl rfl) (by norm_num)])
    (triangulate_quad (unit_z (.inl rfl)) t1 t2 t3)
  obtain ⟨Q, g1, g2, g3⟩ := polygonNew_quad (vn := none) (v := ⟨0, 0, 1⟩) c1
    (by simp only [chooseNormal, List.getLast?_cons_cons, List.getLast?_singleton, List.getElem?_cons_zero,
          List.getElem?_cons_succ]
        rw [normal_z (s := 1) (.inl rfl) (by norm_num)])
    (triangulate_quad_flip (unit_z (.inl rfl))
      (isCornerConvex_z (.inl rfl) (by norm_num))
      (isPointInside_far (m := 1) Vec3.x (.inl rfl) (.inl (by norm_num)))
      (isCornerConvex_z (.inl rfl) (by norm_num)) (isCornerConvex_z (.inl rfl) (by norm_num))
      (isCornerConvex_z (.inl rfl) (by norm_num)) t1 t2 t3)
  refine ⟨P, h1, h2, h3, ?_, Q, ?_, ?_, ?_⟩
  · rw [h2]
    have : -(⟨0, 0, 1⟩ : Vec3 ℝ) = ⟨0, 0, -1⟩ := by ext <;> simp
    rw [this]
    exact normal_z (.inr rfl) (by norm_num)
  · rw [flip, h2]; exact g1
  · rw [h3, g3]
  · rw [h2, g2]

/-- The arrow head given clockwise, starting at the reflex corner, meets the hypotheses of
`C70_reflex_first_corner`. -/
example : normal (⟨1, 4, 0⟩ : Vec3 ℝ) ⟨1, 1, 0⟩ ⟨4, 1, 0⟩ = some ⟨0, 0, 1⟩ ∧
    Vec3.dot (cycSum Vec3.cross [(⟨1, 1, 0⟩ : Vec3 ℝ), ⟨4, 1, 0⟩, ⟨0, 0, 0⟩, ⟨1, 4, 0⟩]) ⟨0, 0, 1⟩ < 0 := by
  refine ⟨normal_z (.inl rfl) (by norm_num), ?_⟩
  norm_num [cycSum, pathSum, Vec3.cross, Vec3.dot]

/-- A clockwise square with its triangles given meets the hypothesis of `C70_given`. -/
example : ∃ P, polygonNew [⟨0, 0, 0⟩, ⟨0, 1, 0⟩, ⟨1, 1, 0⟩, ⟨1, 0, 0⟩] (some [(0, 1, 2), (2, 3, 0)]) none = .ok P := by
  have c0 := coplanar_z [(0, 0), (0, 1), (1, 1), (1, 0)]
  simp only [List.map_cons, List.map_nil] at c0
  simp [polygonNew, c0, chooseNormal, chooseTriangles, polygonCentroid, centroidTerms, planeCoefficients]

/-! ### C34: facing -/

section facing

variable {K : Type} [Field K] [LinearOrder K] [IsStrictOrderedRing K]

/-- **C34.**  Polygons reported as facing have nearly opposite normals, nearly the same area, and every point
of the first is nearly equal to a point of the second, different points being paired with points at
different positions. -/
theorem C34_sound_partial {pts1 pts2 : List (Vec3 K)} {vn1 vn2 : Vec3 K}
    (h : arePolygonsFacing pts1 vn1 pts2 vn2 = .ok true) :
    allClose vn1 (-vn2) GEOM_RTOL NP_ATOL ∧
    isClose (specArea pts1 vn1) (specArea pts2 vn2) NP_RTOL NP_ATOL ∧
    ∃ js : List Nat, js.length = pts1.length ∧ js.Nodup ∧
      ∀ (k : Nat) (p : Vec3 K), pts1[k]? = some p →
        ∃ (j : Nat) (q : Vec3 K), js[k]? = some j ∧ pts2[j]? = some q ∧ allClose p q NP_RTOL GEOM_ATOL := by
  unfold arePolygonsFacing at h
  split at h
  · cases h
  rename_i hn
  rw [not_not, neg_one_smul] at hn
  split at h
  · split at h
    · cases h
    split at h
    · rename_i hm
      split at h
      · rename_i ha
        rw [C23_polygon_area_spec, C23_polygon_area_spec] at ha
        refine ⟨hn, ha, ?_⟩
        obtain ⟨js, h1, h2, -, h4⟩ := matchLoop_full pts1 [] 0 (by rw [hm, Nat.zero_add])
        refine ⟨js, h1, h2, fun k p hk => ?_⟩
        have hk' : k < js.length := by rw [h1]; exact (List.getElem?_eq_some_iff.1 hk).1
        obtain ⟨q, hq, he⟩ := h4 k p js[k] hk (List.getElem?_eq_getElem hk')
        refine ⟨js[k], q, List.getElem?_eq_getElem hk', ?_, by simpa [Points.pointsEqual] using he⟩
        rw [List.mem_zipIdx_iff_getElem?] at hq
        exact hq
      · cases h
    · cases h
  · cases h
  · cases h

/-- Two polygons that are told apart clearly: what is close is equal. -/
def ClearlyApart (pts1 : List (Vec3 K)) (vn1 : Vec3 K) (pts2 : List (Vec3 K)) (vn2 : Vec3 K) : Prop :=
  (∀ p ∈ pts1, ∀ q ∈ pts2, allClose p q NP_RTOL GEOM_ATOL → p = q) ∧
  (allClose vn1 (-vn2) GEOM_RTOL NP_ATOL → vn1 = -vn2) ∧
  (isClose (specArea pts1 vn1) (specArea pts2 vn2) NP_RTOL NP_ATOL → specArea pts1 vn1 = specArea pts2 vn2)

/-- **C34.**  For polygons with the same number of points that are told apart clearly, facing means exactly:
opposite normals, the same points, the same area. -/
theorem C34_exact_partial {pts1 pts2 : List (Vec3 K)} {vn1 vn2 : Vec3 K} (hl : pts1.length = pts2.length)
    (hne : pts1 ≠ []) (hc : ClearlyApart pts1 vn1 pts2 vn2) :
    ∃ b, arePolygonsFacing pts1 vn1 pts2 vn2 = .ok b ∧
      (b = true ↔ vn1 = -vn2 ∧ pts1.Perm pts2 ∧ specArea pts1 vn1 = specArea pts2 vn2) := by
  have hne2 : pts2 ≠ [] := by
    intro e; rw [e] at hl; exact hne (List.length_eq_zero_iff.1 hl)
  obtain ⟨hc1, hc2, hc3⟩ := hc
  have hr : (0 : K) ≤ GEOM_RTOL := by unfold GEOM_RTOL; positivity
  have ha : (0 : K) ≤ NP_ATOL := by unfold NP_ATOL; positivity
  have hvn : allClose vn1 (-vn2) GEOM_RTOL NP_ATOL ↔ vn1 = -vn2 :=
    ⟨hc2, fun e => e ▸ Points.allClose_self hr ha⟩
  have har : isClose (specArea pts1 vn1) (specArea pts2 vn2) NP_RTOL NP_ATOL ↔
      specArea pts1 vn1 = specArea pts2 vn2 :=
    ⟨hc3, fun e => e ▸ Points.isClose_self Points.NP_RTOL_nonneg ha⟩
  have hm : matchLoop (fun a b => Points.pointsEqual a b) pts2.zipIdx pts1 [] 0 = pts1.length ↔
      pts1.Perm pts2 := by
    have := matchLoop_subperm (eq := fun a b : Vec3 K => Points.pointsEqual a b) (zipIdx_snd_nodup pts2) pts1
      (fun p hp a ha => ?_) [] 0
    · rw [Nat.zero_add, unmatched_nil] at this
      rw [this]
      exact ⟨fun h => h.perm_of_length_le hl.ge, fun h => h.subperm⟩
    · simp only [Points.pointsEqual, decide_eq_true_eq]
      refine ⟨hc1 p hp a.1 ?_, fun e => e ▸ Points.allClose_self Points.NP_RTOL_nonneg Points.GEOM_ATOL_pos.le⟩
      have := List.mem_map_of_mem (f := Prod.fst) ha
      rwa [List.zipIdx_map_fst] at this
  obtain ⟨b1, b2, e1, e2, hov⟩ := Bboxes.C26_overlap_iff_common_point pts1 pts2 hne hne2
  unfold arePolygonsFacing
  rw [neg_one_smul, e1, e2]
  simp only [C23_polygon_area_spec]
  by_cases h1 : vn1 = -vn2
  · rw [if_neg (not_not.2 (hvn.2 h1))]
    by_cases h2 : pts1.Perm pts2
    · have hb : Bboxes.areBboxesOverlapping b1 b2 = true := by
        rw [hov]
        obtain ⟨p, hp⟩ := List.exists_mem_of_ne_nil _ hne
        obtain ⟨lo, hi, f1, g1, -⟩ := Bboxes.C25_bounding_box_tight pts1 hne
        obtain ⟨lo', hi', f2, g2, -⟩ := Bboxes.C25_bounding_box_tight pts2 hne2
        rw [e1, Except.ok.injEq] at f1
        rw [e2, Except.ok.injEq] at f2
        subst f1 f2
        exact ⟨p, g1 p hp, g2 p (h2.subset hp)⟩
      rw [hb, if_neg (by simp), if_pos (hm.2 h2)]
      by_cases h3 : specArea pts1 vn1 = specArea pts2 vn2
      · rw [if_pos (har.2 h3)]
        exact ⟨true, rfl, by simp [h1, h2, h1 ▸ h3]⟩
      · rw [if_neg (fun h => h3 (har.1 h))]
        exact ⟨false, rfl, by simp [h3]⟩
    · refine ⟨false, ?_, by simp [h2]⟩
      split
      · rfl
      · rw [if_neg (fun h => h2 (hm.1 h))]
  · rw [if_pos (fun h => h1 (hvn.1 h))]
    exact ⟨false, rfl, by simp [h1]⟩

/-- **C34.**  For polygons with the same number of points that are told apart clearly, facing is
symmetric. -/
theorem C34_symmetric_partial {pts1 pts2 : List (Vec3 K)} {vn1 vn2 : Vec3 K} (hl : pts1.length = pts2.length)
    (hne : pts1 ≠ []) (hc : ClearlyApart pts1 vn1 pts2 vn2) (hc' : ClearlyApart pts2 vn2 pts1 vn1) :
    arePolygonsFacing pts1 vn1 pts2 vn2 = arePolygonsFacing pts2 vn2 pts1 vn1 := by
  have hne2 : pts2 ≠ [] := by
    intro e; rw [e] at hl; exact hne (List.length_eq_zero_iff.1 hl)
  obtain ⟨b, h1, h2⟩ := C34_exact_partial hl hne hc
  obtain ⟨b', h1', h2'⟩ := C34_exact_partial hl.symm hne2 hc'
  rw [h1, h1', Except.ok.injEq, Bool.eq_iff_iff, h2, h2']
  constructor
  · rintro ⟨e, hp, ha⟩
    exact ⟨by rw [e, neg_neg], hp.symm, ha.symm⟩
  · rintro ⟨e, hp, ha⟩
    exact ⟨by rw [e, neg_neg], hp.symm, ha.symm⟩

end facing

/-- A square and the same square from the other side are told apart clearly and face each other. -/
example :
    let a : List (Vec3 ℚ) := [⟨0, 0, 0⟩, ⟨2, 0, 0⟩, ⟨2, 2, 0⟩, ⟨0, 2, 0⟩]
    let b : List (Vec3 ℚ) := [⟨0, 0, 0⟩, ⟨0, 2, 0⟩, ⟨2, 2, 0⟩, ⟨2, 0, 0⟩]
    ClearlyApart a ⟨0, 0, 1⟩ b ⟨0, 0, -1⟩ ∧ ClearlyApart b ⟨0, 0, -1⟩ a ⟨0, 0, 1⟩ ∧
    arePolygonsFacing a ⟨0, 0, 1⟩ b ⟨0, 0, -1⟩ = .ok true := by
  unfold ClearlyApart
  decide +kernel

/-- **C34 fails.**  Facing is not symmetric: a square faces the same square with an additional point on an
edge, but not the other way round. -/
theorem C34_not_symmetric : ∃ (a b : List (Vec3 ℚ)) (v w : Vec3 ℚ),
    arePolygonsFacing a v b w = .ok true ∧ arePolygonsFacing b w a v = .ok false :=
  ⟨[⟨0, 0, 0⟩, ⟨2, 0, 0⟩, ⟨2, 2, 0⟩, ⟨0, 2, 0⟩], [⟨0, 0, 0⟩, ⟨0, 2, 0⟩, ⟨2, 2, 0⟩, ⟨2, 1, 0⟩, ⟨2, 0, 0⟩],
    ⟨0, 0, 1⟩, ⟨0, 0, -1⟩, by decide +kernel⟩

/-- **C34, limit of the property.**  Facing polygons need not have the same shape: two squares with a notch
to the middle, one on the right and one on the left, have the same points, area and opposite normals. -/
theorem C34_different_shape :
    let a : List (Vec3 ℚ) := [⟨0, 0, 0⟩, ⟨4, 0, 0⟩, ⟨2, 2, 0⟩, ⟨4, 4, 0⟩, ⟨0, 4, 0⟩]
    let b : List (Vec3 ℚ) := [⟨0, 0, 0⟩, ⟨2, 2, 0⟩, ⟨0, 4, 0⟩, ⟨4, 4, 0⟩, ⟨4, 0, 0⟩]
    arePolygonsFacing a ⟨0, 0, 1⟩ b ⟨0, 0, -1⟩ = .ok true ∧
    ((⟨4, 0, 0⟩, ⟨2, 2, 0⟩) : Vec3 ℚ × Vec3 ℚ) ∈ cycEdges a ∧
    ((⟨4, 0, 0⟩, ⟨2, 2, 0⟩) : Vec3 ℚ × Vec3 ℚ) ∉ cycEdges b ∧
    ((⟨2, 2, 0⟩, ⟨4, 0, 0⟩) : Vec3 ℚ × Vec3 ℚ) ∉ cycEdges b := by
  decide +kernel

end B3d.Polygon
