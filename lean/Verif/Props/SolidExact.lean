import Verif.Proofs.SolidExact
import Verif.Props.PointExact
import Verif.Props.PointInSolidBox
import Verif.Props.PlanRoomsSimple

/-!
# C114: points in solids without doubtful cases

`Enclosed` (Spec/Enclosed) is the meaning of "inside": every ray from the point that meets no edge of the surface crosses
it an odd number of times.  The code looks at one ray and counts the faces it meets.  That ray may run through edges
between the triangles of a face; it must only stay away from the outlines of the faces.
-/

namespace B3d.Solids

open Spec Planar Points Polygon Triangles SliceConvex PointExact

/-- **C114, from faces to the solid.**  A solid with a closed surface, flat faces whose triangles do not overlap, and a
point `x`.  If for every face the test of `x` is right, the ray is not parallel to the plane of the face and meets it at
`x + s • rayDir`, not on the outline of the face, and the test of the ray is right, then the point is said to be inside
exactly if it is in a face or enclosed by the surface. -/
theorem C114_tests {S : SolidG} {x : Vec3 ℝ} (hne : facesOf S ≠ []) (hface : ∀ P ∈ facesOf S, ∃ v w e, Face P v w e)
    (hc : Closed ((facesOf S).map Poly.pts))
    (hin : ∀ P ∈ facesOf S, Polygon.isPointInside x P.pts P.tri = .ok true ↔ Region P.pts P.tri x)
    (hray : ∀ P ∈ facesOf S, ∃ (v : Vec3 ℝ) (e s : ℝ), P.vn = some v ∧ (∀ p ∈ P.pts, Vec3.dot v p = e) ∧
      NoOverlap (trianglesOf P.pts P.tri) ∧ Vec3.dot v rayDir ≠ 0 ∧ Vec3.dot v (x + s • rayDir) = e ∧
      (0 < s → ¬ OnOutline P.pts (x + s • rayDir)) ∧
      (isPointInsideProjection x rayDir P.pts P.tri = .ok true ↔ 0 ≤ s ∧ Region P.pts P.tri (x + s • rayDir))) :
    ∃ r, isPointInside S x = .ok r ∧
      (r = true ↔ (∃ P ∈ facesOf S, Region P.pts P.tri x) ∨ Enclosed (facets S) x) := by
  classical
  have hnew : ∀ P ∈ facesOf S, ∃ pts vn, polygonNew pts none vn = .ok P := fun P hP => by
    obtain ⟨v, w, e, h⟩ := hface P hP
    exact h.new
  obtain ⟨lo, hi, -, hb, r, hr, hi'⟩ := inside_spec (x := x) hne hnew
  refine ⟨r, hr, hi'.trans ?_⟩
  by_cases hon : ∃ P ∈ facesOf S, Region P.pts P.tri x
  · obtain ⟨P, hP, hreg⟩ := hon
    exact iff_of_true ⟨region_box (hb P hP) hreg, .inr ⟨P, hP, (hin P hP).2 hreg⟩⟩ (.inl ⟨P, hP, hreg⟩)
  have hoff : OffSurface (facets S) x := by
    intro t ht hin'
    exact hon (mem_region ht hin')
  have hno : ¬ ∃ P ∈ facesOf S, Polygon.isPointInside x P.pts P.tri = .ok true := by
    rintro ⟨P, hP, h1⟩
    exact hon ⟨P, hP, (hin P hP).1 h1⟩
  have hpar : Odd (numHits S x) ↔ Enclosed (facets S) x := by
    unfold numHits
    have := faces_parity (u := rayDir) hface hc hoff (M := fun P => isPointInsideProjection x rayDir P.pts P.tri = .ok true) ?_
    · convert this
    intro P hP
    obtain ⟨v, e, s, h1, h2, h3, h4, h5, h6, h7⟩ := hray P hP
    refine ⟨v, e, s, h1, h2, h3, h4, h5, h6, h7.trans (and_congr_left fun hreg => ?_)⟩
    refine ⟨fun h0 => lt_of_le_of_ne h0 fun h => hon ⟨P, hP, ?_⟩, le_of_lt⟩
    rwa [← h, zero_smul, add_zero] at hreg
  rw [or_iff_left hno, or_iff_right hon, hpar]
  refine ⟨fun h => h.2, fun h => ⟨?_, h⟩⟩
  by_contra hbox
  exact not_enclosed hface hoff hb hbox h

/-- A face without doubtful cases, seen from `x` along `d`.  Its corners `pts` are drawn in the plane through `o` with the
axes `u` and `w`; the outline does not meet itself and the first corner is not straight.  The line through `x` along `d` is not
almost parallel to the plane and meets it at `x + s • d`, which has the coordinates `z`.  If that is not behind `x`, then
`z` and the corners together have no doubtful cases, and if it is in front of `x`, it is not on the outline.  The point `x`
is in the plane or not nearly in it. -/
structure SharpFace (m : ℝ) (x d : Vec3 ℝ) (P : Poly) (o u w : Vec3 ℝ) (pts : List (ℝ × ℝ)) (s : ℝ) (z : ℝ × ℝ) : Prop where
  axes : Axes u w
  made : ∃ vn, polygonNew (pts.map (inPlane o u w)) none vn = .ok P
  normal : P.vn = some (Vec3.cross u w)
  simple : SimplePolygon (pts.map (inPlane o u w))
  corner : ∃ n, CornerNormal P.pts n
  slant : GEOM_ATOL ≤ |Vec3.dot (Vec3.cross u w) d|
  meets : x + s • d = inPlane o u w z
  crisp : Crisp m pts ∧ (0 ≤ s → Crisp m (z :: pts))
  reach : (∀ p ∈ pts, Reach m (inPlane o u w p)) ∧ (0 ≤ s → Reach m (inPlane o u w z))
  plane : s = 0 ∨ GEOM_ATOL ≤ |Vec3.dot (Vec3.cross u w) (x - o)|
  outline : 0 < s → ¬ OnOutline P.pts (x + s • d)

namespace SharpFace

variable {m s : ℝ} {x d o u w : Vec3 ℝ} {P : Poly} {pts : List (ℝ × ℝ)} {z : ℝ × ℝ} (h : SharpFace m x d P o u w pts s z)
include h

theorem face : ∃ n, Face P (Vec3.cross u w) n (Vec3.dot (Vec3.cross u w) o) := by
  obtain ⟨vn, hn⟩ := h.made
  obtain ⟨n, hw⟩ := h.corner
  exact ⟨n, ⟨_, _, hn⟩, h.normal, plane_of hn, hw⟩

theorem unit : Vec3.norm (Vec3.cross u w) = 1 := norm_cross h.axes

theorem all_crisp (hs : 0 ≤ s) : Crisp m (z :: pts) ∧ ∀ p ∈ z :: pts, Reach m (inPlane o u w p) :=
  ⟨h.crisp.2 hs, List.forall_mem_cons.2 ⟨h.reach.2 hs, h.reach.1⟩⟩

theorem slant_corner {n : Vec3 ℝ} (hw : CornerNormal P.pts n) : GEOM_ATOL ≤ |Vec3.dot n d| := by
  obtain ⟨n', hface⟩ := h.face
  have hfl := hface.flat
  obtain ⟨k, hk, hvw⟩ := cornerNormal_plane hw hfl.ne hfl.plane
  have h1 : |k| = 1 := by
    have := h.unit
    rw [hvw, Vec3.norm_smul, hw.1, mul_one] at this
    exact this
  have h2 := h.slant
  rw [hvw, Vec3.dot_smul_left, abs_mul, h1, one_mul] at h2
  exact h2

theorem noOverlap : NoOverlap (trianglesOf P.pts P.tri) := by
  obtain ⟨vn, hn⟩ := h.made
  obtain ⟨ts, h1, h2⟩ := Polygon.no_overlap hn h.normal (plane_inPlane o pts) (Tiling.simp_of_simple (C106_distinct hn).1 h.simple)
    (exact_inPlane h.axes h.crisp.1 h.reach.1)
  rw [corners_trianglesOf h1]
  exact h2

theorem spans : SpansPlane P.pts := by
  obtain ⟨vn, hn⟩ := h.made
  obtain ⟨n, -, l, a, b, hl, ha, hb, hbig, -⟩ := h.corner
  obtain ⟨hlen, v, -, -, htr, -⟩ := polygonNew_ok hn
  obtain ⟨h1, -⟩ := C20_triangulate_valid _ _ _ _ _ _ _ hlen htr
  have key : ∃ L : List (ℝ × ℝ), (∀ p ∈ L, p ∈ pts) ∧ P.pts = L.map (inPlane o u w) := by
    rcases h1 with e | e
    · exact ⟨pts, fun p hp => hp, e⟩
    · exact ⟨pts.reverse, fun p hp => List.mem_reverse.1 hp, by rw [e, List.map_reverse]⟩
  obtain ⟨L, hL, hP⟩ := key
  have hnd := (C106_distinct hn).2
  rw [hP] at hl ha hb hnd ⊢
  rw [List.getElem?_map, Option.map_eq_some_iff] at ha hb
  obtain ⟨a, ha, rfl⟩ := ha
  obtain ⟨b, hb, rfl⟩ := hb
  obtain ⟨l, hlm, rfl⟩ := List.mem_map.1 (List.mem_of_getLast? hl)
  refine crisp_spans h.axes (crisp_swap h.crisp.1 hL) hnd.of_map ha hb hlm fun h0 => ?_
  rw [inPlane_cross, Vec3.norm_smul, h.unit, mul_one] at hbig
  have : signedArea l a b = signedArea a b l := by unfold signedArea; ring
  rw [this, h0, abs_zero] at hbig
  norm_num at hbig

/-- The test of the point is right. -/
theorem inside : Polygon.isPointInside x P.pts P.tri = .ok true ↔ Region P.pts P.tri x := by
  obtain ⟨vn, hn⟩ := h.made
  rcases h.plane with h0 | h0
  · obtain ⟨hc, hr⟩ := h.all_crisp h0.ge
    obtain ⟨r, -, -, h1, -, -, k1, -⟩ := C113_inside h.axes hc hr hn h.normal
    have hxz : x = inPlane o u w z := by rw [← h.meets, h0, zero_smul, add_zero]
    rw [hxz, ← k1]
    rw [show Polygon.isPointInside (inPlane o u w z) P.pts P.tri = .ok r from h1, Except.ok.injEq]
  · have hsub : Vec3.dot (Vec3.cross u w) (x - o) = Vec3.dot (Vec3.cross u w) x - Vec3.dot (Vec3.cross u w) o := by
      simp only [Vec3.dot, Vec3.sub_x, Vec3.sub_y, Vec3.sub_z]; ring
    rw [hsub] at h0
    have h1 := C71_off_plane hn h.normal (plane_of hn) h.spans true (x := x) (by rw [h.unit, mul_one]; exact h0)
    refine iff_of_false (fun h2 => ?_) fun h2 => ?_
    · rw [show Polygon.isPointInside x P.pts P.tri = .ok false from h1] at h2
      cases h2
    · rw [region_plane (plane_of hn) h2, sub_self, abs_zero] at h0
      exact absurd h0 (not_le.2 GEOM_ATOL_pos)

/-- The test of the ray is right. -/
theorem ray : isPointInsideProjection x d P.pts P.tri = .ok true ↔ 0 ≤ s ∧ Region P.pts P.tri (x + s • d) := by
  obtain ⟨vn, hn⟩ := h.made
  obtain ⟨n, hw⟩ := h.corner
  have hd := h.slant_corner hw
  by_cases hs : 0 ≤ s
  · obtain ⟨hc, hr⟩ := h.all_crisp hs
    obtain ⟨r, h1, k1⟩ := C113_ray h.axes hc hr hn h.normal hw GEOM_ATOL_pos hd h.meets true
    rw [show isPointInsideProjection x d P.pts P.tri = .ok r from h1, Except.ok.injEq, k1]
    simp
  · obtain ⟨n', hface⟩ := h.face
    have hfl := hface.flat
    have hd0 : Vec3.dot n d ≠ 0 := by
      intro h0
      rw [h0, abs_zero] at hd
      exact absurd hd (not_le.2 GEOM_ATOL_pos)
    obtain ⟨s', hs', heq⟩ := (isPointInsideProjection_eq hfl hw x d true GEOM_ATOL).2 (not_lt.2 hd) hd0
    have hp : Vec3.dot (Vec3.cross u w) (x + s • d) = Vec3.dot (Vec3.cross u w) o := by
      rw [h.meets]
      exact plane_inPlane o [z] _ (by simp)
    have hss : s' = s := by
      have := plane_of_corner hfl hw hs' hp
      rw [Vec3.dot_add_right, Vec3.dot_add_right, Vec3.dot_smul_right, Vec3.dot_smul_right] at this
      exact mul_right_cancel₀ hd0 (add_left_cancel this)
    subst hss
    rw [if_pos ⟨rfl, not_le.1 hs⟩] at heq
    refine iff_of_false (fun h2 => ?_) fun h2 => hs h2.1
    rw [show isPointInsideProjection x d P.pts P.tri = .ok false from heq] at h2
    cases h2

end SharpFace

/-- **C114, solids without doubtful cases.**  A solid with a closed surface, all of whose faces are without doubtful cases
seen from the point along the direction used by the code: the point is said to be inside exactly if it is in a face or
enclosed by the surface. -/
theorem C114_sharp {S : SolidG} {x : Vec3 ℝ} {m : ℝ} (hne : facesOf S ≠ []) (hc : Closed ((facesOf S).map Poly.pts))
    (hf : ∀ P ∈ facesOf S, ∃ o u w pts s z, SharpFace m x rayDir P o u w pts s z) :
    ∃ r, isPointInside S x = .ok r ∧
      (r = true ↔ (∃ P ∈ facesOf S, Region P.pts P.tri x) ∨ Enclosed (facets S) x) := by
  refine C114_tests hne (fun P hP => ?_) hc (fun P hP => ?_) fun P hP => ?_
  all_goals obtain ⟨o, u, w, pts, s, z, h⟩ := hf P hP
  · obtain ⟨n, hn⟩ := h.face
    exact ⟨_, n, _, hn⟩
  · exact h.inside
  · obtain ⟨vn, hn⟩ := h.made
    refine ⟨_, _, s, h.normal, plane_of hn, h.noOverlap, fun h0 => ?_, ?_, h.outline, h.ray⟩
    · have := h.slant
      rw [h0, abs_zero] at this
      exact absurd this (not_le.2 GEOM_ATOL_pos)
    · rw [h.meets]
      exact plane_inPlane o [z] _ (by simp)

/-- **C114, the surface.**  A point of a face, without doubtful cases together with the corners of that face, is said to be
inside the solid, whatever the other faces are. -/
theorem C114_surface {S : SolidG} (hf : ∀ P ∈ facesOf S, ∃ pts vn, polygonNew pts none vn = .ok P) {P : Poly}
    (hP : P ∈ facesOf S) {m : ℝ} {o u w : Vec3 ℝ} {pts : List (ℝ × ℝ)} {z : ℝ × ℝ} {vn : Option (Vec3 ℝ)} (hx : Axes u w)
    (hc : Crisp m (z :: pts)) (hr : ∀ p ∈ z :: pts, Reach m (inPlane o u w p))
    (h : polygonNew (pts.map (inPlane o u w)) none vn = .ok P) (hv : P.vn = some (Vec3.cross u w))
    (hreg : Region P.pts P.tri (inPlane o u w z)) : isPointInside S (inPlane o u w z) = .ok true := by
  obtain ⟨lo, hi, h1, h2, r, h3, h4⟩ := inside_spec (x := inPlane o u w z) (List.ne_nil_of_mem hP) hf
  obtain ⟨r1, -, -, h5, -, -, k1, -⟩ := C113_inside hx hc hr h hv
  rw [k1.2 hreg] at h5
  rw [h3, h4.2 ⟨region_box (h2 P hP) hreg, .inr ⟨P, hP, h5⟩⟩]

/-- **C114, the boundary.**  The point is said to be at the boundary exactly if it is in a face.  The direction `d` may be
chosen for each face. -/
theorem C114_boundary {S : SolidG} {x : Vec3 ℝ} {m : ℝ}
    (hf : ∀ P ∈ facesOf S, ∃ d o u w pts s z, SharpFace m x d P o u w pts s z) :
    ∃ r, isPointAtBoundary S x = .ok r ∧ (r = true ↔ ∃ P ∈ facesOf S, Region P.pts P.tri x) := by
  obtain ⟨r, h1, h2⟩ := boundaryPolys_iff (x := x) (facesOf S) fun P hP => by
    obtain ⟨d, o, u, w, pts, s, z, h⟩ := hf P hP
    obtain ⟨vn, hn⟩ := h.made
    exact C71_total hn _ _ _
  refine ⟨r, ?_, h2.trans ⟨?_, ?_⟩⟩
  · rw [isPointAtBoundary, allPolys_eq]
    exact h1
  · rintro ⟨P, hP, hin⟩
    obtain ⟨d, o, u, w, pts, s, z, h⟩ := hf P hP
    exact ⟨P, hP, h.inside.1 hin⟩
  · rintro ⟨P, hP, hin⟩
    obtain ⟨d, o, u, w, pts, s, z, h⟩ := hf P hP
    exact ⟨P, hP, h.inside.2 hin⟩

/-! ### The unit cube -/

/-- Rational points without doubtful cases. -/
def CrispQ (m : ℚ) (pts : List (ℚ × ℚ)) : Prop :=
  1 / 10 ^ 3 ≤ m ∧ (∀ p ∈ pts, ∀ q ∈ pts, p ≠ q → m ^ 2 ≤ (p.1 - q.1) ^ 2 + (p.2 - q.2) ^ 2) ∧
  (∀ p ∈ pts, ∀ q ∈ pts, (p.1 - q.1) ^ 2 + (p.2 - q.2) ^ 2 ≤ 5000 * m ^ 2) ∧
  ∀ a ∈ pts, ∀ b ∈ pts, ∀ c ∈ pts, (b.1 - a.1) * (c.2 - a.2) - (b.2 - a.2) * (c.1 - a.1) = 0 ∨
    m ^ 2 ≤ |(b.1 - a.1) * (c.2 - a.2) - (b.2 - a.2) * (c.1 - a.1)|

instance (m : ℚ) (pts : List (ℚ × ℚ)) : Decidable (CrispQ m pts) := by unfold CrispQ; infer_instance

/-- The point with the rational coordinates. -/
def ratPoint (p : ℚ × ℚ) : ℝ × ℝ := (p.1, p.2)

theorem crisp_rat {m : ℚ} {pts : List (ℚ × ℚ)} (h : CrispQ m pts) : Crisp (m : ℝ) (pts.map ratPoint) := by
  obtain ⟨h1, h2, h3, h4⟩ := h
  refine ⟨by
    have : ((1 / 10 ^ 3 : ℚ) : ℝ) ≤ m := by exact_mod_cast h1
    push_cast at this
    exact this, ?_, ?_, ?_⟩
  · rintro _ hp _ hq hne
    obtain ⟨p, mp, rfl⟩ := List.mem_map.1 hp
    obtain ⟨q, mq, rfl⟩ := List.mem_map.1 hq
    unfold distSq ratPoint
    simp only []
    exact_mod_cast h2 p mp q mq fun e => hne (by rw [e])
  · rintro _ hp _ hq
    obtain ⟨p, mp, rfl⟩ := List.mem_map.1 hp
    obtain ⟨q, mq, rfl⟩ := List.mem_map.1 hq
    unfold distSq ratPoint
    simp only []
    exact_mod_cast h3 p mp q mq
  · rintro _ ha _ hb _ hc
    obtain ⟨a, ma, rfl⟩ := List.mem_map.1 ha
    obtain ⟨b, mb, rfl⟩ := List.mem_map.1 hb
    obtain ⟨c, mc, rfl⟩ := List.mem_map.1 hc
    unfold signedArea ratPoint
    simp only []
    exact_mod_cast h4 a ma b mb c mc

theorem simple_drawn {o u w : Vec3 ℝ} (hx : Axes u w) {pts : List (ℤ × ℤ)} (h : Grid.GSimple pts) :
    SimplePolygon ((pts.map fun p => ((p.1 : ℝ), (p.2 : ℝ))).map (inPlane o u w)) := by
  have hcc : Vec3.normSq (Vec3.cross u w) = 1 := by rw [← Vec3.norm_sq, norm_cross hx]; norm_num
  apply simple_of_map (f := fun y => ⟨Vec3.dot u (y - o), Vec3.dot w (y - o), Vec3.dot (Vec3.cross u w) (y - o)⟩)
  · intro a b hab
    have h1 : Vec3.dot u (a - b) = 0 := by
      have := congrArg Vec3.x hab
      simp only [Vec3.dot, Vec3.sub_x, Vec3.sub_y, Vec3.sub_z] at this ⊢
      linarith
    have h2 : Vec3.dot w (a - b) = 0 := by
      have := congrArg Vec3.y hab
      simp only [Vec3.dot, Vec3.sub_x, Vec3.sub_y, Vec3.sub_z] at this ⊢
      linarith
    have h3 : Vec3.dot (Vec3.cross u w) (a - b) = 0 := by
      have := congrArg Vec3.z hab
      simp only [Vec3.dot, Vec3.sub_x, Vec3.sub_y, Vec3.sub_z] at this ⊢
      linarith
    have e1 : Vec3.cross (Vec3.cross u w) (a - b) = Vec3.dot u (a - b) • w - Vec3.dot w (a - b) • u := by
      ext <;> simp [Vec3.cross, Vec3.dot] <;> ring
    have e2 : Vec3.normSq (Vec3.cross u w) * Vec3.normSq (a - b) =
        Vec3.dot (Vec3.cross u w) (a - b) ^ 2 + Vec3.normSq (Vec3.cross (Vec3.cross u w) (a - b)) := by
      generalize Vec3.cross u w = v
      simp only [Vec3.normSq, Vec3.dot, Vec3.cross]; ring
    rw [e1, h1, h2, h3, hcc] at e2
    have e3 : Vec3.normSq (a - b) = 0 := by
      simpa [Vec3.normSq, Vec3.dot] using e2
    exact sub_eq_zero.1 (Vec3.normSq_eq_zero.1 e3)
  · intro a b t
    ext <;> simp [Vec3.dot] <;> ring
  · have := Grid.simple_emb h
    rw [List.map_map, List.map_map]
    refine (List.map_congr_left fun p _ => ?_) ▸ this
    have e1 : ∀ q : Vec3 ℝ, Vec3.dot q (inPlane o u w (p.1, p.2) - o) = p.1 * Vec3.dot q u + p.2 * Vec3.dot q w := by
      intro q
      simp [inPlane, Vec3.dot]; ring
    have e2 : Vec3.dot (Vec3.cross u w) u = 0 := by simp only [Vec3.dot, Vec3.cross]; ring
    have e3 : Vec3.dot (Vec3.cross u w) w = 0 := by simp only [Vec3.dot, Vec3.cross]; ring
    simp only [Function.comp_apply, e1, hx.unitU, hx.unitW, hx.perp, Vec3.dot_comm w u, e2, e3, Grid.emb]
    simp

/-- A face of the unit cube, seen from `x`. -/
theorem sharp_square_at {P : Poly} {a u w e x d : Vec3 ℝ} {s : ℝ} {z : ℚ × ℚ} (h : RectFace P a u w e) (hx : Axes u w)
    (he : e = Vec3.cross u w) (ha : |a.x| ≤ 1 ∧ |a.y| ≤ 1 ∧ |a.z| ≤ 1) (hs : GEOM_ATOL ≤ |Vec3.dot e d|)
    (hz : x + s • d = inPlane a u w (ratPoint z))
    (hc : s < 0 ∨ CrispQ (1 / 10) [z, (0, 0), (1, 0), (1, 1), (0, 1)] ∧ |z.1| ≤ 100 ∧ |z.2| ≤ 100)
    (hp : s = 0 ∨ GEOM_ATOL ≤ |Vec3.dot e (x - a)|) (ho : 0 < s → z.1 < 0 ∨ 1 < z.1 ∨ z.2 < 0 ∨ 1 < z.2 ∨
      (0 < z.1 ∧ z.1 < 1 ∧ 0 < z.2 ∧ z.2 < 1)) :
    ∃ pts, SharpFace (1 / 10) x d P a u w pts s (ratPoint z) := by
  have hsq : P.pts = ([(0, 0), (1, 0), (1, 1), (0, 1)] : List (ℝ × ℝ)).map (inPlane a u w) := by
    rw [h.pts]
    simp [inPlane]
    abel
  obtain ⟨pts', vn, hnew⟩ := h.new
  obtain ⟨hlen, v, -, -, htr, -⟩ := polygonNew_ok hnew
  obtain ⟨hrev, -⟩ := C20_triangulate_valid _ _ _ _ _ _ _ hlen htr
  have hpts : ∃ L : List (ℝ × ℝ), (∀ p ∈ L, p ∈ [(0, 0), (1, 0), (1, 1), ((0 : ℝ), (1 : ℝ))]) ∧ pts' = L.map (inPlane a u w) ∧
      SimplePolygon (L.map (inPlane a u w)) := by
    rcases hrev with e | e
    · refine ⟨_, fun p hp => hp, by rw [← e, hsq], ?_⟩
      have := simple_drawn (o := a) hx (pts := [(0, 0), (1, 0), (1, 1), (0, 1)]) (by decide +kernel)
      simpa using this
    · refine ⟨[(0, 1), (1, 1), (1, 0), (0, 0)], fun p hp => ?_, ?_, ?_⟩
      · simp only [List.mem_cons, List.not_mem_nil, or_false] at hp ⊢
        tauto
      · rw [← List.reverse_reverse pts', ← e, hsq]
        rfl
      · have := simple_drawn (o := a) hx (pts := [(0, 1), (1, 1), (1, 0), (0, 0)]) (by decide +kernel)
        simpa using this
  obtain ⟨L, hL, rfl, hsim⟩ := hpts
  have one : ∀ {v : Vec3 ℝ}, Vec3.dot v v = 1 → |v.x| ≤ 1 ∧ |v.y| ≤ 1 ∧ |v.z| ≤ 1 := by
    intro v hv
    simp only [Vec3.dot] at hv
    refine ⟨?_, ?_, ?_⟩ <;> rw [← sq_le_one_iff_abs_le_one] <;>
      nlinarith [sq_nonneg v.x, sq_nonneg v.y, sq_nonneg v.z]
  have hreach : ∀ p : ℝ × ℝ, |p.1| ≤ 100 → |p.2| ≤ 100 → Reach (1 / 10) (inPlane a u w p) := by
    intro p h1 h2
    obtain ⟨u1, u2, u3⟩ := one hx.unitU
    obtain ⟨w1, w2, w3⟩ := one hx.unitW
    have key : ∀ α β γ : ℝ, |α| ≤ 1 → |β| ≤ 1 → |γ| ≤ 1 → |α + (p.1 * β + p.2 * γ)| ≤ 10 ^ 4 * (1 / 10) := by
      intro α β γ k1 k2 k3
      have a1 := abs_add_le α (p.1 * β + p.2 * γ)
      have a2 := abs_add_le (p.1 * β) (p.2 * γ)
      rw [abs_mul, abs_mul] at a2
      have a3 := mul_le_mul h1 k2 (abs_nonneg _) (by norm_num)
      have a4 := mul_le_mul h2 k3 (abs_nonneg _) (by norm_num)
      norm_num at a3 a4 ⊢
      linarith
    exact ⟨key _ _ _ ha.1 u1 w1, key _ _ _ ha.2.1 u2 w2, key _ _ _ ha.2.2 u3 w3⟩
  have hcr : ∀ {T : List (ℚ × ℚ)} {M : List (ℝ × ℝ)}, CrispQ (1 / 10) T → (∀ p ∈ M, p ∈ T.map ratPoint) → Crisp (1 / 10) M := by
    intro T M hT hM
    have := crisp_rat hT
    push_cast at this
    exact crisp_swap this hM
  have hsqr : ∀ p ∈ L, p ∈ [((0 : ℚ), (0 : ℚ)), (1, 0), (1, 1), (0, 1)].map ratPoint := by
    intro p hp
    have := hL p hp
    simpa [ratPoint] using this
  refine ⟨L, ?_⟩
  constructor
  · exact hx
  · exact ⟨vn, hnew⟩
  · rw [h.vn, he]
  · exact hsim
  · exact ⟨_, h.face.corner⟩
  · rw [← he]; exact hs
  · exact hz
  · refine ⟨hcr (by decide +kernel) hsqr, fun h0 => ?_⟩
    rcases hc with hc | ⟨hc, -⟩
    · exact absurd h0 (not_le.2 hc)
    · refine hcr hc fun p hp => ?_
      rw [List.map_cons, List.mem_cons]
      rcases List.mem_cons.1 hp with rfl | hp
      · exact .inl rfl
      · exact .inr (hsqr p hp)
  · refine ⟨fun p hp => ?_, fun h0 => ?_⟩
    · have := hL p hp
      simp only [List.mem_cons, List.not_mem_nil, or_false] at this
      rcases this with rfl | rfl | rfl | rfl <;> exact hreach _ (by norm_num) (by norm_num)
    · rcases hc with hc | ⟨-, hb1, hb2⟩
      · exact absurd h0 (not_le.2 hc)
      · exact hreach _ (by unfold ratPoint; simp only []; exact_mod_cast hb1) (by unfold ratPoint; simp only []; exact_mod_cast hb2)
  · rw [← he]; exact hp
  · rintro h0 ⟨f, hf, t, t0, t1, ht⟩
    have hz0 : (z.1 : ℝ) < 0 ∨ 1 < (z.1 : ℝ) ∨ (z.2 : ℝ) < 0 ∨ 1 < (z.2 : ℝ) ∨
        (0 < (z.1 : ℝ) ∧ (z.1 : ℝ) < 1 ∧ 0 < (z.2 : ℝ) ∧ (z.2 : ℝ) < 1) := by exact_mod_cast ho h0
    rw [hsq, cycEdges_map] at hf
    obtain ⟨⟨p, q⟩, hpq, rfl⟩ := List.mem_map.1 hf
    rw [hz] at ht
    have e1 : inPlane a u w p + t • (inPlane a u w q - inPlane a u w p) =
        inPlane a u w (p.1 + t * (q.1 - p.1), p.2 + t * (q.2 - p.2)) := by
      unfold inPlane; ext <;> simp <;> ring
    simp only [Prod.map_apply] at ht
    rw [e1] at ht
    have e2 := inPlane_injective hx ht
    have e3 : (z.1 : ℝ) = p.1 + t * (q.1 - p.1) := congrArg Prod.fst e2
    have e4 : (z.2 : ℝ) = p.2 + t * (q.2 - p.2) := congrArg Prod.snd e2
    simp only [cycEdges, List.cons_append, List.nil_append, List.zip_cons_cons, List.zip_nil_left, List.mem_cons,
      Prod.mk.injEq, List.not_mem_nil, or_false] at hpq
    rcases hpq with ⟨rfl, rfl⟩ | ⟨rfl, rfl⟩ | ⟨rfl, rfl⟩ | ⟨rfl, rfl⟩ <;> simp only [] at e3 e4 <;>
      rcases hz0 with k | k | k | k | ⟨k1, k2, k3, k4⟩ <;> linarith

theorem sharp_square {P : Poly} {a u w e x d : Vec3 ℝ} {s : ℝ} {z : ℚ × ℚ} (h : RectFace P a u w e) (hx : Axes u w)
    (he : e = Vec3.cross u w) (ha : |a.x| ≤ 1 ∧ |a.y| ≤ 1 ∧ |a.z| ≤ 1) (hs : GEOM_ATOL ≤ |Vec3.dot e d|)
    (hz : x + s • d = inPlane a u w (ratPoint z))
    (hc : s < 0 ∨ CrispQ (1 / 10) [z, (0, 0), (1, 0), (1, 1), (0, 1)] ∧ |z.1| ≤ 100 ∧ |z.2| ≤ 100)
    (hp : s = 0 ∨ GEOM_ATOL ≤ |Vec3.dot e (x - a)|) (ho : 0 < s → z.1 < 0 ∨ 1 < z.1 ∨ z.2 < 0 ∨ 1 < z.2 ∨
      (0 < z.1 ∧ z.1 < 1 ∧ 0 < z.2 ∧ z.2 < 1)) :
    ∃ o u w pts s z, SharpFace (1 / 10) x d P o u w pts s z := by
  obtain ⟨L, hL⟩ := sharp_square_at h hx he ha hs hz hc hp ho
  exact ⟨_, _, _, _, _, _, hL⟩

/-- The hypotheses of `C114_sharp`, and so of `C114_tests` and `C114_boundary`, hold for a point of the unit cube whose ray leaves the cube
through the middle of a face, which is on the edge between two triangles of that face. -/
example : ∃ S p, box 1 1 1 0 = .ok S ∧ facesOf S ≠ [] ∧ Closed ((facesOf S).map Poly.pts) ∧
    (∀ P ∈ facesOf S, ∃ o u w pts s z, SharpFace (1 / 10) p rayDir P o u w pts s z) ∧ isPointInside S p = .ok true := by
  obtain ⟨S, hS, -⟩ := C31_box_partial unit_size
  obtain ⟨p, hp⟩ : ∃ p : Vec3 ℝ, p = ⟨1261 / 2000, 761 / 2000, 887 / 2000⟩ := ⟨_, rfl⟩
  obtain ⟨⟨P0, P1, P2, P3, P4, P5, hB⟩, hc, -⟩ := box_faces unit_size hS
  have hne : facesOf S ≠ [] := by rw [hB.faces]; simp
  obtain ⟨k, hk, hr⟩ := rayDir_eq
  have hk0 : 0 < k := by linarith
  have hat : (GEOM_ATOL : ℝ) ≤ 113 / 1000 := by norm_num [GEOM_ATOL]
  have hall : ∀ P ∈ facesOf S, ∃ o u w pts s z, SharpFace (1 / 10) p rayDir P o u w pts s z := by
    rw [hB.faces]
    simp only [List.forall_mem_cons, List.not_mem_nil, false_imp_iff, implies_true, and_true]
    refine ⟨?_, ?_, ?_, ?_, ?_, ?_⟩
    · refine sharp_square (s := -887 / 226 / k) (z := (-63 / 113, -513 / 226)) hB.floor (by constructor <;> norm_num [Vec3.dot])
        (by ext <;> norm_num [Vec3.cross]) (by norm_num [corner]) ?_ ?_ (.inl (div_neg_of_neg_of_pos (by norm_num) hk0)) (.inr ?_) (fun h0 => absurd h0 (not_lt.2 (div_neg_of_neg_of_pos (by norm_num) hk0).le))
      · rw [hr]; simp [Vec3.dot, abs_of_pos hk0]; linarith
      · rw [hp, hr]; ext <;> simp [inPlane, ratPoint, corner] <;> field_simp <;> norm_num
      · rw [hp]; norm_num [Vec3.dot, corner, GEOM_ATOL, abs_of_pos, abs_of_neg]
    · refine sharp_square (s := -761 / 478 / k) (z := (-261 / 478, 63 / 239)) hB.front (by constructor <;> norm_num [Vec3.dot])
        (by ext <;> norm_num [Vec3.cross]) (by norm_num [corner]) ?_ ?_ (.inl (div_neg_of_neg_of_pos (by norm_num) hk0)) (.inr ?_) (fun h0 => absurd h0 (not_lt.2 (div_neg_of_neg_of_pos (by norm_num) hk0).le))
      · rw [hr]; simp [Vec3.dot, abs_of_pos hk0]; linarith
      · rw [hp, hr]; ext <;> simp [inPlane, ratPoint, corner] <;> field_simp <;> norm_num
      · rw [hp]; norm_num [Vec3.dot, corner, GEOM_ATOL, abs_of_pos, abs_of_neg]
    · refine sharp_square (s := 1 / 2 / k) (z := (1 / 2, 1 / 2)) hB.right (by constructor <;> norm_num [Vec3.dot])
        (by ext <;> norm_num [Vec3.cross]) (by norm_num [corner]) ?_ ?_ (.inr ⟨by decide +kernel, by decide +kernel, by decide +kernel⟩) (.inr ?_) (fun _ => by decide +kernel)
      · rw [hr]; simp [Vec3.dot, abs_of_pos hk0]; linarith
      · rw [hp, hr]; ext <;> simp [inPlane, ratPoint, corner] <;> field_simp <;> norm_num
      · rw [hp]; norm_num [Vec3.dot, corner, GEOM_ATOL, abs_of_pos, abs_of_neg]
    · refine sharp_square (s := 1239 / 478 / k) (z := (176 / 239, 1217 / 478)) hB.back (by constructor <;> norm_num [Vec3.dot])
        (by ext <;> norm_num [Vec3.cross]) (by norm_num [corner]) ?_ ?_ (.inr ⟨by decide +kernel, by decide +kernel, by decide +kernel⟩) (.inr ?_) (fun _ => by decide +kernel)
      · rw [hr]; simp [Vec3.dot, abs_of_pos hk0]; linarith
      · rw [hp, hr]; ext <;> simp [inPlane, ratPoint, corner] <;> field_simp <;> norm_num
      · rw [hp]; norm_num [Vec3.dot, corner, GEOM_ATOL, abs_of_pos, abs_of_neg]
    · refine sharp_square (s := -1261 / 1478 / k) (z := (513 / 1478, 261 / 1478)) hB.left (by constructor <;> norm_num [Vec3.dot])
        (by ext <;> norm_num [Vec3.cross]) (by norm_num [corner]) ?_ ?_ (.inl (div_neg_of_neg_of_pos (by norm_num) hk0)) (.inr ?_) (fun h0 => absurd h0 (not_lt.2 (div_neg_of_neg_of_pos (by norm_num) hk0).le))
      · rw [hr]; simp [Vec3.dot, abs_of_pos hk0]; linarith
      · rw [hp, hr]; ext <;> simp [inPlane, ratPoint, corner] <;> field_simp <;> norm_num
      · rw [hp]; norm_num [Vec3.dot, corner, GEOM_ATOL, abs_of_pos, abs_of_neg]
    · refine sharp_square (s := 1113 / 226 / k) (z := (965 / 226, 176 / 113)) hB.ceiling (by constructor <;> norm_num [Vec3.dot])
        (by ext <;> norm_num [Vec3.cross]) (by norm_num [corner]) ?_ ?_ (.inr ⟨by decide +kernel, by decide +kernel, by decide +kernel⟩) (.inr ?_) (fun _ => by decide +kernel)
      · rw [hr]; simp [Vec3.dot, abs_of_pos hk0]; linarith
      · rw [hp, hr]; ext <;> simp [inPlane, ratPoint, corner] <;> field_simp <;> norm_num
      · rw [hp]; norm_num [Vec3.dot, corner, GEOM_ATOL, abs_of_pos, abs_of_neg]
  refine ⟨S, p, hS, hne, hc, hall, ?_⟩
  obtain ⟨r, h1, h2⟩ := C114_sharp hne hc hall
  have hin : InOpenBox 1 1 1 0 p := by rw [hp]; norm_num [InOpenBox]
  have henc := C74_box_enclosed unit_size hS p
  rw [h1, h2.2 (.inr ((henc.2 (henc.1.2 (.inr hin))).2 hin))]

/-- The hypotheses of `C114_surface` hold for the middle of the right face of the unit cube, which is on the edge between
its two triangles. -/
example : ∃ S, box 1 1 1 0 = .ok S ∧ isPointInside S ⟨1, 1 / 2, 1 / 2⟩ = .ok true := by
  obtain ⟨S, hS, -⟩ := C31_box_partial unit_size
  obtain ⟨⟨P0, P1, P2, P3, P4, P5, hB⟩, -, -⟩ := box_faces unit_size hS
  have hnew : ∀ P ∈ facesOf S, ∃ pts vn, polygonNew pts none vn = .ok P := fun P hP => by
    obtain ⟨v, w, e, hf⟩ := hB.face P hP
    exact hf.new
  have hm : P2 ∈ facesOf S := by rw [hB.faces]; simp
  refine ⟨S, hS, ?_⟩
  have hz : (⟨1, 1 / 2, 1 / 2⟩ : Vec3 ℝ) + (0 : ℝ) • ⟨1, 0, 0⟩ =
      inPlane (corner 1 1 1 0 true false false) ⟨0, 1, 0⟩ ⟨0, 0, 1⟩ (ratPoint (1 / 2, 1 / 2)) := by
    ext <;> simp [inPlane, ratPoint, corner]
  obtain ⟨L, h⟩ := sharp_square_at (x := ⟨1, 1 / 2, 1 / 2⟩) (d := ⟨1, 0, 0⟩) (s := 0) (z := (1 / 2, 1 / 2)) hB.right
    (by constructor <;> norm_num [Vec3.dot]) (by ext <;> norm_num [Vec3.cross]) (by norm_num [corner])
    (by norm_num [Vec3.dot, GEOM_ATOL]) hz (.inr ⟨by decide +kernel, by decide +kernel, by decide +kernel⟩) (.inl rfl)
    (fun h0 => absurd h0 (lt_irrefl _))
  obtain ⟨hc, hr⟩ := h.all_crisp (le_refl _)
  obtain ⟨vn, hn⟩ := h.made
  rw [zero_smul, add_zero] at hz
  rw [hz]
  refine C114_surface hnew hm h.axes hc hr hn h.normal ?_
  rw [← hz, hB.right.region_iff]
  refine ⟨1 / 2, 1 / 2, by norm_num, by norm_num, by norm_num, by norm_num, ?_⟩
  ext <;> simp [corner]

end B3d.Solids
