import Verif.Props.PointExact
import Verif.Props.SegmentCrossing

/-! # Property C113 for segments -/

namespace B3d.PointExact

open Spec Planar Points Polygon Triangles ConvexEars SliceConvex

variable {o u w : Vec3 ℝ} {m : ℝ} {pts : List (ℝ × ℝ)} {z : ℝ × ℝ} {vn : Option (Vec3 ℝ)} {P : Poly}

/-- **C113, segments.**  A segment which is not almost parallel to the polygon and whose line meets the plane of the polygon
at the point `z` of the drawing crosses the polygon exactly if they have a point in common. -/
theorem C113_segment (hx : Axes u w) (hc : Crisp m (z :: pts)) (hr : ∀ p ∈ z :: pts, Reach m (inPlane o u w p))
    (h : polygonNew (pts.map (inPlane o u w)) none vn = .ok P) (hv : P.vn = some (Vec3.cross u w)) {n p q : Vec3 ℝ}
    {s eps : ℝ} (hw : CornerNormal P.pts n) (heps : 0 < eps) (hd : eps ≤ |Vec3.dot (q - p) n|)
    (hz : p + s • (q - p) = inPlane o u w z) :
    ∃ r, isSegmentCrossingPolygon p q P.pts P.tri eps = .ok r ∧
      (r = true ↔ ∃ x, OnSegment p q x ∧ Region P.pts P.tri x) := by
  have hf := polygonNew_flat h hv (plane_of h)
  obtain ⟨r, h1, k1⟩ := segmentCrossing_iff (polygonNew_sturdy h) hf.ne hf.plane hw heps p q
  refine ⟨r, h1, ?_⟩
  obtain ⟨r', -, -, h2, -, -, k2, -, -⟩ := C113_inside hx hc hr h hv
  have hd0 : Vec3.dot n (q - p) ≠ 0 := by
    intro h0
    rw [Vec3.dot_comm, h0, abs_zero] at hd
    linarith
  have hp : Vec3.dot (Vec3.cross u w) (p + s • (q - p)) = Vec3.dot (Vec3.cross u w) o := by
    rw [hz]
    exact plane_inPlane o [z] _ (by simp)
  have key : ∀ x, OnSegment p q x → Vec3.dot (Vec3.cross u w) x = Vec3.dot (Vec3.cross u w) o → x = inPlane o u w z := by
    rintro x ⟨t, t0, t1, rfl⟩ hpl
    have := plane_of_corner hf hw hpl hp
    rw [Vec3.dot_add_right, Vec3.dot_add_right, Vec3.dot_smul_right, Vec3.dot_smul_right] at this
    rw [← hz, mul_right_cancel₀ hd0 (add_left_cancel this)]
  rw [k1]
  constructor
  · rintro ⟨-, x, hs, hpl, hin⟩
    have e := key x hs hpl
    rw [e, h2, Except.ok.injEq] at hin
    exact ⟨x, hs, by rw [e]; exact k2.1 hin⟩
  · rintro ⟨x, hs, hreg⟩
    have hpl := region_plane hf.plane hreg
    have e := key x hs hpl
    refine ⟨hd, x, hs, hpl, ?_⟩
    rw [e, h2, k2.2 (by rw [← e]; exact hreg)]

/-- Non-vacuity of `C113_segment`: a square, and a segment through the middle of it. -/
example : ∃ (P : Poly) (n : Vec3 ℝ), polygonNew ([(0, 0), (4, 0), (4, 4), (0, 4)].map (inPlane 0 ⟨1, 0, 0⟩ ⟨0, 1, 0⟩)) none none =
      .ok P ∧ P.vn = some (Vec3.cross ⟨1, 0, 0⟩ ⟨0, 1, 0⟩) ∧ Axes ⟨1, 0, 0⟩ ⟨0, 1, 0⟩ ∧
    Crisp 1 [(2, 2), (0, 0), (4, 0), (4, 4), (0, 4)] ∧ CornerNormal P.pts n ∧
    (∀ p ∈ [(2, 2), (0, 0), (4, 0), (4, 4), (0, 4)], Reach 1 (inPlane 0 ⟨1, 0, 0⟩ ⟨0, 1, 0⟩ p)) ∧
    1 / 10 ^ 3 ≤ |Vec3.dot ((⟨2, 2, -1⟩ : Vec3 ℝ) - ⟨2, 2, 1⟩) n| ∧
    (⟨2, 2, 1⟩ + (1 / 2 : ℝ) • ((⟨2, 2, -1⟩ : Vec3 ℝ) - ⟨2, 2, 1⟩) : Vec3 ℝ) = inPlane 0 ⟨1, 0, 0⟩ ⟨0, 1, 0⟩ (2, 2) := by
  have hx : Axes ⟨1, 0, 0⟩ ⟨0, 1, 0⟩ := ⟨by norm_num [Vec3.dot], by norm_num [Vec3.dot], by norm_num [Vec3.dot]⟩
  have hp : ConvexCorners [((0 : ℝ), (0 : ℝ)), (4, 0), (4, 4), (0, 4)] := by
    simpa using convex_int (L := [(0, 0), (4, 0), (4, 4), (0, 4)]) (by decide) (by decide +kernel)
  have hc : Crisp 1 [((2 : ℝ), (2 : ℝ)), (0, 0), (4, 0), (4, 4), (0, 4)] := by
    simpa using crisp_int (pts := [(2, 2), (0, 0), (4, 0), (4, 4), (0, 4)]) (by decide)
  have hr : ∀ p ∈ [((2 : ℝ), (2 : ℝ)), (0, 0), (4, 0), (4, 4), (0, 4)], Reach 1 (inPlane 0 ⟨1, 0, 0⟩ ⟨0, 1, 0⟩ p) := by
    simp only [List.mem_cons, List.not_mem_nil, or_false, forall_eq_or_imp, forall_eq, Reach, inPlane]
    norm_num [abs_le]
  obtain ⟨P, hf⟩ := fan_exists hx (crisp_swap hc fun p hp => List.mem_cons_of_mem _ hp)
    (fun p hp => hr p (List.mem_cons_of_mem _ hp)) hp.corners hp.turns
  have hcr : Vec3.cross ((inPlane 0 ⟨1, 0, 0⟩ ⟨0, 1, 0⟩ (0, 0) : Vec3 ℝ) - inPlane 0 ⟨1, 0, 0⟩ ⟨0, 1, 0⟩ (0, 4))
      (inPlane 0 ⟨1, 0, 0⟩ ⟨0, 1, 0⟩ (4, 0) - inPlane 0 ⟨1, 0, 0⟩ ⟨0, 1, 0⟩ (0, 4)) = (16 : ℝ) • ⟨0, 0, 1⟩ := by
    ext <;> norm_num [inPlane, Vec3.cross]
  have h1 : Vec3.norm (⟨0, 0, 1⟩ : Vec3 ℝ) = 1 := by norm_num [Vec3.norm, Vec3.normSq, Vec3.dot]
  refine ⟨P, ⟨0, 0, 1⟩, hf.made, hf.normal, hx, hc, ?_, hr, ?_, ?_⟩
  · refine ⟨h1, inPlane 0 ⟨1, 0, 0⟩ ⟨0, 1, 0⟩ (0, 4), inPlane 0 ⟨1, 0, 0⟩ ⟨0, 1, 0⟩ (0, 0),
      inPlane 0 ⟨1, 0, 0⟩ ⟨0, 1, 0⟩ (4, 0), by rw [hf.points]; rfl, by rw [hf.points]; rfl, by rw [hf.points]; rfl, ?_, ?_⟩
    · rw [hcr, Vec3.norm_smul, h1]; norm_num
    · rw [hcr, Vec3.norm_smul, h1]; norm_num
  · norm_num [Vec3.dot]
  · ext <;> norm_num [inPlane]

end B3d.PointExact
