import Verif.Spec.Segments
import Verif.Proofs.SliceThrough

/-!
# C116: crossings of segments and visibility without doubtful positions

`line_segment_intersection`, `are_points_visible` and `visibility_matrix` for segments in a plane.  `Crisp` says that there
are no doubtful cases among the ends of the segments: no two points are nearly equal and no three nearly but not exactly on a
line.  Nothing is asked of the places where the segments cross.
-/

namespace B3d.SegmentsExact

open Spec Planar Points Slice Polygon Triangles ConvexEars PointExact SliceConvex

variable {o u w : Vec3 ℝ} {m : ℝ} {S : List (ℝ × ℝ)} {p q a b z : ℝ × ℝ}

theorem cross_inPlane (p q a b : ℝ × ℝ) :
    Vec3.cross (inPlane o u w q - inPlane o u w p) (inPlane o u w b - inPlane o u w a) =
      (signedArea p q b - signedArea p q a) • Vec3.cross u w := by
  rw [inPlane_sub, inPlane_sub]
  ext <;> simp [signedArea] <;> ring

/-- The two ways to measure how far the directions are from parallel. -/
theorem area_swap (p q a b : ℝ × ℝ) : signedArea a b p - signedArea a b q = signedArea p q b - signedArea p q a := by
  unfold signedArea; ring

theorem meet_of (h1 : signedArea p q a * signedArea p q b ≤ 0) (h2 : signedArea a b p * signedArea a b q ≤ 0)
    (hne : ¬ OneLine p q a b) : ∃ z, Common p q a b z := by
  have e := area_swap p q a b
  have hD : signedArea p q b - signedArea p q a ≠ 0 := by
    intro h0
    have h3 : signedArea p q b = signedArea p q a := by linarith
    rw [h3] at h1
    have h4 : signedArea p q a = 0 := by nlinarith
    exact hne ⟨h4, by rw [h3, h4]⟩
  have frac : ∀ x y : ℝ, x * y ≤ 0 → y - x ≠ 0 → 0 ≤ -x / (y - x) ∧ -x / (y - x) ≤ 1 := by
    intro x y hxy hne
    rcases lt_or_gt_of_ne hne with h | h
    · have hy : y ≤ 0 := by by_contra hy; push Not at hy; nlinarith
      have hx : 0 ≤ x := by by_contra hx; push Not at hx; nlinarith
      exact ⟨div_nonneg_of_nonpos (by linarith) h.le, by rw [div_le_one_of_neg h]; linarith⟩
    · have hy : 0 ≤ y := by by_contra hy; push Not at hy; nlinarith
      have hx : x ≤ 0 := by by_contra hx; push Not at hx; nlinarith
      exact ⟨div_nonneg (by linarith) h.le, by rw [div_le_one h]; linarith⟩
  obtain ⟨t0, t1⟩ := frac _ _ h1 hD
  have hD' : signedArea a b q - signedArea a b p ≠ 0 := by
    intro h0; apply hD; linarith
  obtain ⟨s0, s1⟩ := frac _ _ h2 hD'
  refine ⟨lerp p q (-signedArea a b p / (signedArea a b q - signedArea a b p)), _, -signedArea p q a /
    (signedArea p q b - signedArea p q a), s0, s1, t0, t1, rfl, ?_⟩
  have e' : signedArea a b q - signedArea a b p = -(signedArea p q b - signedArea p q a) := by linarith
  rw [e', neg_div_neg_eq]
  unfold lerp
  ext
  · simp only
    rw [← sub_eq_zero]
    field_simp
    unfold signedArea
    ring
  · simp only
    rw [← sub_eq_zero]
    field_simp
    unfold signedArea
    ring

variable (hx : Axes u w) (hc : Crisp m S) (hr : ∀ z ∈ S, Reach (m / 100) (inPlane o u w z)) (mp : p ∈ S) (mq : q ∈ S)
  (ma : a ∈ S) (mb : b ∈ S)

include hx hc hr mp mq ma mb in
/-- If both ends of the second segment are on the same side of the first line, a point of this line is not near the
second segment. -/
theorem not_near_apart (hab : b ≠ a) (hs : 0 < signedArea p q a * signedArea p q b) (hz : signedArea p q z = 0)
    (hn : NearSegment (inPlane o u w z) (inPlane o u w a) (inPlane o u w b)) : False := by
  have hm := hc.pos
  have hsc := hc.scale
  have a0 : signedArea p q a ≠ 0 := by intro h; rw [h] at hs; simp at hs
  have b0 : signedArea p q b ≠ 0 := by intro h; rw [h] at hs; simp at hs
  rcases hn with h | h | ⟨r, r0, r1, n1⟩
  · exact not_near_corner hx hc hr mp mq ma a0 hz h
  · exact not_near_corner hx hc hr mp mq mb b0 hz h
  · rw [← inPlane_between, normSq_inPlane hx, normSq_inPlane hx] at n1
    have big : m ^ 2 ≤ |signedArea p q (lerp a b r)| := by
      have ba := (hc.sides p mp q mq a ma).resolve_left a0
      have bb := (hc.sides p mp q mq b mb).resolve_left b0
      rw [area_between]
      rcases lt_or_gt_of_ne a0 with h | h
      · have hb : signedArea p q b < 0 := by nlinarith
        rw [abs_of_neg h] at ba
        rw [abs_of_neg hb] at bb
        rw [abs_of_nonpos (by nlinarith)]
        nlinarith
      · have hb : 0 < signedArea p q b := by nlinarith
        rw [abs_of_pos h] at ba
        rw [abs_of_pos hb] at bb
        rw [abs_of_nonneg (by nlinarith)]
        nlinarith
    have k := area_diff p q (lerp a b r) z
    rw [hz, sub_zero] at k
    have k2 : (m ^ 2) ^ 2 ≤ signedArea p q (lerp a b r) ^ 2 := by
      rw [← sq_abs (signedArea p q (lerp a b r))]; gcongr
    have k3 := hc.near q mq p mp
    have e : distSq (lerp a b r) z = distSq z (lerp a b r) := by unfold distSq; ring
    rw [e] at k
    have k5 : 0 ≤ distSq z (lerp a b r) := by unfold distSq; positivity
    have k4 : (m ^ 2) ^ 2 ≤ 5000 * m ^ 2 * distSq z (lerp a b r) := k2.trans (k.trans (by gcongr))
    have k6 : m ^ 2 ≤ 5000 * distSq z (lerp a b r) := by
      have : 0 < m ^ 2 := by positivity
      nlinarith
    have hm2 : 1 / 10 ^ 6 ≤ m ^ 2 := by norm_num at hsc ⊢; nlinarith
    have k7 := hc.far b mb a ma hab
    have k8 : m ^ 2 * m ^ 2 ≤ 5000 * (4 * GEOM_ATOL ^ 2) :=
      calc m ^ 2 * m ^ 2 ≤ 5000 * distSq z (lerp a b r) * distSq b a := by gcongr
        _ = 5000 * (distSq z (lerp a b r) * distSq b a) := by ring
        _ ≤ _ := by gcongr
    have k9 : (1 / 10 ^ 6 * (1 / 10 ^ 6) : ℝ) ≤ m ^ 2 * m ^ 2 := by gcongr
    norm_num [GEOM_ATOL] at k8 k9
    linarith

include hx hc hr mp mq ma mb in
/-- **C116, segments.**  Two segments in a plane, whose ends have no doubtful positions.  If they have a common point and are
not on one line, `line_segment_intersection` returns this point exactly.  If they have no common point, or are on one line, no
point is returned. -/
theorem C116_segments :
    (∀ z, Common p q a b z → ¬ OneLine p q a b →
      lineSegmentIntersection (inPlane o u w p) (inPlane o u w q) (inPlane o u w a) (inPlane o u w b) =
        some (inPlane o u w z)) ∧
    ((¬ ∃ z, Common p q a b z) ∨ OneLine p q a b →
      lineSegmentIntersection (inPlane o u w p) (inPlane o u w q) (inPlane o u w a) (inPlane o u w b) = none) := by
  have hm := hc.pos
  constructor
  · rintro z ⟨s, t, s0, s1, t0, t1, hs, ht⟩ hol
    have za : signedArea p q z = 0 := lerp_zero hs
    rw [ht, area_between] at za
    have hD : m ^ 2 ≤ |signedArea p q b - signedArea p q a| := by
      have sa := hc.sides p mp q mq a ma
      have sb := hc.sides p mp q mq b mb
      have hm2 : 0 < m ^ 2 := by positivity
      rcases sa with sa | sa
      · rw [sa, sub_zero]
        exact sb.resolve_left fun h => hol ⟨sa, h⟩
      · rcases sb with sb | sb
        · rw [sb, zero_sub, abs_neg]; exact sa
        · rcases lt_trichotomy (signedArea p q a) 0 with ha | ha | ha
          · rw [abs_of_neg ha] at sa
            have : 0 < signedArea p q b := by
              by_contra hb
              push Not at hb
              rw [abs_of_nonpos hb] at sb
              nlinarith
            rw [abs_of_pos (by linarith)]
            linarith
          · rw [ha, abs_zero] at sa; linarith
          · rw [abs_of_pos ha] at sa
            have : signedArea p q b < 0 := by
              by_contra hb
              push Not at hb
              rw [abs_of_nonneg hb] at sb
              nlinarith
            rw [abs_of_neg (by linarith)]
            linarith
    have hpq : q ≠ p := by
      rintro rfl
      exact hol ⟨(area_same _ _).2.2, (area_same _ _).2.2⟩
    have hab : b ≠ a := by
      rintro rfl
      rw [sub_self, abs_zero] at hD
      have : 0 < m ^ 2 := by positivity
      linarith
    have inj : ∀ {p q : ℝ × ℝ}, p ∈ S → q ∈ S → p ≠ q → inPlane o u w p - inPlane o u w q ≠ 0 := by
      intro p q mp mq hne e
      have := not_equal hx hc (fun z hz => reach_mono hm (hr z hz)) mp mq hne
      rw [sub_eq_zero.1 e, pointsEqual_refl] at this
      cases this
    have := C37_complete_partial (pa1 := inPlane o u w p) (pb1 := inPlane o u w q) (pa2 := inPlane o u w a)
      (pb2 := inPlane o u w b) (t := s) (s := t) (not_short hx hc mp mq hpq) (not_short hx hc ma mb hab) ?_ ⟨s0, s1⟩
      ⟨t0, t1⟩ (by rw [← inPlane_between, ← inPlane_between, ← hs, ← ht])
    · rw [this, ← inPlane_between, ← hs]
    · refine not_nearly (inj mq mp hpq) (inj mb ma hab) ?_
      have en : Vec3.normSq (Vec3.cross u w) = 1 := by
        rw [← Vec3.norm_sq, norm_cross hx]; norm_num
      have e2 : Vec3.normSq ((signedArea p q b - signedArea p q a) • Vec3.cross u w) =
          (signedArea p q b - signedArea p q a) ^ 2 := by
        have : Vec3.normSq ((signedArea p q b - signedArea p q a) • Vec3.cross u w) =
          (signedArea p q b - signedArea p q a) ^ 2 * Vec3.normSq (Vec3.cross u w) := by
          simp only [Vec3.normSq_def, Vec3.smul_x, Vec3.smul_y, Vec3.smul_z]; ring
        rw [this, en, mul_one]
      rw [cross_inPlane, e2, normSq_inPlane hx, normSq_inPlane hx]
      have n1 := hc.near b mb a ma
      have n2 := hc.near q mq p mp
      have d1 : 0 ≤ distSq b a := by unfold distSq; positivity
      have d2 : 0 ≤ distSq q p := by unfold distSq; positivity
      have l1 : distSq q p * distSq b a ≤ (5000 * m ^ 2) * (5000 * m ^ 2) := by gcongr
      have l2 : (m ^ 2) ^ 2 ≤ (signedArea p q b - signedArea p q a) ^ 2 := by
        rw [← sq_abs (signedArea p q b - signedArea p q a)]; gcongr
      norm_num at l1 ⊢
      nlinarith
  · intro hno
    rcases hl : lineSegmentIntersection (inPlane o u w p) (inPlane o u w q) (inPlane o u w a) (inPlane o u w b) with _ | y
    · rfl
    exfalso
    obtain ⟨-, -, n1, n2, hpar⟩ := C37_sound_partial hl
    rw [cross_inPlane] at hpar
    have hD : signedArea p q b - signedArea p q a ≠ 0 := by
      intro h; rw [h, zero_smul] at hpar; exact hpar rfl
    have hol : ¬ OneLine p q a b := fun h => hD (by rw [h.1, h.2, sub_self])
    have hmeet := hno.resolve_right hol
    have hpq : q ≠ p := by
      rintro rfl
      exact hol ⟨(area_same _ _).2.2, (area_same _ _).2.2⟩
    have hab : b ≠ a := by
      rintro rfl
      exact hD (sub_self _)
    -- where the lines meet
    obtain ⟨t, ht⟩ : ∃ t, t = -signedArea p q a / (signedArea p q b - signedArea p q a) := ⟨_, rfl⟩
    have hz : signedArea p q (lerp a b t) = 0 := by
      rw [area_between, ht]
      field_simp
      ring
    obtain ⟨s, hs⟩ := on_side_line hpq hz
    have hy := segment_exact (t := s) (s := t) (by rw [← inPlane_between, ← inPlane_between, ← hs]) hl
    rw [← inPlane_between, ← hs] at hy
    rw [hy] at n1 n2
    rcases lt_or_ge 0 (signedArea p q a * signedArea p q b) with h1 | h1
    · exact not_near_apart hx hc hr mp mq ma mb hab h1 hz n2
    · rcases lt_or_ge 0 (signedArea a b p * signedArea a b q) with h2 | h2
      · exact not_near_apart hx hc hr ma mb mp mq hpq h2 (area_between_self ..) n1
      · exact hmeet (meet_of h1 h2 hol)

include hx hc hr mp mq ma mb in
theorem crossing_iff : lineSegmentIntersection (inPlane o u w p) (inPlane o u w q) (inPlane o u w a) (inPlane o u w b) = none ↔
    (¬ ∃ z, Common p q a b z) ∨ OneLine p q a b := by
  obtain ⟨h1, h2⟩ := C116_segments hx hc hr mp mq ma mb
  refine ⟨fun h => ?_, h2⟩
  by_contra hno
  push Not at hno
  obtain ⟨⟨z, hz⟩, hol⟩ := hno
  rw [h1 z hz hol] at h
  cases h

/-- The edge in space. -/
def edge (o u w : Vec3 ℝ) (e : (ℝ × ℝ) × (ℝ × ℝ)) : Vec3 ℝ × Vec3 ℝ := (inPlane o u w e.1, inPlane o u w e.2)

include hx hc hr in
theorem equal_iff {x y : ℝ × ℝ} (mx : x ∈ S) (my : y ∈ S) : pointsEqual (inPlane o u w x) (inPlane o u w y) = true ↔ x = y := by
  constructor
  · intro h
    by_contra hne
    rw [not_equal hx hc (fun z hz => reach_mono hc.pos (hr z hz)) mx my hne] at h
    cases h
  · rintro rfl
    exact pointsEqual_refl _

include hx hc hr mp mq in
/-- **C116, visibility.**  `are_points_visible` returns 1 if no edge is in the way, and 0 otherwise. -/
theorem C116_visible {beds : List (List ((ℝ × ℝ) × (ℝ × ℝ)))} (hS : ∀ bed ∈ beds, ∀ e ∈ bed, e.1 ∈ S ∧ e.2 ∈ S) :
    (arePointsVisible (inPlane o u w p) (inPlane o u w q) (beds.map fun bed => bed.map (edge o u w)) = 1 ↔
      ∀ bed ∈ beds, ∀ e ∈ bed, ¬ Blocking p q e.1 e.2) ∧
    (arePointsVisible (inPlane o u w p) (inPlane o u w q) (beds.map fun bed => bed.map (edge o u w)) = 0 ↔
      ∃ bed ∈ beds, ∃ e ∈ bed, Blocking p q e.1 e.2) := by
  have key : ∀ bed ∈ beds, blockedBy (inPlane o u w p) (inPlane o u w q) (bed.map (edge o u w)) = false ↔
      ∀ e ∈ bed, ¬ Blocking p q e.1 e.2 := by
    intro bed hb
    rw [blockedBy_false_iff]
    simp only [List.forall_mem_map]
    refine forall₂_congr fun e he => ?_
    obtain ⟨m1, m2⟩ := hS bed hb e he
    simp only [edge]
    rw [equal_iff hx hc hr m1 mp, equal_iff hx hc hr m1 mq, equal_iff hx hc hr m2 mp, equal_iff hx hc hr m2 mq,
      crossing_iff hx hc hr mp mq m1 m2]
    unfold Blocking
    tauto
  have h1 : (∀ bed ∈ beds.map fun bed => bed.map (edge o u w), blockedBy (inPlane o u w p) (inPlane o u w q) bed = false) ↔
      ∀ bed ∈ beds, ∀ e ∈ bed, ¬ Blocking p q e.1 e.2 := by
    simp only [List.forall_mem_map]
    exact forall₂_congr key
  have h0 : (∃ bed ∈ beds, ∃ e ∈ bed, Blocking p q e.1 e.2) ↔ ¬ ∀ bed ∈ beds, ∀ e ∈ bed, ¬ Blocking p q e.1 e.2 := by
    push Not; rfl
  rcases arePointsVisible_spec (inPlane o u w p) (inPlane o u w q) (beds.map fun bed => bed.map (edge o u w)) with
    ⟨hv, hb⟩ | ⟨hv, bed, hb, hv'⟩
  · rw [hv, h0]
    have := h1.1 hb
    exact ⟨by simpa using this, by simpa using this⟩
  · rw [hv, h0]
    have : ¬ ∀ bed ∈ beds, ∀ e ∈ bed, ¬ Blocking p q e.1 e.2 := fun h => by
      rw [h1.2 h bed hb] at hv'
      cases hv'
    exact ⟨by simp only [zero_ne_one, false_iff]; exact this, by simp only [true_iff]; exact this⟩

theorem blocking_symm : Blocking p q a b ↔ Blocking q p a b := by
  have key : ∀ {p q : ℝ × ℝ}, Blocking p q a b → Blocking q p a b := by
    rintro p q ⟨⟨z, s, t, s0, s1, t0, t1, hs, ht⟩, hol, h1, h2, h3, h4⟩
    refine ⟨⟨z, 1 - s, t, by linarith, by linarith, t0, t1, ?_, ht⟩, ?_, h2, h1, h4, h3⟩
    · rw [hs]; unfold lerp; ext <;> simp <;> ring
    · rintro ⟨k1, k2⟩
      have e : ∀ c, signedArea p q c = -signedArea q p c := by intro c; unfold signedArea; ring
      exact hol ⟨by rw [e, k1, neg_zero], by rw [e, k2, neg_zero]⟩
  exact ⟨key, key⟩

include hx hc hr in
/-- **C116, the matrix.**  The entry of `visibility_matrix` for two different points is 1 if no edge is in the way between
them and 0 otherwise; each point sees itself. -/
theorem C116_matrix {pts : List (ℝ × ℝ)} {beds : List (List ((ℝ × ℝ) × (ℝ × ℝ)))} (hP : ∀ z ∈ pts, z ∈ S)
    (hS : ∀ bed ∈ beds, ∀ e ∈ bed, e.1 ∈ S ∧ e.2 ∈ S) :
    ∃ M, visibilityMatrix (pts.map (inPlane o u w)) (beds.map fun bed => bed.map (edge o u w)) = .ok M ∧
      ∀ i j p q, pts[i]? = some p → pts[j]? = some q →
        (M i j = 0 ∨ M i j = 1) ∧ (M i j = 0 ↔ i ≠ j ∧ ∃ bed ∈ beds, ∃ e ∈ bed, Blocking p q e.1 e.2) := by
  have hcop : arePointsCoplanar (pts.map (inPlane o u w)) = true := by
    refine C36_coplanar_complete _ (Vec3.cross u w) (Vec3.dot (Vec3.cross u w) o) _ ?_ GEOM_ATOL_pos ?_
    · intro he
      have := norm_cross hx
      rw [he, Vec3.norm_eq_zero.2 rfl] at this
      norm_num at this
    · intro p hp
      exact plane_inPlane o _ p hp
  obtain ⟨M, hM, hE⟩ := (C40_matrix (pts.map (inPlane o u w)) (beds.map fun bed => bed.map (edge o u w))).2 hcop
  refine ⟨M, hM, ?_⟩
  have less : ∀ i j p q, pts[i]? = some p → pts[j]? = some q → i < j →
      (M i j = 0 ↔ ∃ bed ∈ beds, ∃ e ∈ bed, Blocking p q e.1 e.2) := by
    intro i j p q hi hj hij
    obtain ⟨-, -, -, h⟩ := hE i j _ _ (by rw [List.getElem?_map, hi]; rfl) (by rw [List.getElem?_map, hj]; rfl)
    rw [h hij]
    simp only [List.mem_map, exists_exists_and_eq_and]
    refine exists_congr fun bed => and_congr_right fun hb => exists_congr fun e => and_congr_right fun he => ?_
    obtain ⟨m1, m2⟩ := hS bed hb e he
    have mp := hP p (List.mem_of_getElem? hi)
    have mq := hP q (List.mem_of_getElem? hj)
    have hcr := (crossing_iff hx hc hr mp mq m1 m2).not
    rw [← ne_eq, Option.ne_none_iff_exists'] at hcr
    simp only [edge, Touches]
    rw [equal_iff hx hc hr m1 mp, equal_iff hx hc hr m1 mq, equal_iff hx hc hr m2 mp, equal_iff hx hc hr m2 mq, hcr]
    unfold Blocking
    tauto
  intro i j p q hi hj
  obtain ⟨hsym, hself, h01, -⟩ := hE i j _ _ (by rw [List.getElem?_map, hi]; rfl) (by rw [List.getElem?_map, hj]; rfl)
  refine ⟨h01, ?_⟩
  rcases lt_trichotomy i j with h | h | h
  · rw [less i j p q hi hj h]
    exact ⟨fun k => ⟨h.ne, k⟩, fun k => k.2⟩
  · subst h
    rw [hself]
    simp
  · rw [hsym, less j i q p hj hi h]
    simp only [blocking_symm (p := q)]
    exact ⟨fun k => ⟨h.ne', k⟩, fun k => k.2⟩

/-! ### Non-vacuity

Three points, a wall across the line between the first two, and a wall along it. -/

private def ends : List (ℝ × ℝ) := [(0, 1), (4, 1), (0, 5), (2, 0), (2, 3), (1, 1), (3, 1)]

private theorem ends_crisp : Crisp 1 ends := by
  have := crisp_int (pts := [(0, 1), (4, 1), (0, 5), (2, 0), (2, 3), (1, 1), (3, 1)]) (by decide)
  simpa [ends] using this

private theorem ends_axes : Axes ⟨3 / 5, 4 / 5, 0⟩ ⟨0, 0, 1⟩ :=
  ⟨by norm_num [Vec3.dot], by norm_num [Vec3.dot], by norm_num [Vec3.dot]⟩

private theorem ends_reach : ∀ z ∈ ends, Reach (1 / 100) (inPlane ⟨10, -7, 50⟩ ⟨3 / 5, 4 / 5, 0⟩ ⟨0, 0, 1⟩ z) := by
  simp only [ends, List.mem_cons, List.not_mem_nil, or_false, forall_eq_or_imp, forall_eq, Reach, inPlane]
  norm_num [abs_le]

private theorem ends_walls : ∀ bed ∈ [[(((2 : ℝ), (0 : ℝ)), ((2 : ℝ), (3 : ℝ)))], [((1, 1), (3, 1))]], ∀ e ∈ bed,
    e.1 ∈ ends ∧ e.2 ∈ ends := by
  intro bed hb e he
  simp only [List.mem_cons, List.not_mem_nil, or_false] at hb
  rcases hb with rfl | rfl <;> simp only [List.mem_cons, List.not_mem_nil, or_false] at he <;> subst he <;> simp [ends]

/-- The wall across hides the second point from the first one, the wall along the line does not. -/
example :
    arePointsVisible (inPlane ⟨10, -7, 50⟩ ⟨3 / 5, 4 / 5, 0⟩ ⟨0, 0, 1⟩ (0, 1))
      (inPlane ⟨10, -7, 50⟩ ⟨3 / 5, 4 / 5, 0⟩ ⟨0, 0, 1⟩ (4, 1))
      ([[((2, 0), (2, 3))], [((1, 1), (3, 1))]].map fun bed => bed.map (edge ⟨10, -7, 50⟩ ⟨3 / 5, 4 / 5, 0⟩ ⟨0, 0, 1⟩)) = 0 ∧
    arePointsVisible (inPlane ⟨10, -7, 50⟩ ⟨3 / 5, 4 / 5, 0⟩ ⟨0, 0, 1⟩ (0, 1))
      (inPlane ⟨10, -7, 50⟩ ⟨3 / 5, 4 / 5, 0⟩ ⟨0, 0, 1⟩ (4, 1))
      ([[((1, 1), (3, 1))]].map fun bed => bed.map (edge ⟨10, -7, 50⟩ ⟨3 / 5, 4 / 5, 0⟩ ⟨0, 0, 1⟩)) = 1 := by
  constructor
  · refine (C116_visible (p := (0, 1)) (q := (4, 1)) ends_axes ends_crisp ends_reach (by simp [ends]) (by simp [ends])
      ends_walls).2.2 ⟨[((2, 0), (2, 3))], by simp, ((2, 0), (2, 3)), by simp, ⟨(2, 1), 1 / 2, 1 / 3, ?_⟩, ?_, ?_⟩
    · norm_num [lerp]
    · norm_num [OneLine, signedArea]
    · norm_num
  · refine (C116_visible (p := (0, 1)) (q := (4, 1)) ends_axes ends_crisp ends_reach (by simp [ends]) (by simp [ends])
      (fun bed hb => ends_walls bed (List.mem_cons_of_mem _ hb))).1.2 ?_
    intro bed hb e he
    simp only [List.mem_singleton] at hb
    subst hb
    simp only [List.mem_singleton] at he
    subst he
    exact fun h => h.2.1 (by norm_num [OneLine, signedArea])

/-- The matrix of the three points. -/
example : ∃ M, visibilityMatrix ([(0, 1), (4, 1), (0, 5)].map (inPlane ⟨10, -7, 50⟩ ⟨3 / 5, 4 / 5, 0⟩ ⟨0, 0, 1⟩))
    ([[((2, 0), (2, 3))]].map fun bed => bed.map (edge ⟨10, -7, 50⟩ ⟨3 / 5, 4 / 5, 0⟩ ⟨0, 0, 1⟩)) = .ok M ∧
    M 1 0 = 0 ∧ M 0 2 = 1 ∧ M 1 1 = 1 := by
  obtain ⟨M, hM, h⟩ := C116_matrix (pts := [(0, 1), (4, 1), (0, 5)]) (beds := [[((2, 0), (2, 3))]]) ends_axes ends_crisp
    ends_reach (by simp [ends]) (fun bed hb => ends_walls bed (by
      rw [List.mem_singleton.1 hb]; exact List.mem_cons_self ..))
  refine ⟨M, hM, ?_, ?_, ?_⟩
  · refine (h 1 0 _ _ rfl rfl).2.2 ⟨by decide, [((2, 0), (2, 3))], List.mem_singleton.2 rfl, ((2, 0), (2, 3)),
      List.mem_singleton.2 rfl, ⟨(2, 1), 1 / 2, 1 / 3, ?_⟩, ?_, ?_⟩
    · norm_num [lerp]
    · norm_num [OneLine, signedArea]
    · norm_num
  · refine (h 0 2 _ _ rfl rfl).1.resolve_left fun h0 => ?_
    obtain ⟨-, bed, hb, e, he, ⟨z, s, t, s0, s1, t0, t1, hs, ht⟩, -⟩ := (h 0 2 _ _ rfl rfl).2.1 h0
    simp only [List.mem_singleton] at hb
    subst hb
    simp only [List.mem_singleton] at he
    subst he
    have := congrArg Prod.fst (hs.symm.trans ht)
    norm_num [lerp] at this
  · refine (h 1 1 _ _ rfl rfl).1.resolve_left fun h0 => ((h 1 1 _ _ rfl rfl).2.1 h0).1 rfl

end B3d.SegmentsExact
