import Verif.Proofs.Bboxes

/-!
# C25 (bounding boxes are tight), C26 (overlap of bounding boxes)
-/

set_option linter.unusedSectionVars false

namespace B3d.Bboxes
variable {K : Type} [Field K] [LinearOrder K] [IsStrictOrderedRing K]

/-- Specification: `p` lies in the closed axis-aligned box with corners `lo`, `hi`. -/
def InBox (lo hi p : Vec3 K) : Prop :=
  (lo.x ≤ p.x ∧ p.x ≤ hi.x) ∧ (lo.y ≤ p.y ∧ p.y ≤ hi.y) ∧ (lo.z ≤ p.z ∧ p.z ≤ hi.z)

/-- C25: for every non-empty point set the bounding box exists, contains every point, and is
contained in every box that contains all the points; for an empty set `ValueError` is raised. -/
theorem C25_bounding_box_tight (pts : List (Vec3 K)) (h : pts ≠ []) :
    ∃ lo hi, boundingBox pts = .ok (lo, hi) ∧ (∀ p ∈ pts, InBox lo hi p) ∧
      (∀ lo' hi', (∀ p ∈ pts, InBox lo' hi' p) → ∀ q, InBox lo hi q → InBox lo' hi' q) ∧
      boundingBox ([] : List (Vec3 K)) = .error .valueError := by
  obtain ⟨lo, hi, hb, hin, ⟨px, hpx, ex⟩, ⟨py, hpy, ey⟩, ⟨pz, hpz, ez⟩, ⟨qx, hqx, fx⟩,
    ⟨qy, hqy, fy⟩, ⟨qz, hqz, fz⟩⟩ := boundingBox_spec h
  refine ⟨lo, hi, hb, ?_, ?_, rfl⟩
  · intro p hp
    obtain ⟨h1, h2, h3, h4, h5, h6⟩ := hin p hp
    exact ⟨⟨h1, h4⟩, ⟨h2, h5⟩, ⟨h3, h6⟩⟩
  · rintro lo' hi' h' q ⟨⟨a1, a2⟩, ⟨b1, b2⟩, ⟨c1, c2⟩⟩
    refine ⟨⟨?_, ?_⟩, ⟨?_, ?_⟩, ⟨?_, ?_⟩⟩
    · exact ((h' px hpx).1.1.trans ex.le).trans a1
    · exact (a2.trans fx.ge).trans (h' qx hqx).1.2
    · exact ((h' py hpy).2.1.1.trans ey.le).trans b1
    · exact (b2.trans fy.ge).trans (h' qy hqy).2.1.2
    · exact ((h' pz hpz).2.2.1.trans ez.le).trans c1
    · exact (c2.trans fz.ge).trans (h' qz hqz).2.2.2

/-- C25: the inside test with tolerance `atol` is membership in the box enlarged by `atol`; so
each point of the set passes for every non-negative tolerance, in particular the default one. -/
theorem C25_inside_bbox (pts : List (Vec3 K)) (h : pts ≠ []) (q : Vec3 K) (atol : K) :
    ∃ lo hi r, boundingBox pts = .ok (lo, hi) ∧ isPointInsideBbox q pts atol = .ok r ∧
      (r = true ↔ InBox ⟨lo.x - atol, lo.y - atol, lo.z - atol⟩
        ⟨hi.x + atol, hi.y + atol, hi.z + atol⟩ q) ∧
      (0 ≤ atol → q ∈ pts → r = true) := by
  obtain ⟨lo, hi, hb, hin, -⟩ := boundingBox_spec h
  have key : ∀ r : Bool,
      (if anyLt q (addScalar lo (-atol)) || anyLt (addScalar hi atol) q then false else true) = r →
      (r = true ↔ InBox ⟨lo.x - atol, lo.y - atol, lo.z - atol⟩
        ⟨hi.x + atol, hi.y + atol, hi.z + atol⟩ q) := by
    rintro r rfl
    have h1 := anyLt_eq_false (a := q) (b := addScalar lo (-atol))
    have h2 := anyLt_eq_false (a := addScalar hi atol) (b := q)
    simp only [addScalar, ← sub_eq_add_neg] at h1 h2
    unfold InBox
    simp only [addScalar, ← sub_eq_add_neg] at *
    cases e1 : anyLt q ⟨lo.x - atol, lo.y - atol, lo.z - atol⟩ <;>
      cases e2 : anyLt ⟨hi.x + atol, hi.y + atol, hi.z + atol⟩ q <;>
      simp only [e1, e2, true_iff, Bool.true_eq_false, false_iff] at h1 h2 <;>
      simp only [Bool.or_self, Bool.or_true, Bool.or_false, if_true, if_false,
        Bool.false_eq_true, false_iff, true_iff] <;> tauto
  refine ⟨lo, hi, _, hb, ?_, key _ rfl, ?_⟩
  · simp only [isPointInsideBbox, hb]
    show (if _ then Except.ok false else Except.ok true) = _
    split <;> rfl
  · intro h0 hq
    rw [key _ rfl]
    obtain ⟨h1, h2, h3, h4, h5, h6⟩ := hin q hq
    refine ⟨⟨?_, ?_⟩, ⟨?_, ?_⟩, ⟨?_, ?_⟩⟩ <;> simp only <;> linarith

/-- C26: overlap of bounding boxes is symmetric. -/
theorem C26_overlap_symmetric (b1 b2 : Vec3 K × Vec3 K) :
    areBboxesOverlapping b1 b2 = areBboxesOverlapping b2 b1 := by
  rw [Bool.eq_iff_iff, overlap_iff, overlap_iff]
  exact and_comm

/-- C26: the bounding boxes of two non-empty point sets are reported as overlapping iff the two
closed boxes have a common point. -/
theorem C26_overlap_iff_common_point (pts1 pts2 : List (Vec3 K)) (h1 : pts1 ≠ [])
    (h2 : pts2 ≠ []) :
    ∃ b1 b2, boundingBox pts1 = .ok b1 ∧ boundingBox pts2 = .ok b2 ∧
      (areBboxesOverlapping b1 b2 = true ↔ ∃ q, InBox b1.1 b1.2 q ∧ InBox b2.1 b2.2 q) := by
  obtain ⟨lo, hi, hb, hin, -⟩ := boundingBox_spec h1
  obtain ⟨lo', hi', hb', hin', -⟩ := boundingBox_spec h2
  refine ⟨_, _, hb, hb', ?_⟩
  obtain ⟨p, hp⟩ := List.exists_mem_of_ne_nil _ h1
  obtain ⟨p', hp'⟩ := List.exists_mem_of_ne_nil _ h2
  obtain ⟨a1, a2, a3, a4, a5, a6⟩ := hin p hp
  obtain ⟨c1, c2, c3, c4, c5, c6⟩ := hin' p' hp'
  rw [overlap_iff]
  constructor
  · rintro ⟨⟨e1, e2, e3⟩, ⟨f1, f2, f3⟩⟩
    refine ⟨⟨max lo.x lo'.x, max lo.y lo'.y, max lo.z lo'.z⟩, ?_, ?_⟩
    · refine ⟨⟨le_max_left _ _, max_le (a1.trans a4) e1⟩, ⟨le_max_left _ _, max_le (a2.trans a5) e2⟩,
        ⟨le_max_left _ _, max_le (a3.trans a6) e3⟩⟩
    · refine ⟨⟨le_max_right _ _, max_le f1 (c1.trans c4)⟩, ⟨le_max_right _ _, max_le f2 (c2.trans c5)⟩,
        ⟨le_max_right _ _, max_le f3 (c3.trans c6)⟩⟩
  · rintro ⟨q, ⟨⟨x1, x2⟩, ⟨y1, y2⟩, ⟨z1, z2⟩⟩, ⟨⟨x3, x4⟩, ⟨y3, y4⟩, ⟨z3, z4⟩⟩⟩
    exact ⟨⟨x3.trans x2, y3.trans y2, z3.trans z2⟩, ⟨x1.trans x4, y1.trans y4, z1.trans z4⟩⟩

/-- Specification: `q` lies in the closed triangle `a b c` (barycentric coordinates). -/
def InTriangle (a b c q : Vec3 K) : Prop :=
  ∃ u v w : K, 0 ≤ u ∧ 0 ≤ v ∧ 0 ≤ w ∧ u + v + w = 1 ∧ q = u • a + v • b + w • c

private theorem inBox_of_inTriangle {lo hi a b c q : Vec3 K} (ha : InBox lo hi a)
    (hb : InBox lo hi b) (hc : InBox lo hi c) (h : InTriangle a b c q) : InBox lo hi q := by
  obtain ⟨u, v, w, hu, hv, hw, hs, rfl⟩ := h
  obtain ⟨⟨a1, a2⟩, ⟨a3, a4⟩, ⟨a5, a6⟩⟩ := ha
  obtain ⟨⟨b1, b2⟩, ⟨b3, b4⟩, ⟨b5, b6⟩⟩ := hb
  obtain ⟨⟨c1, c2⟩, ⟨c3, c4⟩, ⟨c5, c6⟩⟩ := hc
  have lo' : ∀ {l p q r : K}, l ≤ p → l ≤ q → l ≤ r → l ≤ u * p + v * q + w * r := by
    intro l p q r h1 h2 h3
    have e : l = u * l + v * l + w * l := by rw [← add_mul, ← add_mul, hs, one_mul]
    rw [e]
    exact add_le_add (add_le_add (mul_le_mul_of_nonneg_left h1 hu)
      (mul_le_mul_of_nonneg_left h2 hv)) (mul_le_mul_of_nonneg_left h3 hw)
  have hi' : ∀ {l p q r : K}, p ≤ l → q ≤ l → r ≤ l → u * p + v * q + w * r ≤ l := by
    intro l p q r h1 h2 h3
    have e : l = u * l + v * l + w * l := by rw [← add_mul, ← add_mul, hs, one_mul]
    rw [e]
    exact add_le_add (add_le_add (mul_le_mul_of_nonneg_left h1 hu)
      (mul_le_mul_of_nonneg_left h2 hv)) (mul_le_mul_of_nonneg_left h3 hw)
  exact ⟨⟨lo' a1 b1 c1, hi' a2 b2 c2⟩, ⟨lo' a3 b3 c3, hi' a4 b4 c4⟩, ⟨lo' a5 b5 c5, hi' a6 b6 c6⟩⟩

/-- C26, no false negatives of the pre-filter: whenever some point lies in a triangle spanned by
vertices of the first set and in a triangle spanned by vertices of the second set (so in
particular when the polygons share a vertex, an edge point or a surface point), the bounding boxes
are reported as overlapping. -/
theorem C26_no_false_negative (pts1 pts2 : List (Vec3 K)) (b1 b2 : Vec3 K × Vec3 K)
    (hb1 : boundingBox pts1 = .ok b1) (hb2 : boundingBox pts2 = .ok b2)
    (q a b c a' b' c' : Vec3 K) (ha : a ∈ pts1) (hb : b ∈ pts1) (hc : c ∈ pts1)
    (ha' : a' ∈ pts2) (hb' : b' ∈ pts2) (hc' : c' ∈ pts2)
    (hq1 : InTriangle a b c q) (hq2 : InTriangle a' b' c' q) :
    areBboxesOverlapping b1 b2 = true := by
  obtain ⟨lo, hi, e1, hin, -⟩ := C25_bounding_box_tight pts1 (List.ne_nil_of_mem ha)
  obtain ⟨lo', hi', e2, hin', -⟩ := C25_bounding_box_tight pts2 (List.ne_nil_of_mem ha')
  obtain ⟨b1', b2', e3, e4, hov⟩ := C26_overlap_iff_common_point pts1 pts2 (List.ne_nil_of_mem ha)
    (List.ne_nil_of_mem ha')
  rw [hb1] at e1 e3; rw [hb2] at e2 e4
  cases e1; cases e2; cases e3; cases e4
  rw [hov]
  exact ⟨q, inBox_of_inTriangle (hin a ha) (hin b hb) (hin c hc) hq1,
    inBox_of_inTriangle (hin' a' ha') (hin' b' hb') (hin' c' hc') hq2⟩

/-- Two unit squares sharing one corner. -/
example : boundingBox ([⟨0, 0, 0⟩, ⟨1, 0, 0⟩, ⟨1, 1, 0⟩] : List (Vec3 ℚ)) =
      .ok (⟨0, 0, 0⟩, ⟨1, 1, 0⟩) ∧
    areBboxesOverlapping ((⟨0, 0, 0⟩, ⟨1, 1, 0⟩) : Vec3 ℚ × Vec3 ℚ) (⟨1, 1, 0⟩, ⟨2, 2, 1⟩) = true ∧
    areBboxesOverlapping ((⟨0, 0, 0⟩, ⟨1, 1, 0⟩) : Vec3 ℚ × Vec3 ℚ) (⟨1, 2, 0⟩, ⟨2, 3, 1⟩) = false ∧
    isPointInsideBbox (⟨1, 1 / 2, 0⟩ : Vec3 ℚ) [⟨0, 0, 0⟩, ⟨1, 1, 0⟩] = .ok true ∧
    isPointInsideBbox (⟨1, 1 / 2, 1⟩ : Vec3 ℚ) [⟨0, 0, 0⟩, ⟨1, 1, 0⟩] = .ok false := by
  decide +kernel

end B3d.Bboxes
