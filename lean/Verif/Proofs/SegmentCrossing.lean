import Verif.Proofs.Crossing

/-!
# Lemmas on segments that cross a polygon, and on polygons and boxes
-/

namespace B3d.Polygon

open Spec Points Triangles

/-- What `is_line_segment_crossing_polygon` computes: the point of the segment in the plane of the polygon, if the
segment is not parallel to the plane, is tested. -/
theorem segmentCrossing_iff {pts : List (Vec3 ℝ)} {tri : List Tri} {n w : Vec3 ℝ} {e eps : ℝ} (hst : Sturdy pts tri)
    (hn : n ≠ 0) (hpl : ∀ p ∈ pts, Vec3.dot n p = e) (hw : CornerNormal pts w) (heps : 0 < eps) (p q : Vec3 ℝ) :
    ∃ r, isSegmentCrossingPolygon p q pts tri eps = .ok r ∧
      (r = true ↔ eps ≤ |Vec3.dot (q - p) w| ∧ ∃ x, OnSegment p q x ∧ Vec3.dot n x = e ∧
        Polygon.isPointInside x pts tri = .ok true) := by
  obtain ⟨o, ho, hpc⟩ := planeCoefficients_eq hw
  obtain ⟨k, hk, rfl⟩ := cornerNormal_plane hw hn hpl
  have he : ∀ x, Vec3.dot (k • w) x = e ↔ Vec3.dot w x = Vec3.dot w o := by
    intro x
    rw [← hpl o ho, Vec3.dot_smul_left, Vec3.dot_smul_left]
    exact ⟨fun h => mul_left_cancel₀ hk h, fun h => by rw [h]⟩
  unfold isSegmentCrossingPolygon
  rw [hpc]
  simp only
  have hd : Vec3.dot (q - p) (⟨w.x, w.y, w.z⟩ : Vec3 ℝ) = Vec3.dot (q - p) w := rfl
  rw [hd]
  by_cases h1 : |Vec3.dot (q - p) w| < eps
  · rw [if_pos h1]
    exact ⟨false, rfl, by simp only [Bool.false_eq_true, false_iff]; exact fun h => absurd h.1 (not_le.2 h1)⟩
  · rw [if_neg h1]
    rw [not_lt] at h1
    have h0 : Vec3.dot (q - p) w ≠ 0 := by
      intro h
      rw [h, abs_zero] at h1
      linarith
    obtain ⟨t, ht⟩ : ∃ t, t = -(w.x * p.x + w.y * p.y + w.z * p.z + -Vec3.dot w o) / Vec3.dot (q - p) w := ⟨_, rfl⟩
    rw [← ht]
    have ht' : t * Vec3.dot (q - p) w = Vec3.dot w o - Vec3.dot w p := by
      rw [ht, div_mul_cancel₀ _ h0]
      simp only [Vec3.dot]
      ring
    have hx : ∀ s : ℝ, Vec3.dot w (p + s • (q - p)) = Vec3.dot w o ↔ s = t := by
      intro s
      rw [Vec3.dot_add_right, Vec3.dot_smul_right, Vec3.dot_comm w (q - p)]
      constructor
      · intro h
        apply mul_right_cancel₀ h0
        linarith
      · rintro rfl
        linarith
    by_cases h2 : t < 0 ∨ t > 1
    · rw [if_pos h2]
      refine ⟨false, rfl, ?_⟩
      simp only [Bool.false_eq_true, false_iff]
      rintro ⟨-, x, ⟨s, s0, s1, rfl⟩, hs, -⟩
      rw [he, hx] at hs
      subst hs
      rcases h2 with h2 | h2 <;> linarith
    · rw [if_neg h2]
      push Not at h2
      obtain ⟨r, hr, -⟩ := isPointInside_iff (x := p + t • (q - p)) true GEOM_ATOL hst
      refine ⟨r, hr, ?_⟩
      constructor
      · rintro rfl
        exact ⟨h1, _, ⟨t, h2.1, h2.2, rfl⟩, (he _).2 ((hx t).2 rfl), hr⟩
      · rintro ⟨-, x, ⟨s, s0, s1, rfl⟩, hs, hin⟩
        rw [he, hx] at hs
        subst hs
        rw [hr, Except.ok.injEq] at hin
        exact hin

/-! ### Leaving a set bounded by planes -/

/-- Finitely many quantities that change evenly, all nonnegative at first and some negative in the end: at some moment
all are nonnegative and one is zero. -/
theorem first_zero : ∀ fs : List (ℝ × ℝ), (∀ f ∈ fs, 0 ≤ f.1) → (∃ f ∈ fs, f.1 + f.2 < 0) →
    ∃ s : ℝ, 0 ≤ s ∧ s ≤ 1 ∧ (∀ f ∈ fs, 0 ≤ f.1 + s * f.2) ∧ ∃ f ∈ fs, f.1 + s * f.2 = 0 := by
  have key : ∀ (f : ℝ × ℝ) (u : ℝ), 0 ≤ f.1 → 0 ≤ u → f.1 + u * f.2 < 0 →
      ∃ s, 0 ≤ s ∧ s ≤ u ∧ f.1 + s * f.2 = 0 := by
    rintro ⟨a, b⟩ u h0 hu h1
    simp only at h0 h1 ⊢
    have hb : b < 0 := by
      by_contra h
      have := mul_nonneg hu (not_lt.1 h)
      linarith
    refine ⟨a / -b, div_nonneg h0 (by linarith), ?_, ?_⟩
    · rw [div_le_iff₀ (by linarith)]
      linarith
    · rw [div_neg, neg_mul, div_mul_cancel₀ _ hb.ne]
      ring
  have mono : ∀ (f : ℝ × ℝ) (s u : ℝ), 0 ≤ f.1 → 0 ≤ s → s ≤ u → 0 ≤ f.1 + u * f.2 → 0 ≤ f.1 + s * f.2 := by
    rintro ⟨a, b⟩ s u h0 hs hu h1
    simp only at h0 h1 ⊢
    rcases le_or_gt 0 b with hb | hb
    · have := mul_nonneg hs hb
      linarith
    · nlinarith
  intro fs
  induction fs with
  | nil => rintro - ⟨f, hf, -⟩; cases hf
  | cons f fs ih =>
    intro h0 hneg
    rw [List.forall_mem_cons] at h0
    by_cases hfs : ∃ g ∈ fs, g.1 + g.2 < 0
    · obtain ⟨u, u0, u1, hall, g, hg, hz⟩ := ih h0.2 hfs
      by_cases hf : f.1 + u * f.2 < 0
      · obtain ⟨s, s0, s1, hs⟩ := key f u h0.1 u0 hf
        refine ⟨s, s0, s1.trans u1, ?_, f, List.mem_cons_self, hs⟩
        rw [List.forall_mem_cons]
        exact ⟨hs.ge, fun g hg => mono g s u (h0.2 g hg) s0 s1 (hall g hg)⟩
      · refine ⟨u, u0, u1, ?_, g, List.mem_cons_of_mem _ hg, hz⟩
        rw [List.forall_mem_cons]
        exact ⟨not_lt.1 hf, hall⟩
    · push Not at hfs
      obtain ⟨g, hg, hgn⟩ := hneg
      rcases List.mem_cons.1 hg with rfl | hg
      · obtain ⟨s, s0, s1, hs⟩ := key g 1 h0.1 zero_le_one (by rwa [one_mul])
        refine ⟨s, s0, s1, ?_, g, List.mem_cons_self, hs⟩
        rw [List.forall_mem_cons]
        exact ⟨hs.ge, fun f hf => mono f s 1 (h0.2 f hf) s0 s1 (by rw [one_mul]; exact hfs f hf)⟩
      · exact absurd hgn (not_lt.2 (hfs g hg))

end B3d.Polygon
