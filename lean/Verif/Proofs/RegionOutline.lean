import Verif.Proofs.PointInPolygon
import Mathlib.Topology.Order.Compact
import Mathlib.Topology.Instances.Real.Lemmas

/-! # A segment that leaves the region meets the outline -/

namespace B3d.Polygon

open Spec Triangles Points

/-- Every edge of a triangle is an edge of the outline or an edge of another triangle in the other direction, and
the corners are on the outline. -/
structure Joined (pts : List (Vec3 ℝ)) (tri : List Tri) : Prop where
  edge : ∀ t ∈ tri, TriangleWith pts t fun a b c => ∀ p q, ((p, q) = (a, b) ∨ (p, q) = (b, c) ∨ (p, q) = (c, a)) →
    (p, q) ∈ cycEdges pts ∨
    ∃ t' ∈ tri, TriangleWith pts t' fun a' b' c' => (q, p) = (a', b') ∨ (q, p) = (b', c') ∨ (q, p) = (c', a')
  corner : ∀ p ∈ pts, OnOutline pts p

theorem side_move (n z d p q : Vec3 ℝ) (s : ℝ) :
    sideOf n (z + s • d) p q = sideOf n z p q + s * Vec3.dot n (Vec3.cross (q - p) d) := by
  simp only [sideOf, Vec3.dot, Vec3.cross_x, Vec3.cross_y, Vec3.cross_z, Vec3.sub_x, Vec3.sub_y, Vec3.sub_z,
    Vec3.add_x, Vec3.add_y, Vec3.add_z, Vec3.smul_x, Vec3.smul_y, Vec3.smul_z]
  ring

theorem small_step {α β : ℝ} (h : 0 < α ∨ 0 ≤ α ∧ 0 ≤ β) : ∃ ε > (0 : ℝ), ∀ s : ℝ, 0 ≤ s → s ≤ ε → 0 ≤ α + s * β := by
  rcases h with h | ⟨h1, h2⟩
  · refine ⟨α / (|β| + 1), by positivity, fun s h0 hs => ?_⟩
    rw [le_div_iff₀ (by positivity)] at hs
    have := neg_abs_le β
    nlinarith [mul_nonneg h0 (abs_nonneg β)]
  · exact ⟨1, one_pos, fun s h0 _ => add_nonneg h1 (mul_nonneg h0 h2)⟩

/-- The last point of a segment in the region. -/
theorem last_point {P : ℝ → Prop} (hc : IsClosed {t | P t}) (h0 : P 0) (h1 : ¬ P 1) :
    ∃ t, 0 ≤ t ∧ t < 1 ∧ P t ∧ ∀ ε > 0, ∃ s, 0 < s ∧ s ≤ ε ∧ ¬ P (t + s) := by
  have hk : IsCompact (Set.Icc (0 : ℝ) 1 ∩ {t | P t}) := isCompact_Icc.inter_right hc
  obtain ⟨t, ⟨⟨ht0, ht1⟩, htP⟩, hmax⟩ := hk.exists_isGreatest ⟨0, ⟨le_refl _, zero_le_one⟩, h0⟩
  have hlt : t < 1 := lt_of_le_of_ne ht1 (by rintro rfl; exact h1 htP)
  refine ⟨t, ht0, hlt, htP, fun ε hε => ⟨min ε (1 - t), lt_min hε (by linarith), min_le_left _ _, fun hP => ?_⟩⟩
  have h2 : 0 < min ε (1 - t) := lt_min hε (by linarith)
  have := hmax (show t + min ε (1 - t) ∈ _ from ⟨⟨by linarith, by linarith [min_le_right ε (1 - t)]⟩, hP⟩)
  linarith

theorem inTriangle_side_iff {n x a b c : Vec3 ℝ} {e : ℝ} (hn : n ≠ 0) (ha : Vec3.dot n a = e)
    (hb : Vec3.dot n b = e) (hc : Vec3.dot n c = e) (hx : Vec3.dot n x = e)
    (hA : 0 < Vec3.dot n (Vec3.cross (b - a) (c - a))) : InTriangle a b c x ↔
      ∀ p q, ((p, q) = (a, b) ∨ (p, q) = (b, c) ∨ (p, q) = (c, a)) → 0 ≤ sideOf n x p q := by
  rw [inTriangle_iff hn ha hb hc hx hA]
  constructor
  · rintro ⟨h1, h2, h3⟩ p q (h | h | h) <;> rw [Prod.mk.injEq] at h <;> rw [h.1, h.2] <;> assumption
  · intro h
    exact ⟨h _ _ (.inl rfl), h _ _ (.inr (.inl rfl)), h _ _ (.inr (.inr rfl))⟩

/-- A point of a triangle on the line through an edge lies on the edge. -/
theorem onSegment_of_side {n x a b c : Vec3 ℝ} {e : ℝ} (hn : n ≠ 0) (ha : Vec3.dot n a = e)
    (hb : Vec3.dot n b = e) (hc : Vec3.dot n c = e) (hx : Vec3.dot n x = e)
    (hA : 0 < Vec3.dot n (Vec3.cross (b - a) (c - a))) (hab : sideOf n x a b = 0) (hbc : 0 ≤ sideOf n x b c)
    (hca : 0 ≤ sideOf n x c a) : OnSegment a b x := by
  obtain ⟨h1, h2⟩ := comb_of_sides hn ha hb hc hx rfl hA.ne'
  rw [hab, zero_div, add_zero] at h1
  rw [hab, zero_div, zero_smul, add_zero] at h2
  refine ⟨sideOf n x c a / Vec3.dot n (Vec3.cross (b - a) (c - a)), div_nonneg hca hA.le, ?_, ?_⟩
  · have := div_nonneg hbc hA.le
    linarith
  · conv_lhs => rw [h2]
    have e1 : sideOf n x b c / Vec3.dot n (Vec3.cross (b - a) (c - a)) =
        1 - sideOf n x c a / Vec3.dot n (Vec3.cross (b - a) (c - a)) := by linarith
    rw [e1, sub_smul, one_smul, smul_sub]
    abel

/-- From the inside of an edge of a triangle, every small step to the inner side stays in the triangle. -/
theorem step_inside {n x a b c d : Vec3 ℝ} {e : ℝ} (hn : n ≠ 0) (ha : Vec3.dot n a = e)
    (hb : Vec3.dot n b = e) (hc : Vec3.dot n c = e) (hd : Vec3.dot n d = 0)
    (hA : 0 < Vec3.dot n (Vec3.cross (b - a) (c - a))) (hab : 0 ≤ Vec3.dot n (Vec3.cross (b - a) d))
    {t : ℝ} (h0 : 0 < t) (h1 : t < 1) (hx : x = a + t • (b - a)) :
    ∃ ε > (0 : ℝ), ∀ s : ℝ, 0 ≤ s → s ≤ ε → InTriangle a b c (x + s • d) := by
  have hxe : Vec3.dot n x = e := by
    rw [hx, Vec3.dot_add_right, Vec3.dot_smul_right, Vec3.dot_sub_right, ha, hb]; ring
  have hcomb : x = (1 - t) • a + t • b + (0 : ℝ) • c := by
    rw [hx, smul_sub, sub_smul, one_smul, zero_smul]; abel
  obtain ⟨e1, e2, e3⟩ := sides_of_comb (n := n) (by ring) hcomb
  obtain ⟨ε1, p1, f1⟩ := small_step (α := sideOf n x a b) (β := Vec3.dot n (Vec3.cross (b - a) d))
    (.inr ⟨by rw [e3, zero_mul], hab⟩)
  obtain ⟨ε2, p2, f2⟩ := small_step (α := sideOf n x b c) (β := Vec3.dot n (Vec3.cross (c - b) d))
    (.inl (by rw [e1]; exact mul_pos (by linarith) hA))
  obtain ⟨ε3, p3, f3⟩ := small_step (α := sideOf n x c a) (β := Vec3.dot n (Vec3.cross (a - c) d))
    (.inl (by rw [e2]; exact mul_pos h0 hA))
  refine ⟨min ε1 (min ε2 ε3), lt_min p1 (lt_min p2 p3), fun s hs hle => ?_⟩
  have l1 := hle.trans (min_le_left _ _)
  have l2 := (hle.trans (min_le_right _ _)).trans (min_le_left _ _)
  have l3 := (hle.trans (min_le_right _ _)).trans (min_le_right _ _)
  rw [inTriangle_iff hn ha hb hc (by rw [Vec3.dot_add_right, Vec3.dot_smul_right, hd, hxe]; ring) hA]
  rw [side_move, side_move, side_move]
  exact ⟨f1 s hs l1, f2 s hs l2, f3 s hs l3⟩

theorem continuous_side (n y d p q : Vec3 ℝ) : Continuous fun t : ℝ => sideOf n (y + t • d) p q := by
  simp only [side_move]
  fun_prop

theorem closed_region {pts : List (Vec3 ℝ)} {n y d : Vec3 ℝ} {e : ℝ} (hn : n ≠ 0)
    (hpl : ∀ p ∈ pts, Vec3.dot n p = e) (hy : Vec3.dot n y = e) (hd : Vec3.dot n d = 0) : ∀ tri : List Tri,
    (∀ t ∈ tri, TriangleWith pts t fun a b c => 0 < Vec3.dot n (Vec3.cross (b - a) (c - a))) →
    IsClosed {t : ℝ | Region pts tri (y + t • d)}
  | [], _ => by simp [Region]
  | u :: tri, h => by
    have ih := closed_region hn hpl hy hd tri fun t ht => h t (List.mem_cons_of_mem _ ht)
    obtain ⟨a, b, c, ha, hb, hc, hA⟩ := h u List.mem_cons_self
    have hpa := hpl a (List.mem_of_getElem? ha)
    have hpb := hpl b (List.mem_of_getElem? hb)
    have hpc := hpl c (List.mem_of_getElem? hc)
    have e1 : {t : ℝ | Region pts (u :: tri) (y + t • d)} =
        {t : ℝ | InTriangle a b c (y + t • d)} ∪ {t : ℝ | Region pts tri (y + t • d)} := by
      ext t
      simp only [Set.mem_ofPred_eq, Set.mem_union, Region, List.exists_mem_cons_iff]
      rw [triangleWith_eq ha hb hc]
    have e2 : {t : ℝ | InTriangle a b c (y + t • d)} = {t : ℝ | 0 ≤ sideOf n (y + t • d) a b} ∩
        ({t : ℝ | 0 ≤ sideOf n (y + t • d) b c} ∩ {t : ℝ | 0 ≤ sideOf n (y + t • d) c a}) := by
      ext t
      simp only [Set.mem_ofPred_eq, Set.mem_inter_iff]
      rw [inTriangle_iff hn hpa hpb hpc (by rw [Vec3.dot_add_right, Vec3.dot_smul_right, hd, hy]; ring) hA]
    rw [e1, e2]
    have cl : ∀ p q, IsClosed {t : ℝ | 0 ≤ sideOf n (y + t • d) p q} := fun p q =>
      isClosed_le continuous_const (continuous_side n y d p q)
    exact ((cl _ _).inter ((cl _ _).inter (cl _ _))).union ih

/-- A segment from a point of the region to a point of its plane outside the region meets the outline. -/
theorem meets_outline {pts : List (Vec3 ℝ)} {tri : List Tri} {n y x : Vec3 ℝ} {e : ℝ} (hf : Flat pts tri n e)
    (hj : Joined pts tri) (hy : Region pts tri y) (hxe : Vec3.dot n x = e) (hx : ¬ Region pts tri x) :
    ∃ z, OnOutline pts z ∧ OnSegment y x z := by
  have hye : Vec3.dot n y = e := by
    obtain ⟨t, ht, a, b, c, ha, hb, hc, hin⟩ := hy
    exact inTriangle_plane (hf.plane a (List.mem_of_getElem? ha)) (hf.plane b (List.mem_of_getElem? hb))
      (hf.plane c (List.mem_of_getElem? hc)) hin
  have hd : Vec3.dot n (x - y) = 0 := by rw [Vec3.dot_sub_right, hxe, hye, sub_self]
  obtain ⟨d, hdd⟩ : ∃ d, d = x - y := ⟨_, rfl⟩
  rw [← hdd] at hd
  obtain ⟨t, ht0, ht1, hin, hout⟩ := last_point (closed_region hf.ne hf.plane hye hd tri hf.pos)
    (by rw [zero_smul, add_zero]; exact hy) (by rw [one_smul, hdd, add_sub_cancel]; exact hx)
  refine ⟨y + t • d, ?_, t, ht0, ht1.le, by rw [hdd]⟩
  obtain ⟨z, hz⟩ : ∃ z, z = y + t • d := ⟨_, rfl⟩
  have hout' : ∀ ε > (0 : ℝ), ∃ s : ℝ, 0 < s ∧ s ≤ ε ∧ ¬ Region pts tri (z + s • d) := by
    intro ε hε
    obtain ⟨s, h1, h2, h3⟩ := hout ε hε
    refine ⟨s, h1, h2, ?_⟩
    rw [hz, add_assoc, ← add_smul]
    exact h3
  rw [← hz] at hin ⊢
  have hze : Vec3.dot n z = e := by rw [hz, Vec3.dot_add_right, Vec3.dot_smul_right, hd, hye]; ring
  obtain ⟨u, hu, a, b, c, ha, hb, hc, hin⟩ := hin
  have hA := (triangleWith_eq ha hb hc).1 (hf.pos u hu)
  have hje := (triangleWith_eq ha hb hc).1 (hj.edge u hu)
  have ma := List.mem_of_getElem? ha
  have mb := List.mem_of_getElem? hb
  have mc := List.mem_of_getElem? hc
  have hpa := hf.plane a ma
  have hpb := hf.plane b mb
  have hpc := hf.plane c mc
  obtain ⟨s1, s2, s3⟩ := (inTriangle_iff hf.ne hpa hpb hpc hze hA).1 hin
  -- the decisive edge
  have key : ∀ p q r : Vec3 ℝ, p ∈ pts → q ∈ pts → Vec3.dot n p = e → Vec3.dot n q = e → Vec3.dot n r = e →
      0 < Vec3.dot n (Vec3.cross (q - p) (r - p)) →
      ((p, q) = (a, b) ∨ (p, q) = (b, c) ∨ (p, q) = (c, a)) → sideOf n z p q = 0 → 0 ≤ sideOf n z q r →
      0 ≤ sideOf n z r p → Vec3.dot n (Vec3.cross (q - p) d) ≤ 0 → OnOutline pts z := by
    intro p q r mp mq hp hq hr hA' hpq h0 h1 h2 hneg
    have hseg := onSegment_of_side hf.ne hp hq hr hze hA' h0 h1 h2
    rcases hje p q hpq with hout2 | ⟨u', hu', a', b', c', ha', hb', hc', hrev⟩
    · exact ⟨_, hout2, hseg⟩
    · obtain ⟨τ, hτ0, hτ1, hzτ⟩ := hseg
      rcases hτ0.eq_or_lt with hτ0 | hτ0
      · rw [← hτ0, zero_smul, add_zero] at hzτ
        rw [hzτ]; exact hj.corner p mp
      rcases hτ1.eq_or_lt with hτ1 | hτ1
      · rw [hτ1, one_smul, add_sub_cancel] at hzτ
        rw [hzτ]; exact hj.corner q mq
      exfalso
      have hA2 := (triangleWith_eq ha' hb' hc').1 (hf.pos u' hu')
      have hpa' := hf.plane a' (List.mem_of_getElem? ha')
      have hpb' := hf.plane b' (List.mem_of_getElem? hb')
      have hpc' := hf.plane c' (List.mem_of_getElem? hc')
      have hz2 : z = q + (1 - τ) • (p - q) := by
        rw [hzτ, sub_smul, one_smul, smul_sub, smul_sub]; abel
      have hneg2 : 0 ≤ Vec3.dot n (Vec3.cross (p - q) d) := by
        have : Vec3.dot n (Vec3.cross (p - q) d) = - Vec3.dot n (Vec3.cross (q - p) d) := by
          simp only [Vec3.dot, Vec3.cross_x, Vec3.cross_y, Vec3.cross_z, Vec3.sub_x, Vec3.sub_y, Vec3.sub_z]
          ring
        linarith
      have fin : (∃ ε > (0 : ℝ), ∀ s : ℝ, 0 ≤ s → s ≤ ε → InTriangle a' b' c' (z + s • d)) → False := by
        rintro ⟨ε, hε, hall⟩
        obtain ⟨s, h1, h2, h3⟩ := hout' ε hε
        exact h3 ⟨u', hu', a', b', c', ha', hb', hc', hall s h1.le h2⟩
      apply fin
      rcases hrev with hrev | hrev | hrev <;> rw [Prod.mk.injEq] at hrev <;> obtain ⟨rfl, rfl⟩ := hrev
      · exact step_inside hf.ne hpa' hpb' hpc' hd hA2 hneg2 (by linarith) (by linarith) hz2
      · obtain ⟨ε, hε, hall⟩ := step_inside hf.ne hpb' hpc' hpa' hd (by rw [area_rot]; exact hA2) hneg2
          (by linarith) (by linarith) hz2
        exact ⟨ε, hε, fun s h1 h2 => inTriangle_rot (inTriangle_rot (hall s h1 h2))⟩
      · obtain ⟨ε, hε, hall⟩ := step_inside hf.ne hpc' hpa' hpb' hd (by rw [area_rot, area_rot]; exact hA2) hneg2
          (by linarith) (by linarith) hz2
        exact ⟨ε, hε, fun s h1 h2 => inTriangle_rot (hall s h1 h2)⟩
  by_cases k1 : 0 < sideOf n z a b ∨ 0 ≤ sideOf n z a b ∧ 0 ≤ Vec3.dot n (Vec3.cross (b - a) d)
  · by_cases k2 : 0 < sideOf n z b c ∨ 0 ≤ sideOf n z b c ∧ 0 ≤ Vec3.dot n (Vec3.cross (c - b) d)
    · by_cases k3 : 0 < sideOf n z c a ∨ 0 ≤ sideOf n z c a ∧ 0 ≤ Vec3.dot n (Vec3.cross (a - c) d)
      · exfalso
        obtain ⟨ε1, p1, f1⟩ := small_step k1
        obtain ⟨ε2, p2, f2⟩ := small_step k2
        obtain ⟨ε3, p3, f3⟩ := small_step k3
        obtain ⟨s, h1, h2, h3⟩ := hout' (min ε1 (min ε2 ε3)) (lt_min p1 (lt_min p2 p3))
        have l1 := h2.trans (min_le_left _ _)
        have l2 := (h2.trans (min_le_right _ _)).trans (min_le_left _ _)
        have l3 := (h2.trans (min_le_right _ _)).trans (min_le_right _ _)
        refine h3 ⟨u, hu, a, b, c, ha, hb, hc, ?_⟩
        show InTriangle a b c (z + s • d)
        rw [inTriangle_iff hf.ne hpa hpb hpc
          (by rw [Vec3.dot_add_right, Vec3.dot_smul_right, hd, hze]; ring) hA, side_move, side_move, side_move]
        exact ⟨f1 s h1.le l1, f2 s h1.le l2, f3 s h1.le l3⟩
      · push Not at k3
        exact key c a b mc ma hpc hpa hpb (by rw [area_rot, area_rot]; exact hA) (.inr (.inr rfl))
          (le_antisymm k3.1 s3) s1 s2 (k3.2 s3).le
    · push Not at k2
      exact key b c a mb mc hpb hpc hpa (by rw [area_rot]; exact hA) (.inr (.inl rfl))
        (le_antisymm k2.1 s2) s3 s1 (k2.2 s2).le
  · push Not at k1
    exact key a b c ma mb hpa hpb hpc hA (.inl rfl) (le_antisymm k1.1 s1) s2 s3 (k1.2 s1).le

end B3d.Polygon
