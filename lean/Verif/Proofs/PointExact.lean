import Verif.Proofs.SliceRun
import Verif.Props.Tolerance

/-!
# Tests of points without doubtful cases (helper lemmas for C113)
-/

namespace B3d.PointExact

open Spec Planar Points Polygon Triangles SliceConvex

variable {o u w : Vec3 ℝ} {m : ℝ} {pts S : List (ℝ × ℝ)} {P : Poly} {vn : Option (Vec3 ℝ)}

theorem comb_inPlane (a b c : ℝ × ℝ) {r s q : ℝ} (h : r + s + q = 1) :
    r • inPlane o u w a + s • inPlane o u w b + q • inPlane o u w c =
      inPlane o u w (r * a.1 + s * b.1 + q * c.1, r * a.2 + s * b.2 + q * c.2) := by
  obtain rfl : r = 1 - s - q := by linarith
  unfold inPlane
  ext <;> simp <;> ring

theorem inTriangle_iff (hx : Axes u w) {a b c t : ℝ × ℝ} (hD : 0 < signedArea a b c) :
    InTriangle (inPlane o u w a) (inPlane o u w b) (inPlane o u w c) (inPlane o u w t) ↔ InClosed t a b c := by
  refine ⟨?_, inTriangle_inPlane hD⟩
  rintro ⟨r, s, q, hr, hs, hq, h1, he⟩
  rw [comb_inPlane _ _ _ h1] at he
  obtain rfl := inPlane_injective hx he
  obtain rfl : r = 1 - s - q := by linarith
  have e1 : signedArea a b ((1 - s - q) * a.1 + s * b.1 + q * c.1, (1 - s - q) * a.2 + s * b.2 + q * c.2) =
      q * signedArea a b c := by unfold signedArea; ring
  have e2 : signedArea b c ((1 - s - q) * a.1 + s * b.1 + q * c.1, (1 - s - q) * a.2 + s * b.2 + q * c.2) =
      (1 - s - q) * signedArea a b c := by unfold signedArea; ring
  have e3 : signedArea c a ((1 - s - q) * a.1 + s * b.1 + q * c.1, (1 - s - q) * a.2 + s * b.2 + q * c.2) =
      s * signedArea a b c := by unfold signedArea; ring
  exact ⟨by rw [e1]; positivity, by rw [e2]; positivity, by rw [e3]; positivity⟩

/-- The triangles of a polygon drawn in a plane. -/
theorem triangles_in (hx : Axes u w) (hc : Crisp m pts)
    (h : polygonNew (pts.map (inPlane o u w)) none vn = .ok P) (hv : P.vn = some (Vec3.cross u w)) {t : Tri}
    (ht : t ∈ P.tri) : ∃ a ∈ pts, ∃ b ∈ pts, ∃ c ∈ pts, P.pts[t.1]? = some (inPlane o u w a) ∧
      P.pts[t.2.1]? = some (inPlane o u w b) ∧ P.pts[t.2.2]? = some (inPlane o u w c) ∧ 0 < signedArea a b c := by
  obtain ⟨hn, v, hv', -, htr, -⟩ := polygonNew_ok h
  rw [hv, Option.some.injEq] at hv'
  subst hv'
  obtain ⟨h1, -, h3⟩ := C20_triangulate_valid _ _ _ _ _ _ _ hn htr
  obtain ⟨i, j, k⟩ := t
  obtain ⟨-, -, -, -, -, -, -, a, b, c, ha, hb, hc', hconv⟩ := h3 i j k ht
  have mem : ∀ p ∈ P.pts, ∃ q ∈ pts, inPlane o u w q = p := by
    intro p hp
    rcases h1 with e | e <;> rw [e] at hp
    · exact List.mem_map.1 hp
    · exact List.mem_map.1 (List.mem_reverse.1 hp)
  obtain ⟨a', ma, rfl⟩ := mem a (List.mem_of_getElem? ha)
  obtain ⟨b', mb, rfl⟩ := mem b (List.mem_of_getElem? hb)
  obtain ⟨c', mc, rfl⟩ := mem c (List.mem_of_getElem? hc')
  refine ⟨a', ma, b', mb, c', mc, ha, hb, hc', ?_⟩
  rw [isCornerConvex_inPlane hx hc ma mb mc] at hconv
  simpa using hconv

theorem plane_of (h : polygonNew (pts.map (inPlane o u w)) none vn = .ok P) :
    ∀ p ∈ P.pts, Vec3.dot (Vec3.cross u w) p = Vec3.dot (Vec3.cross u w) o := by
  obtain ⟨hn, v, hv', -, htr, -⟩ := polygonNew_ok h
  obtain ⟨h1, -⟩ := C20_triangulate_valid _ _ _ _ _ _ _ hn htr
  intro p hp
  refine plane_inPlane o pts p ?_
  rcases h1 with e | e <;> rw [e] at hp
  · exact hp
  · exact List.mem_reverse.1 hp

/-- Triangles with corners in the drawing, counter-clockwise. -/
def Drawn (o u w : Vec3 ℝ) (S : List (ℝ × ℝ)) (p3 : List (Vec3 ℝ)) (tri : List Tri) : Prop :=
  ∀ t ∈ tri, ∃ a ∈ S, ∃ b ∈ S, ∃ c ∈ S, p3[t.1]? = some (inPlane o u w a) ∧
      p3[t.2.1]? = some (inPlane o u w b) ∧ p3[t.2.2]? = some (inPlane o u w c) ∧ 0 < signedArea a b c

theorem drawn (hx : Axes u w) (hc : Crisp m S) (hS : ∀ p ∈ pts, p ∈ S)
    (h : polygonNew (pts.map (inPlane o u w)) none vn = .ok P) (hv : P.vn = some (Vec3.cross u w)) :
    Drawn o u w S P.pts P.tri := by
  intro t ht
  obtain ⟨a, ma, b, mb, c, mc, k⟩ := triangles_in hx (crisp_swap hc hS) h hv ht
  exact ⟨a, hS a ma, b, hS b mb, c, hS c mc, k⟩

/-- A point of the drawing is reported in one of the triangles exactly if it is in the region. -/
theorem region_iff (hx : Axes u w) (hc : Crisp m S) (hr : ∀ p ∈ S, Reach m (inPlane o u w p)) {p3 : List (Vec3 ℝ)}
    {tri : List Tri} (hd : Drawn o u w S p3 tri) {z : ℝ × ℝ}
    (hz : z ∈ S) : Region p3 tri (inPlane o u w z) ↔
      ∃ t ∈ tri, TriangleWith p3 t fun a b c => Triangles.isPointInside (inPlane o u w z) a b c = .ok true := by
  have key : ∀ t ∈ tri, (TriangleWith p3 t fun a b c => InTriangle a b c (inPlane o u w z)) ↔
      TriangleWith p3 t fun a b c => Triangles.isPointInside (inPlane o u w z) a b c = .ok true := by
    intro t ht
    obtain ⟨a, ma, b, mb, c, mc, ea, eb, ec, hD⟩ := hd t ht
    have e := isPointInside_inPlane (o := o) hx hc hr ma mb mc hz hD
    have e2 := inTriangle_iff (o := o) hx (t := z) hD
    constructor
    · rintro ⟨a', b', c', ha, hb, hc', hin⟩
      rw [ea] at ha; rw [eb] at hb; rw [ec] at hc'
      cases ha; cases hb; cases hc'
      exact ⟨_, _, _, ea, eb, ec, e.trans (congrArg Except.ok (by simpa only [decide_eq_true_eq] using e2.1 hin))⟩
    · rintro ⟨a', b', c', ha, hb, hc', hin⟩
      rw [ea] at ha; rw [eb] at hb; rw [ec] at hc'
      cases ha; cases hb; cases hc'
      exact ⟨_, _, _, ea, eb, ec, e2.2 (by simpa using e.symm.trans hin)⟩
  constructor
  · rintro ⟨t, ht, hin⟩
    exact ⟨t, ht, (key t ht).1 hin⟩
  · rintro ⟨t, ht, hin⟩
    exact ⟨t, ht, (key t ht).2 hin⟩

/-- The test of the polygon with its outline is exact. -/
theorem inside_exact (hx : Axes u w) (hc : Crisp m S) (hr : ∀ p ∈ S, Reach m (inPlane o u w p)) {p3 : List (Vec3 ℝ)}
    {tri : List Tri} (hd : Drawn o u w S p3 tri) (hst : Sturdy p3 tri) {v : Vec3 ℝ} {e : ℝ} (hf : Flat p3 tri v e)
    {atol : ℝ} (hat : 0 < atol) {z : ℝ × ℝ} (hz : z ∈ S) :
    ∃ r, Polygon.isPointInside (inPlane o u w z) p3 tri true atol = .ok r ∧
      (r = true ↔ Region p3 tri (inPlane o u w z)) := by
  obtain ⟨r, hr1, hr2⟩ := isPointInside_iff (x := inPlane o u w z) true atol hst
  refine ⟨r, hr1, ?_⟩
  constructor
  · intro h
    exact (region_iff hx hc hr hd hz).2 (hr2.1 h).2.2.1
  · intro h
    have h' := (region_iff hx hc hr hd hz).1 h
    obtain ⟨t, ht, a, b, c, ha, hb, hc', hin⟩ := h
    obtain ⟨t', ht', a', b', c', ha', hb', hc'', hin'⟩ := h'
    obtain ⟨aa, ma, bb, mb, cc, mc, ea, eb, ec, hD⟩ := hd t' ht'
    rw [ea] at ha'; rw [eb] at hb'; rw [ec] at hc''
    cases ha'; cases hb'; cases hc''
    have e0 := isPointInside_inPlane (o := o) hx hc hr ma mb mc hz hD
    have e1 : InTriangle (inPlane o u w aa) (inPlane o u w bb) (inPlane o u w cc) (inPlane o u w z) :=
      (inTriangle_iff hx hD).2 (by simpa using e0.symm.trans hin')
    have := isPointInside_of_triangle hst hf hat ht' ⟨_, _, _, ea, eb, ec, e1, hin'⟩
    rw [hr1] at this
    simpa using this

/-- The test of a segment is exact. -/
theorem onSegment_exact (hx : Axes u w) (hc : Crisp m S) (hr : ∀ p ∈ S, Reach m (inPlane o u w p)) {a b z : ℝ × ℝ}
    (ha : a ∈ S) (hb : b ∈ S) (hz : z ∈ S) (hne : b ≠ a) :
    isPointOnSegment (inPlane o u w z) (inPlane o u w a) (inPlane o u w b) = true ↔
      OnSegment (inPlane o u w a) (inPlane o u w b) (inPlane o u w z) := by
  have hs := hc.scale
  have hm2 : 1 / 10 ^ 6 ≤ m ^ 2 := by norm_num at hs ⊢; nlinarith
  constructor
  · intro h
    by_cases za : z = a
    · exact ⟨0, le_refl _, zero_le_one, by rw [za]; simp⟩
    by_cases zb : z = b
    · exact ⟨1, zero_le_one, le_refl _, by rw [zb, one_smul]; abel⟩
    rcases (Tolerance.C102_segment _ _ _).1 h with h | h | ⟨h1, h2, h3, h4, h5⟩
    · rw [← (Tolerance.C102_points _ _).1, not_equal hx hc hr hz ha za] at h
      cases h
    · rw [← (Tolerance.C102_points _ _).1, not_equal hx hc hr hz hb zb] at h
      cases h
    · rw [cross_inPlane] at h1 h2 h3
      have h0 : signedArea a z b = 0 := by
        rcases hc.sides a ha z hz b hb with k | k
        · exact k
        exfalso
        have hv := norm_cross hx
        have hn : Vec3.normSq (signedArea a z b • Vec3.cross u w) = signedArea a z b ^ 2 := by
          have : Vec3.normSq (Vec3.cross u w) = 1 := by rw [← Vec3.norm_sq, hv]; norm_num
          rw [Vec3.normSq_def] at this ⊢
          simp only [Vec3.smul_x, Vec3.smul_y, Vec3.smul_z]
          linear_combination (signedArea a z b ^ 2) * this
        have hsq : ∀ y : ℝ, |y| ≤ 1 / 10 ^ 13 → y * y ≤ 1 / 10 ^ 26 := by
          intro y hy
          rw [← abs_mul_abs_self]
          calc |y| * |y| ≤ 1 / 10 ^ 13 * (1 / 10 ^ 13) := by gcongr
            _ = _ := by norm_num
        have q1 := hsq _ h1
        have q2 := hsq _ h2
        have q3 := hsq _ h3
        rw [Vec3.normSq_def] at hn
        have q4 : (1 / 10 ^ 6 : ℝ) ^ 2 ≤ signedArea a z b ^ 2 := by
          rw [← sq_abs (signedArea a z b)]
          have : (1 / 10 ^ 6 : ℝ) ≤ |signedArea a z b| := hm2.trans k
          gcongr
        norm_num at q1 q2 q3 q4 hn
        linarith
      have h0' : signedArea a b z = 0 := by
        have : signedArea a b z = -signedArea a z b := by unfold signedArea; ring
        rw [this, h0, neg_zero]
      obtain ⟨k, e1, e2⟩ := on_line (distSq_pos hne) h0'
      have hd1 := hc.far z hz a ha za
      have hd2 := hc.far z hz b hb zb
      have hdab := hc.far b hb a ha hne
      have hdot : Vec3.dot (inPlane o u w z - inPlane o u w a) (inPlane o u w b - inPlane o u w a) = k * distSq b a := by
        have ez : inPlane o u w z - inPlane o u w a = k • (inPlane o u w b - inPlane o u w a) := by
          rw [inPlane_sub, inPlane_sub, e1, e2]
          ext <;> simp <;> ring
        rw [ez, Vec3.dot_smul_left]
        congr 1
        exact normSq_inPlane hx b a
      have hdd : Vec3.dot (inPlane o u w b - inPlane o u w a) (inPlane o u w b - inPlane o u w a) = distSq b a :=
        normSq_inPlane hx b a
      rw [hdot] at h4 h5
      rw [hdd] at h5
      have f1 : distSq z a = k ^ 2 * distSq b a := by
        unfold distSq; rw [e1, e2]; ring
      have f2 : distSq z b = (1 - k) ^ 2 * distSq b a := by
        have g1 : z.1 - b.1 = (k - 1) * (b.1 - a.1) := by linarith
        have g2 : z.2 - b.2 = (k - 1) * (b.2 - a.2) := by linarith
        unfold distSq; rw [g1, g2]; ring
      have big : ∀ y : ℝ, m ^ 2 ≤ y ^ 2 * distSq b a → y < 0 → y * distSq b a ≤ -(1 / 10 ^ 6) := by
        intro y hy hneg
        by_contra hcon
        push Not at hcon
        have p1 : 0 < distSq b a := by linarith
        -- (y·d)² = y²d·d ≥ m²·m²
        have p2 : (1 / 10 ^ 6 : ℝ) ^ 2 ≤ (y * distSq b a) ^ 2 := by
          calc (1 / 10 ^ 6 : ℝ) ^ 2 ≤ (m ^ 2) ^ 2 := by gcongr
            _ = m ^ 2 * m ^ 2 := by ring
            _ ≤ y ^ 2 * distSq b a * distSq b a := by gcongr
            _ = _ := by ring
        have p3 : y * distSq b a < 0 := mul_neg_of_neg_of_pos hneg p1
        norm_num at p2 hcon
        nlinarith
      have k0 : 0 ≤ k := by
        by_contra hk
        have := big k (by rw [← f1]; exact hd1) (not_le.1 hk)
        norm_num at this h4
        linarith
      have k1 : k ≤ 1 := by
        by_contra hk
        have := big (1 - k) (by rw [← f2]; exact hd2) (by linarith)
        norm_num at this h5
        linarith
      exact onSegment_inPlane k0 k1 e1 e2
  · rintro ⟨k, k0, k1, e⟩
    refine (Tolerance.C102_segment _ _ _).2 (.inr (.inr ?_))
    have hd : 0 ≤ Vec3.dot (inPlane o u w b - inPlane o u w a) (inPlane o u w b - inPlane o u w a) := Vec3.normSq_nonneg _
    have e' : inPlane o u w z - inPlane o u w a = k • (inPlane o u w b - inPlane o u w a) := by rw [e]; abel
    have hz0 : Vec3.cross (inPlane o u w z - inPlane o u w a) (inPlane o u w b - inPlane o u w a) = 0 := by
      rw [e']; ext <;> simp <;> ring
    rw [hz0, e', Vec3.dot_smul_left]
    refine ⟨by norm_num, by norm_num, by norm_num, ?_, ?_⟩
    · have : 0 ≤ k * Vec3.dot (inPlane o u w b - inPlane o u w a) (inPlane o u w b - inPlane o u w a) := mul_nonneg k0 hd
      norm_num
      linarith
    · have : k * Vec3.dot (inPlane o u w b - inPlane o u w a) (inPlane o u w b - inPlane o u w a) ≤
          1 * Vec3.dot (inPlane o u w b - inPlane o u w a) (inPlane o u w b - inPlane o u w a) :=
        mul_le_mul_of_nonneg_right k1 hd
      norm_num
      linarith

theorem cycEdges_mem {α : Type} {L : List α} {e : α × α} (he : e ∈ cycEdges L) : e.1 ∈ L ∧ e.2 ∈ L := by
  cases L with
  | nil => simp [cycEdges] at he
  | cons a t =>
    obtain ⟨h1, h2⟩ := List.of_mem_zip (show (e.1, e.2) ∈ List.zip (a :: t) (t ++ [a]) from he)
    refine ⟨h1, ?_⟩
    rw [List.mem_append, List.mem_singleton] at h2
    rw [List.mem_cons]
    exact h2.symm

/-- The edges of the polygon are edges of the drawing. -/
theorem edges_in (h : polygonNew (pts.map (inPlane o u w)) none vn = .ok P) {e : Vec3 ℝ × Vec3 ℝ}
    (he : e ∈ cycEdges P.pts) : ∃ a ∈ pts, ∃ b ∈ pts, e = (inPlane o u w a, inPlane o u w b) ∧ b ≠ a := by
  obtain ⟨hn, v, hv', -, htr, -⟩ := polygonNew_ok h
  obtain ⟨h1, -⟩ := C20_triangulate_valid _ _ _ _ _ _ _ hn htr
  have hp : P.pts = pts.map (inPlane o u w) ∨ P.pts = pts.reverse.map (inPlane o u w) := by
    rcases h1 with e | e
    · exact .inl e
    · exact .inr (by rw [e, List.map_reverse])
  have hne := polygonNew_edges_ne h he
  have key : ∀ L : List (ℝ × ℝ), (∀ p ∈ L, p ∈ pts) → P.pts = L.map (inPlane o u w) →
      ∃ a ∈ pts, ∃ b ∈ pts, e = (inPlane o u w a, inPlane o u w b) ∧ b ≠ a := by
    intro L hL hP
    rw [hP, Solids.cycEdges_map] at he
    obtain ⟨⟨a, b⟩, hab, rfl⟩ := List.mem_map.1 he
    refine ⟨a, hL a (cycEdges_mem hab).1, b, hL b (cycEdges_mem hab).2, rfl, ?_⟩
    rintro rfl
    exact hne rfl
  rcases hp with e | e
  · exact key pts (fun p hp => hp) e
  · exact key pts.reverse (fun p hp => List.mem_reverse.1 hp) e

/-- The test of the outline is exact. -/
theorem atBoundary_exact (hx : Axes u w) (hc : Crisp m S) (hr : ∀ p ∈ S, Reach m (inPlane o u w p)) (hS : ∀ p ∈ pts, p ∈ S)
    (h : polygonNew (pts.map (inPlane o u w)) none vn = .ok P) {z : ℝ × ℝ} (hz : z ∈ S) :
    ∃ r, isPointAtBoundary (inPlane o u w z) P.pts = .ok r ∧ (r = true ↔ OnOutline P.pts (inPlane o u w z)) := by
  refine ⟨_, atBoundary_eq (polygonNew_sturdy h).1 _ _, ?_⟩
  rw [boundaryLoop_iff]
  constructor
  · rintro ⟨e, he, hs⟩
    obtain ⟨a, ma, b, mb, rfl, hne⟩ := edges_in h he
    exact ⟨_, he, (onSegment_exact hx hc hr (hS a ma) (hS b mb) hz hne).1 hs⟩
  · rintro ⟨e, he, hs⟩
    obtain ⟨a, ma, b, mb, rfl, hne⟩ := edges_in h he
    exact ⟨_, he, (onSegment_exact hx hc hr (hS a ma) (hS b mb) hz hne).2 hs⟩

/-- With and without the outline. -/
theorem inside_both (hx : Axes u w) (hc : Crisp m S) (hr : ∀ p ∈ S, Reach m (inPlane o u w p)) (hS : ∀ p ∈ pts, p ∈ S)
    (h : polygonNew (pts.map (inPlane o u w)) none vn = .ok P) (hv : P.vn = some (Vec3.cross u w)) {z : ℝ × ℝ}
    (hz : z ∈ S) (b : Bool) :
    ∃ r, Polygon.isPointInside (inPlane o u w z) P.pts P.tri b = .ok r ∧
      (r = true ↔ Region P.pts P.tri (inPlane o u w z) ∧ (b = false → ¬ OnOutline P.pts (inPlane o u w z))) := by
  have hd := drawn hx hc hS h hv
  have hst := polygonNew_sturdy h
  have hf := polygonNew_flat h hv (plane_of h)
  obtain ⟨r0, h0, k0⟩ := inside_exact hx hc hr hd hst hf Points.GEOM_ATOL_pos hz
  obtain ⟨r1, h1, k1⟩ := isPointInside_iff (x := inPlane o u w z) true GEOM_ATOL hst
  obtain ⟨r, h2, k2⟩ := isPointInside_iff (x := inPlane o u w z) b GEOM_ATOL hst
  obtain ⟨rb, hb, kb⟩ := atBoundary_exact hx hc hr hS h hz
  refine ⟨r, h2, ?_⟩
  rw [h0] at h1
  cases h1
  rw [k2, ← k0, k1]
  have hb' : isPointAtBoundary (inPlane o u w z) P.pts GEOM_ATOL = .ok false ↔ ¬ OnOutline P.pts (inPlane o u w z) := by
    rw [hb, ← kb]; simp
  rw [hb']
  constructor
  · rintro ⟨a1, a2, a3, a4⟩
    exact ⟨⟨a1, a2, a3, fun hh => by simp at hh⟩, a4⟩
  · rintro ⟨⟨a1, a2, a3, -⟩, a4⟩
    exact ⟨a1, a2, a3, a4⟩

theorem inPlane_moved (o n : Vec3 ℝ) (k : ℝ) (p : ℝ × ℝ) : inPlane (o + k • n) u w p = inPlane o u w p + k • n := by
  unfold inPlane; abel

theorem drawn_moved {p3 : List (Vec3 ℝ)} {tri : List Tri} (hd : Drawn o u w S p3 tri) (n : Vec3 ℝ) (k : ℝ) :
    Drawn (o + k • n) u w S (p3.map fun p => p + k • n) tri := by
  intro t ht
  obtain ⟨a, ma, b, mb, c, mc, ea, eb, ec, hD⟩ := hd t ht
  refine ⟨a, ma, b, mb, c, mc, ?_, ?_, ?_, hD⟩
  · rw [List.getElem?_map, ea, inPlane_moved]; rfl
  · rw [List.getElem?_map, eb, inPlane_moved]; rfl
  · rw [List.getElem?_map, ec, inPlane_moved]; rfl

theorem region_moved_iff {p3 : List (Vec3 ℝ)} {tri : List Tri} {y k : Vec3 ℝ} :
    Region (p3.map fun p => p + k) tri (y + k) ↔ Region p3 tri y := by
  constructor
  · intro h
    have := region_moved h
    rwa [add_sub_cancel_right] at this
  · rintro ⟨t, ht, a, b, c, ha, hb, hc, r, s, q, h1, h2, h3, h4, rfl⟩
    refine ⟨t, ht, a + k, b + k, c + k, ?_, ?_, ?_, r, s, q, h1, h2, h3, h4, ?_⟩
    · rw [List.getElem?_map, ha]; rfl
    · rw [List.getElem?_map, hb]; rfl
    · rw [List.getElem?_map, hc]; rfl
    · obtain rfl : r = 1 - s - q := by linarith
      ext <;> simp <;> ring

/-- The distance is the smallest one. -/
theorem distance_exact (hx : Axes u w) (hc : Crisp m S) (hS : ∀ p ∈ pts, p ∈ S)
    (h : polygonNew (pts.map (inPlane o u w)) none vn = .ok P) (hv : P.vn = some (Vec3.cross u w)) {z : ℝ × ℝ}
    (hz : z ∈ S) {n : Vec3 ℝ} (hw : CornerNormal P.pts n) {k : ℝ}
    (hr : ∀ p ∈ S, Reach m (inPlane o u w p + k • n)) :
    ∃ y, Region P.pts P.tri y ∧
      distancePointToPolygon (inPlane o u w z + k • n) P.pts P.tri n = .ok (some (Vec3.norm (inPlane o u w z + k • n - y))) ∧
      ∀ y', Region P.pts P.tri y' → Vec3.norm (inPlane o u w z + k • n - y) ≤ Vec3.norm (inPlane o u w z + k • n - y') := by
  have hst := polygonNew_sturdy h
  have hf := polygonNew_flat h hv (plane_of h)
  have hz' : Vec3.dot (Vec3.cross u w) (inPlane o u w z) = Vec3.dot (Vec3.cross u w) o :=
    plane_inPlane o [z] _ (by simp)
  have hort := isPointInsideOrtho_eq hf hw rfl hz' (k := k)
  obtain ⟨b, hb, kb⟩ := inside_exact hx hc (o := o + k • n) (fun p hp => by rw [inPlane_moved]; exact hr p hp)
    (drawn_moved (drawn hx hc hS h hv) n k) (sturdy_moved (k • n) hst) (flat_moved (k • n) hf) Points.GEOM_ATOL_pos hz
  rw [inPlane_moved] at hb kb
  rw [region_moved_iff] at kb
  rw [hb] at hort
  obtain ⟨M, hM⟩ := exists_bound P.pts
  obtain ⟨r, h1, -, -, -, ⟨h2, -⟩, -⟩ := distance_spec h hv (plane_of h) hw hM (k := k) rfl hz'
  obtain ⟨a0, ho, hpc⟩ := planeCoefficients_eq hw
  have e1 := plane_of_corner hf hw hz' (hf.plane a0 ho)
  have e2 : Vec3.dot n n = 1 := by
    rw [show Vec3.dot n n = Vec3.normSq n from rfl, ← Vec3.norm_sq, hw.1]; norm_num
  have hdist : (Vec3.dot n (inPlane o u w z + k • n) + -Vec3.dot n a0) / Vec3.norm n = k := by
    rw [hw.1, Vec3.dot_add_right, Vec3.dot_smul_right, e1, e2]
    ring
  cases b with
  | true =>
    have hreg := kb.1 rfl
    have en : Vec3.norm (inPlane o u w z + k • n - inPlane o u w z) = |k| := by
      have e3 : inPlane o u w z + k • n - inPlane o u w z = k • n := by abel
      rw [e3, Vec3.norm_smul, hw.1, mul_one]
    refine ⟨_, hreg, ?_, by rw [en]; exact h2⟩
    rw [en]
    unfold distancePointToPolygon
    rw [hpc]
    simp only [hdist]
    rw [hort]
  | false =>
    have hreg : ¬ Region P.pts P.tri (inPlane o u w z) := fun hreg => by simpa using kb.2 hreg
    obtain ⟨r', hr', r1, y, hy, hry⟩ := edgeMin_outline (x := inPlane o u w z + k • n) hst.1
      fun e he => polygonNew_edges_ne h he
    obtain ⟨r'', hr'', hmin⟩ := C72_distance_minimal_partial h hv (plane_of h) hw (k := k) rfl hz'
      (fun hh => absurd hh hreg)
    have hd : distancePointToPolygon (inPlane o u w z + k • n) P.pts P.tri n = .ok (some r') := by
      unfold distancePointToPolygon
      rw [hpc]
      simp only [hdist]
      rw [hort, polygonEdges_eq 0 _ hst.1]
      exact hr'
    rw [hd] at hr''
    simp only [Except.ok.injEq, Option.some.injEq] at hr''
    subst hr''
    rw [hry] at hd hmin
    exact ⟨y, polygonNew_outline_region h hy, hd, hmin⟩

/-! ### Convex outlines -/

theorem drop_sign {f : Nat → ℝ} : ∀ {n : Nat}, 0 ≤ f 0 → f n ≤ 0 → 0 < n → ∃ i, i < n ∧ 0 ≤ f i ∧ f (i + 1) ≤ 0
  | 1, h0, h1, _ => ⟨0, by omega, h0, h1⟩
  | n + 2, h0, h1, _ => by
    by_cases h : 0 ≤ f (n + 1)
    · exact ⟨n + 1, by omega, h, h1⟩
    · obtain ⟨i, hi, k⟩ := drop_sign (n := n + 1) h0 (not_le.1 h).le (by omega)
      exact ⟨i, by omega, k⟩

theorem area_swap (a b c : ℝ × ℝ) : signedArea b a c = -signedArea a b c := by unfold signedArea; ring

/-- The triangles of a convex polygon cover the points to the left of all sides. -/
theorem region_convex (hx : Axes u w) (hn : 3 ≤ pts.length) (hp : Pos pts) {p3 : List (Vec3 ℝ)} {tri : List Tri}
    (h3 : p3 = pts.map (inPlane o u w))
    (ht : tri = (List.range (pts.length - 2)).map fun i => (pts.length - 1, i, i + 1)) (z : ℝ × ℝ) :
    Region p3 tri (inPlane o u w z) ↔ ∀ i a b, Side pts i a b → 0 ≤ signedArea a b z := by
  have hget : ∀ i, i < pts.length → pts[i]? = some (pts.getD i 0) := by
    intro i hi
    rw [List.getD_eq_getElem?_getD, List.getElem?_eq_getElem hi]; rfl
  have hget3 : ∀ i, i < pts.length → p3[i]? = some (inPlane o u w (pts.getD i 0)) := by
    intro i hi
    rw [h3, List.getElem?_map, hget i hi]; rfl
  have hD : ∀ i, i + 2 < pts.length → 0 < signedArea (pts.getD (pts.length - 1) 0) (pts.getD i 0) (pts.getD (i + 1) 0) := by
    intro i hi
    rw [area_left]
    exact hp _ _ _ (ConvexEars.sublist3 (by omega) (by omega) (hget i (by omega)) (hget (i + 1) (by omega)) (hget _ (by omega)))
  constructor
  · rintro ⟨t, htt, a, b, c, ha, hb, hc, hin⟩ i a' b' hs
    rw [ht, List.mem_map] at htt
    obtain ⟨j, hj, rfl⟩ := htt
    rw [List.mem_range] at hj
    rw [show p3[(pts.length - 1, j, j + 1).1]? = _ from hget3 (pts.length - 1) (by omega)] at ha
    rw [show p3[(pts.length - 1, j, j + 1).2.1]? = _ from hget3 j (by omega)] at hb
    rw [show p3[(pts.length - 1, j, j + 1).2.2]? = _ from hget3 (j + 1) (by omega)] at hc
    cases ha; cases hb; cases hc
    obtain ⟨r, s, q, h1, h2, h3', h4, he⟩ := hin
    rw [comb_inPlane _ _ _ h4] at he
    obtain rfl := inPlane_injective hx he
    have s1 := (hp.side hs (hget (pts.length - 1) (by omega))).1
    have s2 := (hp.side hs (hget j (by omega))).1
    have s3 := (hp.side hs (hget (j + 1) (by omega))).1
    revert s1 s2 s3
    generalize pts.getD (pts.length - 1) 0 = A
    generalize pts.getD j 0 = B
    generalize pts.getD (j + 1) 0 = C
    intro s1 s2 s3
    obtain rfl : r = 1 - s - q := by linarith
    have e : signedArea a' b' ((1 - s - q) * A.1 + s * B.1 + q * C.1, (1 - s - q) * A.2 + s * B.2 + q * C.2) =
        (1 - s - q) * signedArea a' b' A + s * signedArea a' b' B + q * signedArea a' b' C := by
      unfold signedArea; ring
    rw [e]
    positivity
  · intro h
    have hside : ∀ i, i + 1 < pts.length → 0 ≤ signedArea (pts.getD i 0) (pts.getD (i + 1) 0) z := by
      intro i hi
      exact h i _ _ ⟨hget i (by omega), by rw [Nat.mod_eq_of_lt hi]; exact hget _ hi⟩
    have hlast : 0 ≤ signedArea (pts.getD (pts.length - 1) 0) (pts.getD 0 0) z := by
      refine h (pts.length - 1) _ _ ⟨hget _ (by omega), ?_⟩
      rw [show pts.length - 1 + 1 = pts.length by omega, Nat.mod_self]
      exact hget _ (by omega)
    obtain ⟨i, hi, k1, k2⟩ := drop_sign (f := fun i => signedArea (pts.getD (pts.length - 1) 0) (pts.getD i 0) z)
      (n := pts.length - 2) hlast (by
        have := hside (pts.length - 2) (by omega)
        rw [show pts.length - 2 + 1 = pts.length - 1 by omega] at this
        show signedArea _ _ _ ≤ 0
        rw [area_swap]
        linarith) (by omega)
    refine ⟨(pts.length - 1, i, i + 1), ?_, _, _, _, hget3 (pts.length - 1) (by omega), hget3 i (by omega), hget3 (i + 1) (by omega), ?_⟩
    · rw [ht]
      exact List.mem_map.2 ⟨i, List.mem_range.2 hi, rfl⟩
    · refine (inTriangle_iff hx (hD i (by omega))).2 ⟨k1, hside i (by omega), ?_⟩
      rw [area_swap]
      exact neg_nonneg.2 k2

theorem onOutline_iff (hx : Axes u w) (z : ℝ × ℝ) :
    OnOutline (pts.map (inPlane o u w)) (inPlane o u w z) ↔ AtOutline pts z := by
  constructor
  · rintro ⟨e, he, k, k0, k1, hk⟩
    rw [Solids.cycEdges_map, List.mem_map] at he
    obtain ⟨⟨a, b⟩, hab, rfl⟩ := he
    obtain ⟨i, hi⟩ := List.getElem?_of_mem hab
    have hl : i < pts.length := by
      have := (List.getElem?_eq_some_iff.1 hi).1
      rwa [show (cycEdges pts).length = pts.length by cases pts <;> simp [cycEdges]] at this
    rw [cycEdges_getElem? _ _ hl, Option.some.injEq, Prod.mk.injEq] at hi
    refine ⟨i, a, b, k, ⟨?_, ?_⟩, k0, k1, ?_⟩
    · rw [List.getElem?_eq_getElem hl, hi.1]
    · rw [List.getElem?_eq_getElem (Nat.mod_lt _ (by omega)), hi.2]
    · apply inPlane_injective (o := o) hx
      rw [hk]
      unfold inPlane lerp
      ext <;> simp <;> ring
  · rintro ⟨i, a, b, k, hs, k0, k1, rfl⟩
    have hl := side_lt hs
    refine ⟨(inPlane o u w a, inPlane o u w b), ?_, k, k0, k1, ?_⟩
    · rw [Solids.cycEdges_map, List.mem_map]
      refine ⟨(a, b), ?_, rfl⟩
      apply List.mem_of_getElem? (i := i)
      rw [cycEdges_getElem? _ _ hl, Option.some.injEq, Prod.mk.injEq]
      obtain ⟨h1, h2⟩ := hs
      rw [List.getElem?_eq_getElem hl] at h1
      rw [List.getElem?_eq_getElem (Nat.mod_lt _ (by omega))] at h2
      simpa using And.intro h1 h2
    · unfold inPlane lerp
      ext <;> simp <;> ring

/-- A point to the left of all sides is on the outline exactly if it is on the line of a side. -/
theorem atOutline_iff (hn : 3 ≤ pts.length) (hp : Pos pts) {z : ℝ × ℝ} (hz : ∀ i a b, Side pts i a b → 0 ≤ signedArea a b z) :
    AtOutline pts z ↔ ∃ i a b, Side pts i a b ∧ signedArea a b z = 0 := by
  constructor
  · exact side_through
  · rintro ⟨i, a, b, hs, h0⟩
    have hl := side_lt hs
    obtain ⟨k, rfl⟩ := on_side_line (side_ne hn hp hs) h0
    refine ⟨i, a, b, k, hs, ?_, ?_, rfl⟩
    · -- the side before
      obtain ⟨j, hj, hj1⟩ : ∃ j, j < pts.length ∧ (j + 1) % pts.length = i := by
        rcases Nat.eq_zero_or_pos i with rfl | h
        · exact ⟨pts.length - 1, by omega, by rw [show pts.length - 1 + 1 = pts.length by omega, Nat.mod_self]⟩
        · exact ⟨i - 1, by omega, by rw [show i - 1 + 1 = i by omega, Nat.mod_eq_of_lt hl]⟩
      obtain ⟨c, d, hcd⟩ := side_exists hj
      have hd : d = a := by
        have := hcd.2
        rw [hj1, hs.1] at this
        cases this; rfl
      subst hd
      have := hz _ _ _ hcd
      rw [area_between, (area_same d c).2.1, mul_zero, zero_add] at this
      have hpos : 0 < signedArea c d b := by
        have := (hp.side hcd hs.2).2
        apply this
        · have := Nat.mod_lt (i + 1) (show 0 < pts.length by omega)
          by_cases hh : i + 1 < pts.length
          · rw [Nat.mod_eq_of_lt hh]
            by_cases hjj : j + 1 < pts.length
            · rw [Nat.mod_eq_of_lt hjj] at hj1; omega
            · rw [show j + 1 = pts.length by omega, Nat.mod_self] at hj1; omega
          · rw [show i + 1 = pts.length by omega, Nat.mod_self]
            rw [Nat.mod_eq_of_lt (by by_contra hc; rw [show j + 1 = pts.length by omega, Nat.mod_self] at hj1; omega)] at hj1
            omega
        · rw [hj1]
          by_cases hh : i + 1 < pts.length
          · rw [Nat.mod_eq_of_lt hh]; omega
          · rw [show i + 1 = pts.length by omega, Nat.mod_self]; omega
      exact nonneg_of_mul_nonneg_left this hpos
    · -- the side after
      obtain ⟨c, d, hcd⟩ := side_exists (Nat.mod_lt (i + 1) (show 0 < pts.length by omega))
      have hc : c = b := by
        have := hcd.1
        rw [hs.2] at this
        cases this; rfl
      subst hc
      have := hz _ _ _ hcd
      rw [area_between, (area_same c d).1, mul_zero, add_zero] at this
      have hpos : 0 < signedArea c d a := by
        have := (hp.side hcd hs.1).2
        apply this
        · by_cases hh : i + 1 < pts.length
          · rw [Nat.mod_eq_of_lt hh]; omega
          · rw [show i + 1 = pts.length by omega, Nat.mod_self]; omega
        · by_cases hh : i + 1 < pts.length
          · rw [Nat.mod_eq_of_lt hh]
            by_cases h2 : i + 1 + 1 < pts.length
            · rw [Nat.mod_eq_of_lt h2]; omega
            · rw [show i + 1 + 1 = pts.length by omega, Nat.mod_self]; omega
          · rw [show i + 1 = pts.length by omega, Nat.mod_self, Nat.mod_eq_of_lt (by omega)]; omega
      have := nonneg_of_mul_nonneg_left this hpos
      linarith

theorem strict_iff (hn : 3 ≤ pts.length) (hp : Pos pts) {z : ℝ × ℝ} :
    ((∀ i a b, Side pts i a b → 0 ≤ signedArea a b z) ∧ ¬ AtOutline pts z) ↔
      ∀ i a b, Side pts i a b → 0 < signedArea a b z := by
  constructor
  · rintro ⟨h1, h2⟩ i a b hs
    rw [atOutline_iff hn hp h1] at h2
    exact lt_of_le_of_ne (h1 i a b hs) fun he => h2 ⟨i, a, b, hs, he.symm⟩
  · intro h
    refine ⟨fun i a b hs => (h i a b hs).le, fun ho => ?_⟩
    obtain ⟨i, a, b, hs, h0⟩ := side_through ho
    exact absurd h0 (h i a b hs).ne'

theorem side_of_cycEdges {a b : ℝ × ℝ} (h : (a, b) ∈ cycEdges pts) : ∃ i, Side pts i a b := by
  obtain ⟨i, hi⟩ := List.getElem?_of_mem h
  have hl : i < pts.length := by
    have := (List.getElem?_eq_some_iff.1 hi).1
    rwa [show (cycEdges pts).length = pts.length by cases pts <;> simp [cycEdges]] at this
  rw [cycEdges_getElem? _ _ hl, Option.some.injEq, Prod.mk.injEq] at hi
  refine ⟨i, ?_, ?_⟩
  · rw [List.getElem?_eq_getElem hl, hi.1]
  · rw [List.getElem?_eq_getElem (Nat.mod_lt _ (by omega)), hi.2]

theorem cycEdges_of_side {i : Nat} {a b : ℝ × ℝ} (hs : Side pts i a b) : (a, b) ∈ cycEdges pts := by
  have hl := side_lt hs
  apply List.mem_of_getElem? (i := i)
  rw [cycEdges_getElem? _ _ hl, Option.some.injEq, Prod.mk.injEq]
  obtain ⟨h1, h2⟩ := hs
  rw [List.getElem?_eq_getElem hl] at h1
  rw [List.getElem?_eq_getElem (Nat.mod_lt _ (by omega))] at h2
  simpa using And.intro h1 h2

end B3d.PointExact
