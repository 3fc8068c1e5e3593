import Verif.Proofs.ConvexEars

/-! # Ear clipping of outlines which are seen from their last corner -/

namespace B3d.ConvexEars

open Spec Triangles Points Polygon

open List (Sublist)

theorem out_of_beyond {g : Vec3 ℝ → ℝ} {c n t : Vec3 ℝ} {k : ℝ} (hk : 0 ≤ k) (e : g t - g n = k * (g n - g c))
    (h : 1 / 10 ^ 7 ≤ |g t - g n|) :
    npRound (g t) > max (npRound (g c)) (npRound (g n)) + GEOM_ATOL ∨
      npRound (g t) < min (npRound (g c)) (npRound (g n)) - GEOM_ATOL := by
  have at' := abs_le.1 (npRound_close (g t))
  have an := abs_le.1 (npRound_close (g n))
  have hg : (GEOM_ATOL : ℝ) < 1 / 10 ^ 8 := by norm_num [GEOM_ATOL]
  rcases le_abs.1 h with h | h
  · left
    have hcn : g c ≤ g n := by
      by_contra hc
      have : k * (g n - g c) ≤ 0 := mul_nonpos_of_nonneg_of_nonpos hk (by linarith)
      norm_num at h
      linarith
    rw [max_eq_right (npRound_mono hcn)]
    norm_num at *
    linarith
  · right
    have hcn : g n ≤ g c := by
      by_contra hc
      have : 0 ≤ k * (g n - g c) := mul_nonneg hk (by linarith)
      norm_num at h
      linarith
    rw [min_eq_right (npRound_mono hcn)]
    norm_num at *
    linarith

/-- A point beyond the end of a side is not found on it. -/
theorem edgeTest_beyond {c n t : Vec3 ℝ} (h : Beyond c n t) : edgeTest t c n GEOM_ATOL ≠ some true := by
  obtain ⟨k, hk, e, hd⟩ := h
  have ex := congrArg Vec3.x e
  have ey := congrArg Vec3.y e
  have ez := congrArg Vec3.z e
  simp only [Vec3.sub_x, Vec3.sub_y, Vec3.sub_z, Vec3.smul_x, Vec3.smul_y, Vec3.smul_z] at ex ey ez
  unfold edgeTest
  split
  · simp only [ne_eq, Option.some.injEq, decide_eq_true_eq, not_not]
    rcases hd with hd | hd | hd
    · exact .inl (out_of_beyond (g := (·.x)) hk ex hd)
    · exact .inr (.inl (out_of_beyond (g := (·.y)) hk ey hd))
    · exact .inr (.inr (out_of_beyond (g := (·.z)) hk ez hd))
  · simp

/-- A corner on the other side of the cut is not in the ear. -/
theorem ear_clear_star {v p c n t : Vec3 ℝ} (hv : Vec3.norm v = 1) (h1 : Thick v c n t ∨ Thick v n c t ∨ Beyond c n t)
    (h2 : Thick v c n p) (h3 : Thick v c t p) (h4 : Thick v n t p) (ap : Apart t p) (ac : Apart t c) (an : Apart t n)
    (cp : Apart c p) (nc : Apart n c) (pn : Apart p n) :
    Triangles.isPointInside t p c n = .ok false := by
  have hlen : ¬ Vec3.norm (Vec3.cross (c - p) (n - c)) < GEOM_ATOL := by
    obtain ⟨D, d1, d2, -⟩ := h2.rot.rot
    have e : Vec3.cross (c - p) (n - c) = D • v := by rw [← d2]; ext <;> simp <;> ring
    rw [e, (unit_smul hv (lt_of_lt_of_le (by norm_num) d1)).1]
    have hg : (GEOM_ATOL : ℝ) < 1 / 10 ^ 7 := by norm_num [GEOM_ATOL]
    linarith
  obtain ⟨r, hr⟩ := isPointInside_ok_of_len hlen t
  rw [hr]
  cases r with
  | false => rfl
  | true =>
    exfalso
    have col : ∀ a b : Vec3 ℝ, arePointsCollinear [a, b, t] = .ok false → edgeTest t a b GEOM_ATOL ≠ some true := by
      intro a b h
      unfold edgeTest
      rw [h]
      simp
    have e1 := col p c (h3.rot.rot.not_collinear hv (Apart.norm_pos cp) (Apart.norm_pos ap))
    have e2 : edgeTest t c n GEOM_ATOL ≠ some true := by
      rcases h1 with h | h | h
      · exact col c n (h.not_collinear hv (Apart.norm_pos nc) (Apart.norm_pos ac))
      · exact col c n (h.rot.not_collinear' hv (Apart.norm_pos ac) (Apart.norm_pos nc))
      · exact edgeTest_beyond h
    have e3 := col n p (h4.not_collinear' hv (Apart.norm_pos an) (Apart.norm_pos pn))
    rcases inside_cases hr with h | h | ⟨-, -, h⟩
    · rw [Apart.symm_ne ap, Apart.symm_ne ac, Apart.symm_ne an] at h
      simp at h
    · rcases h with h | h | h
      · exact e1 h
      · exact e2 h
      · exact e3 h
    · unfold isPointOnSameSide at h
      obtain ⟨D1, d1, d2, -⟩ := h4
      obtain ⟨D2, g1, g2, -⟩ := h2.rot
      have f1 : Vec3.cross (p - n) (t - n) = D1 • (-v) := by
        have : Vec3.cross (p - n) (t - n) = -(Vec3.cross (t - n) (p - n)) := by
          ext <;> simp <;> ring
        rw [this, d2]; ext <;> simp
      have hv' : Vec3.norm (-v) = 1 := by rw [Vec3.norm_neg, hv]
      obtain ⟨u1, u2⟩ := unit_smul hv' (lt_of_lt_of_le (by norm_num) d1 : 0 < D1)
      obtain ⟨w1, w2⟩ := unit_smul hv (lt_of_lt_of_le (by norm_num) g1 : 0 < D2)
      rw [u1] at u2
      rw [w1] at w2
      simp only [f1, g2, u1, w1, u2, w2] at h
      have hg : (GEOM_ATOL : ℝ) < 1 / 10 ^ 7 := by norm_num [GEOM_ATOL]
      rw [if_neg (by linarith), if_neg (by linarith)] at h
      simp only [Except.ok.injEq, decide_eq_true_eq] at h
      exact not_allClose_neg (normSq_eq_one hv) h

/-- Two corners and the last one. -/
theorem star_seen {v : Vec3 ℝ} {pts : List (Vec3 ℝ)} (h : StarOutline v pts) {i j : Nat} {a b l : Vec3 ℝ} (hij : i < j)
    (hj : j + 1 < pts.length) (ha : pts[i]? = some a) (hb : pts[j]? = some b) (hl : pts[pts.length - 1]? = some l) :
    Thick v l a b := by
  refine h.seen a b l (sublist2 hij ?_ ?_) (by rw [List.getLast?_eq_getElem?, hl])
  · rw [List.getElem?_dropLast, if_pos (by omega), ha]
  · rw [List.getElem?_dropLast, if_pos (by omega), hb]

theorem star_flat {v : Vec3 ℝ} {pts : List (Vec3 ℝ)} (h : StarOutline v pts) : ∃ d, ∀ p ∈ pts, Vec3.dot v p = d := by
  have hn := h.corners
  obtain ⟨l, hl⟩ : ∃ p, pts[pts.length - 1]? = some p := ⟨_, List.getElem?_eq_getElem (by omega)⟩
  obtain ⟨p0, h0⟩ : ∃ p, pts[0]? = some p := ⟨_, List.getElem?_eq_getElem (by omega)⟩
  obtain ⟨p1, h1⟩ : ∃ p, pts[1]? = some p := ⟨_, List.getElem?_eq_getElem (by omega)⟩
  refine ⟨Vec3.dot v l, fun p hp => ?_⟩
  obtain ⟨i, hi⟩ := List.mem_iff_getElem?.1 hp
  have hil := (List.getElem?_eq_some_iff.1 hi).1
  by_cases hlast : i = pts.length - 1
  · rw [hlast, hl, Option.some.injEq] at hi
    rw [hi]
  by_cases h00 : i = 0
  · rw [h00] at hi
    exact (star_seen h (by omega) (by omega) hi h1 hl).flat.1.symm
  · exact (star_seen h (i := 0) (j := i) (by omega) (by omega) h0 hi hl).flat.2.symm

theorem star_triangulate {v : Vec3 ℝ} {pts : List (Vec3 ℝ)} (h : StarOutline v pts) :
    triangulate (2 * pts.length + 2) pts v =
      some (.ok (pts, (List.range (pts.length - 2)).map fun i => (pts.length - 1, i, i + 1))) := by
  have hn := h.corners
  have hget : ∀ i, i < pts.length → pts[i]? = some (pts.getD i 0) := by
    intro i hi
    rw [List.getD_eq_getElem?_getD, List.getElem?_eq_getElem hi]
    rfl
  unfold triangulate
  rw [decide_eq_false (by
    rw [h.unit]; norm_num [isClose, NP_ATOL])]
  refine triangulate_fan rfl hget hn ?_ ?_
  · intro i hi
    exact (star_seen h (i := i) (j := i + 1) (by omega) (by omega) (hget _ (by omega)) (hget _ (by omega))
      (hget _ (by omega))).convex h.unit
  · intro i t hit ht
    have g1 := hget i (by omega)
    have g2 := hget (i + 1) (by omega)
    have g3 := hget t (by omega)
    have g4 := hget (pts.length - 1) (by omega)
    exact ear_clear_star h.unit (h.lines i t _ _ _ hit ht g1 g2 g3)
      (star_seen h (by omega) (by omega) g1 g2 g4).rot
      (star_seen h (by omega) (by omega) g1 g3 g4).rot
      (star_seen h (by omega) (by omega) g2 g3 g4).rot
      (h.apart _ _ (sublist2 (by omega) g3 g4)).1
      (h.apart _ _ (sublist2 (by omega) g1 g3)).2
      (h.apart _ _ (sublist2 (by omega) g2 g3)).2
      (h.apart _ _ (sublist2 (by omega) g1 g4)).1
      (h.apart _ _ (sublist2 (by omega) g1 g2)).2
      (h.apart _ _ (sublist2 (by omega) g2 g4)).2

theorem star_coplanar {v : Vec3 ℝ} {pts : List (Vec3 ℝ)} (h : StarOutline v pts) : arePointsCoplanar pts = true := by
  obtain ⟨d, hd⟩ := star_flat h
  refine Points.C36_coplanar_complete _ v d _ ?_ Points.GEOM_ATOL_pos hd
  rintro rfl
  have := h.unit
  rw [Vec3.norm_eq_zero.2 rfl] at this
  norm_num at this

theorem star_normal {v : Vec3 ℝ} {pts : List (Vec3 ℝ)} (h : StarOutline v pts) : chooseNormal pts none = .ok (some v) := by
  have hn := h.corners
  obtain ⟨p0, h0⟩ : ∃ p, pts[0]? = some p := ⟨_, List.getElem?_eq_getElem (by omega)⟩
  obtain ⟨p1, h1⟩ : ∃ p, pts[1]? = some p := ⟨_, List.getElem?_eq_getElem (by omega)⟩
  obtain ⟨pl, hl⟩ : ∃ p, pts[pts.length - 1]? = some p := ⟨_, List.getElem?_eq_getElem (by omega)⟩
  unfold chooseNormal
  rw [List.getLast?_eq_getElem?, hl, h0, h1]
  simp only [Except.ok.injEq]
  exact (star_seen h (by omega) (by omega) h0 h1 hl).normal h.unit

/-- A convex outline is seen from its last corner. -/
theorem star_of_convex {v : Vec3 ℝ} {pts : List (Vec3 ℝ)} (h : ConvexOutline v pts) : StarOutline v pts := by
  refine ⟨h.unit, h.corners, h.apart, ?_, ?_⟩
  · intro a b l hs hl
    have hne : pts ≠ [] := by rintro rfl; cases hl
    have e : pts.dropLast ++ [l] = pts := by
      rw [List.getLast?_eq_some_getLast hne, Option.some.injEq] at hl
      rw [← hl]
      exact List.dropLast_append_getLast hne
    have : Sublist [a, b, l] pts := by
      rw [← e]
      exact hs.append (List.Sublist.refl [l])
    exact (h.turns _ _ _ this).rot.rot
  · intro i j a b t hij _ ha hb ht
    exact .inl (h.turns _ _ _ (sublist3 (by omega) hij ha hb ht))

end B3d.ConvexEars
