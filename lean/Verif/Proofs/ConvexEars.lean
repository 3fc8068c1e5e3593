import Verif.Spec.Simple
import Verif.Proofs.InTriangle
import Verif.Props.PointInPolygonCases
import Verif.Proofs.Tactics

/-! # Ear clipping of convex polygons -/

namespace B3d.ConvexEars

open Spec Triangles Points Polygon

open List (Sublist)

/-! ## The run -/

section run

variable {α : Type} {convex : α → α → α → Except PyErr Bool} {inside : α → α → α → α → Except PyErr Bool}
  {pts : List α} {n : Nat}

theorem anyPointInside_none {i j k : Nat} {p c q : α} (hp : pts[i]? = some p) (hc : pts[j]? = some c)
    (hq : pts[k]? = some q) : ∀ vs : List (Nat × α),
    (∀ v ∈ vs, pts[v.1]? = some v.2 ∧ (v.1 ≠ i → v.1 ≠ j → v.1 ≠ k → inside v.2 p c q = .ok false)) →
    anyPointInside inside pts i j k vs false = .ok false
  | [], _ => rfl
  | (t, x) :: vs, h => by
    obtain ⟨h1, h2⟩ := h _ List.mem_cons_self
    have ih := anyPointInside_none hp hc hq vs fun v hv => h v (List.mem_cons_of_mem _ hv)
    unfold anyPointInside
    split
    · rename_i hne
      simp only at h1
      simp only [h1, hp, hc, hq, h2 hne.1 hne.2.1 hne.2.2, Bool.or_false]
      exact ih
    · exact ih

/-- If every corner passes, the loop cuts off one corner after the other. -/
theorem run_fan {get : Nat → α} (hl : pts.length = n) (hget : ∀ i, i < n → pts[i]? = some (get i)) (hn : 3 ≤ n)
    (hc : ∀ i, i + 2 < n → convex (get (n - 1)) (get i) (get (i + 1)) = .ok true)
    (hi : ∀ i t, i + 1 < t → t + 1 < n → inside (get t) (get (n - 1)) (get i) (get (i + 1)) = .ok false) :
    ∀ (k m fuel : Nat) (tris : List Tri), m + k + 2 = n → k < fuel →
      run convex inside pts fuel ⟨((List.range n).zip pts).drop m, tris, 0, 0⟩ =
        some (.ok (some (tris ++ (List.range' m k).map fun i => (n - 1, i, i + 1))))
  | 0, m, fuel + 1, tris, hm, _ => by
    have h2 : (((List.range n).zip pts).drop m).length = 2 := by simp [hl]; omega
    unfold run step
    simp only [h2]
    simp
  | k + 1, m, fuel + 1, tris, hm, hf => by
    have hlen : (((List.range n).zip pts).drop m).length = k + 3 := by simp [hl]; omega
    have hat : ∀ j, m + j < n → (((List.range n).zip pts).drop m)[j]? = some (m + j, get (m + j)) := by
      intro j hj
      rw [List.getElem?_drop, List.getElem?_zip_eq_some]
      exact ⟨List.getElem?_range hj, hget _ hj⟩
    have a0 := hat 0 (by omega)
    have a1 := hat 1 (by omega)
    have a2 := hat (k + 2) (by omega)
    have e2 : m + (k + 2) = n - 1 := by omega
    rw [e2] at a2
    rw [Nat.add_zero] at a0
    have hany : anyPointInside inside pts (n - 1) m (m + 1) (((List.range n).zip pts).drop m) false = .ok false := by
      refine anyPointInside_none (hget _ (by omega)) (hget _ (by omega)) (hget _ (by omega)) _ ?_
      intro v hv
      obtain ⟨j, hj⟩ := List.mem_iff_getElem?.1 hv
      have hjl : m + j < n := by
        by_contra hcon
        rw [List.getElem?_eq_none (by omega)] at hj
        cases hj
      rw [hat j hjl, Option.some.injEq] at hj
      subst hj
      refine ⟨hget _ hjl, fun h1 h2 h3 => hi m _ ?_ ?_⟩ <;> simp only at * <;> omega
    unfold run step
    simp only [hlen]
    rw [if_pos (by omega), if_neg (by omega)]
    simp only [ite_self, gt_iff_lt, lt_self_iff_false, if_false]
    rw [if_pos (by omega), show k + 3 - 1 = k + 2 by omega, zero_add, a0, a1, a2]
    simp only [hc m (by omega), hany]
    have ih := run_fan hl hget hn hc hi k (m + 1) fuel (tris ++ [(n - 1, m, m + 1)]) (by omega) (by omega)
    have e3 : (((List.range n).zip pts).drop m).eraseIdx 0 = ((List.range n).zip pts).drop (m + 1) := by
      rw [List.eraseIdx_zero, List.tail_drop]
    rw [e3, ih]
    simp [List.range'_succ]

/-- The triangles of a run in which every corner passes. -/
theorem triangulate_fan {get : Nat → α} (hl : pts.length = n) (hget : ∀ i, i < n → pts[i]? = some (get i)) (hn : 3 ≤ n)
    (hc : ∀ i, i + 2 < n → convex (get (n - 1)) (get i) (get (i + 1)) = .ok true)
    (hi : ∀ i t, i + 1 < t → t + 1 < n → inside (get t) (get (n - 1)) (get i) (get (i + 1)) = .ok false) :
    triangulateTries false convex inside (2 * n + 2) 2 pts =
      some (.ok (pts, (List.range (n - 2)).map fun i => (n - 1, i, i + 1))) := by
  have h := run_fan hl hget hn hc hi (n - 2) 0 (2 * n + 2) [] (by omega) (by omega)
  rw [List.drop_zero, List.nil_append, ← List.range_eq_range'] at h
  unfold triangulateTries
  unfold initState
  rw [hl, h]
  rfl

end run

/-! ## The tests -/

theorem _root_.B3d.Spec.Apart.symm_ne {p q : Vec3 ℝ} (h : Apart p q) : pointsEqual p q GEOM_ATOL = false := by
  rw [pointsEqual, decide_eq_false_iff_not]
  rintro ⟨h1, h2, h3⟩
  simp only [isClose, NP_RTOL, GEOM_ATOL] at h1 h2 h3
  norm_num [Apart] at h h1 h2 h3
  rcases h with h | h | h <;> linarith

theorem _root_.B3d.Spec.Apart.norm_pos {p q : Vec3 ℝ} (h : Apart p q) : EPSILON < Vec3.norm (p - q) := by
  have he : (EPSILON : ℝ) < 1 / 10 ^ 10 := by norm_num [EPSILON]
  refine he.trans ?_
  have hx := Vec3.abs_x_le (p - q)
  have hy := Vec3.abs_y_le (p - q)
  have hz := Vec3.abs_z_le (p - q)
  simp only [Vec3.sub_x, Vec3.sub_y, Vec3.sub_z] at hx hy hz
  have ax := abs_nonneg q.x
  have ay := abs_nonneg q.y
  have az := abs_nonneg q.z
  norm_num [Apart] at h ⊢
  rcases h with h | h | h <;> linarith

theorem cross_rot (a b c : Vec3 ℝ) : Vec3.cross (c - b) (a - b) = Vec3.cross (b - a) (c - a) := by
  ext <;> simp <;> ring

theorem _root_.B3d.Spec.Thick.rot {v a b c : Vec3 ℝ} (h : Thick v a b c) : Thick v b c a := by
  obtain ⟨D, h1, h2, h3, h4, h5⟩ := h
  exact ⟨D, h1, by rw [cross_rot]; exact h2, h4, h5, h3⟩

theorem normSq_eq_one {v : Vec3 ℝ} (h : Vec3.norm v = 1) : Vec3.normSq v = 1 := by
  rw [← Vec3.norm_sq, h]; norm_num

theorem _root_.B3d.Spec.Thick.not_collinear {v a b c : Vec3 ℝ} (hv : Vec3.norm v = 1) (h : Thick v a b c)
    (hb : EPSILON < Vec3.norm (b - a)) (hc : EPSILON < Vec3.norm (c - a)) :
    arePointsCollinear [a, b, c] = .ok false := by
  obtain ⟨D, h1, h2, h3, -⟩ := h
  refine notCollinear hb hc ?_
  have e : Vec3.dot (b - a) (c - a) ^ 2 = Vec3.normSq (b - a) * Vec3.normSq (c - a) -
      Vec3.normSq (Vec3.cross (b - a) (c - a)) := by
    simp only [Vec3.normSq_def, Vec3.dot, Vec3.cross_x, Vec3.cross_y, Vec3.cross_z]; ring
  have e2 : Vec3.normSq (D • v) = D ^ 2 := by
    have := normSq_eq_one hv
    simp only [Vec3.normSq_def, Vec3.smul_x, Vec3.smul_y, Vec3.smul_z] at this ⊢
    linear_combination D ^ 2 * this
  rw [e, h2, e2]
  linarith

/-- The other way round: `[a, c, b]`. -/
theorem _root_.B3d.Spec.Thick.not_collinear' {v a b c : Vec3 ℝ} (hv : Vec3.norm v = 1) (h : Thick v a b c)
    (hb : EPSILON < Vec3.norm (b - a)) (hc : EPSILON < Vec3.norm (c - a)) :
    arePointsCollinear [a, c, b] = .ok false := by
  obtain ⟨D, h1, h2, h3, -⟩ := h
  refine notCollinear hc hb ?_
  have e : Vec3.dot (c - a) (b - a) ^ 2 = Vec3.normSq (b - a) * Vec3.normSq (c - a) -
      Vec3.normSq (Vec3.cross (b - a) (c - a)) := by
    simp only [Vec3.normSq_def, Vec3.dot, Vec3.cross_x, Vec3.cross_y, Vec3.cross_z]; ring
  have e2 : Vec3.normSq (D • v) = D ^ 2 := by
    have := normSq_eq_one hv
    simp only [Vec3.normSq_def, Vec3.smul_x, Vec3.smul_y, Vec3.smul_z] at this ⊢
    linear_combination D ^ 2 * this
  rw [e, h2, e2, mul_comm (Vec3.normSq (c - a))]
  linarith

theorem unit_smul {v : Vec3 ℝ} (hv : Vec3.norm v = 1) {D : ℝ} (hD : 0 < D) :
    Vec3.norm (D • v) = D ∧ (1 / Vec3.norm (D • v)) • (D • v) = v := by
  have e : Vec3.norm (D • v) = D := by rw [Vec3.norm_smul, hv, abs_of_pos hD, mul_one]
  refine ⟨e, ?_⟩
  rw [e, smul_smul, one_div, inv_mul_cancel₀ hD.ne', one_smul]

theorem _root_.B3d.Spec.Thick.convex {v a b c : Vec3 ℝ} (hv : Vec3.norm v = 1) (h : Thick v a b c) :
    isCornerConvex v a b c = .ok true := by
  obtain ⟨D, h1, h2, -⟩ := h
  have hD : 0 < D := lt_of_lt_of_le (by norm_num) h1
  obtain ⟨u1, u2⟩ := unit_smul hv hD
  have e : Vec3.cross (b - a) (c - b) = D • v := by
    rw [← h2]; ext <;> simp <;> ring
  unfold isCornerConvex
  rw [hv, if_neg (by norm_num [GEOM_ATOL])]
  simp only [e, u1]
  have hg : (GEOM_ATOL : ℝ) < 1 / 10 ^ 7 := by norm_num [GEOM_ATOL]
  rw [if_neg (by linarith)]
  rw [u1] at u2
  rw [u2]
  simp only [Except.ok.injEq, decide_eq_true_eq]
  exact allClose_self (by norm_num [GEOM_RTOL]) (by norm_num [NP_ATOL])

theorem _root_.B3d.Spec.Thick.normal {v a b c : Vec3 ℝ} (hv : Vec3.norm v = 1) (h : Thick v a b c) :
    Polygon.normal a b c = some v := by
  obtain ⟨D, h1, h2, -⟩ := h
  have hD : 0 < D := lt_of_lt_of_le (by norm_num) h1
  obtain ⟨u1, u2⟩ := unit_smul hv hD
  unfold Polygon.normal
  simp only [h2, u1]
  rw [if_neg]
  · rw [u1] at u2; rw [u2]
  · simp only [isClose, sub_zero, abs_zero, mul_zero, add_zero, NP_ATOL, abs_of_pos hD]
    norm_num at h1 ⊢
    linarith

/-- A corner on the other side of the cut is not in the ear. -/
theorem ear_clear {v p c n t : Vec3 ℝ} (hv : Vec3.norm v = 1) (h1 : Thick v c n t) (h2 : Thick v c n p)
    (h3 : Thick v c t p) (h4 : Thick v n t p) (ap : Apart t p) (ac : Apart t c) (an : Apart t n) (cp : Apart c p)
    (nc : Apart n c) (pn : Apart p n) : Triangles.isPointInside t p c n = .ok false := by
  have hlen : ¬ Vec3.norm (Vec3.cross (c - p) (n - c)) < GEOM_ATOL := by
    obtain ⟨D, d1, d2, -⟩ := h2.rot.rot
    have e : Vec3.cross (c - p) (n - c) = D • v := by rw [← d2]; ext <;> simp <;> ring
    rw [e, (unit_smul hv (lt_of_lt_of_le (by norm_num) d1)).1]
    have hg : (GEOM_ATOL : ℝ) < 1 / 10 ^ 7 := by norm_num [GEOM_ATOL]
    linarith
  obtain ⟨r, hr⟩ := isPointInside_ok_of_len hlen t
  rw [hr]
  cases r with
  | false => rfl
  | true =>
    exfalso
    have col : ∀ a b : Vec3 ℝ, arePointsCollinear [a, b, t] = .ok false → edgeTest t a b GEOM_ATOL = none := by
      intro a b h
      unfold edgeTest
      rw [h]
    have e1 := col p c (h3.rot.rot.not_collinear hv (Apart.norm_pos cp) (Apart.norm_pos ap))
    have e2 := col c n (h1.not_collinear hv (Apart.norm_pos nc) (Apart.norm_pos ac))
    have e3 := col n p (h4.not_collinear' hv (Apart.norm_pos an) (Apart.norm_pos pn))
    rcases inside_cases hr with h | h | ⟨-, -, h⟩
    · rw [Apart.symm_ne ap, Apart.symm_ne ac, Apart.symm_ne an] at h
      simp at h
    · rw [e1, e2, e3] at h
      simp at h
    · unfold isPointOnSameSide at h
      obtain ⟨D1, d1, d2, -⟩ := h4
      obtain ⟨D2, g1, g2, -⟩ := h2.rot
      have f1 : Vec3.cross (p - n) (t - n) = D1 • (-v) := by
        have : Vec3.cross (p - n) (t - n) = -(Vec3.cross (t - n) (p - n)) := by
          ext <;> simp <;> ring
        rw [this, d2]; ext <;> simp
      have hv' : Vec3.norm (-v) = 1 := by rw [Vec3.norm_neg, hv]
      obtain ⟨u1, u2⟩ := unit_smul hv' (lt_of_lt_of_le (by norm_num) d1 : 0 < D1)
      obtain ⟨w1, w2⟩ := unit_smul hv (lt_of_lt_of_le (by norm_num) g1 : 0 < D2)
      rw [u1] at u2
      rw [w1] at w2
      simp only [f1, g2, u1, w1, u2, w2] at h
      have hg : (GEOM_ATOL : ℝ) < 1 / 10 ^ 7 := by norm_num [GEOM_ATOL]
      rw [if_neg (by linarith), if_neg (by linarith)] at h
      simp only [Except.ok.injEq, decide_eq_true_eq] at h
      exact not_allClose_neg (normSq_eq_one hv) h

/-! ## Polygons -/

theorem sublist3 {α : Type} {l : List α} {i j k : Nat} {a b c : α} (hij : i < j) (hjk : j < k) (ha : l[i]? = some a)
    (hb : l[j]? = some b) (hc : l[k]? = some c) : Sublist [a, b, c] l := by
  have hk := (List.getElem?_eq_some_iff.1 hc).1
  have ea := (List.getElem?_eq_some_iff.1 ha).2
  have eb := (List.getElem?_eq_some_iff.1 hb).2
  have ec := (List.getElem?_eq_some_iff.1 hc).2
  have e1 : Sublist [c] (l.drop (j + 1)) := by
    rw [List.singleton_sublist]
    exact List.mem_of_getElem? (i := k - (j + 1)) (by rw [List.getElem?_drop, show j + 1 + (k - (j + 1)) = k by omega, hc])
  have e2 : Sublist [b, c] (l.drop (i + 1)) := by
    have h1 : l.drop j = b :: l.drop (j + 1) := by rw [List.drop_eq_getElem_cons (by omega), eb]
    have h2 : Sublist [b, c] (l.drop j) := by rw [h1]; exact e1.cons_cons b
    refine h2.trans ?_
    have : l.drop j = (l.drop (i + 1)).drop (j - (i + 1)) := by rw [List.drop_drop]; congr 1; omega
    rw [this]
    exact List.drop_sublist _ _
  have h1 : l.drop i = a :: l.drop (i + 1) := by rw [List.drop_eq_getElem_cons (by omega), ea]
  have h2 : Sublist [a, b, c] (l.drop i) := by rw [h1]; exact e2.cons_cons a
  exact h2.trans (List.drop_sublist _ _)

theorem sublist2 {α : Type} {l : List α} {i j : Nat} {a b : α} (hij : i < j) (ha : l[i]? = some a)
    (hb : l[j]? = some b) : Sublist [a, b] l := by
  have hj := (List.getElem?_eq_some_iff.1 hb).1
  have ea := (List.getElem?_eq_some_iff.1 ha).2
  have e1 : Sublist [b] (l.drop (i + 1)) := by
    rw [List.singleton_sublist]
    exact List.mem_of_getElem? (i := j - (i + 1)) (by rw [List.getElem?_drop, show i + 1 + (j - (i + 1)) = j by omega, hb])
  have h1 : l.drop i = a :: l.drop (i + 1) := by rw [List.drop_eq_getElem_cons (by omega), ea]
  have h2 : Sublist [a, b] (l.drop i) := by rw [h1]; exact e1.cons_cons a
  exact h2.trans (List.drop_sublist _ _)

theorem _root_.B3d.Spec.Thick.flat {v a b c : Vec3 ℝ} (h : Thick v a b c) : Vec3.dot v a = Vec3.dot v b ∧ Vec3.dot v a = Vec3.dot v c := by
  obtain ⟨D, h1, h2, -⟩ := h
  have hD : 0 < D := lt_of_lt_of_le (by norm_num) h1
  have k1 : D * (Vec3.dot v b - Vec3.dot v a) = 0 := by
    have : Vec3.dot (D • v) (b - a) = 0 := by
      rw [← h2]; simp only [Vec3.dot, Vec3.cross_x, Vec3.cross_y, Vec3.cross_z]; ring
    rw [← this]
    simp only [Vec3.dot, Vec3.smul_x, Vec3.smul_y, Vec3.smul_z, Vec3.sub_x, Vec3.sub_y, Vec3.sub_z]; ring
  have k2 : D * (Vec3.dot v c - Vec3.dot v a) = 0 := by
    have : Vec3.dot (D • v) (c - a) = 0 := by
      rw [← h2]; simp only [Vec3.dot, Vec3.cross_x, Vec3.cross_y, Vec3.cross_z]; ring
    rw [← this]
    simp only [Vec3.dot, Vec3.smul_x, Vec3.smul_y, Vec3.smul_z, Vec3.sub_x, Vec3.sub_y, Vec3.sub_z]; ring
  rcases mul_eq_zero.1 k1 with h | h
  · linarith
  rcases mul_eq_zero.1 k2 with h' | h'
  · linarith
  constructor <;> linarith

theorem convex_flat {v : Vec3 ℝ} {pts : List (Vec3 ℝ)} (h : ConvexOutline v pts) :
    ∃ d, ∀ p ∈ pts, Vec3.dot v p = d := by
  have hn := h.corners
  obtain ⟨p0, h0⟩ : ∃ p, pts[0]? = some p := ⟨_, List.getElem?_eq_getElem (by omega)⟩
  obtain ⟨p1, h1⟩ : ∃ p, pts[1]? = some p := ⟨_, List.getElem?_eq_getElem (by omega)⟩
  obtain ⟨p2, h2⟩ : ∃ p, pts[2]? = some p := ⟨_, List.getElem?_eq_getElem (by omega)⟩
  refine ⟨Vec3.dot v p0, fun p hp => ?_⟩
  obtain ⟨i, hi⟩ := List.mem_iff_getElem?.1 hp
  rcases Nat.lt_trichotomy i 1 with hlt | rfl | hgt
  · obtain rfl : i = 0 := by omega
    rw [h0, Option.some.injEq] at hi
    rw [hi]
  · exact (h.turns _ _ _ (sublist3 (by omega) (by omega) h0 hi h2)).flat.1.symm
  · exact (h.turns _ _ _ (sublist3 (by omega) (by omega) h0 h1 hi)).flat.2.symm

theorem convex_triangulate {v : Vec3 ℝ} {pts : List (Vec3 ℝ)} (h : ConvexOutline v pts) :
    triangulate (2 * pts.length + 2) pts v =
      some (.ok (pts, (List.range (pts.length - 2)).map fun i => (pts.length - 1, i, i + 1))) := by
  have hn := h.corners
  have hget : ∀ i, i < pts.length → pts[i]? = some (pts.getD i 0) := by
    intro i hi
    rw [List.getD_eq_getElem?_getD, List.getElem?_eq_getElem hi]
    rfl
  unfold triangulate
  rw [decide_eq_false (by
    rw [h.unit]; norm_num [isClose, NP_ATOL])]
  refine triangulate_fan rfl hget hn ?_ ?_
  · intro i hi
    exact (h.turns _ _ _ (sublist3 (i := i) (j := i + 1) (k := pts.length - 1) (by omega) (by omega)
      (hget _ (by omega)) (hget _ (by omega)) (hget _ (by omega)))).rot.rot.convex h.unit
  · intro i t hit ht
    have g1 := hget i (by omega)
    have g2 := hget (i + 1) (by omega)
    have g3 := hget t (by omega)
    have g4 := hget (pts.length - 1) (by omega)
    exact ear_clear h.unit (h.turns _ _ _ (sublist3 (by omega) (by omega) g1 g2 g3))
      (h.turns _ _ _ (sublist3 (by omega) (by omega) g1 g2 g4))
      (h.turns _ _ _ (sublist3 (by omega) (by omega) g1 g3 g4))
      (h.turns _ _ _ (sublist3 (by omega) (by omega) g2 g3 g4))
      (h.apart _ _ (sublist2 (by omega) g3 g4)).1
      (h.apart _ _ (sublist2 (by omega) g1 g3)).2
      (h.apart _ _ (sublist2 (by omega) g2 g3)).2
      (h.apart _ _ (sublist2 (by omega) g1 g4)).1
      (h.apart _ _ (sublist2 (by omega) g1 g2)).2
      (h.apart _ _ (sublist2 (by omega) g2 g4)).2

theorem convex_coplanar {v : Vec3 ℝ} {pts : List (Vec3 ℝ)} (h : ConvexOutline v pts) :
    arePointsCoplanar pts = true := by
  obtain ⟨d, hd⟩ := convex_flat h
  refine Points.C36_coplanar_complete _ v d _ ?_ Points.GEOM_ATOL_pos hd
  rintro rfl
  have := h.unit
  rw [Vec3.norm_eq_zero.2 rfl] at this
  norm_num at this

theorem convex_normal {v : Vec3 ℝ} {pts : List (Vec3 ℝ)} (h : ConvexOutline v pts) :
    chooseNormal pts none = .ok (some v) := by
  have hn := h.corners
  obtain ⟨p0, h0⟩ : ∃ p, pts[0]? = some p := ⟨_, List.getElem?_eq_getElem (by omega)⟩
  obtain ⟨p1, h1⟩ : ∃ p, pts[1]? = some p := ⟨_, List.getElem?_eq_getElem (by omega)⟩
  obtain ⟨pl, hl⟩ : ∃ p, pts[pts.length - 1]? = some p := ⟨_, List.getElem?_eq_getElem (by omega)⟩
  unfold chooseNormal
  rw [List.getLast?_eq_getElem?, hl, h0, h1]
  simp only [Except.ok.injEq]
  exact (h.turns _ _ _ (sublist3 (by omega) (by omega) h0 h1 hl)).rot.rot.normal h.unit

end B3d.ConvexEars
