import Verif.Model.RoundedPoints
import Verif.Props.Rounded
import Verif.Proofs.PairsExact
import Verif.Props.PointExact

/-!
# Points and polygons in rounded arithmetic (helper lemmas for C119)
-/

namespace B3d.Rounded

open Spec Planar Polygon Triangles

variable (A : Arith) {o u w : Vec3 ℝ} {m : ℝ} {pts S : List (ℝ × ℝ)} {P : Poly} {z : ℝ × ℝ}

/-! ### Points on segments -/

/-- The comparisons along the line. -/
theorem along {p q X Y : ℝ} (hs : 1 / 10 ^ 3 ≤ m) (hp : m ≤ |p|) (hq : m ≤ |q|) (hpq : m ≤ |q - p|) (hp' : |p| ≤ 71 * m)
    (hq' : |q| ≤ 71 * m) (hX : Rel (4 / 10 ^ 15) X (p * q)) (hY : Rel (4 / 10 ^ 15) Y (q * q)) :
    ¬ (X < -A.lit GEOM_ATOL ∨ X > A.add Y (A.lit GEOM_ATOL)) ↔ 0 ≤ p * q ∧ p * q ≤ q * q := by
  have hat := atol_bounds A
  have hm0 : 0 < m := lt_of_lt_of_le (by norm_num) hs
  have hm2 : 1 / 10 ^ 6 ≤ m ^ 2 := by norm_num at hs ⊢; nlinarith
  have b1 : |p * q| ≤ 5041 * m ^ 2 := by
    rw [abs_mul]
    calc |p| * |q| ≤ (71 * m) * (71 * m) := by gcongr
      _ = _ := by ring
  have b2 : |q * q| ≤ 5041 * m ^ 2 := by
    rw [abs_mul]
    calc |q| * |q| ≤ (71 * m) * (71 * m) := by gcongr
      _ = _ := by ring
  have c1 : m ^ 2 ≤ |p * q| := by
    rw [abs_mul]
    calc m ^ 2 = m * m := by ring
      _ ≤ |p| * |q| := by gcongr
  have c2 : m ^ 2 ≤ |q * q - p * q| := by
    rw [← sub_mul, abs_mul]
    calc m ^ 2 = m * m := by ring
      _ ≤ |q - p| * |q| := by gcongr
  have eX := abs_le.1 (hX.err.trans (mul_le_mul_of_nonneg_left b1 (by norm_num)))
  have eY := abs_le.1 (hY.err.trans (mul_le_mul_of_nonneg_left b2 (by norm_num)))
  have hY0 : 0 ≤ Y := by
    have := (hY.le (mul_self_nonneg q)).1
    have h1 := mul_self_nonneg q
    norm_num at this
    nlinarith
  have eS := (add_rel A Y (A.lit GEOM_ATOL)).le (by norm_num at hat ⊢; linarith)
  have bY := (abs_le.1 b2).2
  generalize A.add Y (A.lit GEOM_ATOL) = T at *
  generalize A.lit GEOM_ATOL = t at *
  generalize p * q = D at *
  generalize q * q = Q at *
  generalize m ^ 2 = M at *
  norm_num at hat hm2 b1 b2 eX eY eS
  constructor
  · intro h
    push Not at h
    obtain ⟨h1, h2⟩ := h
    constructor
    · by_contra hD
      rw [abs_of_neg (not_le.1 hD)] at c1
      linarith
    · by_contra hD
      rw [abs_of_neg (by linarith)] at c2
      linarith
  · rintro ⟨h1, h2⟩
    rw [abs_of_nonneg (by linarith)] at c2
    rw [abs_of_nonneg h1] at c1
    rintro (h | h) <;> linarith

theorem abs_le_abs_of_sq {a b : ℝ} (ha : 0 ≤ a) (h : a ^ 2 ≤ b ^ 2) : a ≤ |b| := by
  have := Real.sqrt_le_sqrt h
  rwa [Real.sqrt_sq ha, Real.sqrt_sq_eq_abs] at this

theorem le_coord {p q : ℝ × ℝ} (hx : Axes u w) (hc : Crisp m S) (hp : p ∈ S) (hq : q ∈ S) (hne : p ≠ q) {d : ℝ}
    (hd : Vec3.normSq (inPlane o u w p - inPlane o u w q) = d ^ 2) : m ≤ |d| ∧ |d| ≤ 71 * m := by
  rw [normSq_inPlane hx] at hd
  have h1 := hc.far p hp q hq hne
  have h2 := hc.near p hp q hq
  have hm0 : 0 < m := lt_of_lt_of_le (by norm_num) hc.scale
  rw [hd] at h1 h2
  constructor
  · exact abs_le_abs_of_sq hm0.le h1
  · have : |d| ^ 2 ≤ (71 * m) ^ 2 := by rw [sq_abs]; nlinarith [sq_nonneg m]
    exact (le_abs_self _).trans (abs_le_of_sq_le_sq this (by positivity))

/-- The rounded test of a segment is exact. -/
theorem onSegment_flat (hx : Axes u w) (hf : AxisPlane u w) (hc : Crisp m S) (hs : StraightOnAxes o u w S)
    (hr : ∀ p ∈ S, Reach m (inPlane o u w p)) {a b : ℝ × ℝ} (ha : a ∈ S) (hb : b ∈ S) (hz : z ∈ S) (hne : b ≠ a) :
    isPointOnSegment A (inPlane o u w z) (inPlane o u w a) (inPlane o u w b) = true ↔
      OnSegment (inPlane o u w a) (inPlane o u w b) (inPlane o u w z) := by
  by_cases za : z = a
  · subst za
    refine ⟨fun _ => ⟨0, le_refl _, zero_le_one, by simp⟩, fun _ => ?_⟩
    unfold isPointOnSegment
    rw [pointsEqual_self]; simp
  by_cases zb : z = b
  · subst zb
    refine ⟨fun _ => ⟨1, zero_le_one, le_refl _, by rw [one_smul]; abel⟩, fun _ => ?_⟩
    unfold isPointOnSegment
    rw [pointsEqual_self]; simp
  have n1 := pointsEqual_ne A hx hc hz ha za (hr a ha)
  have n2 := pointsEqual_ne A hx hc hz hb zb (hr b hb)
  unfold isPointOnSegment
  simp only [n1, n2, Bool.or_self, Bool.false_eq_true, if_false]
  by_cases h0 : signedArea a b z = 0
  · have hax := hs a ha b hb z hz hne.symm (fun h => zb h.symm) (fun h => za h.symm) h0
    obtain ⟨k, e1, e2⟩ := on_line (distSq_pos hne) h0
    have ev : inPlane o u w z - inPlane o u w a = k • (inPlane o u w b - inPlane o u w a) := by
      rw [inPlane_sub, inPlane_sub, e1, e2]
      ext <;> simp <;> ring
    have key : ∀ (p q : ℝ), p = k * q → Vec3.normSq (inPlane o u w z - inPlane o u w a) = p ^ 2 →
        Vec3.normSq (inPlane o u w b - inPlane o u w a) = q ^ 2 →
        Vec3.normSq (inPlane o u w b - inPlane o u w z) = (q - p) ^ 2 → ∀ X Y, Rel (4 / 10 ^ 15) X (p * q) →
        Rel (4 / 10 ^ 15) Y (q * q) →
        ((if X < -A.lit GEOM_ATOL ∨ X > A.add Y (A.lit GEOM_ATOL) then false else true) = true ↔
          OnSegment (inPlane o u w a) (inPlane o u w b) (inPlane o u w z)) := by
      intro p q hpk hp hq hpq X Y hX hY
      obtain ⟨l1, l2⟩ := le_coord hx hc hz ha za hp
      obtain ⟨l3, l4⟩ := le_coord hx hc hb ha hne hq
      obtain ⟨l5, -⟩ := le_coord hx hc hb hz (fun h => zb h.symm) hpq
      have hal := along A hc.scale l1 l3 l5 l2 l4 hX hY
      have hm0 : 0 < m := lt_of_lt_of_le (by norm_num) hc.scale
      have hq0 : 0 < q * q := by
        have : q ≠ 0 := by rintro rfl; rw [abs_zero] at l3; linarith
        exact mul_self_pos.2 this
      have hk : (0 ≤ p * q ∧ p * q ≤ q * q) ↔ 0 ≤ k ∧ k ≤ 1 := by
        rw [hpk, mul_assoc]
        constructor
        · rintro ⟨h1, h2⟩
          exact ⟨nonneg_of_mul_nonneg_left h1 hq0, by by_contra hk; nlinarith⟩
        · rintro ⟨h1, h2⟩
          exact ⟨by positivity, by nlinarith⟩
      have hseg : OnSegment (inPlane o u w a) (inPlane o u w b) (inPlane o u w z) ↔ 0 ≤ k ∧ k ≤ 1 := by
        constructor
        · rintro ⟨t, t0, t1, et⟩
          have : k = t := by
            have e3 : inPlane o u w z - inPlane o u w a = t • (inPlane o u w b - inPlane o u w a) := by rw [et]; abel
            have e4 : Vec3.dot (inPlane o u w z - inPlane o u w a) (inPlane o u w b - inPlane o u w a) =
                Vec3.dot (inPlane o u w z - inPlane o u w a) (inPlane o u w b - inPlane o u w a) := rfl
            nth_rw 1 [ev] at e4
            rw [e3, Vec3.dot_smul_left, Vec3.dot_smul_left] at e4
            refine mul_right_cancel₀ ?_ e4
            show Vec3.normSq _ ≠ 0
            rw [hq, sq]
            exact hq0.ne'
          rw [this]; exact ⟨t0, t1⟩
        · rintro ⟨k0, k1⟩
          exact onSegment_inPlane k0 k1 e1 e2
      rw [hseg, ← hk, ← hal]
      split
      · rename_i h
        simp [h]
      · rename_i h
        simp only [true_iff]
        exact h
    have hmul : ∀ p q r : ℝ, Rel (4 / 10 ^ 15) (A.mul (A.sub p q) (A.sub r q)) ((p - q) * (r - q)) := by
      intro p q r
      exact (mul_rel A _ _).trans ((sub_rel A p q).mul (sub_rel A r q) le_rfl) (by norm_num)
    have exx := congrArg Vec3.x ev
    have exy := congrArg Vec3.y ev
    have exz := congrArg Vec3.z ev
    simp only [Vec3.sub_x, Vec3.sub_y, Vec3.sub_z, Vec3.smul_x, Vec3.smul_y, Vec3.smul_z] at exx exy exz
    have hcl : ∀ v : Vec3 ℝ, v = 0 → allClose A v 0 NP_RTOL GEOM_ATOL := by
      rintro _ rfl
      have : isClose A 0 0 NP_RTOL GEOM_ATOL := by
        refine isClose_of A (by norm_num [NP_RTOL]) (by norm_num [GEOM_ATOL]) ?_
        norm_num [GEOM_ATOL]
      exact ⟨this, this, this⟩
    rcases hax with ⟨f1, f2, f3, f4⟩ | ⟨f1, f2, f3, f4⟩ | ⟨f1, f2, f3, f4⟩
    · have s1 : subv A (inPlane o u w z) (inPlane o u w a) = ⟨A.sub (inPlane o u w z).x (inPlane o u w a).x, 0, 0⟩ := by
        unfold subv; rw [f1, f2, f3, f4, sub_self', sub_self']
      have s2 : subv A (inPlane o u w b) (inPlane o u w a) = ⟨A.sub (inPlane o u w b).x (inPlane o u w a).x, 0, 0⟩ := by
        unfold subv; rw [f1, f3, sub_self', sub_self']
      rw [s1, s2, if_neg (not_not.2 (hcl _ (by ext <;> simp [cross]))), A.dot_x, A.dot_x]
      refine key ((inPlane o u w z).x - (inPlane o u w a).x) ((inPlane o u w b).x - (inPlane o u w a).x) exx ?_ ?_ ?_ _ _
        (hmul _ _ _) (hmul _ _ _)
      · rw [Vec3.normSq_def, Vec3.sub_x, Vec3.sub_y, Vec3.sub_z, f1, f2, f3, f4]; ring
      · rw [Vec3.normSq_def, Vec3.sub_x, Vec3.sub_y, Vec3.sub_z, f1, f3]; ring
      · rw [Vec3.normSq_def, Vec3.sub_x, Vec3.sub_y, Vec3.sub_z, f2, f4]; ring
    · have s1 : subv A (inPlane o u w z) (inPlane o u w a) = ⟨0, A.sub (inPlane o u w z).y (inPlane o u w a).y, 0⟩ := by
        unfold subv; rw [f1, f2, f3, f4, sub_self', sub_self']
      have s2 : subv A (inPlane o u w b) (inPlane o u w a) = ⟨0, A.sub (inPlane o u w b).y (inPlane o u w a).y, 0⟩ := by
        unfold subv; rw [f1, f3, sub_self', sub_self']
      rw [s1, s2, if_neg (not_not.2 (hcl _ (by ext <;> simp [cross]))), A.dot_y, A.dot_y]
      refine key ((inPlane o u w z).y - (inPlane o u w a).y) ((inPlane o u w b).y - (inPlane o u w a).y) exy ?_ ?_ ?_ _ _
        (hmul _ _ _) (hmul _ _ _)
      · rw [Vec3.normSq_def, Vec3.sub_x, Vec3.sub_y, Vec3.sub_z, f1, f2, f3, f4]; ring
      · rw [Vec3.normSq_def, Vec3.sub_x, Vec3.sub_y, Vec3.sub_z, f1, f3]; ring
      · rw [Vec3.normSq_def, Vec3.sub_x, Vec3.sub_y, Vec3.sub_z, f2, f4]; ring
    · have s1 : subv A (inPlane o u w z) (inPlane o u w a) = ⟨0, 0, A.sub (inPlane o u w z).z (inPlane o u w a).z⟩ := by
        unfold subv; rw [f1, f2, f3, f4, sub_self', sub_self']
      have s2 : subv A (inPlane o u w b) (inPlane o u w a) = ⟨0, 0, A.sub (inPlane o u w b).z (inPlane o u w a).z⟩ := by
        unfold subv; rw [f1, f3, sub_self', sub_self']
      rw [s1, s2, if_neg (not_not.2 (hcl _ (by ext <;> simp [cross]))), A.dot_z, A.dot_z]
      refine key ((inPlane o u w z).z - (inPlane o u w a).z) ((inPlane o u w b).z - (inPlane o u w a).z) exz ?_ ?_ ?_ _ _
        (hmul _ _ _) (hmul _ _ _)
      · rw [Vec3.normSq_def, Vec3.sub_x, Vec3.sub_y, Vec3.sub_z, f1, f2, f3, f4]; ring
      · rw [Vec3.normSq_def, Vec3.sub_x, Vec3.sub_y, Vec3.sub_z, f1, f3]; ring
      · rw [Vec3.normSq_def, Vec3.sub_x, Vec3.sub_y, Vec3.sub_z, f2, f4]; ring
  · have h0' : signedArea a z b ≠ 0 := by
      intro h
      apply h0
      have : signedArea a b z = -signedArea a z b := by unfold signedArea; ring
      rw [this, h, neg_zero]
    obtain ⟨e, c1, d1⟩ := cross_crisp A hx hf hc ha hz ha hb (cross_inPlane (o := o) a z b)
    have hbig := hc.big ha hz hb h0'
    have hm2 : 1 / 10 ^ 6 ≤ m ^ 2 := by have := hc.scale; norm_num at this ⊢; nlinarith
    have he : 1 / 10 ^ 7 ≤ |e| := by
      have : |signedArea a z b| ≤ |e| + |e - signedArea a z b| := by
        rw [abs_sub_comm]
        have := abs_add_le e (signedArea a z b - e)
        rwa [add_sub_cancel] at this
      norm_num at d1 hm2 ⊢
      linarith
    have hno : ¬ allClose A (cross A (subv A (inPlane o u w z) (inPlane o u w a))
        (subv A (inPlane o u w b) (inPlane o u w a))) 0 NP_RTOL GEOM_ATOL := by
      rw [c1]
      have far : ∀ x : ℝ, 1 / 2 ≤ |x| → ¬ isClose A (e * x) 0 NP_RTOL GEOM_ATOL := by
        intro x hx' hcl
        have := le_of_isClose A (by norm_num [NP_RTOL]) (by norm_num [GEOM_ATOL]) hcl
        rw [sub_zero, abs_mul] at this
        have h3 : 1 / 10 ^ 7 * (1 / 2) ≤ |e| * |x| := by gcongr
        norm_num [GEOM_ATOL] at this h3
        linarith
      rintro ⟨k1, k2, k3⟩
      rcases abs_half (norm_cross hx) with h | h | h
      · exact far _ h k1
      · exact far _ h k2
      · exact far _ h k3
    rw [if_pos hno]
    simp only [Bool.false_eq_true, false_iff]
    rintro ⟨t, -, -, et⟩
    apply h0
    have := PointExact.comb_inPlane (o := o) (u := u) (w := w) a b a (r := 1 - t) (s := t) (q := 0) (by ring)
    have e3 : inPlane o u w z = inPlane o u w ((1 - t) * a.1 + t * b.1 + 0 * a.1, (1 - t) * a.2 + t * b.2 + 0 * a.2) := by
      rw [et, ← this]
      ext <;> simp <;> ring
    have := SliceConvex.inPlane_injective hx e3
    rw [this]
    unfold signedArea
    ring

/-! ### The loops -/

theorem boundaryLoop_iff {x : Vec3 ℝ} : ∀ es : List (Vec3 ℝ × Vec3 ℝ),
    boundaryLoop A x es = true ↔ ∃ e ∈ es, isPointOnSegment A x e.1 e.2 = true
  | [] => by simp [boundaryLoop]
  | (p, q) :: es => by
    unfold boundaryLoop
    rw [List.exists_mem_cons_iff]
    split
    · rename_i h; simp [h]
    · rename_i h; rw [boundaryLoop_iff es]; simp [h]

theorem atBoundary_eq {ps : List (Vec3 ℝ)} (h : ps ≠ []) (x : Vec3 ℝ) :
    isPointAtBoundary A x ps = .ok (boundaryLoop A x (cycEdges ps)) := by
  unfold isPointAtBoundary
  rw [polygonEdges_eq 0 ps h]

/-- The rounded test of the outline is exact. -/
theorem atBoundary_flat (hx : Axes u w) (hf : AxisPlane u w) (hc : Crisp m S) (hs : StraightOnAxes o u w S)
    (hr : ∀ p ∈ S, Reach m (inPlane o u w p)) (hS : ∀ p ∈ pts, p ∈ S)
    (h : Polygon.polygonNew (pts.map (inPlane o u w)) none none = .ok P) (hz : z ∈ S) :
    ∃ r, isPointAtBoundary A (inPlane o u w z) P.pts = .ok r ∧ (r = true ↔ OnOutline P.pts (inPlane o u w z)) := by
  refine ⟨_, atBoundary_eq A (polygonNew_sturdy h).1 _, ?_⟩
  rw [boundaryLoop_iff]
  constructor
  · rintro ⟨e, he, hs'⟩
    obtain ⟨a, ma, b, mb, rfl, hne⟩ := PointExact.edges_in h he
    exact ⟨_, he, (onSegment_flat A hx hf hc hs hr (hS a ma) (hS b mb) hz hne).1 hs'⟩
  · rintro ⟨e, he, hs'⟩
    obtain ⟨a, ma, b, mb, rfl, hne⟩ := PointExact.edges_in h he
    exact ⟨_, he, (onSegment_flat A hx hf hc hs hr (hS a ma) (hS b mb) hz hne).2 hs'⟩

theorem triangleLoop_iff {x : Vec3 ℝ} {ps : List (Vec3 ℝ)} {b rb : Bool} (hb : isPointAtBoundary A x ps = .ok rb) :
    ∀ tri : List Tri, (∀ t ∈ tri, TriangleWith ps t fun a b c => ∃ r, isPointInside A x a b c = .ok r) →
    ∃ r, triangleLoop A x ps b tri = .ok r ∧
      (r = true ↔ (∃ t ∈ tri, TriangleWith ps t fun a b c => isPointInside A x a b c = .ok true) ∧
        (b = false → rb = false))
  | [], _ => ⟨false, rfl, by simp⟩
  | (i, j, k) :: rest, h => by
    obtain ⟨r, hr, hir⟩ := triangleLoop_iff (b := b) hb rest (fun t ht => h t (List.mem_cons_of_mem _ ht))
    obtain ⟨p, q, s, ep, eq, es, ri, hi⟩ := h _ List.mem_cons_self
    simp only at ep eq es
    have hw : (TriangleWith ps (i, j, k) fun a b c => isPointInside A x a b c = .ok true) ↔ ri = true := by
      rw [triangleWith_eq (t := (i, j, k)) ep eq es, hi]
      simp
    unfold triangleLoop
    simp only [ep, eq, es, hi, hb]
    simp only [List.exists_mem_cons_iff, hw]
    cases ri with
    | false => exact ⟨r, hr, by rw [hir]; simp⟩
    | true =>
      cases b with
      | true => exact ⟨true, rfl, by simp⟩
      | false =>
        cases rb with
        | true => exact ⟨false, rfl, by simp⟩
        | false => exact ⟨true, rfl, by simp⟩

open Classical in
/-- Points of the triangles are in the box. -/
theorem insideBbox_ok (hm : m ≤ 10 ^ 6) {ps : List (Vec3 ℝ)} (hne : ps ≠ []) (hr : ∀ p ∈ ps, Reach m p) (x : Vec3 ℝ) :
    ∃ r, insideBbox A x ps (1 / 100) = .ok r ∧ (∀ a ∈ ps, ∀ b ∈ ps, ∀ c ∈ ps, InTriangle a b c x → r = true) := by
  obtain ⟨lo, hi, hb, hin, ⟨px, hpx, ex⟩, ⟨py, hpy, ey⟩, ⟨pz, hpz, ez⟩, ⟨qx, hqx, fx⟩, ⟨qy, hqy, fy⟩, ⟨qz, hqz, fz⟩⟩ :=
    Bboxes.boundingBox_spec hne
  refine ⟨_, by unfold insideBbox; rw [hb]; rfl, ?_⟩
  intro a ha b hb' c hc hT
  obtain ⟨r, s, t, r0, s0, t0, h1, rfl⟩ := hT
  obtain ⟨a1, a2, a3, a4, a5, a6⟩ := hin a ha
  obtain ⟨b1, b2, b3, b4, b5, b6⟩ := hin b hb'
  obtain ⟨c1, c2, c3, c4, c5, c6⟩ := hin c hc
  have hl := (lit_rel A (1 / 100)).le (by norm_num)
  have low : ∀ L v : ℝ, |L| ≤ 10 ^ 4 * m → L ≤ v → ¬ v < A.sub L (A.lit (1 / 100)) := by
    intro L v hL hv
    have e1 := abs_le.1 (A.sub_err L (A.lit (1 / 100)))
    have b1 : |L - A.lit (1 / 100)| ≤ 10 ^ 12 := by
      rw [abs_le]; have := abs_le.1 hL
      norm_num at *
      constructor <;> linarith
    norm_num at *
    linarith
  have high : ∀ H v : ℝ, |H| ≤ 10 ^ 4 * m → v ≤ H → ¬ A.add H (A.lit (1 / 100)) < v := by
    intro H v hH hv
    have e1 := abs_le.1 (A.add_err H (A.lit (1 / 100)))
    have b1 : |H + A.lit (1 / 100)| ≤ 10 ^ 12 := by
      rw [abs_le]; have := abs_le.1 hH
      norm_num at *
      constructor <;> linarith
    norm_num at *
    linarith
  have up : ∀ L x y z : ℝ, L ≤ x → L ≤ y → L ≤ z → L ≤ r * x + s * y + t * z := by
    intro L x y z g1 g2 g3
    calc L = r * L + s * L + t * L := by linear_combination (-L) * h1
      _ ≤ _ := by gcongr
  have down : ∀ H x y z : ℝ, x ≤ H → y ≤ H → z ≤ H → r * x + s * y + t * z ≤ H := by
    intro H x y z g1 g2 g3
    calc r * x + s * y + t * z ≤ r * H + s * H + t * H := by gcongr
      _ = H := by linear_combination H * h1
  simp only [Vec3.add_x, Vec3.add_y, Vec3.add_z, Vec3.smul_x, Vec3.smul_y, Vec3.smul_z, decide_eq_true_eq]
  rintro ((h | h) | (h | h) | (h | h))
  · exact low _ _ (by rw [← ex]; exact (hr px hpx).1) (up _ _ _ _ a1 b1 c1) h
  · exact high _ _ (by rw [← fx]; exact (hr qx hqx).1) (down _ _ _ _ a4 b4 c4) h
  · exact low _ _ (by rw [← ey]; exact (hr py hpy).2.1) (up _ _ _ _ a2 b2 c2) h
  · exact high _ _ (by rw [← fy]; exact (hr qy hqy).2.1) (down _ _ _ _ a5 b5 c5) h
  · exact low _ _ (by rw [← ez]; exact (hr pz hpz).2.2) (up _ _ _ _ a3 b3 c3) h
  · exact high _ _ (by rw [← fz]; exact (hr qz hqz).2.2) (down _ _ _ _ a6 b6 c6) h

open Classical in
/-- The rounded test of a polygon is exact, up to the test of the outline, for polygons drawn counterclockwise. -/
theorem inside_left (hx : Axes u w) (hf : AxisPlane u w) (hc : Crisp m S) (hm : m ≤ 10 ^ 6)
    (hr : ∀ p ∈ S, Reach m (inPlane o u w p)) (hS : ∀ p ∈ pts, p ∈ S)
    (h : Polygon.polygonNew (pts.map (inPlane o u w)) none none = .ok P) (hv : P.vn = some (Vec3.cross u w)) (hz : z ∈ S)
    (b : Bool) {rb : Bool} (hb : isPointAtBoundary A (inPlane o u w z) P.pts = .ok rb) : ∃ r, pointInPolygon A (inPlane o u w z) P.pts P.tri b = .ok r ∧
      (r = true ↔ Region P.pts P.tri (inPlane o u w z) ∧ (b = false → rb = false)) := by
  have hd := PointExact.drawn hx hc hS h hv
  have hst := polygonNew_sturdy h
  have hP : ∀ p ∈ P.pts, Reach m p := by
    intro p hp
    obtain ⟨q, hq, rfl⟩ := (PairsExact.corners_drawn h).1 hp
    exact hr q (hS q hq)
  have each : ∀ t ∈ P.tri, TriangleWith P.pts t fun a b c => ∃ r, isPointInside A (inPlane o u w z) a b c = .ok r ∧
      (r = true ↔ InTriangle a b c (inPlane o u w z)) := by
    intro t ht
    obtain ⟨a, ma, b, mb, c, mc, ea, eb, ec, hD⟩ := hd t ht
    refine ⟨_, _, _, ea, eb, ec, _, isPointInside_flat A hx hf hc hm hr ma mb mc hz hD, ?_⟩
    rw [decide_eq_true_eq, PointExact.inTriangle_iff hx hD]
  have hreg : Region P.pts P.tri (inPlane o u w z) ↔
      ∃ t ∈ P.tri, TriangleWith P.pts t fun a b c => isPointInside A (inPlane o u w z) a b c = .ok true := by
    constructor
    · rintro ⟨t, ht, a, b, c, ha, hb, hc, hT⟩
      refine ⟨t, ht, a, b, c, ha, hb, hc, ?_⟩
      obtain ⟨r, hr1, hr2⟩ := (triangleWith_eq ha hb hc).1 (each t ht)
      rw [hr1, hr2.2 hT]
    · rintro ⟨t, ht, a, b, c, ha, hb, hc, hT⟩
      refine ⟨t, ht, a, b, c, ha, hb, hc, ?_⟩
      obtain ⟨r, hr1, hr2⟩ := (triangleWith_eq ha hb hc).1 (each t ht)
      rw [hr1] at hT
      cases hT
      exact hr2.1 rfl
  obtain ⟨rl, hl, kl⟩ := triangleLoop_iff A (b := b) hb P.tri (fun t ht => by
    obtain ⟨a, b, c, ha, hb, hc, r, h1, -⟩ := each t ht
    exact ⟨a, b, c, ha, hb, hc, r, h1⟩)
  obtain ⟨rx, hx1, hx2⟩ := insideBbox_ok A hm hst.1 hP (inPlane o u w z)
  have hcop : arePointsCoplanar A (P.pts ++ [inPlane o u w z]) = true := by
    rcases PairsExact.points_cases h with e | e <;> rw [e]
    · have := coplanar_flat A (o := o) hx hf (pts ++ [z])
      rwa [List.map_append] at this
    · have := coplanar_flat A (o := o) hx hf (pts.reverse ++ [z])
      rwa [List.map_append] at this
  unfold pointInPolygon
  rw [hx1]
  cases rx with
  | false =>
    refine ⟨false, rfl, ?_⟩
    simp only [Bool.false_eq_true, false_iff]
    rintro ⟨⟨t, ht, a, b, c, ha, hb, hc, hT⟩, -⟩
    have := hx2 a (List.mem_of_getElem? ha) b (List.mem_of_getElem? hb) c (List.mem_of_getElem? hc) hT
    cases this
  | true =>
    simp only [hcop, Bool.true_eq_false, if_false]
    exact ⟨rl, hl, by rw [kl, hreg]⟩

end B3d.Rounded
