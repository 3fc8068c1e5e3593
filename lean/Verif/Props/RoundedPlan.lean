import Verif.Model.RoundedPlan
import Verif.Props.RoundedRotation

/-!
# Property C136: the corners of a floor plan with rounding errors

`floor_plan` finds the corners of a wall that are on the floor by comparing heights with `==`.  That this works with 64-bit numbers,
whatever the rotation and the translation, and that walls are exactly upright, floor and ceiling exactly level.
-/

namespace B3d.RotationRounded

open Rounded Rotation

variable {A : Arith} {S : Sine}

theorem norm_up : Vec3.norm (⟨0, 0, 1⟩ : Vec3 ℝ) = 1 := by
  rw [Vec3.norm, Vec3.normSq_def, show (0 : ℝ) * 0 + 0 * 0 + 1 * 1 = 1 by norm_num, Real.sqrt_one]

theorem angle_of_not_close {phi : ℝ} (h : ¬ Rounded.isClose A phi 0 NP_RTOL NP_ATOL) : 1 / 10 ^ 12 ≤ |phi| := by
  by_contra hc
  apply h
  refine isClose_of A (by norm_num [NP_RTOL]) (by norm_num [NP_ATOL]) ?_
  unfold NP_RTOL NP_ATOL
  rw [sub_zero, abs_zero]
  linarith

theorem fl_one' : fl 1 = 1 := by dyadic (-52) 4503599627370496

/-- Turning around the vertical axis with 64-bit numbers. -/
theorem turn_up (phi : ℝ) : ∃ g : ℝ → ℝ → ℝ × ℝ, ∀ pts : List (Vec3 ℝ), (∀ p ∈ pts, fl p.z = p.z) →
    planRotate binary S pts phi = .ok (pts.map fun p => ⟨(g p.x p.y).1, (g p.x p.y).2, p.z⟩) := by
  by_cases hc : Rounded.isClose binary phi 0 NP_RTOL NP_ATOL
  · refine ⟨fun x y => (x, y), fun pts _ => ?_⟩
    unfold planRotate
    rw [if_neg (not_not.2 hc)]
    simp
  · have hphi := angle_of_not_close hc
    have hbig : ¬ (binary.norm ⟨0, 0, 1⟩ < binary.lit GEOM_ATOL ∨ |phi| < binary.lit GEOM_ATOL) := by
      have hn := abs_le.1 (binary.norm_err ⟨0, 0, 1⟩)
      rw [norm_up] at hn
      have hl := abs_le.1 (binary.lit_err GEOM_ATOL)
      have hg : |(GEOM_ATOL : ℝ)| = 1 / 10 ^ 13 := by rw [abs_of_pos (by norm_num [GEOM_ATOL])]; rfl
      have hg' : (GEOM_ATOL : ℝ) = 1 / 10 ^ 13 := rfl
      rw [hg, hg'] at hl
      rw [hg', not_or, not_lt, not_lt]
      constructor <;> linarith
    have hacc : Rounded.isClose binary (binary.norm ⟨0, 0, 1⟩) 1 NP_RTOL NP_ATOL := accepts (by rw [norm_up]; norm_num)
    cases hR : rotationMatrix binary S ⟨0, 0, 1⟩ phi with
    | error e => unfold rotationMatrix at hR; rw [if_pos hacc] at hR; cases hR
    | ok R =>
      refine ⟨fun x y => (fl (fl (fl (x * R.r0.x) + fl (y * R.r0.y))), fl (fl (fl (x * R.r1.x) + fl (y * R.r1.y)))), fun pts hz => ?_⟩
      unfold planRotate rotatePointsAroundVector
      rw [if_pos hc, if_neg hbig, hR]
      simp only [rotatePoints, Except.ok.injEq]
      apply List.map_congr_left
      intro p hp
      unfold rotationMatrix at hR
      rw [if_pos hacc] at hR
      obtain rfl := Except.ok.inj hR
      ext <;> simp [times, row, binary, bdot, Mat3.transpose, fl_zero, fl_one', hz p hp]

/-- **C136, upright walls.**  With 64-bit numbers, for every plan, height, translation and rotation angle: the corners of the floor all
have the height `z0`, exactly, which is that of the translation (0 if there is no translation worth mentioning), and every corner of
the ceiling is exactly above the corner of the floor with the same number, at the sum of height and `z0`. -/
theorem C136_upright (plan : List (ℝ × ℝ)) (height : ℝ) (t : Vec3 ℝ) (rotAngle : ℝ) (hplan : plan ≠ []) (hh : fl height = height)
    (ht : fl t.z = t.z) :
    ∃ F C z0, planPoints binary S plan height t rotAngle = .ok (F, C, z0) ∧ F.length = plan.length ∧ C.length = plan.length ∧
      (z0 = t.z ∨ z0 = 0 ∧ |t.x| ≤ 2 / 10 ^ 8 ∧ |t.y| ≤ 2 / 10 ^ 8 ∧ |t.z| ≤ 2 / 10 ^ 8) ∧
      ∀ (i : ℕ) (f c : Vec3 ℝ), F[i]? = some f → C[i]? = some c → f.z = z0 ∧ c.x = f.x ∧ c.y = f.y ∧ c.z = fl (height + z0) := by
  obtain ⟨g, hg⟩ := turn_up (S := S) rotAngle
  have h1 := hg (plan.map fun p => ⟨p.1, p.2, 0⟩) (fun p hp => by
    obtain ⟨q, -, rfl⟩ := List.mem_map.1 hp
    exact fl_zero)
  have h2 := hg (plan.map fun p => ⟨p.1, p.2, height⟩) (fun p hp => by
    obtain ⟨q, -, rfl⟩ := List.mem_map.1 hp
    exact hh)
  rw [List.map_map] at h1 h2
  unfold planPoints
  rw [if_neg hplan, h1, h2]
  by_cases hc : Rounded.allClose binary t ⟨0, 0, 0⟩ NP_RTOL NP_ATOL
  · simp only [planTranslate, if_neg (not_not.2 hc)]
    refine ⟨_, _, 0, rfl, by simp, by simp, .inr ⟨rfl, ?_⟩, ?_⟩
    · have key : ∀ x : ℝ, Rounded.isClose binary x 0 NP_RTOL NP_ATOL → |x| ≤ 2 / 10 ^ 8 := fun x hx => by
        have := le_of_isClose binary (by norm_num [NP_RTOL]) (by norm_num [NP_ATOL]) hx
        unfold NP_RTOL NP_ATOL at this
        rw [sub_zero, abs_zero] at this
        linarith
      exact ⟨key _ hc.1, key _ hc.2.1, key _ hc.2.2⟩
    · intro i f c hf hc'
      simp only [List.getElem?_map, Option.map_eq_some_iff] at hf hc'
      obtain ⟨p, hp, rfl⟩ := hf
      obtain ⟨q, hq, rfl⟩ := hc'
      obtain rfl : p = q := Option.some.inj (hp.symm.trans hq)
      simp [hh]
  · simp only [planTranslate, if_pos hc]
    refine ⟨_, _, t.z, rfl, by simp, by simp, .inl rfl, ?_⟩
    intro i f c hf hc'
    simp only [List.getElem?_map, List.map_map, Option.map_eq_some_iff] at hf hc'
    obtain ⟨p, hp, rfl⟩ := hf
    obtain ⟨q, hq, rfl⟩ := hc'
    obtain rfl : p = q := Option.some.inj (hp.symm.trans hq)
    simp [addv, binary, ht]

/-- **C136, corners on the floor.**  With 64-bit numbers, if the height is not zero and the translation goes at most 1e14 times as far
up or down: of every side wall `floor_plan` takes exactly the two corners on the floor for those on the floor, in the order in which
the wall has them, also if the polygon of the wall has its corners in reverse. -/
theorem C136_bottom (plan : List (ℝ × ℝ)) (height : ℝ) (t : Vec3 ℝ) (rotAngle : ℝ) (hh : fl height = height)
    (ht : fl t.z = t.z) (h0 : height ≠ 0) (hfar : |t.z| ≤ 10 ^ 14 * |height|) {F C : List (Vec3 ℝ)} {z0 : ℝ}
    (h : planPoints binary S plan height t rotAngle = .ok (F, C, z0)) (i : ℕ) (hi : i < plan.length) :
    ∃ f g c d, F[i]? = some f ∧ F[if i + 1 ≥ plan.length then 0 else i + 1]? = some g ∧
      (Solids.sideOutlines F C plan.length)[i]? = some [f, g, c, d] ∧
      bottom [f, g, c, d] z0 = [f, g] ∧ bottom [f, g, c, d].reverse z0 = [g, f] := by
  have hplan : plan ≠ [] := by rintro rfl; simp at hi
  obtain ⟨F', C', z', e, l1, l2, hz, hk⟩ := C136_upright (S := S) plan height t rotAngle hplan hh ht
  obtain ⟨rfl, e'⟩ := Prod.mk.inj (Except.ok.inj (h.symm.trans e))
  obtain ⟨rfl, rfl⟩ := Prod.mk.inj e'
  have hj : (if i + 1 ≥ plan.length then 0 else i + 1) < plan.length := by split <;> omega
  generalize hjd : (if i + 1 ≥ plan.length then 0 else i + 1) = j at hj
  have hfi := List.getElem?_eq_getElem (l1.symm ▸ hi : i < F.length)
  have hfj := List.getElem?_eq_getElem (l1.symm ▸ hj : j < F.length)
  have hci := List.getElem?_eq_getElem (l2.symm ▸ hi : i < C.length)
  have hcj := List.getElem?_eq_getElem (l2.symm ▸ hj : j < C.length)
  generalize F[i]'(l1.symm ▸ hi) = f at hfi
  generalize F[j]'(l1.symm ▸ hj) = g at hfj
  generalize C[j]'(l2.symm ▸ hj) = c at hcj
  generalize C[i]'(l2.symm ▸ hi) = d at hci
  have k1 := hk i f d hfi hci
  have k2 := hk j g c hfj hcj
  have hne : fl (height + z0) ≠ z0 := by
    intro hc
    have he := fl_err' (height + z0)
    rw [hc, show z0 - (height + z0) = -height by ring, abs_neg] at he
    have ha := abs_add_le height z0
    have hz0 : |z0| ≤ 10 ^ 14 * |height| := by
      rcases hz with rfl | ⟨rfl, -⟩
      · exact hfar
      · rw [abs_zero]; positivity
    have := abs_pos.2 h0
    linarith
  refine ⟨f, g, c, d, hfi, hfj, ?_, ?_, ?_⟩
  · simp only [Solids.sideOutlines, List.getElem?_map, List.getElem?_range hi, Option.map_some]
    simp only [hjd, hfi, hfj, hci, hcj, Option.getD_some]
  · simp [bottom, k1.1, k2.1, k1.2.2.2, k2.2.2.2, hne]
  · simp [bottom, k1.1, k2.1, k1.2.2.2, k2.2.2.2, hne]

/-- A rectangular plan, turned by half a radian and put 3 m up: the third wall. -/
example : ∃ F C z0, planPoints binary S [(0, 0), (4, 0), (4, 3), (0, 3)] 3 ⟨1, 2, 3⟩ (1 / 2) = .ok (F, C, z0) ∧
    ∃ f g c d, F[2]? = some f ∧ F[3]? = some g ∧ (Solids.sideOutlines F C 4)[2]? = some [f, g, c, d] ∧
      bottom [f, g, c, d] z0 = [f, g] := by
  have h3 : fl 3 = 3 := by dyadic (-51) 6755399441055744
  obtain ⟨F, C, z0, h, -⟩ := C136_upright (S := S) [(0, 0), (4, 0), (4, 3), (0, 3)] 3 ⟨1, 2, 3⟩ (1 / 2) (by simp) h3 h3
  obtain ⟨f, g, c, d, h1, h2, h4, h5, -⟩ := C136_bottom _ 3 ⟨1, 2, 3⟩ _ h3 h3 (by norm_num) (by norm_num) h 2 (by decide)
  exact ⟨F, C, z0, h, f, g, c, d, h1, h2, h4, h5⟩

theorem close_small {x : ℝ} (h : Rounded.isClose A x 0 NP_RTOL NP_ATOL) : |x| < 2 / 10 ^ 8 := by
  have := le_of_isClose A (by norm_num [NP_RTOL]) (by norm_num [NP_ATOL]) h
  unfold NP_RTOL NP_ATOL at this
  rw [sub_zero, abs_zero] at this
  linarith

theorem close_zero : Rounded.isClose A 0 0 NP_RTOL NP_ATOL :=
  isClose_of A (by norm_num [NP_RTOL]) (by norm_num [NP_ATOL]) (by norm_num [NP_ATOL])

theorem rod_up (phi : ℝ) (p : Vec3 ℝ) : apply (rod ⟨0, 0, 1⟩ (Real.sin phi) (Real.cos phi)) p =
    ⟨Real.cos phi * p.x - Real.sin phi * p.y, Real.sin phi * p.x + Real.cos phi * p.y, p.z⟩ := by
  ext <;> simp [apply, rod, Vec3.dot]; ring

/-- The points after the rotation. -/
theorem planRotate_near (pts : List (Vec3 ℝ)) (phi : ℝ) {M : ℝ} (hphi : phi = 0 ∨ 2 / 10 ^ 8 ≤ |phi|) (hphi' : |phi| ≤ 10)
    (hM : ∀ p ∈ pts, |p.x| ≤ M ∧ |p.y| ≤ M ∧ |p.z| ≤ M) (hM0 : 0 ≤ M) :
    ∃ pts', planRotate A S pts phi = .ok pts' ∧ pts'.length = pts.length ∧
      ∀ (i : ℕ) (p p' : Vec3 ℝ), pts[i]? = some p → pts'[i]? = some p' →
        |p'.x - (Real.cos phi * p.x - Real.sin phi * p.y)| ≤ 6 / 10 ^ 13 * M ∧
        |p'.y - (Real.sin phi * p.x + Real.cos phi * p.y)| ≤ 6 / 10 ^ 13 * M ∧ |p'.z - p.z| ≤ 6 / 10 ^ 13 * M := by
  have hM' : 0 ≤ 6 / 10 ^ 13 * M := by positivity
  rcases hphi with rfl | hphi
  · refine ⟨pts, ?_, rfl, ?_⟩
    · unfold planRotate
      rw [if_neg (not_not.2 close_zero)]
    · intro i p p' hp hp'
      obtain rfl : p = p' := Option.some.inj (hp.symm.trans hp')
      simpa using hM'
  · obtain ⟨R, R', pts', h1, h2, h3, h4⟩ := C135_positions (A := A) (S := S) pts ⟨0, 0, 1⟩ phi (by rw [norm_up]; norm_num)
      (by linarith) hphi' hM
    have h5 := rotationMatrix_eq norm_up phi
    obtain rfl := Except.ok.inj (h1.symm.trans h5)
    refine ⟨pts', ?_, h3, ?_⟩
    · unfold planRotate
      rw [if_pos (fun hc => absurd (close_small hc) (not_lt.2 hphi)), h2]
    · intro i p p' hp hp'
      have := h4 i p p' hp hp'
      rwa [rod_up] at this

theorem shift_err {a b t M : ℝ} (h : |a - b| ≤ 6 / 10 ^ 13 * M) (hb : |b| ≤ 2 * M) (ht : |t| ≤ M) :
    |A.add a t - (b + t)| ≤ 1 / 10 ^ 12 * M := by
  have hM : 0 ≤ M := (abs_nonneg t).trans ht
  have h1 := A.add_err a t
  have h2 : |a + t| ≤ 4 * M := by
    have e : a + t = (a - b) + (b + t) := by ring
    rw [e]
    refine (abs_add_le _ _).trans ?_
    have := abs_add_le b t
    linarith
  have e : A.add a t - (b + t) = (A.add a t - (a + t)) + (a - b) := by ring
  rw [e]
  refine (abs_add_le _ _).trans ?_
  linarith

theorem turned_le {s c x y M : ℝ} (hs : |s| ≤ 1) (hc : |c| ≤ 1) (hx : |x| ≤ M) (hy : |y| ≤ M) :
    |c * x - s * y| ≤ 2 * M ∧ |s * x + c * y| ≤ 2 * M := by
  have h1 := mul_abs_le hc hx
  have h2 := mul_abs_le hs hy
  have h3 := mul_abs_le hs hx
  have h4 := mul_abs_le hc hy
  have h5 := abs_sub (c * x) (s * y)
  have h6 := abs_add_le (s * x) (c * y)
  constructor <;> linarith

/-- **C136, positions.**  With rounded arithmetic, for coordinates, heights and translations up to `M`, angles that are zero or
between 2e-8 and 10 radians, and translations that are zero or at least 2e-8 in some coordinate: the corner of the floor made for the
point `(x, y)` of the plan is in every coordinate at most 1e-12 times `M` from the point `(x, y, 0)` turned around the vertical axis
through the origin and then translated; that of the ceiling from the same point at the given height. -/
theorem C136_positions (plan : List (ℝ × ℝ)) (height : ℝ) (t : Vec3 ℝ) (phi : ℝ) {M : ℝ} (hplan : plan ≠ [])
    (hM : ∀ p ∈ plan, |p.1| ≤ M ∧ |p.2| ≤ M) (hh : |height| ≤ M) (ht : |t.x| ≤ M ∧ |t.y| ≤ M ∧ |t.z| ≤ M)
    (hphi : phi = 0 ∨ 2 / 10 ^ 8 ≤ |phi|) (hphi' : |phi| ≤ 10)
    (ht' : t = 0 ∨ 2 / 10 ^ 8 ≤ |t.x| ∨ 2 / 10 ^ 8 ≤ |t.y| ∨ 2 / 10 ^ 8 ≤ |t.z|) :
    ∃ F C z0, planPoints A S plan height t phi = .ok (F, C, z0) ∧ F.length = plan.length ∧ C.length = plan.length ∧ z0 = t.z ∧
      ∀ (i : ℕ) (p : ℝ × ℝ) (f c : Vec3 ℝ), plan[i]? = some p → F[i]? = some f → C[i]? = some c →
        |f.x - (Real.cos phi * p.1 - Real.sin phi * p.2 + t.x)| ≤ 1 / 10 ^ 12 * M ∧
        |f.y - (Real.sin phi * p.1 + Real.cos phi * p.2 + t.y)| ≤ 1 / 10 ^ 12 * M ∧
        |f.z - (0 + t.z)| ≤ 1 / 10 ^ 12 * M ∧
        |c.x - (Real.cos phi * p.1 - Real.sin phi * p.2 + t.x)| ≤ 1 / 10 ^ 12 * M ∧
        |c.y - (Real.sin phi * p.1 + Real.cos phi * p.2 + t.y)| ≤ 1 / 10 ^ 12 * M ∧
        |c.z - (height + t.z)| ≤ 1 / 10 ^ 12 * M := by
  have hM0 : 0 ≤ M := (abs_nonneg _).trans hh
  have hs := Real.abs_sin_le_one phi
  have hco := Real.abs_cos_le_one phi
  obtain ⟨F, f1, f2, f3⟩ := planRotate_near (A := A) (S := S) (plan.map fun p => ⟨p.1, p.2, 0⟩) phi (M := M) hphi hphi' (fun p hp => by
    obtain ⟨q, hq, rfl⟩ := List.mem_map.1 hp
    exact ⟨(hM q hq).1, (hM q hq).2, by simpa using hM0⟩) hM0
  obtain ⟨C, c1, c2, c3⟩ := planRotate_near (A := A) (S := S) (plan.map fun p => ⟨p.1, p.2, height⟩) phi (M := M) hphi hphi'
    (fun p hp => by
      obtain ⟨q, hq, rfl⟩ := List.mem_map.1 hp
      exact ⟨(hM q hq).1, (hM q hq).2, hh⟩) hM0
  rw [List.length_map] at f2 c2
  unfold planPoints
  rw [if_neg hplan, f1, c1]
  have near : ∀ {a b : ℝ}, |a - b| ≤ 6 / 10 ^ 13 * M → |a - (b + 0)| ≤ 1 / 10 ^ 12 * M := fun {a b} h => by
    rw [add_zero]; linarith
  rcases ht' with rfl | ht'
  · have hc : Rounded.allClose A 0 ⟨0, 0, 0⟩ NP_RTOL NP_ATOL := ⟨close_zero, close_zero, close_zero⟩
    simp only [planTranslate, if_neg (not_not.2 hc)]
    refine ⟨F, C, 0, rfl, f2, c2, rfl, fun i p f c hp hf hc => ?_⟩
    obtain ⟨a1, a2, a3⟩ := f3 i ⟨p.1, p.2, 0⟩ f (by rw [List.getElem?_map, hp]; rfl) hf
    obtain ⟨b1, b2, b3⟩ := c3 i ⟨p.1, p.2, height⟩ c (by rw [List.getElem?_map, hp]; rfl) hc
    exact ⟨near a1, near a2, near a3, near b1, near b2, near b3⟩
  · have hc : ¬ Rounded.allClose A t ⟨0, 0, 0⟩ NP_RTOL NP_ATOL := fun hc => by
      have k1 := close_small hc.1
      have k2 := close_small hc.2.1
      have k3 := close_small hc.2.2
      rcases ht' with h | h | h <;> linarith
    simp only [planTranslate, if_pos hc]
    refine ⟨_, _, t.z, rfl, by rw [List.length_map, f2], by rw [List.length_map, c2], rfl, fun i p f c hp hf hc => ?_⟩
    simp only [List.getElem?_map, Option.map_eq_some_iff] at hf hc
    obtain ⟨f, hf, rfl⟩ := hf
    obtain ⟨c, hc, rfl⟩ := hc
    obtain ⟨a1, a2, a3⟩ := f3 i ⟨p.1, p.2, 0⟩ f (by rw [List.getElem?_map, hp]; rfl) hf
    obtain ⟨b1, b2, b3⟩ := c3 i ⟨p.1, p.2, height⟩ c (by rw [List.getElem?_map, hp]; rfl) hc
    have hp' := hM p (List.mem_of_getElem? hp)
    have k := turned_le hs hco hp'.1 hp'.2
    have z1 : |(0 : ℝ)| ≤ 2 * M := by rw [abs_zero]; linarith
    exact ⟨shift_err a1 k.1 ht.1, shift_err a2 k.2 ht.2.1, shift_err a3 z1 ht.2.2, shift_err b1 k.1 ht.1, shift_err b2 k.2 ht.2.1,
      shift_err b3 (by linarith) ht.2.2⟩

/-- The rectangular plan again. -/
example : ∃ F C z0, planPoints A S [(0, 0), (4, 0), (4, 3), (0, 3)] 3 ⟨1, 2, 3⟩ (1 / 2) = .ok (F, C, z0) ∧ F.length = 4 ∧
    ∀ f c, F[1]? = some f → C[1]? = some c → |f.x - (Real.cos (1 / 2) * 4 - Real.sin (1 / 2) * 0 + 1)| ≤ 1 / 10 ^ 12 * 4 := by
  obtain ⟨F, C, z0, h1, h2, -, -, h3⟩ := C136_positions (A := A) (S := S) [(0, 0), (4, 0), (4, 3), (0, 3)] 3 ⟨1, 2, 3⟩ (1 / 2) (M := 4)
    (by simp) (by simp only [List.mem_cons, List.not_mem_nil, or_false]; rintro p (rfl | rfl | rfl | rfl) <;> norm_num) (by norm_num)
    (by norm_num) (.inr (by rw [abs_of_pos] <;> norm_num)) (by rw [abs_of_pos] <;> norm_num) (.inr (.inl (by norm_num)))
  exact ⟨F, C, z0, h1, h2, fun f c hf hc => (h3 1 _ f c rfl hf hc).1⟩

/-! ### The direction of the walls -/

/-- No two points are equal for `points_equal`. -/
def Apart (A : Arith) (l : List (Vec3 ℝ)) : Prop :=
  l.Pairwise fun p q => Rounded.pointsEqual A p q = false ∧ Rounded.pointsEqual A q p = false

theorem Apart.reverse {l : List (Vec3 ℝ)} (h : Apart A l) : Apart A l.reverse :=
  List.pairwise_reverse.2 (h.imp fun h => ⟨h.2, h.1⟩)

open Classical in
theorem equal_self (p : Vec3 ℝ) : Rounded.pointsEqual A p p = true := by
  have key : ∀ x : ℝ, Rounded.isClose A x x NP_RTOL GEOM_ATOL := fun x =>
    isClose_of A (by norm_num [NP_RTOL]) (by norm_num [GEOM_ATOL]) (by
      rw [sub_self, abs_zero]
      have : (0 : ℝ) ≤ GEOM_ATOL + NP_RTOL * |x| := by unfold GEOM_ATOL NP_RTOL; positivity
      have h1 : (0 : ℝ) ≤ 1 - 1 / 10 ^ 13 := by norm_num
      positivity)
  exact decide_eq_true ⟨key _, key _, key _⟩

theorem loop_skip (wp : List (Vec3 ℝ)) (rest : List (Vec3 ℝ)) :
    ∀ (pre : List (Vec3 ℝ)) (k : Nat) (adj : List (Vec3 ℝ)) (prev : Option Nat),
      (∀ p ∈ pre, isPointInArray A p wp = false) → adj.length ≠ 2 →
      adjacentLoop A wp ((pre ++ rest).zipIdx k) adj prev = adjacentLoop A wp (rest.zipIdx (k + pre.length)) adj prev
  | [], k, adj, prev, _, _ => rfl
  | p :: pre, k, adj, prev, hp, ha => by
    rw [List.cons_append, List.zipIdx_cons]
    simp only [adjacentLoop, hp p List.mem_cons_self, Bool.false_eq_true, if_false, if_neg ha]
    rw [loop_skip wp rest pre (k + 1) adj prev (fun q hq => hp q (List.mem_cons_of_mem _ hq)) ha, List.length_cons]
    congr 2
    omega

theorem loop_edge {g wp : List (Vec3 ℝ)} {a b : Vec3 ℝ} (hs : Apart A g) (hw : wp = [a, b] ∨ wp = [b, a])
    (hg : (∃ pre post, g = pre ++ a :: b :: post) ∨ (∃ mid, mid ≠ [] ∧ g = b :: mid ++ [a])) :
    adjacentLoop A wp g.zipIdx [] none = [a, b] := by
  have ha : isPointInArray A a wp = true := by
    rcases hw with rfl | rfl <;> simp [isPointInArray, equal_self]
  have hb : isPointInArray A b wp = true := by
    rcases hw with rfl | rfl <;> simp [isPointInArray, equal_self]
  have hno : ∀ p, Rounded.pointsEqual A p a = false → Rounded.pointsEqual A p b = false → isPointInArray A p wp = false := by
    intro p h1 h2
    rcases hw with rfl | rfl <;> simp [isPointInArray, h1, h2]
  rcases hg with ⟨pre, post, rfl⟩ | ⟨mid, hm, rfl⟩
  · rw [Apart, List.pairwise_append] at hs
    obtain ⟨-, -, h3⟩ := hs
    rw [loop_skip wp _ pre 0 [] none (fun p hp => hno p (h3 p hp a (by simp)).1 (h3 p hp b (by simp)).1) (by simp)]
    simp [List.zipIdx_cons, adjacentLoop, ha, hb]
  · rw [List.cons_append, Apart, List.pairwise_cons, List.pairwise_append] at hs
    obtain ⟨h1, -, -, h3⟩ := hs
    rw [List.cons_append, List.zipIdx_cons]
    simp only [adjacentLoop, hb, if_true, List.nil_append, List.length_singleton]
    rw [if_neg (by norm_num), loop_skip wp [a] mid (0 + 1) [b] (some 0)
      (fun p hp => hno p (h3 p hp a (by simp)).1 (h1 p (by simp [hp])).2) (by simp)]
    have : mid.length ≠ 0 := by simpa using hm
    have h' : ¬ (0 : Int) = mid.length := by omega
    simp [List.zipIdx_cons, adjacentLoop, ha, h']

/-- Neighbours in a list, the last and the first element being neighbours, too. -/
theorem neighbours {l : List (Vec3 ℝ)} {i n : ℕ} (hn : l.length = n) (h3 : 3 ≤ n) (hi : i < n) {f g : Vec3 ℝ} (hf : l[i]? = some f)
    (hg : l[if i + 1 ≥ n then 0 else i + 1]? = some g) :
    (∃ pre post, l = pre ++ f :: g :: post) ∨ (∃ mid, mid ≠ [] ∧ l = g :: mid ++ [f]) := by
  obtain ⟨hi', rfl⟩ := List.getElem?_eq_some_iff.1 hf
  by_cases h : i + 1 ≥ n
  · rw [if_pos h] at hg
    right
    obtain ⟨h0, rfl⟩ := List.getElem?_eq_some_iff.1 hg
    have e1 : l = l.take i ++ [l[i]] := by
      conv_lhs => rw [← List.take_append_drop i l, List.drop_eq_getElem_cons hi', List.drop_eq_nil_of_le (by omega)]
    have e2 : l.take i = l[0] :: (l.take i).tail := by
      have h0' : 0 < (l.take i).length := by rw [List.length_take]; omega
      rw [← List.drop_one, ← List.getElem_take (h := h0'), ← List.drop_eq_getElem_cons h0', List.drop_zero]
    refine ⟨(l.take i).tail, ?_, ?_⟩
    · intro hc
      have := congrArg List.length hc
      simp only [List.length_tail, List.length_take, List.length_nil] at this
      omega
    · rw [← e2]
      exact e1
  · rw [if_neg h] at hg
    obtain ⟨hj, rfl⟩ := List.getElem?_eq_some_iff.1 hg
    exact .inl ⟨l.take i, l.drop (i + 2), by
      conv_lhs => rw [← List.take_append_drop i l, List.drop_eq_getElem_cons hi', List.drop_eq_getElem_cons hj]⟩

open Classical in
/-- Corners of the floor are told apart. -/
theorem corners_apart (plan : List (ℝ × ℝ)) (height : ℝ) (t : Vec3 ℝ) (phi : ℝ) {M : ℝ} (hplan : plan ≠ [])
    (hM : ∀ p ∈ plan, |p.1| ≤ M ∧ |p.2| ≤ M) (hM0 : 1 / 10 ^ 6 ≤ M) (hh : |height| ≤ M) (ht : |t.x| ≤ M ∧ |t.y| ≤ M ∧ |t.z| ≤ M)
    (hphi : phi = 0 ∨ 2 / 10 ^ 8 ≤ |phi|) (hphi' : |phi| ≤ 10)
    (ht' : t = 0 ∨ 2 / 10 ^ 8 ≤ |t.x| ∨ 2 / 10 ^ 8 ≤ |t.y| ∨ 2 / 10 ^ 8 ≤ |t.z|)
    (hd : plan.Pairwise fun p q => (5 / 10 ^ 5 * M) ^ 2 ≤ (p.1 - q.1) ^ 2 + (p.2 - q.2) ^ 2) {F C : List (Vec3 ℝ)} {z0 : ℝ}
    (h : planPoints A S plan height t phi = .ok (F, C, z0)) : Apart A F := by
  obtain ⟨F', C', z', e, l1, l2, -, hk⟩ := C136_positions (A := A) (S := S) plan height t phi hplan hM hh ht hphi hphi' ht'
  obtain ⟨rfl, e'⟩ := Prod.mk.inj (Except.ok.inj (h.symm.trans e))
  obtain ⟨rfl, rfl⟩ := Prod.mk.inj e'
  have hs := Real.abs_sin_le_one phi
  have hco := Real.abs_cos_le_one phi
  have hone := Real.sin_sq_add_cos_sq phi
  have near : ∀ i (hi : i < F.length) (hp : i < plan.length),
      |F[i].x - (Real.cos phi * plan[i].1 - Real.sin phi * plan[i].2 + t.x)| ≤ 1 / 10 ^ 12 * M ∧
      |F[i].y - (Real.sin phi * plan[i].1 + Real.cos phi * plan[i].2 + t.y)| ≤ 1 / 10 ^ 12 * M ∧
      |F[i].x| ≤ 301 / 100 * M ∧ |F[i].y| ≤ 301 / 100 * M := by
    intro i hi hp
    have k := hk i plan[i] F[i] (C[i]'(by omega)) (List.getElem?_eq_getElem hp) (List.getElem?_eq_getElem hi)
      (List.getElem?_eq_getElem (by omega))
    have b := hM plan[i] (List.getElem_mem hp)
    have r := turned_le hs hco b.1 b.2
    refine ⟨k.1, k.2.1, (abs_le_of_near k.1 ((abs_add_le _ _).trans (add_le_add r.1 ht.1))).trans (by linarith),
      (abs_le_of_near k.2.1 ((abs_add_le _ _).trans (add_le_add r.2 ht.2.1))).trans (by linarith)⟩
  have key : ∀ i j (hi : i < F.length) (hj : j < F.length) (hpi : i < plan.length) (hpj : j < plan.length),
      (5 / 10 ^ 5 * M) ^ 2 ≤ (plan[i].1 - plan[j].1) ^ 2 + (plan[i].2 - plan[j].2) ^ 2 →
      Rounded.pointsEqual A F[i] F[j] = false := by
    intro i j hi hj hpi hpj hdist
    obtain ⟨x1, y1, -, -⟩ := near i hi hpi
    obtain ⟨x2, y2, bx, byy⟩ := near j hj hpj
    refine decide_eq_false fun hc => ?_
    have cx := le_of_isClose A (by norm_num [NP_RTOL]) (by norm_num [GEOM_ATOL]) hc.1
    have cy := le_of_isClose A (by norm_num [NP_RTOL]) (by norm_num [GEOM_ATOL]) hc.2.1
    unfold NP_RTOL GEOM_ATOL at cx cy
    generalize F[i] = f at *
    generalize F[j] = g at *
    generalize plan[i] = p at *
    generalize plan[j] = q at *
    generalize Real.sin phi = s at *
    generalize Real.cos phi = c at *
    have dx : |c * (p.1 - q.1) - s * (p.2 - q.2)| ≤ 33 / 10 ^ 6 * M := by
      rw [abs_le] at x1 x2 cx ⊢
      constructor <;> linarith
    have dy : |s * (p.1 - q.1) + c * (p.2 - q.2)| ≤ 33 / 10 ^ 6 * M := by
      rw [abs_le] at y1 y2 cy ⊢
      constructor <;> linarith
    have sq : ∀ a : ℝ, |a| ≤ 33 / 10 ^ 6 * M → a ^ 2 ≤ (33 / 10 ^ 6 * M) ^ 2 := fun a ha => sq_le_sq' (by linarith [(abs_le.1 ha).1])
      (abs_le.1 ha).2
    have e : (c * (p.1 - q.1) - s * (p.2 - q.2)) ^ 2 + (s * (p.1 - q.1) + c * (p.2 - q.2)) ^ 2 =
        (p.1 - q.1) ^ 2 + (p.2 - q.2) ^ 2 := by
      linear_combination ((p.1 - q.1) ^ 2 + (p.2 - q.2) ^ 2) * hone
    have s1 := sq _ dx
    have s2 := sq _ dy
    have hpos : 0 < M ^ 2 := by positivity
    nlinarith
  rw [Apart, List.pairwise_iff_getElem]
  intro i j hi hj hij
  have := List.pairwise_iff_getElem.1 hd i j (by omega) (by omega) hij
  exact ⟨key i j hi hj (by omega) (by omega) this, key j i hj hi (by omega) (by omega) (by nlinarith)⟩

/-- **C136, direction of the walls.**  With 64-bit numbers, for plans of at least three corners with coordinates up to `M` and at
least 5e-5 times `M` apart, under the conditions on height, translation and angle above: a side wall whose corners are in the order of
the plan is turned round if the polygon of the floor has its corners in the order of the plan, and it is kept if the polygon of the
floor has them in the opposite order. -/
theorem C136_direction (plan : List (ℝ × ℝ)) (height : ℝ) (t : Vec3 ℝ) (phi : ℝ) {M : ℝ} (hn : 3 ≤ plan.length)
    (hM : ∀ p ∈ plan, |p.1| ≤ M ∧ |p.2| ≤ M) (hM0 : 1 / 10 ^ 6 ≤ M) (hh : |height| ≤ M) (ht : |t.x| ≤ M ∧ |t.y| ≤ M ∧ |t.z| ≤ M)
    (hphi : phi = 0 ∨ 2 / 10 ^ 8 ≤ |phi|) (hphi' : |phi| ≤ 10)
    (ht' : t = 0 ∨ 2 / 10 ^ 8 ≤ |t.x| ∨ 2 / 10 ^ 8 ≤ |t.y| ∨ 2 / 10 ^ 8 ≤ |t.z|)
    (hd : plan.Pairwise fun p q => (5 / 10 ^ 5 * M) ^ 2 ≤ (p.1 - q.1) ^ 2 + (p.2 - q.2) ^ 2) (hfh : fl height = height)
    (hft : fl t.z = t.z) (h0 : height ≠ 0) (hfar : |t.z| ≤ 10 ^ 14 * |height|) {F C : List (Vec3 ℝ)} {z0 : ℝ}
    (h : planPoints binary S plan height t phi = .ok (F, C, z0)) {i : ℕ} {w : List (Vec3 ℝ)}
    (hw : (Solids.sideOutlines F C plan.length)[i]? = some w) :
    directionOk binary w F z0 = .ok false ∧ directionOk binary w F.reverse z0 = .ok true := by
  have hplan : plan ≠ [] := by rintro rfl; simp at hn
  have hi : i < plan.length := by
    obtain ⟨hi, -⟩ := List.getElem?_eq_some_iff.1 hw
    simpa [Solids.sideOutlines] using hi
  have hs := corners_apart plan height t phi hplan hM hM0 hh ht hphi hphi' ht' hd h
  have hl : F.length = plan.length := by
    obtain ⟨F', C', z', e, l1, -⟩ := C136_upright (S := S) plan height t phi hplan hfh hft
    obtain ⟨rfl, -⟩ := Prod.mk.inj (Except.ok.inj (h.symm.trans e))
    exact l1
  obtain ⟨f, g, c, d, hf, hg, hw', hb, -⟩ := C136_bottom plan height t phi hfh hft h0 hfar h i hi
  obtain rfl := Option.some.inj (hw.symm.trans hw')
  have hnb := neighbours hl hn hi hf hg
  have hpair : Rounded.pointsEqual binary f g = false := by
    rcases hnb with ⟨pre, post, e⟩ | ⟨mid, hm, e⟩
    · rw [e, Apart, List.pairwise_append] at hs
      exact ((List.pairwise_cons.1 hs.2.1).1 _ List.mem_cons_self).1
    · rw [e, List.cons_append, Apart, List.pairwise_cons] at hs
      exact (hs.1 f (by simp)).2
  constructor
  · have hadj : adjacentLoop binary [f, g] F.zipIdx [] none = [f, g] := loop_edge hs (.inl rfl) hnb
    simp only [directionOk, hb]
    rw [hadj]
    simp [hpair]
  · have hadj : adjacentLoop binary [f, g] F.reverse.zipIdx [] none = [g, f] := by
      apply loop_edge hs.reverse (.inr rfl)
      rcases hnb with ⟨pre, post, e⟩ | ⟨mid, hm, e⟩
      · exact .inl ⟨post.reverse, pre.reverse, by rw [e]; simp⟩
      · exact .inr ⟨mid.reverse, by simpa using hm, by rw [e]; simp⟩
    simp only [directionOk, hb]
    rw [hadj]
    simp [equal_self]

/-- The rectangular plan again: its last wall. -/
example : ∃ F C z0 w, planPoints binary S [(0, 0), (4, 0), (4, 3), (0, 3)] 3 ⟨1, 2, 3⟩ (1 / 2) = .ok (F, C, z0) ∧
    (Solids.sideOutlines F C 4)[3]? = some w ∧ directionOk binary w F z0 = .ok false ∧ directionOk binary w F.reverse z0 = .ok true := by
  have h3 : fl 3 = 3 := by dyadic (-51) 6755399441055744
  obtain ⟨F, C, z0, h, -⟩ := C136_upright (S := S) [(0, 0), (4, 0), (4, 3), (0, 3)] 3 ⟨1, 2, 3⟩ (1 / 2) (by simp) h3 h3
  have hw : (Solids.sideOutlines F C 4)[3]? = some ((Solids.sideOutlines F C 4)[3]'(by simp [Solids.sideOutlines])) :=
    List.getElem?_eq_getElem _
  exact ⟨F, C, z0, _, h, hw, C136_direction [(0, 0), (4, 0), (4, 3), (0, 3)] 3 ⟨1, 2, 3⟩ (1 / 2) (M := 4) (by decide)
    (by simp only [List.mem_cons, List.not_mem_nil, or_false]; rintro p (rfl | rfl | rfl | rfl) <;> norm_num) (by norm_num) (by norm_num)
    (by norm_num) (.inr (by rw [abs_of_pos] <;> norm_num)) (by rw [abs_of_pos] <;> norm_num) (.inr (.inl (by norm_num)))
    (by norm_num) h3 h3 (by norm_num) (by norm_num) h hw⟩

end B3d.RotationRounded
