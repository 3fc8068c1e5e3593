import Verif.Proofs.RoundedRotation
import Verif.Proofs.RoundedNanArea
import Verif.Props.Rotation

/-!
# Property C135: rotation with rounding errors

C28 once more, with rounded arithmetic and a sine that is at most 1e-15 off: what the rotated points have to do with the
points of an exact rotation.
-/

namespace B3d.RotationRounded

open Rounded Rotation

variable {A : Arith} {S : Sine}

theorem accepts {u : Vec3 ℝ} (hu : |Vec3.norm u - 1| ≤ 1 / 10 ^ 6) : Rounded.isClose A (A.norm u) 1 NP_RTOL NP_ATOL := by
  have h := A.norm_err u
  have h0 := abs_le.1 hu
  refine isClose_of A (by norm_num [NP_RTOL]) (by norm_num [NP_ATOL]) ?_
  have e : A.norm u - 1 = (A.norm u - Vec3.norm u) + (Vec3.norm u - 1) := by ring
  rw [e, abs_one]
  refine (abs_add_le _ _).trans ?_
  unfold NP_RTOL NP_ATOL
  linarith

/-- **C135, axes.**  With rounded arithmetic, a rotation (by an angle of at least 1e-12) around an axis whose length is at most 1e-6
from one is carried out, and around an axis of at least 1e-12 whose length is more than 2e-5 from one it is refused with an
`AssertionError`. -/
theorem C135_axes (pts : List (Vec3 ℝ)) (u : Vec3 ℝ) (phi : ℝ) (hphi : 1 / 10 ^ 12 ≤ |phi|) :
    (|Vec3.norm u - 1| ≤ 1 / 10 ^ 6 → ∃ r, rotatePointsAroundVector A S pts u phi = .ok r) ∧
      (1 / 10 ^ 12 ≤ Vec3.norm u → 2 / 10 ^ 5 < |Vec3.norm u - 1| →
        rotatePointsAroundVector A S pts u phi = .error .assertionError) := by
  have hn := A.norm_err u
  have hl := abs_le.1 (A.lit_err GEOM_ATOL)
  have hg : |(GEOM_ATOL : ℝ)| = 1 / 10 ^ 13 := by rw [abs_of_pos (by norm_num [GEOM_ATOL])]; rfl
  rw [hg] at hl
  have hg' : (GEOM_ATOL : ℝ) = 1 / 10 ^ 13 := rfl
  rw [hg'] at hl
  have big : 1 / 10 ^ 12 ≤ Vec3.norm u → ¬ (A.norm u < A.lit GEOM_ATOL ∨ |phi| < A.lit GEOM_ATOL) := by
    intro h
    have := abs_le.1 hn
    rw [hg', not_or, not_lt, not_lt]
    constructor <;> linarith
  constructor
  · intro hu
    have h0 := abs_le.1 hu
    unfold rotatePointsAroundVector rotationMatrix
    rw [if_neg (big (by linarith)), if_pos (accepts hu)]
    exact ⟨_, rfl⟩
  · intro hu hb
    unfold rotatePointsAroundVector rotationMatrix
    rw [if_neg (big hu), if_neg]
    intro hc
    have h1 := le_of_isClose A (by norm_num [NP_RTOL]) (by norm_num [NP_ATOL]) hc
    rw [abs_one] at h1
    unfold NP_RTOL NP_ATOL at h1
    have h2 := abs_le.1 h1
    have h3 := abs_le.1 hn
    have h4 : |Vec3.norm u - 1| ≤ 2 / 10 ^ 5 := by
      rw [abs_le]
      constructor <;> linarith
    linarith

/-- Axis (0, 0, 2), quarter turn: refused. -/
example : rotatePointsAroundVector A S [⟨1, 0, 0⟩] ⟨0, 0, 2⟩ (3 / 2) = .error .assertionError := by
  have h : Vec3.norm (⟨0, 0, 2⟩ : Vec3 ℝ) = 2 := by
    rw [Vec3.norm, Vec3.normSq_def, show (0 : ℝ) * 0 + 0 * 0 + 2 * 2 = 2 ^ 2 by norm_num]
    exact Real.sqrt_sq (by norm_num)
  refine (C135_axes _ _ _ (by rw [abs_of_pos] <;> norm_num)).2 ?_ ?_ <;> rw [h]
  · norm_num
  · rw [abs_of_pos] <;> norm_num

theorem coord_le {u : Vec3 ℝ} (hu : |Vec3.norm u - 1| ≤ 1 / 10 ^ 6) :
    |u.x| ≤ 1001 / 1000 ∧ |u.y| ≤ 1001 / 1000 ∧ |u.z| ≤ 1001 / 1000 := by
  have h0 := abs_le.1 hu
  have h1 := Vec3.norm_sq u
  rw [Vec3.normSq_def] at h1
  have h2 : Vec3.norm u ^ 2 ≤ (1001 / 1000) ^ 2 := by
    apply pow_le_pow_left₀ (Vec3.norm_nonneg u); linarith
  have key : ∀ x : ℝ, x * x ≤ Vec3.norm u ^ 2 → |x| ≤ 1001 / 1000 := fun x hx =>
    abs_le_of_sq_le_sq (by rw [pow_two x]; exact hx.trans h2) (by norm_num)
  refine ⟨key _ ?_, key _ ?_, key _ ?_⟩ <;> nlinarith [mul_self_nonneg u.x, mul_self_nonneg u.y, mul_self_nonneg u.z]

/-- The entries of the matrix. -/
theorem matrix_err {u : Vec3 ℝ} {phi : ℝ} (hu : |Vec3.norm u - 1| ≤ 1 / 10 ^ 6) (hphi : |phi| ≤ 10) :
    ∃ R R', Rotation.rotationMatrix u phi = .ok R ∧ rotationMatrix A S u phi = .ok R' ∧
      (UpTo (81 / 10) R.r0 ∧ UpTo (81 / 10) R.r1 ∧ UpTo (81 / 10) R.r2) ∧
      UpTo (135 / 10 ^ 15) (R'.r0 - R.r0) ∧ UpTo (135 / 10 ^ 15) (R'.r1 - R.r1) ∧ UpTo (135 / 10 ^ 15) (R'.r2 - R.r2) := by
  obtain ⟨hx, hy, hz⟩ := coord_le hu
  have hs := S.err phi
  have hs1 := Real.abs_sin_le_one phi
  have hk := factor_err (A := A) (S := S) hphi
  have hk2 : |2 * Real.sin (phi / 2) ^ 2| ≤ 2 := by
    rw [abs_mul, abs_two, abs_pow]
    have := pow_le_one₀ (n := 2) (abs_nonneg _) (Real.abs_sin_le_one (phi / 2))
    linarith
  have hex : B3d.isClose (Vec3.norm u) 1 NP_RTOL NP_ATOL := by
    unfold B3d.isClose NP_RTOL NP_ATOL
    rw [abs_one]
    linarith
  have h0 : |(0 : ℝ)| ≤ 1001 / 1000 := by norm_num
  have hx' : |-u.x| ≤ 1001 / 1000 := by rwa [abs_neg]
  have hy' : |-u.y| ≤ 1001 / 1000 := by rwa [abs_neg]
  have hz' : |-u.z| ≤ 1001 / 1000 := by rwa [abs_neg]
  have e0 : |(0 : ℝ)| ≤ 1 := by norm_num
  have e1 : |(1 : ℝ)| ≤ 1 := by norm_num
  have r0 : UpTo (1001 / 1000) (⟨0, -u.z, u.y⟩ : Vec3 ℝ) := ⟨h0, hz', hy⟩
  have r1 : UpTo (1001 / 1000) (⟨u.z, 0, -u.x⟩ : Vec3 ℝ) := ⟨hz, h0, hx'⟩
  have r2 : UpTo (1001 / 1000) (⟨-u.y, u.x, 0⟩ : Vec3 ℝ) := ⟨hy', hx, h0⟩
  have c0 : UpTo (1001 / 1000) (⟨0, u.z, -u.y⟩ : Vec3 ℝ) := ⟨h0, hz, hy'⟩
  have c1 : UpTo (1001 / 1000) (⟨-u.z, 0, u.x⟩ : Vec3 ℝ) := ⟨hz', h0, hx⟩
  have c2 : UpTo (1001 / 1000) (⟨u.y, -u.x, 0⟩ : Vec3 ℝ) := ⟨hy, hx', h0⟩
  have E : ∀ {e w : ℝ} {a b : Vec3 ℝ}, |e| ≤ 1 → |w| ≤ 1001 / 1000 → UpTo (1001 / 1000) a → UpTo (1001 / 1000) b → _ :=
    fun {e w a b} he hw ha hb => entry_err (A := A) he hs hs1 hk hk2 hw (square_err (A := A) ha hb).1 (square_err (A := A) ha hb).2
  unfold Rotation.rotationMatrix rotationMatrix
  rw [if_pos hex, if_pos (accepts hu)]
  refine ⟨_, _, rfl, rfl, ⟨⟨?_, ?_, ?_⟩, ⟨?_, ?_, ?_⟩, ⟨?_, ?_, ?_⟩⟩, ⟨?_, ?_, ?_⟩, ⟨?_, ?_, ?_⟩, ⟨?_, ?_, ?_⟩⟩
  · exact (E e1 h0 r0 c0).2
  · exact (E e0 hz' r0 c1).2
  · exact (E e0 hy r0 c2).2
  · exact (E e0 hz r1 c0).2
  · exact (E e1 h0 r1 c1).2
  · exact (E e0 hx' r1 c2).2
  · exact (E e0 hy' r2 c0).2
  · exact (E e0 hx r2 c1).2
  · exact (E e1 h0 r2 c2).2
  · exact (E e1 h0 r0 c0).1
  · exact (E e0 hz' r0 c1).1
  · exact (E e0 hy r0 c2).1
  · exact (E e0 hz r1 c0).1
  · exact (E e1 h0 r1 c1).1
  · exact (E e0 hx' r1 c2).1
  · exact (E e0 hy' r2 c0).1
  · exact (E e0 hx r2 c1).1
  · exact (E e1 h0 r2 c2).1

/-- **C135, positions.**  With rounded arithmetic, for an axis whose length is at most 1e-6 from one and an angle between 1e-12 and 10
radians (or minus that): `rotate_points_around_vector` returns as many points as it got, in the same order, and each is in every
coordinate at most 6e-13 times the greatest coordinate from the exactly rotated point. -/
theorem C135_positions (pts : List (Vec3 ℝ)) (u : Vec3 ℝ) (phi : ℝ) {M : ℝ} (hu : |Vec3.norm u - 1| ≤ 1 / 10 ^ 6)
    (hphi : 1 / 10 ^ 12 ≤ |phi|) (hphi' : |phi| ≤ 10) (hM : ∀ p ∈ pts, |p.x| ≤ M ∧ |p.y| ≤ M ∧ |p.z| ≤ M) :
    ∃ R R' pts', Rotation.rotationMatrix u phi = .ok R ∧ rotatePointsAroundVector A S pts u phi = .ok (pts', R') ∧
      pts'.length = pts.length ∧
      ∀ (i : ℕ) (p p' : Vec3 ℝ), pts[i]? = some p → pts'[i]? = some p' →
        |p'.x - (apply R p).x| ≤ 6 / 10 ^ 13 * M ∧ |p'.y - (apply R p).y| ≤ 6 / 10 ^ 13 * M ∧
          |p'.z - (apply R p).z| ≤ 6 / 10 ^ 13 * M := by
  obtain ⟨R, R', h1, h2, ⟨b0, b1, b2⟩, d0, d1, d2⟩ := matrix_err (A := A) (S := S) hu hphi'
  have hn := abs_le.1 (A.norm_err u)
  have h0 := abs_le.1 hu
  have hl := abs_le.1 (A.lit_err GEOM_ATOL)
  have hg : |(GEOM_ATOL : ℝ)| = 1 / 10 ^ 13 := by rw [abs_of_pos (by norm_num [GEOM_ATOL])]; rfl
  have hg' : (GEOM_ATOL : ℝ) = 1 / 10 ^ 13 := rfl
  rw [hg, hg'] at hl
  have big : ¬ (A.norm u < A.lit GEOM_ATOL ∨ |phi| < A.lit GEOM_ATOL) := by
    rw [hg', not_or, not_lt, not_lt]
    constructor <;> linarith
  refine ⟨R, R', rotatePoints A pts R', h1, ?_, by simp [rotatePoints], ?_⟩
  · unfold rotatePointsAroundVector
    rw [if_neg big, h2]
  · intro i p p' hp hp'
    simp only [rotatePoints, List.getElem?_map, hp, Option.map_some, Option.some.injEq] at hp'
    subst hp'
    have hb := hM p (List.mem_of_getElem? hp)
    exact ⟨coordinate_err hb b0 d0, coordinate_err hb b1 d1, coordinate_err hb b2 d2⟩

theorem norm_near {a b : Vec3 ℝ} {e : ℝ} (hx : |a.x - b.x| ≤ e) (hy : |a.y - b.y| ≤ e) (hz : |a.z - b.z| ≤ e) :
    Vec3.norm (a - b) ≤ 2 * e := by
  have he : 0 ≤ e := (abs_nonneg _).trans hx
  have h := Vec3.norm_sq (a - b)
  rw [Vec3.normSq_def] at h
  simp only [Vec3.sub_x, Vec3.sub_y, Vec3.sub_z] at h
  have sq : ∀ t : ℝ, |t| ≤ e → t * t ≤ e * e := fun t ht => by
    have := mul_self_le_mul_self (abs_nonneg t) ht
    rwa [abs_mul_abs_self] at this
  have h1 := sq _ hx
  have h2 := sq _ hy
  have h3 := sq _ hz
  refine le_of_sq_le_sq ?_ (by linarith)
  nlinarith

/-- **C135, distances.**  With rounded arithmetic, for a unit axis and an angle between 1e-12 and 10 radians (or minus that): the
distance of two rotated points is at most 2.4e-12 times the greatest coordinate from the distance of the two points. -/
theorem C135_distances (pts : List (Vec3 ℝ)) (u : Vec3 ℝ) (phi : ℝ) {M : ℝ} (hu : Vec3.norm u = 1)
    (hphi : 1 / 10 ^ 12 ≤ |phi|) (hphi' : |phi| ≤ 10) (hM : ∀ p ∈ pts, |p.x| ≤ M ∧ |p.y| ≤ M ∧ |p.z| ≤ M) :
    ∃ R' pts', rotatePointsAroundVector A S pts u phi = .ok (pts', R') ∧ pts'.length = pts.length ∧
      ∀ (i j : ℕ) (p p' q q' : Vec3 ℝ), pts[i]? = some p → pts'[i]? = some p' → pts[j]? = some q → pts'[j]? = some q' →
        |Vec3.norm (p' - q') - Vec3.norm (p - q)| ≤ 24 / 10 ^ 13 * M := by
  obtain ⟨R, R', pts', h1, h2, h3, h4⟩ := C135_positions (A := A) (S := S) pts u phi (by rw [hu]; norm_num) hphi hphi' hM
  refine ⟨R', pts', h2, h3, fun i j p p' q q' hp hp' hq hq' => ?_⟩
  obtain ⟨R0, k1, k2⟩ := C28_rotation u phi hu
  obtain rfl : R0 = R := Except.ok.inj (k1.symm.trans h1)
  obtain ⟨x1, y1, z1⟩ := h4 i p p' hp hp'
  obtain ⟨x2, y2, z2⟩ := h4 j q q' hq hq'
  have n1 := norm_near x1 y1 z1
  have n2 := norm_near x2 y2 z2
  rw [← norm_apply k2 (p - q), apply_sub]
  generalize apply R0 p = P at *
  generalize apply R0 q = Q at *
  have t1 : Vec3.norm (p' - q') ≤ Vec3.norm (P - Q) + (Vec3.norm (p' - P) + Vec3.norm (q' - Q)) := by
    have a1 := Vec3.norm_add_le (P - Q) ((p' - P) + (Q - q'))
    have a2 := Vec3.norm_add_le (p' - P) (Q - q')
    have a3 : P - Q + (p' - P + (Q - q')) = p' - q' := by ext <;> simp only [Vec3.add_x, Vec3.add_y, Vec3.add_z, Vec3.sub_x, Vec3.sub_y, Vec3.sub_z] <;> ring
    rw [a3] at a1
    rw [Vec3.norm_sub_comm q' Q]
    linarith
  have t2 : Vec3.norm (P - Q) ≤ Vec3.norm (p' - q') + (Vec3.norm (p' - P) + Vec3.norm (q' - Q)) := by
    have a1 := Vec3.norm_add_le (p' - q') ((P - p') + (q' - Q))
    have a2 := Vec3.norm_add_le (P - p') (q' - Q)
    have a3 : p' - q' + (P - p' + (q' - Q)) = P - Q := by ext <;> simp only [Vec3.add_x, Vec3.add_y, Vec3.add_z, Vec3.sub_x, Vec3.sub_y, Vec3.sub_z] <;> ring
    rw [a3] at a1
    rw [Vec3.norm_sub_comm p' P]
    linarith
  rw [abs_le]
  constructor <;> linarith

/-- **C135, heights.**  With 64-bit numbers, points turned around the vertical axis keep their heights, exactly: the floor and the
ceiling of a floor plan stay level. -/
theorem C135_heights (pts : List (Vec3 ℝ)) (phi : ℝ) (hphi : 1 / 10 ^ 12 ≤ |phi|) (hz : ∀ p ∈ pts, fl p.z = p.z) :
    ∃ R' pts', rotatePointsAroundVector binary S pts ⟨0, 0, 1⟩ phi = .ok (pts', R') ∧
      pts'.map (fun p => p.z) = pts.map fun p => p.z := by
  have hone : Vec3.norm (⟨0, 0, 1⟩ : Vec3 ℝ) = 1 := by
    rw [Vec3.norm, Vec3.normSq_def, show (0 : ℝ) * 0 + 0 * 0 + 1 * 1 = 1 by norm_num, Real.sqrt_one]
  obtain ⟨⟨pts', R'⟩, h⟩ := (C135_axes (A := binary) (S := S) pts ⟨0, 0, 1⟩ phi hphi).1 (by rw [hone]; norm_num)
  refine ⟨R', pts', h, ?_⟩
  have h1 : fl 1 = 1 := by dyadic (-52) 4503599627370496
  unfold rotatePointsAroundVector at h
  split at h
  · next hc =>
    obtain ⟨rfl, -⟩ := Prod.mk.inj (Except.ok.inj h)
    rfl
  · split at h
    · cases h
    · next R hR =>
      obtain ⟨rfl, rfl⟩ := Prod.mk.inj (Except.ok.inj h)
      unfold rotationMatrix at hR
      split at hR
      · obtain rfl := Except.ok.inj hR
        rw [rotatePoints, List.map_map]
        apply List.map_congr_left
        intro p hp
        simp [times, row, binary, bdot, Mat3.transpose, fl_zero, h1, hz p hp]
      · cases hR

/-- The points of a floor and a ceiling, turned by half a radian. -/
example : ∃ R' pts', rotatePointsAroundVector binary S [⟨1, 2, 0⟩, ⟨4, 2, 0⟩, ⟨1, 2, 3⟩] ⟨0, 0, 1⟩ (1 / 2) = .ok (pts', R') ∧
    pts'.map (fun p => p.z) = [0, 0, 3] :=
  C135_heights _ _ (by rw [abs_of_pos] <;> norm_num) (by
    have h3 : fl 3 = 3 := by dyadic (-51) 6755399441055744
    simp [fl_zero, h3])

/-- The same points, turned around a slanted axis: at most 2.4e-12 off. -/
example : ∃ R R' pts', Rotation.rotationMatrix ⟨3 / 5, 0, 4 / 5⟩ 2 = .ok R ∧
    rotatePointsAroundVector A S [⟨1, 2, 0⟩, ⟨4, 2, 0⟩, ⟨1, 2, 3⟩] ⟨3 / 5, 0, 4 / 5⟩ 2 = .ok (pts', R') ∧ pts'.length = 3 ∧
      ∀ p', pts'[1]? = some p' → |p'.x - (apply R ⟨4, 2, 0⟩).x| ≤ 6 / 10 ^ 13 * 4 := by
  have hone : Vec3.norm (⟨3 / 5, 0, 4 / 5⟩ : Vec3 ℝ) = 1 := by
    rw [Vec3.norm, Vec3.normSq_def, show (3 / 5 : ℝ) * (3 / 5) + 0 * 0 + 4 / 5 * (4 / 5) = 1 by norm_num, Real.sqrt_one]
  obtain ⟨R, R', pts', h1, h2, h3, h4⟩ := C135_positions (A := A) (S := S) [⟨1, 2, 0⟩, ⟨4, 2, 0⟩, ⟨1, 2, 3⟩] ⟨3 / 5, 0, 4 / 5⟩ 2
    (M := 4) (by rw [hone]; norm_num) (by norm_num) (by norm_num) (by
      simp only [List.mem_cons, List.not_mem_nil, or_false]
      rintro p (rfl | rfl | rfl) <;> norm_num)
  exact ⟨R, R', pts', h1, h2, h3, fun p' hp' => (h4 1 _ p' rfl hp').1⟩

end B3d.RotationRounded
