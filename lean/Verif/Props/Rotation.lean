import Verif.Model.Rotation
import Verif.Proofs.Tactics

/-! # Properties C28, C29: rotation -/

namespace B3d.Rotation

open B3d.Points (pointsEqual)
open B3d.Polygon (normal)

/-! ## Specification -/

/-- The matrix applied to a column vector. -/
def apply (R : Mat3) (p : Vec3 ℝ) : Vec3 ℝ := ⟨Vec3.dot R.r0 p, Vec3.dot R.r1 p, Vec3.dot R.r2 p⟩

/-- Determinant. -/
def det (R : Mat3) : ℝ := Vec3.dot R.r0 (Vec3.cross R.r1 R.r2)

/-- A rotation: orthogonal with determinant one. -/
structure IsRotation (R : Mat3) : Prop where
  left : Mat3.mul R.transpose R = Mat3.one
  right : Mat3.mul R R.transpose = Mat3.one
  det : det R = 1

/-! ## Helper facts -/

/-- The matrix of the code for exact unit axes, in the usual form. -/
noncomputable def rod (u : Vec3 ℝ) (s c : ℝ) : Mat3 :=
  ⟨⟨c + (1 - c) * (u.x * u.x), (1 - c) * (u.x * u.y) - s * u.z, (1 - c) * (u.x * u.z) + s * u.y⟩,
   ⟨(1 - c) * (u.y * u.x) + s * u.z, c + (1 - c) * (u.y * u.y), (1 - c) * (u.y * u.z) - s * u.x⟩,
   ⟨(1 - c) * (u.z * u.x) - s * u.y, (1 - c) * (u.z * u.y) + s * u.x, c + (1 - c) * (u.z * u.z)⟩⟩

theorem unit_normSq {u : Vec3 ℝ} (hu : Vec3.norm u = 1) :
    u.x * u.x + u.y * u.y + u.z * u.z = 1 := by
  have := Vec3.norm_sq u
  rw [hu, Vec3.normSq_def] at this
  linarith

theorem isClose_one {x : ℝ} (h : x = 1) : isClose x 1 NP_RTOL NP_ATOL := by
  subst h
  unfold isClose NP_RTOL NP_ATOL
  norm_num

theorem rotationMatrix_eq {u : Vec3 ℝ} (hu : Vec3.norm u = 1) (phi : ℝ) :
    rotationMatrix u phi = .ok (rod u (Real.sin phi) (Real.cos phi)) := by
  have h1 := unit_normSq hu
  have h2 : 2 * Real.sin (phi / 2) ^ 2 = 1 - Real.cos phi := by
    have h3 := Real.cos_two_mul (phi / 2)
    have h4 := Real.sin_sq_add_cos_sq (phi / 2)
    rw [show 2 * (phi / 2) = phi by ring] at h3
    linarith
  unfold rotationMatrix
  rw [if_pos (isClose_one hu), h2]
  simp only [Except.ok.injEq]
  generalize Real.sin phi = s
  generalize Real.cos phi = c
  ext <;>
    simp only [Mat3.add, Mat3.one, Mat3.smul, Mat3.mul, Mat3.vecMul, Mat3.transpose, rod, Vec3.dot,
      Vec3.add_x, Vec3.add_y, Vec3.add_z, Vec3.smul_x, Vec3.smul_y, Vec3.smul_z]
  · linear_combination (-(1 - c)) * h1
  · ring
  · ring
  · ring
  · linear_combination (-(1 - c)) * h1
  · ring
  · ring
  · ring
  · linear_combination (-(1 - c)) * h1

theorem rod_rotation {u : Vec3 ℝ} (h1 : u.x * u.x + u.y * u.y + u.z * u.z = 1) {s c : ℝ}
    (h2 : s ^ 2 + c ^ 2 = 1) : IsRotation (rod u s c) := by
  constructor
  · ext <;> simp only [Mat3.one, Mat3.mul, Mat3.vecMul, Mat3.transpose, rod, Vec3.dot]
    · linear_combination (1 - u.x * u.x) * h2 + (s ^ 2 + (1 - c) ^ 2 * (u.x * u.x)) * h1
    · linear_combination (-(u.x * u.y)) * h2 + ((1 - c) ^ 2 * (u.x * u.y)) * h1
    · linear_combination (-(u.x * u.z)) * h2 + ((1 - c) ^ 2 * (u.x * u.z)) * h1
    · linear_combination (-(u.x * u.y)) * h2 + ((1 - c) ^ 2 * (u.x * u.y)) * h1
    · linear_combination (1 - u.y * u.y) * h2 + (s ^ 2 + (1 - c) ^ 2 * (u.y * u.y)) * h1
    · linear_combination (-(u.y * u.z)) * h2 + ((1 - c) ^ 2 * (u.y * u.z)) * h1
    · linear_combination (-(u.x * u.z)) * h2 + ((1 - c) ^ 2 * (u.x * u.z)) * h1
    · linear_combination (-(u.y * u.z)) * h2 + ((1 - c) ^ 2 * (u.y * u.z)) * h1
    · linear_combination (1 - u.z * u.z) * h2 + (s ^ 2 + (1 - c) ^ 2 * (u.z * u.z)) * h1
  · ext <;> simp only [Mat3.one, Mat3.mul, Mat3.vecMul, Mat3.transpose, rod, Vec3.dot]
    · linear_combination (1 - u.x * u.x) * h2 + (s ^ 2 + (1 - c) ^ 2 * (u.x * u.x)) * h1
    · linear_combination (-(u.x * u.y)) * h2 + ((1 - c) ^ 2 * (u.x * u.y)) * h1
    · linear_combination (-(u.x * u.z)) * h2 + ((1 - c) ^ 2 * (u.x * u.z)) * h1
    · linear_combination (-(u.x * u.y)) * h2 + ((1 - c) ^ 2 * (u.x * u.y)) * h1
    · linear_combination (1 - u.y * u.y) * h2 + (s ^ 2 + (1 - c) ^ 2 * (u.y * u.y)) * h1
    · linear_combination (-(u.y * u.z)) * h2 + ((1 - c) ^ 2 * (u.y * u.z)) * h1
    · linear_combination (-(u.x * u.z)) * h2 + ((1 - c) ^ 2 * (u.x * u.z)) * h1
    · linear_combination (-(u.y * u.z)) * h2 + ((1 - c) ^ 2 * (u.y * u.z)) * h1
    · linear_combination (1 - u.z * u.z) * h2 + (s ^ 2 + (1 - c) ^ 2 * (u.z * u.z)) * h1
  · simp only [det, rod, Vec3.dot, Vec3.cross_x, Vec3.cross_y, Vec3.cross_z]
    linear_combination h2 + (s ^ 2 + (1 - c) * (c ^ 2 +
      s ^ 2 * (u.x * u.x + u.y * u.y + u.z * u.z))) * h1

theorem apply_eq_vecMul (R : Mat3) (p : Vec3 ℝ) : Mat3.vecMul p R.transpose = apply R p := by
  ext <;> simp only [Mat3.vecMul, Mat3.transpose, apply, Vec3.dot] <;> ring

theorem dot_apply {R : Mat3} (h : IsRotation R) (p q : Vec3 ℝ) :
    Vec3.dot (apply R p) (apply R q) = Vec3.dot p q := by
  have h1 := h.left
  rw [Mat3.ext_iff, Vec3.ext_iff, Vec3.ext_iff, Vec3.ext_iff] at h1
  simp only [Mat3.mul, Mat3.vecMul, Mat3.transpose, Mat3.one, Vec3.dot] at h1
  obtain ⟨⟨a1, a2, a3⟩, ⟨b1, b2, b3⟩, c1, c2, c3⟩ := h1
  simp only [apply, Vec3.dot]
  linear_combination p.x * q.x * a1 + p.x * q.y * a2 + p.x * q.z * a3 + p.y * q.x * b1 +
    p.y * q.y * b2 + p.y * q.z * b3 + p.z * q.x * c1 + p.z * q.y * c2 + p.z * q.z * c3

theorem apply_sub (R : Mat3) (p q : Vec3 ℝ) : apply R (p - q) = apply R p - apply R q := by
  ext <;> simp only [apply, Vec3.dot, Vec3.sub_x, Vec3.sub_y, Vec3.sub_z] <;> ring

theorem norm_apply {R : Mat3} (h : IsRotation R) (p : Vec3 ℝ) :
    Vec3.norm (apply R p) = Vec3.norm p := by
  unfold Vec3.norm Vec3.normSq
  rw [dot_apply h]

theorem rod_apply {u : Vec3 ℝ} (s c : ℝ) (v : Vec3 ℝ) :
    apply (rod u s c) v = c • v + s • Vec3.cross u v + ((1 - c) * Vec3.dot u v) • u := by
  ext <;> simp only [apply, rod, Vec3.dot, Vec3.add_x, Vec3.add_y, Vec3.add_z, Vec3.smul_x,
    Vec3.smul_y, Vec3.smul_z, Vec3.cross_x, Vec3.cross_y, Vec3.cross_z] <;> ring

/-! ## C28 -/

/-- C28: for a unit axis the matrix is a rotation. -/
theorem C28_rotation (u : Vec3 ℝ) (phi : ℝ) (hu : Vec3.norm u = 1) :
    ∃ R, rotationMatrix u phi = .ok R ∧ IsRotation R :=
  ⟨_, rotationMatrix_eq hu phi, rod_rotation (unit_normSq hu) (Real.sin_sq_add_cos_sq phi)⟩

/-- C28: the axis is fixed and vectors perpendicular to it are turned by the angle, in the direction
of the right hand rule. -/
theorem C28_axis_and_angle (u : Vec3 ℝ) (phi : ℝ) (hu : Vec3.norm u = 1) :
    ∃ R, rotationMatrix u phi = .ok R ∧ apply R u = u ∧
      ∀ v, Vec3.dot u v = 0 →
        apply R v = Real.cos phi • v + Real.sin phi • Vec3.cross u v := by
  refine ⟨_, rotationMatrix_eq hu phi, ?_, ?_⟩
  · rw [rod_apply, Vec3.cross_self]
    have : Vec3.dot u u = 1 := unit_normSq hu
    rw [this]
    ext <;> simp
  · intro v hv
    rw [rod_apply, hv]
    ext <;> simp

/-- C28: rotations around one axis compose by adding the angles. -/
theorem C28_additive (u : Vec3 ℝ) (phi psi : ℝ) (hu : Vec3.norm u = 1) :
    ∃ R1 R2 R3, rotationMatrix u phi = .ok R1 ∧ rotationMatrix u psi = .ok R2 ∧
      rotationMatrix u (phi + psi) = .ok R3 ∧ Mat3.mul R1 R2 = R3 := by
  refine ⟨_, _, _, rotationMatrix_eq hu phi, rotationMatrix_eq hu psi, rotationMatrix_eq hu _, ?_⟩
  have h1 := unit_normSq hu
  rw [Real.cos_add, Real.sin_add]
  generalize Real.sin phi = s
  generalize Real.cos phi = c
  generalize Real.sin psi = s'
  generalize Real.cos psi = c'
  ext <;> simp only [Mat3.mul, Mat3.vecMul, Mat3.transpose, rod, Vec3.dot]
  · linear_combination (-(s * s') + (1 - c) * (1 - c') * (u.x * u.x)) * h1
  · linear_combination ((1 - c) * (1 - c') * (u.x * u.y)) * h1
  · linear_combination ((1 - c) * (1 - c') * (u.x * u.z)) * h1
  · linear_combination ((1 - c) * (1 - c') * (u.y * u.x)) * h1
  · linear_combination (-(s * s') + (1 - c) * (1 - c') * (u.y * u.y)) * h1
  · linear_combination ((1 - c) * (1 - c') * (u.y * u.z)) * h1
  · linear_combination ((1 - c) * (1 - c') * (u.z * u.x)) * h1
  · linear_combination ((1 - c) * (1 - c') * (u.z * u.y)) * h1
  · linear_combination (-(s * s') + (1 - c) * (1 - c') * (u.z * u.z)) * h1

/-- C28: zero angle gives the identity matrix. -/
theorem C28_zero (u : Vec3 ℝ) (hu : Vec3.norm u = 1) : rotationMatrix u 0 = .ok Mat3.one := by
  rw [rotationMatrix_eq hu, Real.sin_zero, Real.cos_zero]
  congr 1
  ext <;> simp [rod, Mat3.one]

/-- C28: rotating points around a unit axis keeps the number of points and all inner products of
differences, hence all distances and angles. -/
theorem C28_rigid (pts : List (Vec3 ℝ)) (u : Vec3 ℝ) (phi : ℝ) (hu : Vec3.norm u = 1) :
    ∃ pts' R, rotatePointsAroundVector pts u phi = .ok (pts', R) ∧
      ∃ h : pts'.length = pts.length, ∀ (i j k : Nat) (hi : i < pts.length) (hj : j < pts.length)
        (hk : k < pts.length),
        Vec3.dot (pts'[i] - pts'[j]) (pts'[k] - pts'[j]) = Vec3.dot (pts[i] - pts[j]) (pts[k] - pts[j])
          ∧ Vec3.norm (pts'[i] - pts'[j]) = Vec3.norm (pts[i] - pts[j]) := by
  unfold rotatePointsAroundVector
  by_cases h : Vec3.norm u < GEOM_ATOL ∨ |phi| < GEOM_ATOL
  · rw [if_pos h]
    exact ⟨_, _, rfl, rfl, fun i j k hi hj hk => ⟨rfl, rfl⟩⟩
  · rw [if_neg h, rotationMatrix_eq hu]
    have hr := rod_rotation (unit_normSq hu) (Real.sin_sq_add_cos_sq phi)
    refine ⟨_, _, rfl, by simp [rotatePoints], ?_⟩
    intro i j k hi hj hk
    simp only [rotatePoints, List.getElem_map, apply_eq_vecMul]
    rw [← apply_sub, ← apply_sub, dot_apply hr, norm_apply hr]
    exact ⟨rfl, rfl⟩

/-- C28: unless the angle is below the tolerance, the points are turned as `rotation_matrix` says, and
that matrix is returned. -/
theorem C28_points (pts : List (Vec3 ℝ)) (u : Vec3 ℝ) (phi : ℝ) (hu : Vec3.norm u = 1)
    (hphi : GEOM_ATOL ≤ |phi|) :
    ∃ R, rotationMatrix u phi = .ok R ∧
      rotatePointsAroundVector pts u phi = .ok (pts.map (apply R), R) := by
  refine ⟨_, rotationMatrix_eq hu phi, ?_⟩
  unfold rotatePointsAroundVector
  have : ¬ (Vec3.norm u < GEOM_ATOL ∨ |phi| < GEOM_ATOL) := by
    rw [not_or]
    refine ⟨?_, not_lt.2 hphi⟩
    rw [hu]
    unfold GEOM_ATOL
    norm_num
  rw [if_neg this, rotationMatrix_eq hu]
  simp [rotatePoints, apply_eq_vecMul]

/-- C28: angles below the tolerance leave the points alone, whatever the axis; the matrix returned is full of ones. -/
theorem C28_small_angle (pts : List (Vec3 ℝ)) (u : Vec3 ℝ) (phi : ℝ) (h : |phi| < GEOM_ATOL) :
    ∃ R, rotatePointsAroundVector pts u phi = .ok (pts, R) ∧ R.r0 = ⟨1, 1, 1⟩ ∧ R.r1 = ⟨1, 1, 1⟩ ∧ R.r2 = ⟨1, 1, 1⟩ := by
  unfold rotatePointsAroundVector
  rw [if_pos (Or.inr h)]
  exact ⟨_, rfl, rfl, rfl, rfl⟩

/-- C28: an axis that is not (nearly) of length one is refused. -/
theorem C28_not_unit (u : Vec3 ℝ) (phi : ℝ) (h : ¬ isClose (Vec3.norm u) 1 NP_RTOL NP_ATOL) :
    rotationMatrix u phi = .error .assertionError := by
  unfold rotationMatrix
  rw [if_neg h]

/-- The matrix returned in the case without rotation is not a rotation: applied to the points it does
not give the returned points. -/
theorem C28_noop_matrix_wrong (u : Vec3 ℝ) :
    ∃ R, rotatePointsAroundVector [⟨1, 0, 0⟩] u 0 = .ok ([⟨1, 0, 0⟩], R) ∧ ¬ IsRotation R ∧
      rotatePoints [⟨1, 0, 0⟩] R ≠ [⟨1, 0, 0⟩] := by
  refine ⟨Mat3.ones, ?_, ?_, ?_⟩
  · unfold rotatePointsAroundVector
    rw [if_pos]
    right
    unfold GEOM_ATOL
    norm_num
  · intro h
    have := h.det
    simp [det, Mat3.ones, Vec3.dot] at this
  · intro h
    simp [rotatePoints, Mat3.vecMul, Mat3.ones, Mat3.transpose, Vec3.dot] at h

/-- A unit axis. -/
example : Vec3.norm ⟨2 / 3, 1 / 3, 2 / 3⟩ = 1 := by
  unfold Vec3.norm
  rw [Vec3.normSq_def]
  norm_num

/-! ## C29 -/

theorem normal_unit {a b c n : Vec3 ℝ} (h : normal a b c = some n) : Vec3.norm n = 1 := by
  unfold normal at h
  simp only [] at h
  split at h
  · simp at h
  · rename_i hc
    simp only [Option.some.injEq] at h
    have hne : Vec3.norm (Vec3.cross (b - a) (c - a)) ≠ 0 := by
      intro h0
      apply hc
      rw [h0]
      unfold isClose NP_RTOL NP_ATOL
      norm_num
    rw [← h, Vec3.norm_smul, abs_of_nonneg (by
      have := Vec3.norm_nonneg (Vec3.cross (b - a) (c - a))
      positivity)]
    field_simp

/-- The rotation that takes the unit vector `p` to the unit vector `u`. -/
theorem rod_takes {p u : Vec3 ℝ} (hp : Vec3.norm p = 1) (hu : Vec3.norm u = 1)
    (hne : Vec3.cross p u ≠ 0) :
    Vec3.norm ((1 / Vec3.norm (Vec3.cross p u)) • Vec3.cross p u) = 1 ∧
    apply (rod ((1 / Vec3.norm (Vec3.cross p u)) • Vec3.cross p u) (Real.sin (angle p u))
      (Real.cos (angle p u))) p = u := by
  have hp2 := unit_normSq hp
  have hu2 := unit_normSq hu
  have hn0 : Vec3.norm (Vec3.cross p u) ≠ 0 := fun h => hne (Vec3.norm_eq_zero.1 h)
  have hnn := Vec3.norm_nonneg (Vec3.cross p u)
  -- Lagrange
  have hlag : Vec3.norm (Vec3.cross p u) ^ 2 = 1 - Vec3.dot p u ^ 2 := by
    rw [Vec3.norm_sq, Vec3.normSq_def]
    simp only [Vec3.cross_x, Vec3.cross_y, Vec3.cross_z, Vec3.dot]
    linear_combination (u.x * u.x + u.y * u.y + u.z * u.z) * hp2 + hu2
  have hd : Vec3.dot p u ^ 2 ≤ 1 := by nlinarith
  have hd1 : Vec3.dot p u ≤ 1 := by nlinarith
  have hd2 : -1 ≤ Vec3.dot p u := by nlinarith
  have hang : angle p u = Real.arccos (Vec3.dot p u) := by
    unfold angle
    simp only [hp, hu, div_one, one_smul]
    rw [if_neg (not_lt.2 hd1), if_neg (not_lt.2 hd2), if_neg (not_lt.2 (Real.arccos_nonneg _))]
  have hcos : Real.cos (angle p u) = Vec3.dot p u := by rw [hang, Real.cos_arccos hd2 hd1]
  have hsin : Real.sin (angle p u) = Vec3.norm (Vec3.cross p u) := by
    rw [hang, Real.sin_arccos, ← hlag, Real.sqrt_sq hnn]
  constructor
  · rw [Vec3.norm_smul, abs_of_nonneg (by positivity)]
    field_simp
  · rw [hcos, hsin, rod_apply]
    have h0 : Vec3.dot ((1 / Vec3.norm (Vec3.cross p u)) • Vec3.cross p u) p = 0 := by
      rw [Vec3.dot_smul_left, Vec3.dot_comm, Vec3.dot_cross_self, mul_zero]
    rw [h0, mul_zero, zero_smul, add_zero, Vec3.cross_smul_left, smul_smul,
      mul_one_div_cancel hn0, one_smul]
    ext <;> simp only [Vec3.add_x, Vec3.add_y, Vec3.add_z, Vec3.smul_x, Vec3.smul_y, Vec3.smul_z,
      Vec3.cross_x, Vec3.cross_y, Vec3.cross_z, Vec3.dot]
    · linear_combination u.x * hp2
    · linear_combination u.y * hp2
    · linear_combination u.z * hp2

/-- The anchor the code uses: a point within the tolerance of the origin counts as the origin. -/
noncomputable def usedAnchor (a : Vec3 ℝ) : Vec3 ℝ := if pointsEqual a ⟨0, 0, 0⟩ then 0 else a

/-- C29 (part): for a unit target normal that is not parallel to the normal `n` of the points, every
point is moved by one and the same rigid motion `p ↦ R (p - anchor) + anchor + d u`, where the
rotation `R` takes `n` to `u`; so points of a plane with normal `n` end in a plane with normal `u`.

Missing from C29: parallel normals (see `C29_parallel_not_moved`), and the distance of the resulting
plane from the origin is `d` only if the anchor lies in the plane of the points and `u · anchor = 0`
(`C29_plane_partial`). -/
theorem C29_moves_partial (pts : List (Vec3 ℝ)) (l p0 p1 anchor u n : Vec3 ℝ) (d : ℝ)
    (hl : pts.getLast? = some l) (h0 : pts[0]? = some p0) (h1 : pts[1]? = some p1)
    (hn : normal l p0 p1 = some n) (hu : Vec3.norm u = 1)
    (hnp : ¬ (|(Vec3.cross n u).x| < GEOM_ATOL ∧ |(Vec3.cross n u).y| < GEOM_ATOL ∧
      |(Vec3.cross n u).z| < GEOM_ATOL)) :
    ∃ R axis phi, IsRotation R ∧ apply R n = u ∧
      rotatePointsToPlane pts anchor u d = .ok
        (pts.map fun p => apply R (p - usedAnchor anchor) + usedAnchor anchor + d • u, axis, phi) := by
  have hne : Vec3.cross n u ≠ 0 := by
    intro h
    apply hnp
    rw [h]
    unfold GEOM_ATOL
    norm_num
  obtain ⟨hax, htake⟩ := rod_takes (normal_unit hn) hu hne
  refine ⟨_, (1 / Vec3.norm (Vec3.cross n u)) • Vec3.cross n u, angle n u,
    rod_rotation (unit_normSq hax) (Real.sin_sq_add_cos_sq (angle n u)), htake, ?_⟩
  unfold rotatePointsToPlane
  rw [hl, h0, h1]
  simp only [hn]
  rw [if_neg hnp, rotationMatrix_eq hax]
  simp only [usedAnchor, apply_eq_vecMul]
  by_cases ha : pointsEqual anchor ⟨0, 0, 0⟩ = true
  · simp only [ha, if_true, List.map_map]
    congr 2
    apply List.map_congr_left
    intro p _
    simp
  · simp only [ha, if_false, List.map_map, Bool.false_eq_true]
    congr 2

/-- C29 (part): points of the plane `n · x = n · anchor` end in the plane
`u · x = u · anchor + d`, and all their mutual distances are kept. -/
theorem C29_plane_partial (pts : List (Vec3 ℝ)) (l p0 p1 anchor u n : Vec3 ℝ) (d : ℝ)
    (hl : pts.getLast? = some l) (h0 : pts[0]? = some p0) (h1 : pts[1]? = some p1)
    (hn : normal l p0 p1 = some n) (hu : Vec3.norm u = 1)
    (hnp : ¬ (|(Vec3.cross n u).x| < GEOM_ATOL ∧ |(Vec3.cross n u).y| < GEOM_ATOL ∧
      |(Vec3.cross n u).z| < GEOM_ATOL))
    (hplane : ∀ p ∈ pts, Vec3.dot n p = Vec3.dot n (usedAnchor anchor)) :
    ∃ pts' axis phi, rotatePointsToPlane pts anchor u d = .ok (pts', axis, phi) ∧
      (∀ q ∈ pts', Vec3.dot u q = Vec3.dot u (usedAnchor anchor) + d) ∧
      ∃ h : pts'.length = pts.length, ∀ (i j : Nat) (hi : i < pts.length) (hj : j < pts.length),
        Vec3.norm (pts'[i] - pts'[j]) = Vec3.norm (pts[i] - pts[j]) := by
  obtain ⟨R, axis, phi, hR, ht, he⟩ := C29_moves_partial pts l p0 p1 anchor u n d hl h0 h1 hn hu hnp
  refine ⟨_, axis, phi, he, ?_, by simp, ?_⟩
  · intro q hq
    obtain ⟨p, hp, rfl⟩ := List.mem_map.1 hq
    rw [Vec3.dot_add_right, Vec3.dot_add_right, Vec3.dot_smul_right]
    have e1 : Vec3.dot u (apply R (p - usedAnchor anchor)) = 0 := by
      conv_lhs => rw [← ht]
      rw [dot_apply hR, Vec3.dot_sub_right, hplane p hp, sub_self]
    have e2 : Vec3.dot u u = 1 := unit_normSq hu
    rw [e1, e2]
    ring
  · intro i j hi hj
    simp only [List.getElem_map]
    rw [← norm_apply hR (pts[i] - pts[j])]
    congr 1
    rw [apply_sub, apply_sub, apply_sub]
    abel

/-- The unit triangle of the plane z = 0. -/
def flatTri : List (Vec3 ℝ) := [⟨0, 0, 0⟩, ⟨1, 0, 0⟩, ⟨0, 1, 0⟩]

theorem flatTri_normal : normal ⟨0, 1, 0⟩ ⟨0, 0, 0⟩ ⟨1, 0, 0⟩ = some ⟨0, 0, 1⟩ := by
  have h1 : Vec3.cross ((⟨0, 0, 0⟩ : Vec3 ℝ) - ⟨0, 1, 0⟩) (⟨1, 0, 0⟩ - ⟨0, 1, 0⟩) = ⟨0, 0, 1⟩ := by
    ext <;> norm_num
  have h2 : Vec3.norm ⟨0, 0, 1⟩ = 1 := by
    unfold Vec3.norm; rw [Vec3.normSq_def]; norm_num
  unfold normal
  simp only [h1, h2]
  rw [if_neg]
  · congr 1
    ext <;> norm_num
  · unfold isClose NP_RTOL NP_ATOL
    norm_num

/-- C29 fails for parallel normals: asked to move the points of the plane z = 0 to the plane z = 5,
the code returns them unchanged. -/
theorem C29_parallel_not_moved :
    ∃ axis phi, rotatePointsToPlane flatTri ⟨0, 0, 0⟩ ⟨0, 0, 1⟩ 5 = .ok (flatTri, axis, phi) := by
  unfold rotatePointsToPlane flatTri
  simp only [List.getLast?_cons_cons, List.getLast?_singleton, List.getElem?_cons_zero,
    List.getElem?_cons_succ, flatTri_normal]
  have h0 : Vec3.cross (⟨0, 0, 1⟩ : Vec3 ℝ) ⟨0, 0, 1⟩ = 0 := Vec3.cross_self _
  have ha : pointsEqual (⟨0, 0, 0⟩ : Vec3 ℝ) ⟨0, 0, 0⟩ = true := by
    unfold pointsEqual
    simp only [decide_eq_true_eq]
    unfold allClose isClose NP_RTOL GEOM_ATOL
    norm_num
  rw [if_pos (by rw [h0]; unfold GEOM_ATOL; norm_num), if_pos ha]
  exact ⟨_, _, rfl⟩

/-- C29 fails for parallel normals: with an anchor away from the origin the points are not moved
back. -/
theorem C29_parallel_not_restored :
    ∃ axis phi, rotatePointsToPlane flatTri ⟨1, 0, 0⟩ ⟨0, 0, 1⟩ 0
      = .ok ([⟨-1, 0, 0⟩, ⟨0, 0, 0⟩, ⟨-1, 1, 0⟩], axis, phi) := by
  unfold rotatePointsToPlane flatTri
  simp only [List.getLast?_cons_cons, List.getLast?_singleton, List.getElem?_cons_zero,
    List.getElem?_cons_succ, flatTri_normal]
  have h0 : Vec3.cross (⟨0, 0, 1⟩ : Vec3 ℝ) ⟨0, 0, 1⟩ = 0 := Vec3.cross_self _
  have ha : ¬ (pointsEqual (⟨1, 0, 0⟩ : Vec3 ℝ) ⟨0, 0, 0⟩ = true) := by
    unfold pointsEqual
    simp only [decide_eq_true_eq]
    unfold allClose isClose NP_RTOL GEOM_ATOL
    norm_num
  rw [if_pos (by rw [h0]; unfold GEOM_ATOL; norm_num), if_neg ha]
  refine ⟨Vec3.cross ⟨0, 0, 1⟩ ⟨0, 0, 1⟩, 0, ?_⟩
  congr 2
  simp only [List.map_cons, List.map_nil, List.cons.injEq, and_true]
  refine ⟨?_, ?_, ?_⟩ <;> ext <;> norm_num

/-- The hypotheses of the partial theorems hold for the flat triangle and the plane x = d. -/
example : flatTri.getLast? = some ⟨0, 1, 0⟩ ∧ flatTri[0]? = some ⟨0, 0, 0⟩ ∧
    flatTri[1]? = some ⟨1, 0, 0⟩ ∧ normal ⟨0, 1, 0⟩ ⟨0, 0, 0⟩ ⟨1, 0, 0⟩ = some ⟨0, 0, 1⟩ ∧
    Vec3.norm ⟨1, 0, 0⟩ = 1 ∧
    ¬ (|(Vec3.cross (⟨0, 0, 1⟩ : Vec3 ℝ) ⟨1, 0, 0⟩).x| < GEOM_ATOL ∧
      |(Vec3.cross (⟨0, 0, 1⟩ : Vec3 ℝ) ⟨1, 0, 0⟩).y| < GEOM_ATOL ∧
      |(Vec3.cross (⟨0, 0, 1⟩ : Vec3 ℝ) ⟨1, 0, 0⟩).z| < GEOM_ATOL) ∧
    ∀ p ∈ flatTri, Vec3.dot ⟨0, 0, 1⟩ p = Vec3.dot ⟨0, 0, 1⟩ (usedAnchor ⟨1, 2, 0⟩) := by
  refine ⟨rfl, rfl, rfl, flatTri_normal, ?_, ?_, ?_⟩
  · unfold Vec3.norm; rw [Vec3.normSq_def]; norm_num
  · simp only [Vec3.cross_x, Vec3.cross_y, Vec3.cross_z]
    unfold GEOM_ATOL
    norm_num
  · have ha : ¬ (pointsEqual (⟨1, 2, 0⟩ : Vec3 ℝ) ⟨0, 0, 0⟩ = true) := by
      unfold pointsEqual
      simp only [decide_eq_true_eq]
      unfold allClose isClose NP_RTOL GEOM_ATOL
      norm_num
    intro p hp
    unfold usedAnchor
    rw [if_neg ha]
    simp only [flatTri, List.mem_cons, List.not_mem_nil, or_false] at hp
    rcases hp with rfl | rfl | rfl <;> simp [Vec3.dot]

end B3d.Rotation
