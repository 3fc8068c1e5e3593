import Verif.Spec.Enclosed
import Verif.Proofs.InTriangle
import Mathlib.Data.Set.Finite.Basic
import Mathlib.Order.Interval.Set.Infinite
import Mathlib.Algebra.Ring.Int.Parity

/-!
# Rays from a point cross a closed surface equally often

The signed number of triangles crossed by a ray in general position does not depend on the ray.  For one triangle,
the signed cone over it is the sum of the signed cones over its edges and an auxiliary vector `r`, up to a constant;
the edges of a closed surface cancel.
-/

namespace B3d.Enclose

open Spec

/-- The determinant of three vectors. -/
def det (a b c : Vec3 ℝ) : ℝ := Vec3.dot a (Vec3.cross b c)

open Classical in
/-- `1` if all four numbers are positive, `-1` if all are negative. -/
noncomputable def sg (d p q r : ℝ) : ℤ :=
  if 0 < d ∧ 0 < p ∧ 0 < q ∧ 0 < r then 1 else if d < 0 ∧ p < 0 ∧ q < 0 ∧ r < 0 then -1 else 0

/-- The sign with which the ray from the origin along `u` crosses the triangle. -/
noncomputable def chi (u a b c : Vec3 ℝ) : ℤ := sg (det a b c) (det u b c) (det a u c) (det a b u)

/-- The same for signs. -/
def sgB (d p q r : Bool) : ℤ := if d && p && q && r then 1 else if !d && !p && !q && !r then -1 else 0

/-- Three signs are not all equal. -/
def nae (a b c : Bool) : Bool := !(a == b && b == c)

theorem sg_eq {d p q r : ℝ} (hd : d ≠ 0) (hp : p ≠ 0) (hq : q ≠ 0) (hr : r ≠ 0) :
    sg d p q r = sgB (decide (0 < d)) (decide (0 < p)) (decide (0 < q)) (decide (0 < r)) := by
  have key : ∀ {x : ℝ}, x ≠ 0 → (¬ 0 < x ↔ x < 0) := fun hx =>
    ⟨fun h => lt_of_le_of_ne (not_lt.1 h) hx, fun h => not_lt.2 h.le⟩
  simp only [sg, sgB, Bool.and_eq_true, Bool.not_eq_true', decide_eq_true_eq, decide_eq_false_iff_not, key hd, key hp,
    key hq, key hr, and_assoc]

theorem bool_four : ∀ D α β γ l m n P Q R : Bool,
    nae (D == P) (m == α) (!(l == β)) = true → nae (D == Q) (n == α) (!(l == γ)) = true →
    nae (D == R) (n == β) (!(m == γ)) = true → nae (α == R) (!(β == Q)) (γ == P) = true →
    nae (l == R) (!(m == Q)) (n == P) = true →
    sgB D α β γ - sgB l α P Q - sgB m (!P) β R - sgB n (!Q) (!R) γ =
      if D && !l && !m && !n then 1 else if !D && l && m && n then -1 else 0 := by
  decide +kernel

theorem bool_flat : ∀ α β γ l m n P Q R : Bool,
    (m == α) = (l == β) → (n == α) = (l == γ) → (n == β) = (m == γ) → nae (l == R) (!(m == Q)) (n == P) = true →
    nae l m n = true → sgB l α P Q + sgB m (!P) β R + sgB n (!Q) (!R) γ = 0 := by
  decide +kernel

theorem decide_mul {x y : ℝ} (hx : x ≠ 0) (hy : y ≠ 0) :
    decide (0 < x * y) = (decide (0 < x) == decide (0 < y)) := by
  rcases lt_or_gt_of_ne hx with h | h <;> rcases lt_or_gt_of_ne hy with h' | h'
  · simp [mul_pos_of_neg_of_neg h h', not_lt.2 h.le, not_lt.2 h'.le]
  · simp [not_lt.2 (mul_neg_of_neg_of_pos h h').le, not_lt.2 h.le, h']
  · simp [not_lt.2 (mul_neg_of_pos_of_neg h h').le, h, not_lt.2 h'.le]
  · simp [mul_pos h h', h, h']

theorem decide_neg {x : ℝ} (hx : x ≠ 0) : decide (0 < -x) = !decide (0 < x) := by
  rcases lt_or_gt_of_ne hx with h | h <;> simp [h, h.le]

theorem nae_of_sum {x y z : ℝ} (hx : x ≠ 0) (hy : y ≠ 0) (hz : z ≠ 0) (h : x + y + z = 0) :
    nae (decide (0 < x)) (decide (0 < y)) (decide (0 < z)) = true := by
  rcases lt_or_gt_of_ne hx with h1 | h1 <;> rcases lt_or_gt_of_ne hy with h2 | h2 <;>
    rcases lt_or_gt_of_ne hz with h3 | h3 <;> simp [nae, h1, h2, h3, h1.le, h2.le, h3.le] <;> linarith

open Classical in
/-- The constant of a triangle and the auxiliary vector. -/
noncomputable def kappa (a b c r : Vec3 ℝ) : ℤ :=
  if 0 < det a b c ∧ det r b c < 0 ∧ det a r c < 0 ∧ det a b r < 0 then 1
  else if det a b c < 0 ∧ 0 < det r b c ∧ 0 < det a r c ∧ 0 < det a b r then -1 else 0

theorem four_terms {u a b c r : Vec3 ℝ} (hD : det a b c ≠ 0) (ha : det u b c ≠ 0) (hb : det a u c ≠ 0)
    (hc : det a b u ≠ 0) (hl : det r b c ≠ 0) (hm : det a r c ≠ 0) (hn : det a b r ≠ 0) (hP : det r u c ≠ 0)
    (hQ : det r b u ≠ 0) (hR : det a r u ≠ 0) :
    chi u a b c - chi u r b c - chi u a r c - chi u a b r = kappa a b c r := by
  have e1 : det u r c = -det r u c := by simp only [det, Vec3.dot, Vec3.cross]; ring
  have e2 : det u b r = -det r b u := by simp only [det, Vec3.dot, Vec3.cross]; ring
  have e3 : det a u r = -det a r u := by simp only [det, Vec3.dot, Vec3.cross]; ring
  have r1 : det a b c * det r u c + det a r c * det u b c + -(det r b c * det a u c) = 0 := by
    simp only [det, Vec3.dot, Vec3.cross]; ring
  have r2 : det a b c * det r b u + det a b r * det u b c + -(det r b c * det a b u) = 0 := by
    simp only [det, Vec3.dot, Vec3.cross]; ring
  have r3 : det a b c * det a r u + det a b r * det a u c + -(det a r c * det a b u) = 0 := by
    simp only [det, Vec3.dot, Vec3.cross]; ring
  have r4 : det u b c * det a r u + -(det a u c * det r b u) + det a b u * det r u c = 0 := by
    simp only [det, Vec3.dot, Vec3.cross]; ring
  have r5 : det r b c * det a r u + -(det a r c * det r b u) + det a b r * det r u c = 0 := by
    simp only [det, Vec3.dot, Vec3.cross]; ring
  have hk : kappa a b c r = (if decide (0 < det a b c) && !decide (0 < det r b c) && !decide (0 < det a r c) &&
      !decide (0 < det a b r) then 1 else if !decide (0 < det a b c) && decide (0 < det r b c) &&
      decide (0 < det a r c) && decide (0 < det a b r) then -1 else 0 : ℤ) := by
    have key : ∀ {x : ℝ}, x ≠ 0 → (¬ 0 < x ↔ x < 0) := fun hx =>
      ⟨fun h => lt_of_le_of_ne (not_lt.1 h) hx, fun h => not_lt.2 h.le⟩
    simp only [kappa, Bool.and_eq_true, Bool.not_eq_true', decide_eq_true_eq, decide_eq_false_iff_not, key hD, key hl,
      key hm, key hn, and_assoc]
  unfold chi
  rw [e1, e2, e3, sg_eq hD ha hb hc, sg_eq hl ha hP hQ, sg_eq hm (neg_ne_zero.2 hP) hb hR,
    sg_eq hn (neg_ne_zero.2 hQ) (neg_ne_zero.2 hR) hc, decide_neg hP, decide_neg hQ, decide_neg hR, hk]
  have t1 := nae_of_sum (mul_ne_zero hD hP) (mul_ne_zero hm ha) (neg_ne_zero.2 (mul_ne_zero hl hb)) r1
  have t2 := nae_of_sum (mul_ne_zero hD hQ) (mul_ne_zero hn ha) (neg_ne_zero.2 (mul_ne_zero hl hc)) r2
  have t3 := nae_of_sum (mul_ne_zero hD hR) (mul_ne_zero hn hb) (neg_ne_zero.2 (mul_ne_zero hm hc)) r3
  have t4 := nae_of_sum (mul_ne_zero ha hR) (neg_ne_zero.2 (mul_ne_zero hb hQ)) (mul_ne_zero hc hP) r4
  have t5 := nae_of_sum (mul_ne_zero hl hR) (neg_ne_zero.2 (mul_ne_zero hm hQ)) (mul_ne_zero hn hP) r5
  rw [decide_neg (mul_ne_zero hl hb), decide_mul hD hP, decide_mul hm ha, decide_mul hl hb] at t1
  rw [decide_neg (mul_ne_zero hl hc), decide_mul hD hQ, decide_mul hn ha, decide_mul hl hc] at t2
  rw [decide_neg (mul_ne_zero hm hc), decide_mul hD hR, decide_mul hn hb, decide_mul hm hc] at t3
  rw [decide_neg (mul_ne_zero hb hQ), decide_mul ha hR, decide_mul hb hQ, decide_mul hc hP] at t4
  rw [decide_neg (mul_ne_zero hm hQ), decide_mul hl hR, decide_mul hm hQ, decide_mul hn hP] at t5
  exact bool_four _ _ _ _ _ _ _ _ _ _ t1 t2 t3 t4 t5

theorem flat_terms {u a b c r : Vec3 ℝ} (hD : det a b c = 0) (ha : det u b c ≠ 0) (hb : det a u c ≠ 0)
    (hc : det a b u ≠ 0) (hl : det r b c ≠ 0) (hm : det a r c ≠ 0) (hn : det a b r ≠ 0) (hP : det r u c ≠ 0)
    (hQ : det r b u ≠ 0) (hR : det a r u ≠ 0)
    (hout : nae (decide (0 < det r b c)) (decide (0 < det a r c)) (decide (0 < det a b r)) = true) :
    chi u r b c + chi u a r c + chi u a b r = 0 := by
  have e1 : det u r c = -det r u c := by simp only [det, Vec3.dot, Vec3.cross]; ring
  have e2 : det u b r = -det r b u := by simp only [det, Vec3.dot, Vec3.cross]; ring
  have e3 : det a u r = -det a r u := by simp only [det, Vec3.dot, Vec3.cross]; ring
  have r1 : det a b c * det r u c + det a r c * det u b c + -(det r b c * det a u c) = 0 := by
    simp only [det, Vec3.dot, Vec3.cross]; ring
  have r2 : det a b c * det r b u + det a b r * det u b c + -(det r b c * det a b u) = 0 := by
    simp only [det, Vec3.dot, Vec3.cross]; ring
  have r3 : det a b c * det a r u + det a b r * det a u c + -(det a r c * det a b u) = 0 := by
    simp only [det, Vec3.dot, Vec3.cross]; ring
  have r5 : det r b c * det a r u + -(det a r c * det r b u) + det a b r * det r u c = 0 := by
    simp only [det, Vec3.dot, Vec3.cross]; ring
  rw [hD, zero_mul, zero_add] at r1 r2 r3
  have q1 : det a r c * det u b c = det r b c * det a u c := by linarith
  have q2 : det a b r * det u b c = det r b c * det a b u := by linarith
  have q3 : det a b r * det a u c = det a r c * det a b u := by linarith
  have t5 := nae_of_sum (mul_ne_zero hl hR) (neg_ne_zero.2 (mul_ne_zero hm hQ)) (mul_ne_zero hn hP) r5
  rw [decide_neg (mul_ne_zero hm hQ), decide_mul hl hR, decide_mul hm hQ, decide_mul hn hP] at t5
  unfold chi
  rw [e1, e2, e3, sg_eq hl ha hP hQ, sg_eq hm (neg_ne_zero.2 hP) hb hR,
    sg_eq hn (neg_ne_zero.2 hQ) (neg_ne_zero.2 hR) hc, decide_neg hP, decide_neg hQ, decide_neg hR]
  refine bool_flat _ _ _ _ _ _ _ _ _ ?_ ?_ ?_ t5 hout
  · rw [← decide_mul hm ha, ← decide_mul hl hb, q1]
  · rw [← decide_mul hn ha, ← decide_mul hl hc, q2]
  · rw [← decide_mul hn hb, ← decide_mul hm hc, q3]

/-! ### One triangle -/

theorem det_swap (a b c : Vec3 ℝ) : det a c b = -det a b c := by simp only [det, Vec3.dot, Vec3.cross]; ring
theorem det_rot (a b c : Vec3 ℝ) : det a b c = det b c a := by simp only [det, Vec3.dot, Vec3.cross]; ring

theorem sg_neg (d p q r : ℝ) : sg (-d) (-p) (-q) (-r) = -sg d p q r := by
  simp only [sg, neg_pos, neg_lt_zero]
  by_cases h1 : 0 < d ∧ 0 < p ∧ 0 < q ∧ 0 < r
  · have h2 : ¬ (d < 0 ∧ p < 0 ∧ q < 0 ∧ r < 0) := fun h => lt_asymm h.1 h1.1
    simp only [if_pos h1, if_neg h2]
  · by_cases h2 : d < 0 ∧ p < 0 ∧ q < 0 ∧ r < 0
    · simp only [if_neg h1, if_pos h2]; rfl
    · simp only [if_neg h1, if_neg h2]; rfl

theorem sg_perm (d p q r : ℝ) : sg d p q r = sg d q r p := by
  unfold sg
  congr 1
  · exact propext ⟨fun ⟨a, b, c, d⟩ => ⟨a, c, d, b⟩, fun ⟨a, b, c, d⟩ => ⟨a, d, b, c⟩⟩
  · congr 1
    exact propext ⟨fun ⟨a, b, c, d⟩ => ⟨a, c, d, b⟩, fun ⟨a, b, c, d⟩ => ⟨a, d, b, c⟩⟩

theorem sg_flip (d p q r : ℝ) : sg d p q r = sg d p r q := by
  unfold sg
  congr 1
  · exact propext ⟨fun ⟨a, b, c, d⟩ => ⟨a, b, d, c⟩, fun ⟨a, b, c, d⟩ => ⟨a, b, d, c⟩⟩
  · congr 1
    exact propext ⟨fun ⟨a, b, c, d⟩ => ⟨a, b, d, c⟩, fun ⟨a, b, c, d⟩ => ⟨a, b, d, c⟩⟩

theorem chi_rot (u a b c : Vec3 ℝ) : chi u a b c = chi u b c a := by
  unfold chi
  rw [sg_perm, det_rot a b c, det_rot a u c, det_rot a b u, det_rot u b c]

theorem chi_swap (u a b c : Vec3 ℝ) : chi u a c b = -chi u a b c := by
  unfold chi
  rw [← sg_neg, ← det_swap, ← det_swap, ← det_swap a u c, ← det_swap a b u, sg_flip]

theorem kappa_rot (a b c r : Vec3 ℝ) : kappa a b c r = kappa b c a r := by
  unfold kappa
  rw [det_rot a b c, det_rot a r c, det_rot a b r, det_rot r b c]
  congr 1
  · exact propext ⟨fun ⟨a, b, c, d⟩ => ⟨a, c, d, b⟩, fun ⟨a, b, c, d⟩ => ⟨a, d, b, c⟩⟩
  · congr 1
    exact propext ⟨fun ⟨a, b, c, d⟩ => ⟨a, c, d, b⟩, fun ⟨a, b, c, d⟩ => ⟨a, d, b, c⟩⟩

theorem chi_flat {u a b c : Vec3 ℝ} (h : det a b c = 0) : chi u a b c = 0 := by
  simp [chi, sg, h]

theorem kappa_flat {a b c r : Vec3 ℝ} (h : det a b c = 0) : kappa a b c r = 0 := by
  simp [kappa, h]

theorem chi_smul {u a b c : Vec3 ℝ} {k : ℝ} (hk : 0 < k) : chi u a b (k • c) = chi u a b c := by
  have e1 : det a b (k • c) = k * det a b c := by simp only [det, Vec3.dot, Vec3.cross, Vec3.smul_x, Vec3.smul_y, Vec3.smul_z]; ring
  have e2 : det u b (k • c) = k * det u b c := by simp only [det, Vec3.dot, Vec3.cross, Vec3.smul_x, Vec3.smul_y, Vec3.smul_z]; ring
  have e3 : det a u (k • c) = k * det a u c := by simp only [det, Vec3.dot, Vec3.cross, Vec3.smul_x, Vec3.smul_y, Vec3.smul_z]; ring
  unfold chi sg
  rw [e1, e2, e3]
  have key : ∀ y : ℝ, k * y < 0 ↔ y < 0 := fun y => by
    rw [← neg_pos, ← mul_neg, mul_pos_iff_of_pos_left hk, neg_pos]
  simp only [mul_pos_iff_of_pos_left hk, key]

/-- `w` lies in none of the planes through the origin and an edge, unless the edge points to the origin. -/
def Gen (w a b c : Vec3 ℝ) : Prop :=
  (Vec3.cross a b ≠ 0 → Vec3.dot w (Vec3.cross a b) ≠ 0) ∧ (Vec3.cross b c ≠ 0 → Vec3.dot w (Vec3.cross b c) ≠ 0) ∧
    (Vec3.cross c a ≠ 0 → Vec3.dot w (Vec3.cross c a) ≠ 0)

theorem Gen.rot {w a b c : Vec3 ℝ} (h : Gen w a b c) : Gen w b c a := ⟨h.2.1, h.2.2, h.1⟩

theorem inTriangle_zero {a b c : Vec3 ℝ} {l m n : ℝ} (hl : 0 ≤ l) (hm : 0 ≤ m) (hn : 0 ≤ n) (hs : 0 < l + m + n)
    (h : l • a + m • b + n • c = 0) : InTriangle a b c 0 := by
  refine ⟨l / (l + m + n), m / (l + m + n), n / (l + m + n), by positivity, by positivity, by positivity, by
    field_simp, ?_⟩
  have : (l / (l + m + n)) • a + (m / (l + m + n)) • b + (n / (l + m + n)) • c =
      (1 / (l + m + n)) • (l • a + m • b + n • c) := by
    rw [smul_add, smul_add, smul_smul, smul_smul, smul_smul]
    congr 1
    · congr 1 <;> congr 1 <;> ring
    · congr 1; ring
  rw [this, h, smul_zero]

theorem parallel {a b : Vec3 ℝ} (hb : b ≠ 0) (h : Vec3.cross a b = 0) : ∃ k : ℝ, a = k • b := by
  have hb2 : Vec3.normSq b ≠ 0 := fun h0 => hb (Vec3.normSq_eq_zero.1 h0)
  refine ⟨Vec3.dot a b / Vec3.normSq b, ?_⟩
  have h1 := congrArg Vec3.x h
  have h2 := congrArg Vec3.y h
  have h3 := congrArg Vec3.z h
  simp only [Vec3.cross_x, Vec3.cross_y, Vec3.cross_z, Vec3.zero_x, Vec3.zero_y, Vec3.zero_z] at h1 h2 h3
  ext
  · rw [Vec3.smul_x]; field_simp; simp only [Vec3.normSq, Vec3.dot]; linear_combination b.y * h3 - b.z * h2
  · rw [Vec3.smul_y]; field_simp; simp only [Vec3.normSq, Vec3.dot]; linear_combination b.z * h1 - b.x * h3
  · rw [Vec3.smul_z]; field_simp; simp only [Vec3.normSq, Vec3.dot]; linear_combination b.x * h2 - b.y * h1

theorem thin_term {u a b c r : Vec3 ℝ} (hoff : ¬ InTriangle a b c 0) (hab : Vec3.cross a b = 0) :
    chi u a b c = kappa a b c r + (chi u r a b + chi u r b c + chi u r c a) := by
  have hD : det a b c = 0 := by
    rw [det_rot, det_rot, det, hab, Vec3.dot_zero_right]
  have hD' : det r a b = 0 := by rw [det, hab, Vec3.dot_zero_right]
  have hb : b ≠ 0 := by
    rintro rfl
    exact hoff (inTriangle_zero (l := 0) (m := 1) (n := 0) le_rfl zero_le_one le_rfl (by norm_num) (by simp))
  obtain ⟨k, rfl⟩ := parallel hb hab
  have hk : 0 < k := by
    by_contra hk
    exact hoff (inTriangle_zero (l := 1) (m := -k) (n := 0) zero_le_one (by linarith) le_rfl (by linarith)
      (by rw [one_smul, zero_smul, add_zero, neg_smul, add_neg_cancel]))
  rw [chi_flat hD, kappa_flat hD, chi_flat hD', chi_smul hk, chi_swap]
  ring

/-- The cone over a triangle in terms of the cones over its edges and `r`. -/
theorem triangle_term {u a b c r : Vec3 ℝ} (hoff : ¬ InTriangle a b c 0) (hu : Gen u a b c) (hr : Gen r a b c)
    (ha : Vec3.cross u a ≠ 0 → Vec3.dot r (Vec3.cross u a) ≠ 0)
    (hb : Vec3.cross u b ≠ 0 → Vec3.dot r (Vec3.cross u b) ≠ 0)
    (hc : Vec3.cross u c ≠ 0 → Vec3.dot r (Vec3.cross u c) ≠ 0) :
    chi u a b c = kappa a b c r + (chi u r a b + chi u r b c + chi u r c a) := by
  by_cases hab : Vec3.cross a b = 0
  · exact thin_term hoff hab
  by_cases hbc : Vec3.cross b c = 0
  · have := thin_term (u := u) (r := r) 
      (fun h => hoff (Triangles.inTriangle_rot (Triangles.inTriangle_rot h))) hbc
    rw [chi_rot, kappa_rot, this]
    ring
  by_cases hca : Vec3.cross c a = 0
  · have := thin_term (u := u) (r := r) 
      (fun h => hoff (Triangles.inTriangle_rot h)) hca
    rw [chi_rot, chi_rot, kappa_rot, kappa_rot, this]
    ring
  have h1 : det u b c ≠ 0 := hu.2.1 hbc
  have h2 : det a u c ≠ 0 := by rw [det_rot]; exact hu.2.2 hca
  have h3 : det a b u ≠ 0 := by rw [← det_rot]; exact hu.1 hab
  have h4 : det r b c ≠ 0 := hr.2.1 hbc
  have h5 : det a r c ≠ 0 := by rw [det_rot]; exact hr.2.2 hca
  have h6 : det a b r ≠ 0 := by rw [← det_rot]; exact hr.1 hab
  have h7 : det r u c ≠ 0 := by
    apply hc
    intro h
    apply h1
    rw [det_rot, det, ← neg_eq_zero]
    have : Vec3.cross c u = -Vec3.cross u c := by ext <;> simp <;> ring
    rw [this, h, neg_zero, Vec3.dot_zero_right, neg_zero]
  have h8 : det a r u ≠ 0 := by
    rw [det_rot]
    apply ha
    intro h
    apply h3
    rw [← det_rot, ← det_rot, det, h, Vec3.dot_zero_right]
  have h9 : det r b u ≠ 0 := by
    rw [det_swap, neg_ne_zero]
    apply hb
    intro h
    apply h3
    rw [det]
    have : Vec3.cross b u = -Vec3.cross u b := by ext <;> simp <;> ring
    rw [this, h, neg_zero, Vec3.dot_zero_right]
  have e1 : chi u r a b = chi u a b r := chi_rot _ _ _ _
  have e2 : chi u r c a = chi u a r c := by rw [chi_rot, chi_rot]
  by_cases hD : det a b c = 0
  · rw [chi_flat hD, kappa_flat hD, e1, e2]
    have hout : nae (decide (0 < det r b c)) (decide (0 < det a r c)) (decide (0 < det a b r)) = true := by
      by_contra hne
      have hcr : (det r b c) • a + (det a r c) • b + (det a b r) • c = 0 := by
        have : (det r b c) • a + (det a r c) • b + (det a b r) • c = (det a b c) • r := by
          ext <;> simp only [det, Vec3.dot, Vec3.cross, Vec3.add_x, Vec3.add_y, Vec3.add_z, Vec3.smul_x, Vec3.smul_y,
            Vec3.smul_z] <;> ring
        rw [this, hD, zero_smul]
      apply hoff
      rcases lt_or_gt_of_ne h4 with p | p <;> rcases lt_or_gt_of_ne h5 with q | q <;>
        rcases lt_or_gt_of_ne h6 with w | w <;>
        simp [nae, p, q, w, not_lt.2 p.le, not_lt.2 q.le, not_lt.2 w.le] at hne
      · refine inTriangle_zero (l := -det r b c) (m := -det a r c) (n := -det a b r) (by linarith) (by linarith)
          (by linarith) (by linarith) ?_
        rw [neg_smul, neg_smul, neg_smul, ← neg_add, ← neg_add, hcr, neg_zero]
      · exact inTriangle_zero p.le q.le w.le (by linarith) hcr
    have := flat_terms hD h1 h2 h3 h4 h5 h6 h7 h9 h8 hout
    linarith
  · have := four_terms hD h1 h2 h3 h4 h5 h6 h7 h9 h8
    rw [e1, e2]
    linarith

/-! ### General position -/

theorem exists_avoiding (F : List ℝ) {η : ℝ} (hη : 0 < η) : ∃ ε, 0 < ε ∧ ε < η ∧ ε ∉ F := by
  obtain ⟨ε, h1, h2⟩ := (Set.Ioo_infinite hη).exists_notMem_finset F.toFinset
  exact ⟨ε, h1.1, h1.2, fun h => h2 (List.mem_toFinset.2 h)⟩

/-- Small steps along a vector in general position lead to general position. -/
theorem exists_step {u d : Vec3 ℝ} {L : List (Vec3 ℝ)}
    (hd : ∀ n ∈ L, n ≠ 0 → Vec3.dot d n = 0 → Vec3.dot u n ≠ 0) {η : ℝ} (hη : 0 < η) :
    ∃ δ, 0 < δ ∧ δ < η ∧ ∀ n ∈ L, n ≠ 0 → Vec3.dot (u + δ • d) n ≠ 0 := by
  obtain ⟨δ, h1, h2, h3⟩ := exists_avoiding (L.map fun m => -Vec3.dot u m / Vec3.dot d m) hη
  refine ⟨δ, h1, h2, fun n hn hn0 h => ?_⟩
  rw [Vec3.dot_add_left, Vec3.dot_smul_left] at h
  by_cases h0 : Vec3.dot d n = 0
  · rw [h0, mul_zero, add_zero] at h
    exact hd n hn hn0 h0 h
  · apply h3
    refine List.mem_map.2 ⟨n, hn, ?_⟩
    rw [div_eq_iff h0]
    linarith

theorem exists_gen : ∀ L : List (Vec3 ℝ), ∃ r : Vec3 ℝ, ∀ n ∈ L, n ≠ 0 → Vec3.dot r n ≠ 0
  | [] => ⟨0, by simp⟩
  | n :: L => by
    obtain ⟨r, hr⟩ := exists_gen L
    obtain ⟨δ, -, -, h⟩ := exists_step (u := r) (d := n) (L := n :: L) (by
      rw [List.forall_mem_cons]
      refine ⟨fun hn h => absurd (Vec3.normSq_eq_zero.1 h) hn, fun m hm hm0 _ => hr m hm hm0⟩) one_pos
    exact ⟨_, h⟩

/-! ### All triangles -/

/-- The sum over the edges of the triangles. -/
def edgesSum (ts : List (Vec3 ℝ × Vec3 ℝ × Vec3 ℝ)) (g : Vec3 ℝ → Vec3 ℝ → ℤ) : ℤ :=
  (ts.map fun t => g t.1 t.2.1 + g t.2.1 t.2.2 + g t.2.2 t.1).sum

theorem sum_chi_aux {u r : Vec3 ℝ} : ∀ {ts : List (Vec3 ℝ × Vec3 ℝ × Vec3 ℝ)},
    (∀ t ∈ ts, ¬ InTriangle t.1 t.2.1 t.2.2 0) → (∀ t ∈ ts, Gen u t.1 t.2.1 t.2.2) →
    (∀ t ∈ ts, Gen r t.1 t.2.1 t.2.2) →
    (∀ t ∈ ts, (Vec3.cross u t.1 ≠ 0 → Vec3.dot r (Vec3.cross u t.1) ≠ 0) ∧
      (Vec3.cross u t.2.1 ≠ 0 → Vec3.dot r (Vec3.cross u t.2.1) ≠ 0) ∧
      (Vec3.cross u t.2.2 ≠ 0 → Vec3.dot r (Vec3.cross u t.2.2) ≠ 0)) →
    (ts.map fun t => chi u t.1 t.2.1 t.2.2).sum =
      (ts.map fun t => kappa t.1 t.2.1 t.2.2 r).sum + edgesSum ts (chi u r)
  | [], _, _, _, _ => rfl
  | t :: ts, h1, h2, h3, h4 => by
    rw [List.forall_mem_cons] at h1 h2 h3 h4
    have ih := sum_chi_aux h1.2 h2.2 h3.2 h4.2
    simp only [List.map_cons, List.sum_cons, edgesSum] at ih ⊢
    rw [ih, triangle_term h1.1 h2.1 h3.1 h4.1.1 h4.1.2.1 h4.1.2.2]
    ring

/-- Every edge is run through in both directions equally often, said with sums. -/
def ClosedSum (ts : List (Vec3 ℝ × Vec3 ℝ × Vec3 ℝ)) : Prop :=
  ∀ g : Vec3 ℝ → Vec3 ℝ → ℤ, (∀ p q, g p q = -g q p) → edgesSum ts g = 0

/-- The edges of the triangles, as normals of the planes through them and the origin. -/
def planes (ts : List (Vec3 ℝ × Vec3 ℝ × Vec3 ℝ)) : List (Vec3 ℝ) :=
  ts.flatMap fun t => [Vec3.cross t.1 t.2.1, Vec3.cross t.2.1 t.2.2, Vec3.cross t.2.2 t.1]

theorem gen_of_planes {ts : List (Vec3 ℝ × Vec3 ℝ × Vec3 ℝ)} {w : Vec3 ℝ}
    (h : ∀ n ∈ planes ts, n ≠ 0 → Vec3.dot w n ≠ 0) : ∀ t ∈ ts, Gen w t.1 t.2.1 t.2.2 := fun t ht =>
  ⟨h _ (List.mem_flatMap.2 ⟨t, ht, by simp⟩), h _ (List.mem_flatMap.2 ⟨t, ht, by simp⟩),
    h _ (List.mem_flatMap.2 ⟨t, ht, by simp⟩)⟩

/-- The planes through the origin, the vector, and a corner. -/
def spokes (ts : List (Vec3 ℝ × Vec3 ℝ × Vec3 ℝ)) (u : Vec3 ℝ) : List (Vec3 ℝ) :=
  ts.flatMap fun t => [Vec3.cross u t.1, Vec3.cross u t.2.1, Vec3.cross u t.2.2]

/-- The signed number of triangles crossed is the same for all rays in general position. -/
theorem sum_chi_eq {ts : List (Vec3 ℝ × Vec3 ℝ × Vec3 ℝ)} (hcl : ClosedSum ts)
    (hoff : ∀ t ∈ ts, ¬ InTriangle t.1 t.2.1 t.2.2 0) {u u' : Vec3 ℝ} (hu : ∀ n ∈ planes ts, n ≠ 0 → Vec3.dot u n ≠ 0)
    (hu' : ∀ n ∈ planes ts, n ≠ 0 → Vec3.dot u' n ≠ 0) :
    (ts.map fun t => chi u t.1 t.2.1 t.2.2).sum = (ts.map fun t => chi u' t.1 t.2.1 t.2.2).sum := by
  obtain ⟨r, hr⟩ := exists_gen (planes ts ++ spokes ts u ++ spokes ts u')
  have hsp : ∀ w : Vec3 ℝ, (∀ n ∈ spokes ts w, n ≠ 0 → Vec3.dot r n ≠ 0) → ∀ t ∈ ts,
      (Vec3.cross w t.1 ≠ 0 → Vec3.dot r (Vec3.cross w t.1) ≠ 0) ∧
      (Vec3.cross w t.2.1 ≠ 0 → Vec3.dot r (Vec3.cross w t.2.1) ≠ 0) ∧
      (Vec3.cross w t.2.2 ≠ 0 → Vec3.dot r (Vec3.cross w t.2.2) ≠ 0) := fun w h t ht =>
    ⟨h _ (List.mem_flatMap.2 ⟨t, ht, by simp⟩), h _ (List.mem_flatMap.2 ⟨t, ht, by simp⟩),
      h _ (List.mem_flatMap.2 ⟨t, ht, by simp⟩)⟩
  have hrp : ∀ t ∈ ts, Gen r t.1 t.2.1 t.2.2 := gen_of_planes fun n hn => hr n (by simp [hn])
  rw [sum_chi_aux hoff (gen_of_planes hu) hrp (hsp u fun n hn => hr n (by simp [hn])),
    sum_chi_aux hoff (gen_of_planes hu') hrp (hsp u' fun n hn => hr n (by simp [hn])),
    hcl _ fun p q => chi_swap u r q p, hcl _ fun p q => chi_swap u' r q p]

/-! ### Rays that meet no edge -/

theorem chi_ne {u a b c : Vec3 ℝ} (hD : det a b c ≠ 0) : chi u a b c ≠ 0 ↔
    0 < det a b c * det u b c ∧ 0 < det a b c * det a u c ∧ 0 < det a b c * det a b u := by
  unfold chi sg
  rcases lt_or_gt_of_ne hD with h | h
  · have h1 : ¬ 0 < det a b c := not_lt.2 h.le
    simp only [h1, false_and, if_false, h, true_and, mul_pos_iff, false_or]
    by_cases hh : det u b c < 0 ∧ det a u c < 0 ∧ det a b u < 0 <;> simp [hh]
  · have h1 : ¬ det a b c < 0 := not_lt.2 h.le
    simp only [h1, false_and, if_false, h, true_and, mul_pos_iff, or_false]
    by_cases hh : 0 < det u b c ∧ 0 < det a u c ∧ 0 < det a b u <;> simp [hh]

theorem cramer (u a b c : Vec3 ℝ) : (det a b c) • u = (det u b c) • a + (det a u c) • b + (det a b u) • c := by
  ext <;> simp only [det, Vec3.dot, Vec3.cross, Vec3.add_x, Vec3.add_y, Vec3.add_z, Vec3.smul_x, Vec3.smul_y,
    Vec3.smul_z] <;> ring

/-- For a triangle not seen edge-on, the sign says whether the ray crosses it. -/
theorem cross_iff {u a b c : Vec3 ℝ} (hD : det a b c ≠ 0) :
    (∃ s : ℝ, 0 < s ∧ InsideTriangle a b c (s • u)) ↔ chi u a b c ≠ 0 := by
  rw [chi_ne hD]
  have hD2 : 0 < det a b c * det a b c := mul_self_pos.2 hD
  constructor
  · rintro ⟨s, hs, r, p, q, hr, hp, hq, -, he⟩
    have e1 : s * det u b c = r * det a b c := by
      have : s * det u b c = det (s • u) b c := by rw [det, det, Vec3.dot_smul_left]
      rw [this, he]
      simp only [det, Vec3.dot, Vec3.cross, Vec3.add_x, Vec3.add_y, Vec3.add_z, Vec3.smul_x, Vec3.smul_y,
        Vec3.smul_z]
      ring
    have e2 : s * det a u c = p * det a b c := by
      have : s * det a u c = det a (s • u) c := by
        rw [det_rot a, det_rot a, det, det, Vec3.dot_smul_left]
      rw [this, he]
      simp only [det, Vec3.dot, Vec3.cross, Vec3.add_x, Vec3.add_y, Vec3.add_z, Vec3.smul_x, Vec3.smul_y,
        Vec3.smul_z]
      ring
    have e3 : s * det a b u = q * det a b c := by
      have : s * det a b u = det a b (s • u) := by
        rw [← det_rot u, ← det_rot (s • u), det, det, Vec3.dot_smul_left]
      rw [this, he]
      simp only [det, Vec3.dot, Vec3.cross, Vec3.add_x, Vec3.add_y, Vec3.add_z, Vec3.smul_x, Vec3.smul_y,
        Vec3.smul_z]
      ring
    have key : ∀ y r : ℝ, 0 < r → s * y = r * det a b c → 0 < det a b c * y := by
      intro y r hr h
      have : s * (det a b c * y) = r * (det a b c * det a b c) := by linear_combination det a b c * h
      by_contra hn
      have h1 := mul_pos hr hD2
      have h2 := mul_nonpos_of_nonneg_of_nonpos hs.le (not_lt.1 hn)
      linarith
    exact ⟨key _ _ hr e1, key _ _ hp e2, key _ _ hq e3⟩
  · rintro ⟨h1, h2, h3⟩
    have hS : 0 < det a b c * det u b c + det a b c * det a u c + det a b c * det a b u := by linarith
    obtain ⟨S, hSe⟩ : ∃ S, S = det a b c * det u b c + det a b c * det a u c + det a b c * det a b u := ⟨_, rfl⟩
    rw [← hSe] at hS
    refine ⟨det a b c * det a b c / S, by positivity, det a b c * det u b c / S, det a b c * det a u c / S,
      det a b c * det a b u / S, by positivity, by positivity, by positivity, by
        rw [← add_div, ← add_div, ← hSe, div_self hS.ne'], ?_⟩
    have hc := cramer u a b c
    have e1 : (det a b c * det a b c / S) • u = (det a b c / S) • ((det a b c) • u) := by
      rw [smul_smul]; congr 1; ring
    rw [e1, hc, smul_add, smul_add, smul_smul, smul_smul, smul_smul]
    congr 1
    · congr 1 <;> congr 1 <;> ring
    · congr 1; ring

theorem onSegment_of_comb {p q x : Vec3 ℝ} {l m : ℝ} (hl : 0 ≤ l) (hm : 0 ≤ m) (hs : 0 < l + m) {k : ℝ} (hk : 0 ≤ k)
    (h : k • x = l • p + m • q) : ∃ s : ℝ, 0 ≤ s ∧ OnSegment p q (s • x) := by
  refine ⟨k / (l + m), by positivity, m / (l + m), by positivity, by rw [div_le_one hs]; linarith, ?_⟩
  have e1 : (k / (l + m)) • x = (1 / (l + m)) • (k • x) := by rw [smul_smul]; congr 1; ring
  have e2 : l / (l + m) = 1 - m / (l + m) := by field_simp; ring
  rw [e1, h, smul_add, smul_smul, smul_smul, smul_sub]
  have e3 : (1 / (l + m) * l) = 1 - m / (l + m) := by rw [← e2]; ring
  have e4 : (1 / (l + m) * m) = m / (l + m) := by ring
  rw [e3, e4, sub_smul, one_smul]
  abel

/-- The rays from the origin along `u` meet no edge. -/
def Clear0 (u a b c : Vec3 ℝ) : Prop :=
  ∀ s : ℝ, 0 ≤ s → ¬ OnSegment a b (s • u) ∧ ¬ OnSegment b c (s • u) ∧ ¬ OnSegment c a (s • u)

theorem clear_signs {u a b c : Vec3 ℝ} (hD : det a b c ≠ 0) (hu : u ≠ 0) (hcl : Clear0 u a b c) :
    chi u a b c ≠ 0 ∨ det a b c * det u b c < 0 ∨ det a b c * det a u c < 0 ∨ det a b c * det a b u < 0 := by
  by_contra hcon
  push Not at hcon
  obtain ⟨h0, h1, h2, h3⟩ := hcon
  have hD2 : 0 < det a b c * det a b c := mul_self_pos.2 hD
  have hc : (det a b c * det a b c) • u = (det a b c * det u b c) • a + (det a b c * det a u c) • b +
      (det a b c * det a b u) • c := by
    rw [← smul_smul, cramer u a b c, smul_add, smul_add, smul_smul, smul_smul, smul_smul]
  have hu0 : (det a b c * det a b c) • u ≠ 0 := by
    intro h
    apply hu
    have := congrArg (fun w => (1 / (det a b c * det a b c)) • w) h
    simp only [smul_smul, smul_zero] at this
    rwa [one_div, inv_mul_cancel₀ hD2.ne', one_smul] at this
  have hz : det a b c * det u b c = 0 ∨ det a b c * det a u c = 0 ∨ det a b c * det a b u = 0 := by
    by_contra hcon
    push Not at hcon
    exact (not_not.2 h0) ((chi_ne hD).2 ⟨lt_of_le_of_ne h1 hcon.1.symm, lt_of_le_of_ne h2 hcon.2.1.symm,
      lt_of_le_of_ne h3 hcon.2.2.symm⟩)
  obtain ⟨α, hα⟩ : ∃ α, α = det a b c * det u b c := ⟨_, rfl⟩
  obtain ⟨β, hβ⟩ : ∃ β, β = det a b c * det a u c := ⟨_, rfl⟩
  obtain ⟨γ, hγ⟩ : ∃ γ, γ = det a b c * det a b u := ⟨_, rfl⟩
  rw [← hα, ← hβ, ← hγ] at hc hz
  rw [← hα] at h1
  rw [← hβ] at h2
  rw [← hγ] at h3
  have hpos : 0 < α + β + γ := by
    by_contra hn
    have e1 : α = 0 := by linarith
    have e2 : β = 0 := by linarith
    have e3 : γ = 0 := by linarith
    rw [e1, e2, e3, zero_smul, zero_smul, zero_smul, add_zero, add_zero] at hc
    exact hu0 hc
  rcases hz with h | h | h
  · rw [h, zero_smul, zero_add] at hc
    obtain ⟨s, hs, hon⟩ := onSegment_of_comb h2 h3 (by linarith) hD2.le hc
    exact (hcl s hs).2.1 hon
  · rw [h, zero_smul, add_zero, add_comm] at hc
    obtain ⟨s, hs, hon⟩ := onSegment_of_comb h3 h1 (by linarith) hD2.le hc
    exact (hcl s hs).2.2 hon
  · rw [h, zero_smul, add_zero] at hc
    obtain ⟨s, hs, hon⟩ := onSegment_of_comb h1 h2 (by linarith) hD2.le hc
    exact (hcl s hs).1 hon

theorem sign_stable (p q : ℝ) : ∃ η, 0 < η ∧ ∀ δ, 0 < δ → δ < η → (0 < p → 0 < p + δ * q) ∧ (p < 0 → p + δ * q < 0) := by
  by_cases hp : p = 0
  · exact ⟨1, one_pos, fun δ _ _ => ⟨fun h => by rw [hp] at h; exact absurd h (lt_irrefl _),
      fun h => by rw [hp] at h; exact absurd h (lt_irrefl _)⟩⟩
  have hp' : 0 < |p| := abs_pos.2 hp
  have hq : 0 < |q| + 1 := by positivity
  refine ⟨|p| / (|q| + 1), by positivity, fun δ h1 h2 => ?_⟩
  rw [lt_div_iff₀ hq] at h2
  have h3 : |δ * q| < |p| := by
    rw [abs_mul, abs_of_pos h1]
    linarith
  have h4 := abs_lt.1 h3
  constructor
  · intro h
    rw [abs_of_pos h] at h4
    linarith
  · intro h
    rw [abs_of_neg h] at h4
    linarith

/-- A triangle seen edge-on is crossed by no ray that meets none of its edges. -/
theorem flat_not_crossed {u a b c : Vec3 ℝ} (hD : det a b c = 0) (hne : Vec3.cross (b - a) (c - a) ≠ 0)
    (hoff : ¬ InTriangle a b c 0) (hcl : Clear0 u a b c) : ¬ ∃ s : ℝ, 0 < s ∧ InsideTriangle a b c (s • u) := by
  rintro ⟨s, hs, r, p, q, hr, hp, hq, hsum, he⟩
  -- barycentric coordinates of the origin
  obtain ⟨n, hn⟩ : ∃ n, n = Vec3.cross (b - a) (c - a) := ⟨_, rfl⟩
  rw [← hn] at hne
  have hN : 0 < Vec3.normSq n := lt_of_le_of_ne (Vec3.normSq_nonneg _) fun h => hne (Vec3.normSq_eq_zero.1 h.symm)
  obtain ⟨r0, hr0⟩ : ∃ r0, r0 = Vec3.dot n (Vec3.cross b c) / Vec3.normSq n := ⟨_, rfl⟩
  obtain ⟨p0, hp0⟩ : ∃ p0, p0 = Vec3.dot n (Vec3.cross c a) / Vec3.normSq n := ⟨_, rfl⟩
  obtain ⟨q0, hq0⟩ : ∃ q0, q0 = Vec3.dot n (Vec3.cross a b) / Vec3.normSq n := ⟨_, rfl⟩
  have hsum0 : r0 + p0 + q0 = 1 := by
    rw [hr0, hp0, hq0, ← add_div, ← add_div, div_eq_one_iff_eq hN.ne', Vec3.normSq]
    conv_rhs => arg 2; rw [hn]
    simp only [Vec3.dot, Vec3.cross, Vec3.sub_x, Vec3.sub_y, Vec3.sub_z]
    ring
  have hz : r0 • a + p0 • b + q0 • c = 0 := by
    have h1 : Vec3.dot n (Vec3.cross b c) • a + Vec3.dot n (Vec3.cross c a) • b + Vec3.dot n (Vec3.cross a b) • c =
        (det a b c) • n := by
      ext <;> simp only [det, Vec3.dot, Vec3.cross, Vec3.add_x, Vec3.add_y, Vec3.add_z, Vec3.smul_x, Vec3.smul_y,
        Vec3.smul_z] <;> ring
    rw [hD, zero_smul] at h1
    have h2 : r0 • a + p0 • b + q0 • c = (1 / Vec3.normSq n) • (Vec3.dot n (Vec3.cross b c) • a +
        Vec3.dot n (Vec3.cross c a) • b + Vec3.dot n (Vec3.cross a b) • c) := by
      rw [hr0, hp0, hq0, smul_add, smul_add, smul_smul, smul_smul, smul_smul]
      congr 1
      · congr 1 <;> congr 1 <;> ring
      · congr 1; ring
    rw [h2, h1, smul_zero]
  -- going from the point of the ray to the origin, an edge is met
  have hmin : ∃ k : ℝ, 0 ≤ k ∧ k ≤ 1 ∧ 0 ≤ (1 - k) * r + k * r0 ∧ 0 ≤ (1 - k) * p + k * p0 ∧
      0 ≤ (1 - k) * q + k * q0 ∧
      ((1 - k) * r + k * r0 = 0 ∨ (1 - k) * p + k * p0 = 0 ∨ (1 - k) * q + k * q0 = 0) := by
    have one : ∀ r r0 : ℝ, 0 < r → ∃ k : ℝ, 0 < k ∧ k ≤ 1 ∧ (∀ l, 0 ≤ l → l ≤ k → 0 ≤ (1 - l) * r + l * r0) ∧
        (r0 < 0 → (1 - k) * r + k * r0 = 0) ∧ (0 ≤ r0 → k = 1) := by
      intro r r0 hr
      by_cases h : r0 < 0
      · have hd : 0 < r - r0 := by linarith
        refine ⟨r / (r - r0), by positivity, by rw [div_le_one hd]; linarith, fun l h1 h2 => ?_, fun _ => by
          field_simp; ring, fun h' => absurd h (not_lt.2 h')⟩
        rw [le_div_iff₀ hd] at h2
        linarith
      · refine ⟨1, one_pos, le_rfl, fun l h1 h2 => ?_, fun h' => absurd h' h, fun _ => rfl⟩
        have := mul_nonneg h1 (not_lt.1 h)
        have := mul_nonneg (sub_nonneg.2 h2) hr.le
        linarith
    obtain ⟨k1, a1, a2, a3, a4, a5⟩ := one r r0 hr
    obtain ⟨k2, b1, b2, b3, b4, b5⟩ := one p p0 hp
    obtain ⟨k3, c1, c2, c3, c4, c5⟩ := one q q0 hq
    have hneg : r0 < 0 ∨ p0 < 0 ∨ q0 < 0 := by
      by_contra hcon
      push Not at hcon
      exact hoff ⟨r0, p0, q0, hcon.1, hcon.2.1, hcon.2.2, hsum0, hz.symm⟩
    rcases le_total k1 k2 with h12 | h12
    · rcases le_total k1 k3 with h13 | h13
      · refine ⟨k1, a1.le, a2, a3 _ a1.le le_rfl, b3 _ a1.le h12, c3 _ a1.le h13, ?_⟩
        by_cases hr0' : r0 < 0
        · exact .inl (a4 hr0')
        · have e1 := a5 (not_lt.1 hr0')
          have e2 : k2 = 1 := by linarith
          have e3 : k3 = 1 := by linarith
          rw [e1]
          rcases hneg with h | h | h
          · exact absurd h hr0'
          · have := b4 h; rw [e2] at this; exact .inr (.inl this)
          · have := c4 h; rw [e3] at this; exact .inr (.inr this)
      · refine ⟨k3, c1.le, c2, a3 _ c1.le h13, b3 _ c1.le (h13.trans h12), c3 _ c1.le le_rfl, ?_⟩
        by_cases hq0' : q0 < 0
        · exact .inr (.inr (c4 hq0'))
        · have e3 := c5 (not_lt.1 hq0')
          have e1 : k1 = 1 := by linarith
          have e2 : k2 = 1 := by linarith
          rw [e3]
          rcases hneg with h | h | h
          · have := a4 h; rw [e1] at this; exact .inl this
          · have := b4 h; rw [e2] at this; exact .inr (.inl this)
          · exact absurd h hq0'
    · rcases le_total k2 k3 with h23 | h23
      · refine ⟨k2, b1.le, b2, a3 _ b1.le h12, b3 _ b1.le le_rfl, c3 _ b1.le h23, ?_⟩
        by_cases hp0' : p0 < 0
        · exact .inr (.inl (b4 hp0'))
        · have e2 := b5 (not_lt.1 hp0')
          have e1 : k1 = 1 := by linarith
          have e3 : k3 = 1 := by linarith
          rw [e2]
          rcases hneg with h | h | h
          · have := a4 h; rw [e1] at this; exact .inl this
          · exact absurd h hp0'
          · have := c4 h; rw [e3] at this; exact .inr (.inr this)
      · refine ⟨k3, c1.le, c2, a3 _ c1.le (h23.trans h12), b3 _ c1.le h23, c3 _ c1.le le_rfl, ?_⟩
        by_cases hq0' : q0 < 0
        · exact .inr (.inr (c4 hq0'))
        · have e3 := c5 (not_lt.1 hq0')
          have e1 : k1 = 1 := by linarith
          have e2 : k2 = 1 := by linarith
          rw [e3]
          rcases hneg with h | h | h
          · have := a4 h; rw [e1] at this; exact .inl this
          · have := b4 h; rw [e2] at this; exact .inr (.inl this)
          · exact absurd h hq0'
  obtain ⟨k, hk0, hk1, g1, g2, g3, gz⟩ := hmin
  have hpt : ((1 - k) * s) • u = ((1 - k) * r + k * r0) • a + ((1 - k) * p + k * p0) • b + ((1 - k) * q + k * q0) • c := by
    have : ((1 - k) * r + k * r0) • a + ((1 - k) * p + k * p0) • b + ((1 - k) * q + k * q0) • c =
        (1 - k) • (r • a + p • b + q • c) + k • (r0 • a + p0 • b + q0 • c) := by
      ext <;> simp only [Vec3.add_x, Vec3.add_y, Vec3.add_z, Vec3.smul_x, Vec3.smul_y, Vec3.smul_z] <;> ring
    rw [this, hz, ← he, smul_zero, add_zero, smul_smul]
  have htot : ((1 - k) * r + k * r0) + ((1 - k) * p + k * p0) + ((1 - k) * q + k * q0) = 1 := by
    linear_combination (1 - k) * hsum + k * hsum0
  have hks : 0 ≤ (1 - k) * s := mul_nonneg (by linarith) hs.le
  rcases gz with h | h | h
  · rw [h, zero_smul, zero_add] at hpt
    obtain ⟨s', hs', hon⟩ := onSegment_of_comb g2 g3 (by linarith) hks hpt
    exact (hcl s' hs').2.1 hon
  · rw [h, zero_smul, add_zero, add_comm] at hpt
    obtain ⟨s', hs', hon⟩ := onSegment_of_comb g3 g1 (by linarith) hks hpt
    exact (hcl s' hs').2.2 hon
  · rw [h, zero_smul, add_zero] at hpt
    obtain ⟨s', hs', hon⟩ := onSegment_of_comb g1 g2 (by linarith) hks hpt
    exact (hcl s' hs').1 hon

/-- Turning the ray a little does not change whether it crosses the triangle. -/
theorem cross_stable {u a b c : Vec3 ℝ} (d : Vec3 ℝ) (hne : Vec3.cross (b - a) (c - a) ≠ 0)
    (hoff : ¬ InTriangle a b c 0) (hu : u ≠ 0) (hcl : Clear0 u a b c) : ∃ η : ℝ, 0 < η ∧ ∀ δ : ℝ, 0 < δ → δ < η →
      ((∃ s : ℝ, 0 < s ∧ InsideTriangle a b c (s • u)) ↔ chi (u + δ • d) a b c ≠ 0) := by
  by_cases hD : det a b c = 0
  · refine ⟨1, one_pos, fun δ _ _ => ?_⟩
    rw [chi_flat hD]
    exact iff_of_false (flat_not_crossed hD hne hoff hcl) (not_not.2 rfl)
  have l1 : ∀ δ : ℝ, det a b c * det (u + δ • d) b c = det a b c * det u b c + δ * (det a b c * det d b c) := by
    intro δ; simp only [det, Vec3.dot, Vec3.cross, Vec3.add_x, Vec3.add_y, Vec3.add_z, Vec3.smul_x, Vec3.smul_y,
      Vec3.smul_z]; ring
  have l2 : ∀ δ : ℝ, det a b c * det a (u + δ • d) c = det a b c * det a u c + δ * (det a b c * det a d c) := by
    intro δ; simp only [det, Vec3.dot, Vec3.cross, Vec3.add_x, Vec3.add_y, Vec3.add_z, Vec3.smul_x, Vec3.smul_y,
      Vec3.smul_z]; ring
  have l3 : ∀ δ : ℝ, det a b c * det a b (u + δ • d) = det a b c * det a b u + δ * (det a b c * det a b d) := by
    intro δ; simp only [det, Vec3.dot, Vec3.cross, Vec3.add_x, Vec3.add_y, Vec3.add_z, Vec3.smul_x, Vec3.smul_y,
      Vec3.smul_z]; ring
  obtain ⟨η1, p1, s1⟩ := sign_stable (det a b c * det u b c) (det a b c * det d b c)
  obtain ⟨η2, p2, s2⟩ := sign_stable (det a b c * det a u c) (det a b c * det a d c)
  obtain ⟨η3, p3, s3⟩ := sign_stable (det a b c * det a b u) (det a b c * det a b d)
  refine ⟨min η1 (min η2 η3), lt_min p1 (lt_min p2 p3), fun δ h0 h => ?_⟩
  rw [lt_min_iff, lt_min_iff] at h
  obtain ⟨q1, q2, q3⟩ := h
  have t1 := s1 δ h0 q1
  have t2 := s2 δ h0 q2
  have t3 := s3 δ h0 q3
  rw [cross_iff hD]
  constructor
  · intro hc
    rw [chi_ne hD] at hc ⊢
    rw [l1, l2, l3]
    exact ⟨t1.1 hc.1, t2.1 hc.2.1, t3.1 hc.2.2⟩
  · intro hc
    by_contra hn
    rw [chi_ne hD, l1, l2, l3] at hc
    rcases clear_signs hD hu hcl with h | h | h | h
    · exact h hn
    · have := t1.2 h; linarith [hc.1]
    · have := t2.2 h; linarith [hc.2.1]
    · have := t3.2 h; linarith [hc.2.2]

theorem all_stable {u : Vec3 ℝ} (d : Vec3 ℝ) (hu : u ≠ 0) : ∀ {ts : List (Vec3 ℝ × Vec3 ℝ × Vec3 ℝ)},
    (∀ t ∈ ts, Vec3.cross (t.2.1 - t.1) (t.2.2 - t.1) ≠ 0) → (∀ t ∈ ts, ¬ InTriangle t.1 t.2.1 t.2.2 0) →
    (∀ t ∈ ts, Clear0 u t.1 t.2.1 t.2.2) → ∃ η : ℝ, 0 < η ∧ ∀ δ : ℝ, 0 < δ → δ < η → ∀ t ∈ ts,
      ((∃ s : ℝ, 0 < s ∧ InsideTriangle t.1 t.2.1 t.2.2 (s • u)) ↔ chi (u + δ • d) t.1 t.2.1 t.2.2 ≠ 0)
  | [], _, _, _ => ⟨1, one_pos, by simp⟩
  | t :: ts, h1, h2, h3 => by
    rw [List.forall_mem_cons] at h1 h2 h3
    obtain ⟨η, hη, h⟩ := all_stable d hu h1.2 h2.2 h3.2
    obtain ⟨η', hη', h'⟩ := cross_stable d h1.1 h2.1 hu h3.1
    refine ⟨min η η', lt_min hη hη', fun δ h4 h5 => ?_⟩
    rw [lt_min_iff] at h5
    rw [List.forall_mem_cons]
    exact ⟨h' δ h4 h5.2, h δ h4 h5.1⟩

open Classical in
theorem parity_sum {u : Vec3 ℝ} {R : Vec3 ℝ × Vec3 ℝ × Vec3 ℝ → Prop} : ∀ {ts : List (Vec3 ℝ × Vec3 ℝ × Vec3 ℝ)},
    (∀ t ∈ ts, (R t ↔ chi u t.1 t.2.1 t.2.2 ≠ 0)) →
    (Odd (ts.countP fun t => R t) ↔ Odd (ts.map fun t => chi u t.1 t.2.1 t.2.2).sum)
  | [], _ => by simp
  | t :: ts, h => by
    rw [List.forall_mem_cons] at h
    have ih := parity_sum h.2
    rw [List.countP_cons, List.map_cons, List.sum_cons]
    by_cases hR : R t
    · have hc : chi u t.1 t.2.1 t.2.2 = 1 ∨ chi u t.1 t.2.1 t.2.2 = -1 := by
        have := h.1.1 hR
        unfold chi sg at this ⊢
        split_ifs at this ⊢ <;> simp at this ⊢
      have h1 : Odd (chi u t.1 t.2.1 t.2.2) := by rcases hc with h | h <;> rw [h] <;> decide
      rw [if_pos (by simpa using hR), Nat.odd_add_one, Int.odd_add, ih]
      simp only [h1, true_iff, Int.not_odd_iff_even]
    · have hc : chi u t.1 t.2.1 t.2.2 = 0 := by
        by_contra h0
        exact hR (h.1.2 h0)
      rw [if_neg (by simpa using hR), hc, zero_add, add_zero, ih]

/-! ### Rays from any point -/

/-- The triangles as seen from `x`. -/
def rel (x : Vec3 ℝ) (ts : List (Vec3 ℝ × Vec3 ℝ × Vec3 ℝ)) : List (Vec3 ℝ × Vec3 ℝ × Vec3 ℝ) :=
  ts.map fun t => (t.1 - x, t.2.1 - x, t.2.2 - x)

theorem comb_rel {a b c x y : Vec3 ℝ} {r s t : ℝ} (h : r + s + t = 1) :
    y = r • a + s • b + t • c ↔ y - x = r • (a - x) + s • (b - x) + t • (c - x) := by
  have : r • (a - x) + s • (b - x) + t • (c - x) = r • a + s • b + t • c - (r + s + t) • x := by
    rw [smul_sub, smul_sub, smul_sub, add_smul, add_smul]; abel
  rw [this, h, one_smul, sub_left_inj]

theorem inTriangle_rel {a b c x y : Vec3 ℝ} : InTriangle a b c y ↔ InTriangle (a - x) (b - x) (c - x) (y - x) :=
  ⟨fun ⟨r, s, t, h1, h2, h3, h4, h5⟩ => ⟨r, s, t, h1, h2, h3, h4, (comb_rel h4).1 h5⟩,
    fun ⟨r, s, t, h1, h2, h3, h4, h5⟩ => ⟨r, s, t, h1, h2, h3, h4, (comb_rel h4).2 h5⟩⟩

theorem insideTriangle_rel {a b c x y : Vec3 ℝ} :
    InsideTriangle a b c y ↔ InsideTriangle (a - x) (b - x) (c - x) (y - x) :=
  ⟨fun ⟨r, s, t, h1, h2, h3, h4, h5⟩ => ⟨r, s, t, h1, h2, h3, h4, (comb_rel h4).1 h5⟩,
    fun ⟨r, s, t, h1, h2, h3, h4, h5⟩ => ⟨r, s, t, h1, h2, h3, h4, (comb_rel h4).2 h5⟩⟩

theorem onSegment_rel {p q x y : Vec3 ℝ} : OnSegment p q y ↔ OnSegment (p - x) (q - x) (y - x) := by
  unfold OnSegment
  refine exists_congr fun t => and_congr_right fun _ => and_congr_right fun _ => ?_
  have : p - x + t • (q - x - (p - x)) = p + t • (q - p) - x := by
    rw [show q - x - (p - x) = q - p by abel]; abel
  rw [this, sub_left_inj]

theorem crosses_rel {x u : Vec3 ℝ} {t : Vec3 ℝ × Vec3 ℝ × Vec3 ℝ} : Crosses x u t ↔
    ∃ s : ℝ, 0 < s ∧ InsideTriangle (t.1 - x) (t.2.1 - x) (t.2.2 - x) (s • u) := by
  unfold Crosses
  refine exists_congr fun s => and_congr_right fun _ => ?_
  rw [insideTriangle_rel (x := x), add_sub_cancel_left]

theorem clear_rel {x u : Vec3 ℝ} {ts : List (Vec3 ℝ × Vec3 ℝ × Vec3 ℝ)} (h : ClearRay ts x u) :
    ∀ t ∈ rel x ts, Clear0 u t.1 t.2.1 t.2.2 := by
  intro t ht s hs
  obtain ⟨t', ht', rfl⟩ := List.mem_map.1 ht
  obtain ⟨h1, h2, h3⟩ := h.2 t' ht' s hs
  rw [onSegment_rel (x := x), add_sub_cancel_left] at h1 h2 h3
  exact ⟨h1, h2, h3⟩

theorem off_rel {x : Vec3 ℝ} {ts : List (Vec3 ℝ × Vec3 ℝ × Vec3 ℝ)} (h : OffSurface ts x) :
    ∀ t ∈ rel x ts, ¬ InTriangle t.1 t.2.1 t.2.2 0 := by
  intro t ht
  obtain ⟨t', ht', rfl⟩ := List.mem_map.1 ht
  have := h t' ht'
  rwa [inTriangle_rel (x := x), sub_self] at this

theorem ne_rel {x : Vec3 ℝ} {ts : List (Vec3 ℝ × Vec3 ℝ × Vec3 ℝ)}
    (h : ∀ t ∈ ts, Vec3.cross (t.2.1 - t.1) (t.2.2 - t.1) ≠ 0) :
    ∀ t ∈ rel x ts, Vec3.cross (t.2.1 - t.1) (t.2.2 - t.1) ≠ 0 := by
  intro t ht
  obtain ⟨t', ht', rfl⟩ := List.mem_map.1 ht
  have := h t' ht'
  have e1 : t'.2.1 - x - (t'.1 - x) = t'.2.1 - t'.1 := by abel
  have e2 : t'.2.2 - x - (t'.1 - x) = t'.2.2 - t'.1 := by abel
  simp only [e1, e2]
  exact this

theorem closed_rel {x : Vec3 ℝ} {ts : List (Vec3 ℝ × Vec3 ℝ × Vec3 ℝ)} (h : ClosedSum ts) : ClosedSum (rel x ts) := by
  intro g hg
  have := h (fun p q => g (p - x) (q - x)) fun p q => hg _ _
  rw [← this]
  simp only [edgesSum, rel, List.map_map]
  rfl

open Classical in
theorem crossings_rel (ts : List (Vec3 ℝ × Vec3 ℝ × Vec3 ℝ)) (x u : Vec3 ℝ) : crossings ts x u =
    (rel x ts).countP fun t => ∃ s : ℝ, 0 < s ∧ InsideTriangle t.1 t.2.1 t.2.2 (s • u) := by
  rw [rel, List.countP_map, crossings]
  apply List.countP_congr
  intro t _
  simp only [Function.comp_apply, decide_eq_true_eq]
  exact crosses_rel

/-- All rays that meet no edge cross an odd number of triangles, or all cross an even number. -/
theorem crossings_parity {ts : List (Vec3 ℝ × Vec3 ℝ × Vec3 ℝ)} {x : Vec3 ℝ} (hcl : ClosedSum ts)
    (hne : ∀ t ∈ ts, Vec3.cross (t.2.1 - t.1) (t.2.2 - t.1) ≠ 0) (hoff : OffSurface ts x) {u u' : Vec3 ℝ}
    (hu : ClearRay ts x u) (hu' : ClearRay ts x u') : Odd (crossings ts x u) ↔ Odd (crossings ts x u') := by
  obtain ⟨d, hd⟩ := exists_gen (planes (rel x ts))
  have one : ∀ w, ClearRay ts x w → ∃ w', (∀ n ∈ planes (rel x ts), n ≠ 0 → Vec3.dot w' n ≠ 0) ∧
      (Odd (crossings ts x w) ↔ Odd ((rel x ts).map fun t => chi w' t.1 t.2.1 t.2.2).sum) := by
    intro w hw
    obtain ⟨η, hη, h⟩ := all_stable d hw.1 (ne_rel hne) (off_rel hoff) (clear_rel hw)
    obtain ⟨δ, h1, h2, h3⟩ := exists_step (u := w) (d := d) (L := planes (rel x ts))
      (fun n hn hn0 h0 => absurd h0 (hd n hn hn0)) hη
    refine ⟨_, h3, ?_⟩
    rw [crossings_rel]
    exact parity_sum (h δ h1 h2)
  obtain ⟨w, h1, h2⟩ := one u hu
  obtain ⟨w', h1', h2'⟩ := one u' hu'
  rw [h2, h2', sum_chi_eq (closed_rel hcl) (off_rel hoff) h1 h1']

/-- A ray in general position meets no edge. -/
theorem clear_of_gen {ts : List (Vec3 ℝ × Vec3 ℝ × Vec3 ℝ)} {x w : Vec3 ℝ}
    (hne : ∀ t ∈ ts, Vec3.cross (t.2.1 - t.1) (t.2.2 - t.1) ≠ 0) (hoff : OffSurface ts x) (hw : w ≠ 0)
    (h3 : ∀ n ∈ planes (rel x ts), n ≠ 0 → Vec3.dot w n ≠ 0) : ClearRay ts x w := by
  refine ⟨hw, ?_⟩
  intro t ht s hs
  have hg := gen_of_planes h3 _ (List.mem_map_of_mem ht : (t.1 - x, t.2.1 - x, t.2.2 - x) ∈ rel x ts)
  have ho := off_rel hoff _ (List.mem_map_of_mem ht : (t.1 - x, t.2.1 - x, t.2.2 - x) ∈ rel x ts)
  have hn := ne_rel (x := x) hne _ (List.mem_map_of_mem ht : (t.1 - x, t.2.1 - x, t.2.2 - x) ∈ rel x ts)
  rw [onSegment_rel (x := x), onSegment_rel (p := t.2.1) (x := x), onSegment_rel (p := t.2.2) (x := x),
    add_sub_cancel_left]
  simp only at hg ho hn
  generalize t.1 - x = a at hg ho hn ⊢
  generalize t.2.1 - x = b at hg ho hn ⊢
  generalize t.2.2 - x = c at hg ho hn ⊢
  have edge : ∀ a b c : Vec3 ℝ, Gen w a b c → ¬ InTriangle a b c 0 → Vec3.cross (b - a) (c - a) ≠ 0 →
      ¬ OnSegment a b (s • w) := by
    rintro a b c hg ho hn ⟨k, hk0, hk1, he⟩
    have hz : s ≠ 0 := by
      rintro rfl
      apply ho
      refine ⟨1 - k, k, 0, by linarith, hk0, le_rfl, by ring, ?_⟩
      rw [zero_smul] at he
      rw [he, smul_sub, sub_smul, one_smul, zero_smul]
      abel
    have hdot : s * Vec3.dot w (Vec3.cross a b) = 0 := by
      rw [← Vec3.dot_smul_left, he]
      simp only [Vec3.dot, Vec3.cross, Vec3.add_x, Vec3.add_y, Vec3.add_z, Vec3.smul_x, Vec3.smul_y, Vec3.smul_z,
        Vec3.sub_x, Vec3.sub_y, Vec3.sub_z]
      ring
    have hab : Vec3.cross a b = 0 := by
      by_contra h0
      exact mul_ne_zero hz (hg.1 h0) hdot
    -- then the edge points to the origin, and the third corner does not
    have hbc : Vec3.cross (s • w) c = 0 → False := by
      intro h0
      have hwc : Vec3.cross w c = 0 := by
        rw [Vec3.cross_smul_left] at h0
        have := congrArg (fun v => (1 / s) • v) h0
        simp only [smul_smul, smul_zero] at this
        rwa [one_div, inv_mul_cancel₀ hz, one_smul] at this
      have hw1 : ∀ v, Vec3.dot w (Vec3.cross v c) = 0 := by
        intro v
        have : Vec3.dot w (Vec3.cross v c) = -Vec3.dot v (Vec3.cross w c) := by
          simp only [Vec3.dot, Vec3.cross]; ring
        rw [this, hwc, Vec3.dot_zero_right, neg_zero]
      have h1 : Vec3.cross b c = 0 := by
        by_contra h0
        exact hg.2.1 h0 (hw1 b)
      have h2 : Vec3.cross c a = 0 := by
        by_contra h0
        refine hg.2.2 h0 ?_
        have : Vec3.cross c a = -Vec3.cross a c := by ext <;> simp <;> ring
        rw [this, Vec3.dot_neg_right, hw1 a, neg_zero]
      apply hn
      have : Vec3.cross (b - a) (c - a) = Vec3.cross a b + Vec3.cross b c + Vec3.cross c a := by
        ext <;> simp <;> ring
      rw [this, hab, h1, h2, add_zero, add_zero]
    apply hbc
    have hb : b ≠ 0 := by
      rintro rfl
      exact ho (inTriangle_zero (l := 0) (m := 1) (n := 0) le_rfl zero_le_one le_rfl (by norm_num) (by simp))
    have hsw : ∃ k : ℝ, s • w = k • b := by
      obtain ⟨j, rfl⟩ := parallel hb hab
      refine ⟨j + k * (1 - j), ?_⟩
      rw [he]
      ext <;> simp only [Vec3.add_x, Vec3.add_y, Vec3.add_z, Vec3.smul_x, Vec3.smul_y, Vec3.smul_z, Vec3.sub_x,
        Vec3.sub_y, Vec3.sub_z] <;> ring
    obtain ⟨j, hj⟩ := hsw
    rw [hj, Vec3.cross_smul_left]
    have hj0 : j ≠ 0 := by
      rintro rfl
      rw [zero_smul] at hj
      apply ho
      refine ⟨1 - k, k, 0, by linarith, hk0, le_rfl, by ring, ?_⟩
      rw [hj] at he
      rw [he, smul_sub, sub_smul, one_smul, zero_smul]
      abel
    have hw1 : Vec3.dot w (Vec3.cross b c) = 0 := by
      have : s * Vec3.dot w (Vec3.cross b c) = 0 := by
        rw [← Vec3.dot_smul_left, hj]
        simp only [Vec3.dot, Vec3.cross, Vec3.smul_x, Vec3.smul_y, Vec3.smul_z]
        ring
      exact (mul_eq_zero.1 this).resolve_left hz
    have h1 : Vec3.cross b c = 0 := by
      by_contra h0
      exact hg.2.1 h0 hw1
    rw [h1, smul_zero]
  have hn2 : Vec3.cross (c - b) (a - b) ≠ 0 := by
    have : Vec3.cross (c - b) (a - b) = Vec3.cross (b - a) (c - a) := by ext <;> simp <;> ring
    rwa [this]
  have hn3 : Vec3.cross (a - c) (b - c) ≠ 0 := by
    have : Vec3.cross (a - c) (b - c) = Vec3.cross (b - a) (c - a) := by ext <;> simp <;> ring
    rwa [this]
  exact ⟨edge a b c hg ho hn, edge b c a hg.rot (fun h => ho (Triangles.inTriangle_rot (Triangles.inTriangle_rot h))) hn2,
    edge c a b hg.rot.rot (fun h => ho (Triangles.inTriangle_rot h)) hn3⟩

/-- Close to every direction there is one whose ray meets no edge. -/
theorem exists_clear {ts : List (Vec3 ℝ × Vec3 ℝ × Vec3 ℝ)} {x : Vec3 ℝ}
    (hne : ∀ t ∈ ts, Vec3.cross (t.2.1 - t.1) (t.2.2 - t.1) ≠ 0) (hoff : OffSurface ts x) (u : Vec3 ℝ) :
    ∃ d : Vec3 ℝ, ∀ η : ℝ, 0 < η → ∃ δ : ℝ, 0 < δ ∧ δ < η ∧ ClearRay ts x (u + δ • d) := by
  obtain ⟨d, hd⟩ := exists_gen (⟨1, 0, 0⟩ :: planes (rel x ts))
  refine ⟨d, fun η hη => ?_⟩
  obtain ⟨δ, h1, h2, h3⟩ := exists_step (u := u) (d := d) (L := ⟨1, 0, 0⟩ :: planes (rel x ts))
    (fun n hn hn0 h0 => absurd h0 (hd n hn hn0)) hη
  rw [List.forall_mem_cons] at h3
  refine ⟨δ, h1, h2, clear_of_gen hne hoff ?_ h3.2⟩
  intro h0
  exact h3.1 (by simp [Vec3.ext_iff]) (by rw [h0, Vec3.dot_zero_left])

end B3d.Enclose
