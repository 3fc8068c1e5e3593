import Verif.Model.RoundedArea
import Verif.Spec.RoundedArea
import Verif.Proofs.RoundedSolid

/-!
# Areas and centroids in rounded arithmetic (helper lemmas for C121)
-/

namespace B3d.Rounded

open Polygon Triangles Spec

variable {R t : ℝ} {p1 p2 p3 : Vec3 ℝ}

/-- The number under the root. -/
theorem heron_err (A : Arith) (h12 : Vec3.norm (p2 - p1) ≤ R) (h23 : Vec3.norm (p3 - p2) ≤ R) (h13 : Vec3.norm (p3 - p1) ≤ R) :
    |heron A p1 p2 p3 - areaOf p1 p2 p3 ^ 2| ≤ 2 / 10 ^ 12 * R ^ 4 ∧ areaOf p1 p2 p3 ≤ R ^ 2 / 2 := by
  have hR : (0 : ℝ) ≤ R := (Vec3.norm_nonneg _).trans h12
  have ha := unit_dist (A := A) h12
  have hb := unit_dist (A := A) h23
  have hc := unit_dist (A := A) h13
  have hh : Unit 0 (1 / 2) (1 / 2) (1 / 2) := ⟨by norm_num, by norm_num⟩
  have hs := hh.mul (A := A) ((ha.add (A := A) hb (by norm_num)).add (A := A) (hc.mono (by norm_num)) (by norm_num))
    (by norm_num) (by norm_num) (by norm_num) (by norm_num)
  have ua := hs.sub (A := A) (ha.mono (by norm_num)) (by norm_num)
  have ub := hs.sub (A := A) (hb.mono (by norm_num)) (by norm_num)
  have uc := hs.sub (A := A) (hc.mono (by norm_num)) (by norm_num)
  have u := ((hs.mul (A := A) ua (by norm_num) (by norm_num) (by norm_num) (by norm_num)).mul (A := A) ub (by norm_num)
    (by norm_num) (by norm_num) (by norm_num)).mul (A := A) uc (by norm_num) (by norm_num) (by norm_num) (by norm_num)
  have e : areaOf p1 p2 p3 ^ 2 = 1 / 2 * (Vec3.norm (p2 - p1) + Vec3.norm (p3 - p2) + Vec3.norm (p3 - p1)) *
      (1 / 2 * (Vec3.norm (p2 - p1) + Vec3.norm (p3 - p2) + Vec3.norm (p3 - p1)) - Vec3.norm (p2 - p1)) *
      (1 / 2 * (Vec3.norm (p2 - p1) + Vec3.norm (p3 - p2) + Vec3.norm (p3 - p1)) - Vec3.norm (p3 - p2)) *
      (1 / 2 * (Vec3.norm (p2 - p1) + Vec3.norm (p3 - p2) + Vec3.norm (p3 - p1)) - Vec3.norm (p3 - p1)) := by
    have ha := Vec3.norm_sq (p2 - p1)
    have hb := Vec3.norm_sq (p3 - p2)
    have hc := Vec3.norm_sq (p3 - p1)
    have hw := Vec3.norm_sq (Vec3.cross (p2 - p1) (p3 - p1))
    unfold areaOf
    generalize Vec3.norm (p2 - p1) = a at *
    generalize Vec3.norm (p3 - p2) = b at *
    generalize Vec3.norm (p3 - p1) = c at *
    generalize Vec3.norm (Vec3.cross (p2 - p1) (p3 - p1)) = w at *
    have e1 : 1 / 2 * (a + b + c) * (1 / 2 * (a + b + c) - a) * (1 / 2 * (a + b + c) - b) * (1 / 2 * (a + b + c) - c) =
        (2 * (a ^ 2 * b ^ 2 + b ^ 2 * c ^ 2 + c ^ 2 * a ^ 2) - (a ^ 2) ^ 2 - (b ^ 2) ^ 2 - (c ^ 2) ^ 2) / 16 := by ring
    have e2 : (w / 2) ^ 2 = w ^ 2 / 4 := by ring
    rw [e1, e2, ha, hb, hc, hw]
    simp only [Vec3.normSq_def, Vec3.cross_x, Vec3.cross_y, Vec3.cross_z, Vec3.sub_x, Vec3.sub_y, Vec3.sub_z]
    ring
  refine ⟨?_, ?_⟩
  · rw [e]
    refine u.2.trans ?_
    have e2 : 1 / 2 * (R + R + R) * (1 / 2 * (R + R + R) + R) * (1 / 2 * (R + R + R) + R) * (1 / 2 * (R + R + R) + R) =
      375 / 16 * R ^ 4 := by ring
    rw [e2]
    have : 0 ≤ R ^ 4 := by positivity
    norm_num
    linarith
  · unfold areaOf
    have := norm_cross_le (p2 - p1) (p3 - p1)
    have := mul_le_mul h12 h13 (Vec3.norm_nonneg _) hR
    rw [← pow_two] at this
    linarith

theorem areaOf_nonneg : 0 ≤ areaOf p1 p2 p3 := div_nonneg (Vec3.norm_nonneg _) (by norm_num)

/-- A calculated area. -/
theorem area_err (A : RootArith) (h12 : Vec3.norm (p2 - p1) ≤ R) (h23 : Vec3.norm (p3 - p2) ≤ R)
    (h13 : Vec3.norm (p3 - p1) ≤ R) :
    (21 / 10 ^ 13 * R ^ 4 ≤ areaOf p1 p2 p3 ^ 2 → ∃ v, triangleArea A p1 p2 p3 = some v) ∧
    ∀ v, triangleArea A p1 p2 p3 = some v → 0 ≤ v ∧
      |v ^ 2 - areaOf p1 p2 p3 ^ 2| ≤ 21 / 10 ^ 13 * R ^ 4 + 11 / 10 ^ 13 := by
  obtain ⟨h1, h2⟩ := heron_err A.toArith h12 h23 h13
  have hR : (0 : ℝ) ≤ R := (Vec3.norm_nonneg _).trans h12
  have h4 : 0 ≤ R ^ 4 := by positivity
  have hl := A.lit_err EPSILON
  have he : (EPSILON : ℝ) = 1 / 10 ^ 12 := by norm_num [EPSILON]
  unfold triangleArea
  rw [he] at hl ⊢
  have ha := A.add_err (heron A.toArith p1 p2 p3) (A.lit (1 / 10 ^ 12))
  have hD : areaOf p1 p2 p3 ^ 2 ≤ R ^ 4 / 4 := by
    have := pow_le_pow_left₀ areaOf_nonneg h2 2
    have e : (R ^ 2 / 2) ^ 2 = R ^ 4 / 4 := by ring
    linarith
  have hD0 : 0 ≤ areaOf p1 p2 p3 ^ 2 := sq_nonneg _
  set N := heron A.toArith p1 p2 p3
  set D := areaOf p1 p2 p3 ^ 2
  set L := A.lit (1 / 10 ^ 12)
  set S := A.add N L
  rw [abs_of_pos (by norm_num : (0 : ℝ) < 1 / 10 ^ 12)] at hl
  have hl' := abs_le.1 hl
  have h1' := abs_le.1 h1
  have hb : |N + L| ≤ R ^ 4 + 2 / 10 ^ 12 := by
    rw [abs_le]
    constructor
    · norm_num at hl' h1' ⊢; linarith
    · norm_num at hl' h1' ⊢; linarith
  have ha' := abs_le.1 (ha.trans (mul_le_mul_of_nonneg_left hb (by norm_num)))
  have hr : |S - (D + 1 / 10 ^ 12)| ≤ 205 / 10 ^ 14 * R ^ 4 + 1 / 10 ^ 26 := by
    rw [abs_le]
    constructor
    · norm_num at hl' h1' ha' ⊢; linarith
    · norm_num at hl' h1' ha' ⊢; linarith
  have hr' := abs_le.1 hr
  constructor
  · intro hd
    rw [if_neg]
    · exact ⟨_, rfl⟩
    · rw [not_lt]
      norm_num at hr' hd ⊢
      linarith
  · intro v hv
    simp only [] at hv
    split at hv
    · cases hv
    · rename_i hS0
      rw [not_lt] at hS0
      cases hv
      have r1 : Rel (1 / 10 ^ 15) (A.sqrt S) (Real.sqrt S) := rel_of_err (by norm_num) (by
        rw [abs_of_nonneg (Real.sqrt_nonneg S)]; exact A.sqrt_err S hS0)
      obtain ⟨d, hd, e1⟩ := r1
      have hd' := abs_le.1 hd
      have hq := Real.sqrt_nonneg S
      have hsq : Real.sqrt S ^ 2 = S := Real.sq_sqrt hS0
      rw [e1]
      set q := Real.sqrt S
      refine ⟨?_, ?_⟩
      · have : 0 ≤ 1 + d := by norm_num at hd'; linarith
        positivity
      · have e3 : (q * (1 + d)) ^ 2 - D = S * ((1 + d) ^ 2 - 1) + (S - D) := by rw [← hsq]; ring
        have f2 : |(1 + d) ^ 2 - 1| ≤ 3 / 10 ^ 15 := by
          rw [abs_le]
          constructor
          · norm_num at hd' ⊢; nlinarith
          · norm_num at hd' ⊢; nlinarith
        rw [e3]
        refine (abs_add_le _ _).trans ?_
        rw [abs_mul, abs_of_nonneg hS0]
        have hS1 : S ≤ R ^ 4 + 2 / 10 ^ 12 := by norm_num at hr' ⊢; linarith
        have m : S * |(1 + d) ^ 2 - 1| ≤ (R ^ 4 + 2 / 10 ^ 12) * (3 / 10 ^ 15) :=
          mul_le_mul hS1 f2 (abs_nonneg _) (by positivity)
        have hSD : |S - D| ≤ 205 / 10 ^ 14 * R ^ 4 + 1 / 10 ^ 26 + 1 / 10 ^ 12 := by
          rw [abs_le]
          constructor <;> (norm_num at hr' ⊢; linarith)
        norm_num at m hSD ⊢
        linarith

/-- The area of a triangle that is not thin. -/
theorem plump_area (A : RootArith) (hR : 1 ≤ R) (ht : 2 / 10 ^ 6 ≤ t) (h : Plump R t p1 p2 p3) :
    ∃ v, triangleArea A p1 p2 p3 = some v ∧ |v - areaOf p1 p2 p3| ≤ 4 / 10 ^ 12 * (R ^ 2 / t) ∧
      areaOf p1 p2 p3 ≤ R ^ 2 / 2 ∧ t ≤ 1 / 2 := by
  have ht0 : 0 < t := lt_of_lt_of_le (by norm_num) ht
  have hR2 : 0 < R ^ 2 := by positivity
  have hR4 : 1 ≤ R ^ 4 := one_le_pow₀ hR
  obtain ⟨h1, h2⟩ := area_err A h.near12 h.near23 h.near13
  have h3 := (heron_err A.toArith h.near12 h.near23 h.near13).2
  have hl := h.large
  have ht2 : t ≤ 1 / 2 := by
    have : t * R ^ 2 ≤ 1 / 2 * R ^ 2 := by linarith
    exact le_of_mul_le_mul_right this hR2
  have hsq : t ^ 2 * R ^ 4 ≤ areaOf p1 p2 p3 ^ 2 := by
    have := pow_le_pow_left₀ (by positivity) hl 2
    have e : (t * R ^ 2) ^ 2 = t ^ 2 * R ^ 4 := by ring
    linarith
  have htt : 4 / 10 ^ 12 ≤ t ^ 2 := by
    have := pow_le_pow_left₀ (by norm_num) ht 2
    norm_num at this ⊢
    linarith
  obtain ⟨v, hv⟩ := h1 (by
    have : 4 / 10 ^ 12 * R ^ 4 ≤ t ^ 2 * R ^ 4 := mul_le_mul_of_nonneg_right htt (by positivity)
    norm_num at this ⊢
    linarith)
  obtain ⟨h4, h5⟩ := h2 v hv
  refine ⟨v, hv, ?_, h3, ht2⟩
  set S := areaOf p1 p2 p3
  have hS : 0 ≤ S := areaOf_nonneg
  have e : v ^ 2 - S ^ 2 = (v - S) * (v + S) := by ring
  rw [e, abs_mul, abs_of_nonneg (by positivity : 0 ≤ v + S)] at h5
  have h6 : |v - S| * (t * R ^ 2) ≤ |v - S| * (v + S) := mul_le_mul_of_nonneg_left (by linarith) (abs_nonneg _)
  have h7 : |v - S| * (t * R ^ 2) ≤ 4 / 10 ^ 12 * R ^ 4 := by
    norm_num at h5 ⊢
    linarith
  have e2 : 4 / 10 ^ 12 * (R ^ 2 / t) * (t * R ^ 2) = 4 / 10 ^ 12 * R ^ 4 := by field_simp
  rw [← e2] at h7
  exact le_of_mul_le_mul_right h7 (by positivity)

/-- A component of the centre of a triangle. -/
theorem mean_err (A : Arith) {x y z : ℝ} (hx : |x| ≤ R) (hy : |y| ≤ R) (hz : |z| ≤ R) :
    |A.div (A.add (A.add x y) z) 3 - (x + y + z) / 3| ≤ 6 / 10 ^ 15 * R ∧ |(x + y + z) / 3| ≤ R := by
  have hR : (0 : ℝ) ≤ R := (abs_nonneg _).trans hx
  have u : ∀ {w : ℝ}, |w| ≤ R → Unit 0 R w w := fun h => ⟨h, by simp⟩
  have h := ((u hx).add (A := A) (u hy) (by norm_num)).add (A := A) ((u hz).mono (by norm_num)) (by norm_num)
  have h1 := h.1
  have h2 := h.2
  have h3 := h.abs
  set S := A.add (A.add x y) z
  have hd := A.div_err S 3 (by norm_num)
  rw [abs_div, abs_of_pos (by norm_num : (0 : ℝ) < 3)] at hd
  constructor
  · have e : A.div S 3 - (x + y + z) / 3 = (A.div S 3 - S / 3) + (S - (x + y + z)) / 3 := by ring
    rw [e]
    refine (abs_add_le _ _).trans ?_
    rw [abs_div, abs_of_pos (by norm_num : (0 : ℝ) < 3)]
    norm_num at h2 h3 hd ⊢
    linarith
  · rw [abs_div, abs_of_pos (by norm_num : (0 : ℝ) < 3)]
    linarith

/-- One term of the sum. -/
theorem term_err (A : Arith) (hR : 0 < R) (ht : 0 < t) (ht2 : t ≤ 1 / 2) {c C w W : ℝ} (hc : |c - C| ≤ 6 / 10 ^ 15 * R) (hC : |C| ≤ R)
    (hw : |w - W| ≤ 4 / 10 ^ 12 * (R ^ 2 / t)) (hW0 : 0 ≤ W) (hW : W ≤ R ^ 2 / 2) :
    |A.mul c w - W * C| ≤ 42 / 10 ^ 13 * (R ^ 3 / t) ∧ |W * C| ≤ R ^ 3 / 2 := by
  have hq : R ^ 2 ≤ 1 / 2 * (R ^ 2 / t) := by
    rw [mul_div_assoc', le_div_iff₀ ht]
    have : 0 < R ^ 2 := by positivity
    nlinarith
  have hQ : 0 < R ^ 2 / t := by positivity
  have e0 : R ^ 3 / t = R * (R ^ 2 / t) := by ring
  have e1 : R ^ 3 = R * R ^ 2 := by ring
  set Q := R ^ 2 / t
  have hcC := abs_le.1 hc
  have hCb := abs_le.1 hC
  have hc' : |c| ≤ (1 + 1 / 10 ^ 10) * R := by
    have := abs_add_le (c - C) C
    rw [sub_add_cancel] at this
    norm_num at hc ⊢
    linarith
  have hw' : |w| ≤ Q := by
    have := abs_add_le (w - W) W
    rw [sub_add_cancel, abs_of_nonneg hW0] at this
    norm_num at hw ⊢
    linarith
  have hm := A.mul_err c w
  have m1 : |c * w| ≤ (1 + 1 / 10 ^ 10) * R * Q := by
    rw [abs_mul]; exact mul_le_mul hc' hw' (abs_nonneg _) (by positivity)
  have m2 : |c * (w - W)| ≤ (1 + 1 / 10 ^ 10) * R * (4 / 10 ^ 12 * Q) := by
    rw [abs_mul]; exact mul_le_mul hc' hw (abs_nonneg _) (by positivity)
  have m3 : |W * (c - C)| ≤ (R ^ 2 / 2) * (6 / 10 ^ 15 * R) := by
    rw [abs_mul, abs_of_nonneg hW0]; exact mul_le_mul hW hc (abs_nonneg _) (by positivity)
  constructor
  · have e : A.mul c w - W * C = (A.mul c w - c * w) + (c * (w - W) + W * (c - C)) := by ring
    rw [e, e0]
    refine (abs_add_le _ _).trans ?_
    have s := abs_add_le (c * (w - W)) (W * (c - C))
    have hm' := hm.trans (mul_le_mul_of_nonneg_left m1 (by norm_num))
    have e3 : (R ^ 2 / 2) * (6 / 10 ^ 15 * R) = 3 / 10 ^ 15 * (R * R ^ 2) := by ring
    rw [e3] at m3
    have hRQ : R * R ^ 2 ≤ R * (1 / 2 * Q) := mul_le_mul_of_nonneg_left hq hR.le
    have hp : 0 < R * Q := by positivity
    generalize R * R ^ 2 = X at *
    have e4 : (1 + 1 / 10 ^ 10) * R * Q = (1 + 1 / 10 ^ 10) * (R * Q) := by ring
    have e5 : (1 + 1 / 10 ^ 10) * R * (4 / 10 ^ 12 * Q) = (1 + 1 / 10 ^ 10) * (4 / 10 ^ 12) * (R * Q) := by ring
    have e6 : R * (1 / 2 * Q) = 1 / 2 * (R * Q) := by ring
    rw [e4] at hm'
    rw [e5] at m2
    rw [e6] at hRQ
    generalize R * Q = Y at *
    linarith
  · rw [abs_mul, abs_of_nonneg hW0]
    refine (mul_le_mul hW hC (abs_nonneg _) (by positivity)).trans (le_of_eq ?_)
    ring

/-- One component of the sum after `n` triangles. -/
def Sum1 (R t : ℝ) (n : Nat) (T c : ℝ) : Prop :=
  |T| ≤ n * (R ^ 3 / 2) ∧ |c - T| ≤ n * (5 / 10 ^ 12 * (R ^ 3 / t))

theorem Sum1.step (A : Arith) (hR : 0 < R) (ht : 0 < t) (ht2 : t ≤ 1 / 2) {n : Nat} (hn : n < 1000) {T c x X : ℝ} (h : Sum1 R t n T c)
    (h3 : |x - X| ≤ 42 / 10 ^ 13 * (R ^ 3 / t)) (h4 : |X| ≤ R ^ 3 / 2) : Sum1 R t (n + 1) (T + X) (A.add c x) := by
  obtain ⟨h1, h2⟩ := h
  have hq : R ^ 3 ≤ 1 / 2 * (R ^ 3 / t) := by
    rw [mul_div_assoc', le_div_iff₀ ht]
    have : 0 < R ^ 3 := by positivity
    nlinarith
  have hQ : 0 < R ^ 3 / t := by positivity
  set Q := R ^ 3 / t
  have hn' : (n : ℝ) + 1 ≤ 1000 := by exact_mod_cast hn
  have hn0 : (0 : ℝ) ≤ n := Nat.cast_nonneg n
  refine ⟨?_, ?_⟩
  · push_cast
    refine (abs_add_le _ _).trans ?_
    linarith
  · have ha := A.add_err c x
    have e1 : A.add c x - (T + X) = (A.add c x - (c + x)) + ((c - T) + (x - X)) := by ring
    have e2 : c + x = (T + X) + ((c - T) + (x - X)) := by ring
    have b1 := abs_add_le (c - T) (x - X)
    have b2 := abs_add_le (T + X) ((c - T) + (x - X))
    have b3 := abs_add_le T X
    rw [← e2] at b2
    have nq : (n : ℝ) * (R ^ 3 / 2) ≤ n * (1 / 4 * Q) := mul_le_mul_of_nonneg_left (by linarith) hn0
    have nq2 : (n : ℝ) * Q ≤ 999 * Q := mul_le_mul_of_nonneg_right (by linarith) hQ.le
    have b4 : |c + x| ≤ 251 * Q := by
      norm_num at h2 h3
      linarith
    rw [e1]
    refine (abs_add_le _ _).trans ?_
    have := ha.trans (mul_le_mul_of_nonneg_left b4 (by norm_num))
    push_cast
    norm_num at this h2 h3 ⊢
    linarith

/-- The sum after `n` triangles. -/
def Sum3 (R t : ℝ) (n : Nat) (T c : Vec3 ℝ) : Prop := Sum1 R t n T.x c.x ∧ Sum1 R t n T.y c.y ∧ Sum1 R t n T.z c.z

theorem terms_sum (A : RootArith) (hR : 1 ≤ R) (ht : 2 / 10 ^ 6 ≤ t) (pts : List (Vec3 ℝ)) : ∀ (tri : List Tri),
    (∀ i j k, (i, j, k) ∈ tri → ∃ p1 p2 p3, pts[i]? = some p1 ∧ pts[j]? = some p2 ∧ pts[k]? = some p3 ∧ Plump R t p1 p2 p3) →
    ∃ terms, centroidTerms A pts tri = .ok terms ∧ ∀ (n : Nat) (T c : Vec3 ℝ), Sum3 R t n T c → n + tri.length ≤ 1000 →
      ∃ c', terms.foldl (addTerm A.toArith) (some c) = some c' ∧ Sum3 R t (n + tri.length) (T + weightedCentres pts tri) c'
  | [], _ => ⟨[], rfl, fun n T c h _ => ⟨c, rfl, by simpa [weightedCentres] using h⟩⟩
  | (i, j, k) :: rest, hf => by
    obtain ⟨p1, p2, p3, e1, e2, e3, hp⟩ := hf i j k (by simp)
    obtain ⟨terms, ht1, ht2⟩ := terms_sum A hR ht pts rest fun i j k hm => hf i j k (List.mem_cons_of_mem _ hm)
    obtain ⟨w, hw, hw1, hw2, hw3⟩ := plump_area A hR ht hp
    refine ⟨(triangleCentroid A.toArith p1 p2 p3, some w) :: terms, ?_, ?_⟩
    · rw [centroidTerms, e1, e2, e3]
      simp only [ht1, hw]
    · intro n T c h hn
      simp only [List.length_cons] at hn
      have hR0 : 0 < R := by linarith
      have ht0 : 0 < t := lt_of_lt_of_le (by norm_num) ht
      obtain ⟨x1, y1, z1⟩ := comp_le p1
      obtain ⟨x2, y2, z2⟩ := comp_le p2
      obtain ⟨x3, y3, z3⟩ := comp_le p3
      have key : ∀ {a b d : ℝ}, |a| ≤ Vec3.norm p1 → |b| ≤ Vec3.norm p2 → |d| ≤ Vec3.norm p3 →
          |A.mul (A.div (A.add (A.add a b) d) 3) w - areaOf p1 p2 p3 / 3 * (a + b + d)| ≤ 42 / 10 ^ 13 * (R ^ 3 / t) ∧
            |areaOf p1 p2 p3 / 3 * (a + b + d)| ≤ R ^ 3 / 2 := by
        intro a b d ha hb hd
        obtain ⟨m1, m2⟩ := mean_err A.toArith (ha.trans hp.near1) (hb.trans hp.near2) (hd.trans hp.near3)
        have := term_err A.toArith hR0 ht0 hw3 m1 m2 hw1 areaOf_nonneg hw2
        have e : areaOf p1 p2 p3 / 3 * (a + b + d) = areaOf p1 p2 p3 * ((a + b + d) / 3) := by ring
        rw [e]
        exact this
      obtain ⟨hx, hy, hz⟩ := h
      have sx := hx.step A.toArith hR0 ht0 hw3 (by omega) (key x1 x2 x3).1 (key x1 x2 x3).2
      have sy := hy.step A.toArith hR0 ht0 hw3 (by omega) (key y1 y2 y3).1 (key y1 y2 y3).2
      have sz := hz.step A.toArith hR0 ht0 hw3 (by omega) (key z1 z2 z3).1 (key z1 z2 z3).2
      obtain ⟨c', h1, h2⟩ := ht2 (n + 1) (T + (areaOf p1 p2 p3 / 3) • (p1 + p2 + p3))
        (addv A.toArith c ⟨A.mul (triangleCentroid A.toArith p1 p2 p3).x w, A.mul (triangleCentroid A.toArith p1 p2 p3).y w,
          A.mul (triangleCentroid A.toArith p1 p2 p3).z w⟩) ⟨sx, sy, sz⟩ (by omega)
      refine ⟨c', h1, ?_⟩
      have e : weightedCentres pts ((i, j, k) :: rest) = (areaOf p1 p2 p3 / 3) • (p1 + p2 + p3) + weightedCentres pts rest := by
        simp only [weightedCentres, List.map_cons, List.sum_cons, List.getD_eq_getElem?_getD, e1, e2, e3, Option.getD_some]
      rw [e, List.length_cons, ← add_assoc T, show n + (rest.length + 1) = n + 1 + rest.length by omega]
      exact h2

end B3d.Rounded
