import Verif.Proofs.RoundedVolume
import Verif.Spec.RoundedVolume

/-!
# Volumes of solids in rounded arithmetic (helper lemmas for C120)
-/

namespace B3d.Rounded

open Polygon Triangles Spec

variable {R t : ℝ} {v p1 p2 p3 : Vec3 ℝ}

theorem dot_le (a b : Vec3 ℝ) : |Vec3.dot a b| ≤ Vec3.norm a * Vec3.norm b := by
  rw [← abs_of_nonneg (mul_nonneg (Vec3.norm_nonneg a) (Vec3.norm_nonneg b))]
  apply sq_le_sq.1
  rw [mul_pow, Vec3.norm_sq, Vec3.norm_sq]
  simp only [Vec3.normSq_def, Vec3.dot]
  nlinarith [sq_nonneg (a.x * b.y - a.y * b.x), sq_nonneg (a.x * b.z - a.z * b.x), sq_nonneg (a.y * b.z - a.z * b.y)]

theorem norm_cross_le (a b : Vec3 ℝ) : Vec3.norm (Vec3.cross a b) ≤ Vec3.norm a * Vec3.norm b := by
  apply le_of_sq_le_sq _ (mul_nonneg (Vec3.norm_nonneg a) (Vec3.norm_nonneg b))
  rw [mul_pow, Vec3.norm_sq, Vec3.norm_sq, Vec3.norm_sq]
  simp only [Vec3.normSq_def, Vec3.cross_x, Vec3.cross_y, Vec3.cross_z]
  nlinarith [sq_nonneg (a.x * b.x + a.y * b.y + a.z * b.z)]

theorem comp_le (a : Vec3 ℝ) : |a.x| ≤ Vec3.norm a ∧ |a.y| ≤ Vec3.norm a ∧ |a.z| ≤ Vec3.norm a := by
  have h := Vec3.norm_sq a
  have h0 := Vec3.norm_nonneg a
  rw [Vec3.normSq_def] at h
  refine ⟨abs_le_of_sq_le_sq ?_ h0, abs_le_of_sq_le_sq ?_ h0, abs_le_of_sq_le_sq ?_ h0⟩ <;> nlinarith [sq_nonneg a.x, sq_nonneg a.y, sq_nonneg a.z]

theorem cone_eq (p1 p2 p3 : Vec3 ℝ) : det6 0 p1 p2 p3 = 6 * coneOver p1 p2 p3 := by
  simp only [det6, coneOver, sub_zero]
  ring

theorem cone_facing {n : Vec3 ℝ} {k : ℝ} (h : Vec3.cross (p2 - p1) (p3 - p1) = k • n) :
    6 * coneOver p1 p2 p3 = k * Vec3.dot n p1 := by
  have e : 6 * coneOver p1 p2 p3 = Vec3.dot (Vec3.cross (p2 - p1) (p3 - p1)) p1 := by
    simp only [coneOver, Vec3.dot, Vec3.cross_x, Vec3.cross_y, Vec3.cross_z, Vec3.sub_x, Vec3.sub_y, Vec3.sub_z]; ring
  rw [e, h]
  simp only [Vec3.dot, Vec3.smul_x, Vec3.smul_y, Vec3.smul_z]; ring

/-- A rounded scalar product with a nearly right vector. -/
theorem dot_near (A : Arith) {n p : Vec3 ℝ} (hn : Vec3.norm n = 1) (hv : WithinBy (1 / 10 ^ 13) v n)
    (hp : Vec3.norm p ≤ R) : |A.dot v (subv A p 0) - Vec3.dot n p| ≤ 1 / 10 ^ 12 * R := by
  obtain ⟨n1, n2, n3⟩ := comp_le n
  rw [hn] at n1 n2 n3
  obtain ⟨q1, q2, q3⟩ := comp_le p
  replace q1 := q1.trans hp
  replace q2 := q2.trans hp
  replace q3 := q3.trans hp
  obtain ⟨v1, v2, v3⟩ := hv
  have hR : 0 ≤ R := (Vec3.norm_nonneg _).trans hp
  have hd := A.dot_err v (subv A p 0)
  have key : ∀ {a b c d : ℝ}, |a - b| ≤ 1 / 10 ^ 13 → |b| ≤ 1 → |c| ≤ R → d = A.sub c 0 →
      |a * d - b * c| ≤ 102 / 10 ^ 15 * R ∧ |a * d| ≤ 2 * R := by
    intro a b c d hab hb hc hd'
    have h1 := A.sub_err c 0
    rw [sub_zero, ← hd'] at h1
    have h2 : |d| ≤ 11 / 10 * R := by
      have := abs_add_le (d - c) c
      rw [sub_add_cancel] at this
      norm_num at h1 ⊢
      linarith
    have h3 : a * d - b * c = (a - b) * d + b * (d - c) := by ring
    have m1 : |a - b| * |d| ≤ 1 / 10 ^ 13 * |d| := mul_le_mul_of_nonneg_right hab (abs_nonneg _)
    have m2 : |b| * |d - c| ≤ 1 * (1 / 10 ^ 15 * R) :=
      mul_le_mul hb (h1.trans (mul_le_mul_of_nonneg_left hc (by norm_num))) (abs_nonneg _) (by norm_num)
    have h2' : |d| ≤ (1 + 1 / 10 ^ 15) * R := by
      have := abs_add_le (d - c) c
      rw [sub_add_cancel] at this
      have := h1.trans (mul_le_mul_of_nonneg_left hc (by norm_num))
      linarith
    have ha : |a| ≤ 11 / 10 := by
      have := abs_add_le (a - b) b
      rw [sub_add_cancel] at this
      norm_num at hab
      linarith
    constructor
    · rw [h3]
      refine (abs_add_le _ _).trans ?_
      rw [abs_mul, abs_mul]
      norm_num at m1 m2 h2' ⊢
      linarith
    · rw [abs_mul]
      have := mul_le_mul ha h2 (abs_nonneg _) (by norm_num : (0 : ℝ) ≤ 11 / 10)
      linarith
  obtain ⟨k1, l1⟩ := key v1 n1 q1 (d := (subv A p 0).x) rfl
  obtain ⟨k2, l2⟩ := key v2 n2 q2 (d := (subv A p 0).y) rfl
  obtain ⟨k3, l3⟩ := key v3 n3 q3 (d := (subv A p 0).z) rfl
  have e : A.dot v (subv A p 0) - Vec3.dot n p = (A.dot v (subv A p 0) - Vec3.dot v (subv A p 0)) +
      ((v.x * (subv A p 0).x - n.x * p.x) + ((v.y * (subv A p 0).y - n.y * p.y) + (v.z * (subv A p 0).z - n.z * p.z))) := by
    simp only [Vec3.dot]; ring
  rw [e]
  refine (abs_add_le _ _).trans ?_
  have s1 := abs_add_le (v.x * (subv A p 0).x - n.x * p.x)
    ((v.y * (subv A p 0).y - n.y * p.y) + (v.z * (subv A p 0).z - n.z * p.z))
  have s2 := abs_add_le (v.y * (subv A p 0).y - n.y * p.y) (v.z * (subv A p 0).z - n.z * p.z)
  have hd' : |A.dot v (subv A p 0) - Vec3.dot v (subv A p 0)| ≤ 4 / 10 ^ 15 * (6 * R) :=
    hd.trans (mul_le_mul_of_nonneg_left (by linarith) (by norm_num))
  clear hd
  norm_num at hd' k1 k2 k3 ⊢
  linarith

/-- One triangle of a solid. -/
theorem cone_step (A : RootArith) (hR : 1 ≤ R) (ht : 1 / 10 ^ 6 ≤ t) (h : Solidly R t v p1 p2 p3) :
    ∃ w, tetrahedronVolume A 0 p1 p2 p3 = some w ∧
      |A.mul (tetraSign A.toArith v p1 p2) w - coneOver p1 p2 p3| ≤ 8 / 10 ^ 14 * (R ^ 3 / t) ∧
      |coneOver p1 p2 p3| ≤ R ^ 3 / 6 ∧ t ≤ 1 / 6 := by
  obtain ⟨n, k, hn, hv, hk, hc⟩ := h.facing
  have hR0 : 0 < R := by linarith
  have ht0 : 0 < t := lt_of_lt_of_le (by norm_num) ht
  have hR3 : 0 < R ^ 3 := by positivity
  have hR6 : 1 ≤ R ^ 6 := one_le_pow₀ hR
  have hw : Within R 0 p1 p2 p3 := by
    constructor
    · rw [sub_zero]; exact h.near1
    · rw [sub_zero]; exact h.near2
    · rw [sub_zero]; exact h.near3
    · exact h.near12
    · exact h.near23
    · exact h.near13
  have hthick := h.thick
  obtain ⟨h1, h2⟩ := volume_err A hw
  have hcf := cone_facing hc
  rw [cone_eq] at h1 h2
  set c := coneOver p1 p2 p3
  have hcpos : 0 < |c| := lt_of_lt_of_le (by positivity) hthick
  have hkR : k ≤ R ^ 2 := by
    have e1 : Vec3.norm (k • n) = k := by rw [Vec3.norm_smul, hn, mul_one, abs_of_pos hk]
    rw [← e1, ← hc]
    refine (norm_cross_le _ _).trans ?_
    rw [pow_two]
    exact mul_le_mul h.near12 h.near13 (Vec3.norm_nonneg _) hR0.le
  have hdotR : |Vec3.dot n p1| ≤ R := by
    refine (dot_le _ _).trans ?_
    rw [hn, one_mul]
    exact h.near1
  have hck : 6 * |c| = k * |Vec3.dot n p1| := by
    have := congrArg abs hcf
    rwa [abs_mul, abs_mul, abs_of_pos hk, abs_of_pos (by norm_num : (0 : ℝ) < 6)] at this
  have hc6 : |c| ≤ R ^ 3 / 6 := by
    have : k * |Vec3.dot n p1| ≤ R ^ 2 * R := mul_le_mul hkR hdotR (abs_nonneg _) (by positivity)
    rw [← hck] at this
    have e : R ^ 2 * R = R ^ 3 := by ring
    linarith
  have ht6 : t ≤ 1 / 6 := by
    have : t * R ^ 3 ≤ 1 / 6 * R ^ 3 := by linarith
    exact le_of_mul_le_mul_right this hR3
  have hdot : 6 * t * R ≤ |Vec3.dot n p1| := by
    have h3 : 6 * (t * R ^ 3) ≤ R ^ 2 * |Vec3.dot n p1| := by
      have : k * |Vec3.dot n p1| ≤ R ^ 2 * |Vec3.dot n p1| := mul_le_mul_of_nonneg_right hkR (abs_nonneg _)
      linarith
    have h4 : R ^ 2 * (6 * t * R) ≤ R ^ 2 * |Vec3.dot n p1| := by
      have e : R ^ 2 * (6 * t * R) = 6 * (t * R ^ 3) := by ring
      linarith
    exact le_of_mul_le_mul_left h4 (by positivity)
  have hdn := dot_near A.toArith hn hv h.near1
  have hbig : 6 / 10 ^ 6 * R ≤ |Vec3.dot n p1| := by
    refine le_trans ?_ hdot
    have : 6 / 10 ^ 6 ≤ 6 * t := by norm_num at ht ⊢; linarith
    exact mul_le_mul_of_nonneg_right this hR0.le
  have hsign : (0 < c ∧ tetraSign A.toArith v p1 p2 = 1) ∨ (c < 0 ∧ tetraSign A.toArith v p1 p2 = -1) := by
    have hdn' := abs_le.1 hdn
    rcases lt_or_ge 0 (Vec3.dot n p1) with hd | hd
    · left
      have hp : 0 < A.dot v (subv A.toArith p1 0) := by
        rw [abs_of_pos hd] at hbig
        norm_num at hdn' hbig
        linarith
      refine ⟨?_, ?_⟩
      · have : 0 < k * Vec3.dot n p1 := mul_pos hk hd
        linarith
      · unfold tetraSign
        simp only []
        rw [if_neg hp.ne', if_pos hp]
    · right
      have hp : A.dot v (subv A.toArith p1 0) < 0 := by
        rw [abs_of_nonpos hd] at hbig
        norm_num at hdn' hbig
        linarith
      refine ⟨?_, ?_⟩
      · have hd' : Vec3.dot n p1 < 0 := by
          refine lt_of_le_of_ne hd fun e => ?_
          rw [e, abs_zero] at hbig
          have : 0 < 6 / 10 ^ 6 * R := by positivity
          linarith
        have : k * Vec3.dot n p1 < 0 := mul_neg_of_pos_of_neg hk hd'
        linarith
      · unfold tetraSign
        simp only []
        rw [if_neg hp.ne, if_neg (by simpa using hp.le)]
  have hsq : t ^ 2 * R ^ 6 ≤ c ^ 2 := by
    have := mul_self_le_mul_self (by positivity) hthick
    rw [← pow_two, ← pow_two, sq_abs] at this
    have e : (t * R ^ 3) ^ 2 = t ^ 2 * R ^ 6 := by ring
    linarith
  have ht2 : 1 / 10 ^ 12 ≤ t ^ 2 := by
    have := mul_self_le_mul_self (by norm_num) ht
    rw [← pow_two t] at this
    refine le_trans (le_of_eq ?_) this
    norm_num
  obtain ⟨w, hw1⟩ := h1 (by
    have : 1 / 10 ^ 12 * R ^ 6 ≤ t ^ 2 * R ^ 6 := mul_le_mul_of_nonneg_right ht2 (by positivity)
    have e : (2 * (6 * c)) ^ 2 = 144 * c ^ 2 := by ring
    rw [e]
    norm_num at this ⊢
    linarith)
  obtain ⟨hw0, hw2⟩ := h2 w hw1
  refine ⟨w, hw1, ?_, hc6, ht6⟩
  have hwc : |w - abs c| ≤ 7 / 10 ^ 14 * (R ^ 3 / t) := by
    have e : 144 * w ^ 2 - (2 * (6 * c)) ^ 2 = 144 * ((w - |c|) * (w + |c|)) := by
      have : c ^ 2 = |c| ^ 2 := (sq_abs c).symm
      have e1 : (2 * (6 * c)) ^ 2 = 144 * c ^ 2 := by ring
      rw [e1, this]; ring
    rw [e, abs_mul, abs_mul, abs_of_pos (by norm_num : (0 : ℝ) < 144), abs_of_nonneg (by positivity : 0 ≤ w + |c|)] at hw2
    have h5 : |w - abs c| * (t * R ^ 3) ≤ |w - abs c| * (w + |c|) :=
      mul_le_mul_of_nonneg_left (by linarith) (abs_nonneg _)
    have h6 : |w - abs c| * (t * R ^ 3) ≤ 7 / 10 ^ 14 * R ^ 6 := by
      norm_num at hw2 ⊢
      linarith
    have e2 : 7 / 10 ^ 14 * (R ^ 3 / t) * (t * R ^ 3) = 7 / 10 ^ 14 * R ^ 6 := by field_simp
    rw [← e2] at h6
    exact le_of_mul_le_mul_right h6 (by positivity)
  have hq : R ^ 3 ≤ 1 / 6 * (R ^ 3 / t) := by
    rw [mul_div_assoc', le_div_iff₀ ht0]
    nlinarith
  have hwR : w ≤ R ^ 3 / t := by
    have := abs_le.1 hwc
    norm_num at this
    linarith
  have hm := A.mul_err (tetraSign A.toArith v p1 p2) w
  have hb : |tetraSign A.toArith v p1 p2 * w| = w := by
    rcases hsign with ⟨-, e⟩ | ⟨-, e⟩ <;> rw [e] <;> simp [abs_of_nonneg hw0]
  have hse : |tetraSign A.toArith v p1 p2 * w - c| = |w - abs c| := by
    rcases hsign with ⟨hc0, e⟩ | ⟨hc0, e⟩ <;> rw [e]
    · rw [one_mul, abs_of_pos hc0]
    · rw [abs_of_neg hc0, show -1 * w - c = -(w - -c) by ring, abs_neg]
  rw [hb] at hm
  have := abs_add_le (A.mul (tetraSign A.toArith v p1 p2) w - tetraSign A.toArith v p1 p2 * w) (tetraSign A.toArith v p1 p2 * w - c)
  rw [sub_add_sub_cancel, hse] at this
  norm_num at hm hwc this ⊢
  linarith

/-- The state of the sum after `n` triangles. -/
def Acc (R t : ℝ) (n : Nat) (T t' : ℝ) : Prop :=
  |T| ≤ n * (R ^ 3 / 6) ∧ |t' - T| ≤ n * (1 / 10 ^ 13 * (R ^ 3 / t))

theorem Acc.step (A : RootArith) (hR : 1 ≤ R) (ht : 1 / 10 ^ 6 ≤ t) {n : Nat} {T t' : ℝ}
    (h : Acc R t n T t') (hn : n < 500) (hs : Solidly R t v p1 p2 p3) : ∃ w, tetrahedronVolume A 0 p1 p2 p3 = some w ∧
      Acc R t (n + 1) (T + coneOver p1 p2 p3) (A.add t' (A.mul (tetraSign A.toArith v p1 p2) w)) := by
  obtain ⟨h1, h2⟩ := h
  obtain ⟨w, e, h3, h4, h5⟩ := cone_step A hR ht hs
  refine ⟨w, e, ?_⟩
  have ht0 : 0 < t := lt_of_lt_of_le (by norm_num) ht
  have hq : R ^ 3 ≤ 1 / 6 * (R ^ 3 / t) := by
    rw [mul_div_assoc', le_div_iff₀ ht0]
    have : 0 < R ^ 3 := by positivity
    nlinarith
  have hQ : 0 < R ^ 3 / t := by positivity
  have hn' : (n : ℝ) + 1 ≤ 500 := by exact_mod_cast hn
  have hn0 : (0 : ℝ) ≤ n := Nat.cast_nonneg n
  refine ⟨?_, ?_⟩
  · push_cast
    refine (abs_add_le _ _).trans ?_
    linarith
  · set x := A.mul (tetraSign A.toArith v p1 p2) w
    set c := coneOver p1 p2 p3
    set Q := R ^ 3 / t
    have ha := A.add_err t' x
    have e1 : A.add t' x - (T + c) = (A.add t' x - (t' + x)) + ((t' - T) + (x - c)) := by ring
    have e2 : t' + x = (T + c) + ((t' - T) + (x - c)) := by ring
    have b1 := abs_add_le (t' - T) (x - c)
    have b2 := abs_add_le (T + c) ((t' - T) + (x - c))
    have b3 := abs_add_le T c
    rw [← e2] at b2
    have nq : (n : ℝ) * (R ^ 3 / 6) ≤ n * (1 / 36 * Q) := mul_le_mul_of_nonneg_left (by linarith) hn0
    have nq2 : (n : ℝ) * Q ≤ 499 * Q := mul_le_mul_of_nonneg_right (by linarith) hQ.le
    have b4 : |t' + x| ≤ 15 * Q := by
      norm_num at h2 h3
      linarith
    rw [e1]
    refine (abs_add_le _ _).trans ?_
    have := ha.trans (mul_le_mul_of_nonneg_left b4 (by norm_num))
    push_cast
    norm_num at this h2 h3 ⊢
    linarith

theorem addTriangles_acc (A : RootArith) (hR : 1 ≤ R) (ht : 1 / 10 ^ 6 ≤ t) (pts : List (Vec3 ℝ)) :
    ∀ (tri : List Tri) (n : Nat) (T t' : ℝ), SolidFace R t (pts, v, tri) → Acc R t n T t' →
      n + tri.length ≤ 500 → ∃ total', addTriangles A pts v tri (some t') = .ok (some total') ∧
        Acc R t (n + tri.length) (T + faceVolume (pts, v, tri)) total'
  | [], n, T, t', _, h, _ => ⟨t', rfl, by simpa [faceVolume] using h⟩
  | (i, j, k) :: rest, n, T, t', hf, h, hn => by
    obtain ⟨p1, p2, p3, e1, e2, e3, hs⟩ := hf i j k (by simp)
    simp only [List.length_cons] at hn
    obtain ⟨w, hw, h'⟩ := h.step A hR ht (by omega) hs
    obtain ⟨total', h1, h2⟩ := addTriangles_acc A hR ht pts rest (n + 1) _ _
      (fun i j k hm => hf i j k (List.mem_cons_of_mem _ hm)) h' (by omega)
    refine ⟨total', ?_, ?_⟩
    · rw [addTriangles]
      simp only [] at e1 e2 e3
      rw [e1, e2, e3]
      simp only [hw]
      exact h1
    · simp only [] at e1 e2 e3
      have e : faceVolume (pts, v, (i, j, k) :: rest) = coneOver p1 p2 p3 + faceVolume (pts, v, rest) := by
        simp only [faceVolume, List.map_cons, List.sum_cons, List.getD_eq_getElem?_getD, e1, e2, e3, Option.getD_some]
      rw [e, List.length_cons, ← add_assoc T, show n + (rest.length + 1) = n + 1 + rest.length by omega]
      exact h2

theorem addPolygons_acc (A : RootArith) (hR : 1 ≤ R) (ht : 1 / 10 ^ 6 ≤ t) :
    ∀ (faces : List (List (Vec3 ℝ) × Vec3 ℝ × List Tri)) (n : Nat) (T t' : ℝ),
      (∀ f ∈ faces, SolidFace R t f) → Acc R t n T t' → n + triangleCount faces ≤ 500 →
      ∃ total', addPolygons A faces (some t') = .ok (some total') ∧
        Acc R t (n + triangleCount faces) (T + enclosedVolume faces) total'
  | [], n, T, t', _, h, _ => ⟨t', rfl, by simpa [enclosedVolume, triangleCount] using h⟩
  | (pts, v, tri) :: rest, n, T, t', hf, h, hn => by
    have ec : triangleCount ((pts, v, tri) :: rest) = tri.length + triangleCount rest := by simp [triangleCount]
    have ev : enclosedVolume ((pts, v, tri) :: rest) = faceVolume (pts, v, tri) + enclosedVolume rest := by
      simp [enclosedVolume]
    rw [ec] at hn
    obtain ⟨total1, h1, h2⟩ := addTriangles_acc (v := v) A hR ht pts tri n T t' (hf (pts, v, tri) (by simp)) h (by omega)
    obtain ⟨total2, h3, h4⟩ := addPolygons_acc A hR ht rest (n + tri.length) _ _
      (fun f hm => hf f (List.mem_cons_of_mem _ hm)) h2 (by omega)
    refine ⟨total2, ?_, ?_⟩
    · rw [addPolygons, h1]
      exact h3
    · rw [ec, ev, ← add_assoc, ← add_assoc]
      exact h4

/-- The sum stays NaN. -/
theorem addTriangles_none (A : RootArith) (pts : List (Vec3 ℝ)) (v : Vec3 ℝ) : ∀ (tri : List Tri),
    (∀ i j k, (i, j, k) ∈ tri → i < pts.length ∧ j < pts.length ∧ k < pts.length) → addTriangles A pts v tri none = .ok none
  | [], _ => rfl
  | (i, j, k) :: rest, h => by
    obtain ⟨h1, h2, h3⟩ := h i j k (by simp)
    rw [addTriangles, List.getElem?_eq_getElem h1, List.getElem?_eq_getElem h2, List.getElem?_eq_getElem h3]
    exact addTriangles_none A pts v rest fun i j k hm => h i j k (List.mem_cons_of_mem _ hm)

theorem addPolygons_none (A : RootArith) : ∀ (faces : List (List (Vec3 ℝ) × Vec3 ℝ × List Tri)),
    (∀ f ∈ faces, ∀ i j k, (i, j, k) ∈ f.2.2 → i < f.1.length ∧ j < f.1.length ∧ k < f.1.length) →
    addPolygons A faces none = .ok none
  | [], _ => rfl
  | (pts, v, tri) :: rest, h => by
    rw [addPolygons, addTriangles_none A pts v tri (h (pts, v, tri) (by simp))]
    exact addPolygons_none A rest fun f hm => h f (List.mem_cons_of_mem _ hm)

end B3d.Rounded
