import Verif.Proofs.RoundedSolid

/-!
# Volumes of arbitrary solids in rounded arithmetic (helper lemmas for C120)
-/

namespace B3d.Rounded

open Polygon Triangles Spec

variable {R : ℝ} {v p1 p2 p3 : Vec3 ℝ}

/-- One triangle of a solid, perhaps in a plane through the origin, if the volume is a number. -/
theorem cone_any (A : RootArith) (hR : 1 ≤ R) (h : Solidly R 0 v p1 p2 p3) {w : ℝ} (hw1 : tetrahedronVolume A 0 p1 p2 p3 = some w) :
    |A.mul (tetraSign A.toArith v p1 p2) w - coneOver p1 p2 p3| ≤ 28 / 10 ^ 8 * R ^ 3 ∧ |coneOver p1 p2 p3| ≤ R ^ 3 / 6 := by
  obtain ⟨n, k, hn, hv, hk, hc⟩ := h.facing
  have hR0 : 0 < R := by linarith
  have hR3 : 0 < R ^ 3 := by positivity
  have hR6 : 1 ≤ R ^ 6 := one_le_pow₀ hR
  have hw : Within R 0 p1 p2 p3 := by
    constructor
    · rw [sub_zero]; exact h.near1
    · rw [sub_zero]; exact h.near2
    · rw [sub_zero]; exact h.near3
    · exact h.near12
    · exact h.near23
    · exact h.near13
  obtain ⟨-, h2⟩ := volume_err A hw
  have hcf := cone_facing hc
  rw [cone_eq] at h2
  set c := coneOver p1 p2 p3
  have hkR : k ≤ R ^ 2 := by
    have e1 : Vec3.norm (k • n) = k := by rw [Vec3.norm_smul, hn, mul_one, abs_of_pos hk]
    rw [← e1, ← hc]
    refine (norm_cross_le _ _).trans ?_
    rw [pow_two]
    exact mul_le_mul h.near12 h.near13 (Vec3.norm_nonneg _) hR0.le
  have hdotR : |Vec3.dot n p1| ≤ R := by
    refine (dot_le _ _).trans ?_
    rw [hn, one_mul]
    exact h.near1
  have hck : 6 * |c| = k * |Vec3.dot n p1| := by
    have := congrArg abs hcf
    rwa [abs_mul, abs_mul, abs_of_pos hk, abs_of_pos (by norm_num : (0 : ℝ) < 6)] at this
  have hc6 : |c| ≤ R ^ 3 / 6 := by
    have : k * |Vec3.dot n p1| ≤ R ^ 2 * R := mul_le_mul hkR hdotR (abs_nonneg _) (by positivity)
    rw [← hck] at this
    have e : R ^ 2 * R = R ^ 3 := by ring
    linarith
  refine ⟨?_, hc6⟩
  obtain ⟨hw0, hw2⟩ := h2 w hw1
  have hc0 := abs_nonneg c
  have hwc : |w - abs c| ≤ 25 / 10 ^ 8 * R ^ 3 := by
    have e : 144 * w ^ 2 - (2 * (6 * c)) ^ 2 = 144 * ((w - |c|) * (w + |c|)) := by
      have : c ^ 2 = |c| ^ 2 := (sq_abs c).symm
      have e1 : (2 * (6 * c)) ^ 2 = 144 * c ^ 2 := by ring
      rw [e1, this]; ring
    rw [e, abs_mul, abs_mul, abs_of_pos (by norm_num : (0 : ℝ) < 144), abs_of_nonneg (by positivity : 0 ≤ w + |c|)] at hw2
    have h4 : |w - abs c| ≤ w + |c| := by
      rw [abs_le]; constructor <;> linarith
    have h5 : |w - abs c| * |w - abs c| ≤ |w - abs c| * (w + |c|) := mul_le_mul_of_nonneg_left h4 (abs_nonneg _)
    apply le_of_sq_le_sq _ (by positivity)
    have e2 : (25 / 10 ^ 8 * R ^ 3) ^ 2 = 625 / 10 ^ 16 * R ^ 6 := by ring
    rw [e2, pow_two]
    linarith
  have hwR : w ≤ R ^ 3 := by
    have := abs_le.1 hwc
    norm_num at this
    linarith
  have hm := A.mul_err (tetraSign A.toArith v p1 p2) w
  have hs1 : tetraSign A.toArith v p1 p2 = 1 ∨ tetraSign A.toArith v p1 p2 = -1 := by
    unfold tetraSign
    simp only []
    split_ifs <;> simp
  have hb : |tetraSign A.toArith v p1 p2 * w| = w := by
    rcases hs1 with e | e <;> rw [e] <;> simp [abs_of_nonneg hw0]
  have hdn := dot_near A.toArith hn hv h.near1
  have hdn' := abs_le.1 hdn
  have hmain : |tetraSign A.toArith v p1 p2 * w - c| ≤ 26 / 10 ^ 8 * R ^ 3 := by
    rcases lt_or_ge (1 / 10 ^ 12 * R) |Vec3.dot n p1| with hbig | hsmall
    · have hse : |tetraSign A.toArith v p1 p2 * w - c| = |w - abs c| := by
        rcases lt_or_ge 0 (Vec3.dot n p1) with hd | hd
        · have hp : 0 < A.dot v (subv A.toArith p1 0) := by
            rw [abs_of_pos hd] at hbig
            linarith
          have hc1 : 0 < c := by
            have : 0 < k * Vec3.dot n p1 := mul_pos hk hd
            linarith
          have e : tetraSign A.toArith v p1 p2 = 1 := by
            unfold tetraSign
            simp only []
            rw [if_neg hp.ne', if_pos hp]
          rw [e, one_mul, abs_of_pos hc1]
        · have hp : A.dot v (subv A.toArith p1 0) < 0 := by
            rw [abs_of_nonpos hd] at hbig
            linarith
          have hc1 : c ≤ 0 := by
            have : k * Vec3.dot n p1 ≤ 0 := mul_nonpos_of_nonneg_of_nonpos hk.le hd
            linarith
          have e : tetraSign A.toArith v p1 p2 = -1 := by
            unfold tetraSign
            simp only []
            rw [if_neg hp.ne, if_neg (by simpa using hp.le)]
          rw [e, abs_of_nonpos hc1, show -1 * w - c = -(w - -c) by ring, abs_neg]
      rw [hse]
      norm_num at hwc ⊢
      linarith
    · have hcs : |c| ≤ 1 / 10 ^ 12 * R ^ 3 := by
        have : k * |Vec3.dot n p1| ≤ R ^ 2 * (1 / 10 ^ 12 * R) := mul_le_mul hkR hsmall (abs_nonneg _) (by positivity)
        rw [← hck] at this
        have e : R ^ 2 * (1 / 10 ^ 12 * R) = 1 / 10 ^ 12 * R ^ 3 := by ring
        linarith
      have := abs_sub (tetraSign A.toArith v p1 p2 * w) c
      rw [hb] at this
      have h7 := (abs_le.1 hwc).2
      norm_num at h7 hcs ⊢
      linarith
  rw [hb] at hm
  have := abs_add_le (A.mul (tetraSign A.toArith v p1 p2) w - tetraSign A.toArith v p1 p2 * w) (tetraSign A.toArith v p1 p2 * w - c)
  rw [sub_add_sub_cancel] at this
  norm_num at hm hmain this ⊢
  linarith

/-- The state of the sum after `n` triangles, if it is a number. -/
def AccAny (R : ℝ) (n : Nat) (T : ℝ) (total : Option ℝ) : Prop :=
  ∀ t', total = some t' → |T| ≤ n * (R ^ 3 / 6) ∧ |t' - T| ≤ n * (3 / 10 ^ 7 * R ^ 3)

theorem AccAny.none (R : ℝ) (n : Nat) (T : ℝ) : AccAny R n T none := by
  intro t' h; cases h

theorem AccAny.step (A : RootArith) (hR : 1 ≤ R) {n : Nat} {T t' w : ℝ} (h : AccAny R n T (some t')) (hn : n < 10 ^ 6)
    (hs : Solidly R 0 v p1 p2 p3) (hw : tetrahedronVolume A 0 p1 p2 p3 = some w) :
    AccAny R (n + 1) (T + coneOver p1 p2 p3) (some (A.add t' (A.mul (tetraSign A.toArith v p1 p2) w))) := by
  obtain ⟨h1, h2⟩ := h t' rfl
  obtain ⟨h3, h4⟩ := cone_any A hR hs hw
  have hR3 : 0 < R ^ 3 := by positivity
  have hn' : (n : ℝ) + 1 ≤ 10 ^ 6 := by exact_mod_cast hn
  have hn0 : (0 : ℝ) ≤ n := Nat.cast_nonneg n
  intro s hs'
  cases hs'
  refine ⟨?_, ?_⟩
  · push_cast
    refine (abs_add_le _ _).trans ?_
    linarith
  · set x := A.mul (tetraSign A.toArith v p1 p2) w
    set c := coneOver p1 p2 p3
    set Q := R ^ 3
    have ha := A.add_err t' x
    have e1 : A.add t' x - (T + c) = (A.add t' x - (t' + x)) + ((t' - T) + (x - c)) := by ring
    have e2 : t' + x = (T + c) + ((t' - T) + (x - c)) := by ring
    have b1 := abs_add_le (t' - T) (x - c)
    have b2 := abs_add_le (T + c) ((t' - T) + (x - c))
    have b3 := abs_add_le T c
    rw [← e2] at b2
    have nq2 : (n : ℝ) * Q ≤ 10 ^ 6 * Q := mul_le_mul_of_nonneg_right (by linarith) hR3.le
    have b4 : |t' + x| ≤ 10 ^ 6 * Q := by
      norm_num at h2 h3 nq2 ⊢
      linarith
    rw [e1]
    refine (abs_add_le _ _).trans ?_
    have := ha.trans (mul_le_mul_of_nonneg_left b4 (by norm_num))
    push_cast
    norm_num at this h2 h3 ⊢
    linarith

theorem addTriangles_any (A : RootArith) (hR : 1 ≤ R) (pts : List (Vec3 ℝ)) :
    ∀ (tri : List Tri) (n : Nat) (T : ℝ) (total : Option ℝ), SolidFace R 0 (pts, v, tri) → AccAny R n T total →
      n + tri.length ≤ 10 ^ 6 → ∃ total', addTriangles A pts v tri total = .ok total' ∧
        AccAny R (n + tri.length) (T + faceVolume (pts, v, tri)) total'
  | [], n, T, t', _, h, _ => ⟨t', rfl, by simpa [faceVolume] using h⟩
  | (i, j, k) :: rest, n, T, total, hf, h, hn => by
    obtain ⟨p1, p2, p3, e1, e2, e3, hs⟩ := hf i j k (by simp)
    simp only [List.length_cons] at hn
    simp only [] at e1 e2 e3
    have e : faceVolume (pts, v, (i, j, k) :: rest) = coneOver p1 p2 p3 + faceVolume (pts, v, rest) := by
      simp only [faceVolume, List.map_cons, List.sum_cons, List.getD_eq_getElem?_getD, e1, e2, e3, Option.getD_some]
    rw [e, List.length_cons, ← add_assoc T, show n + (rest.length + 1) = n + 1 + rest.length by omega, addTriangles, e1, e2, e3]
    have hf' : SolidFace R 0 (pts, v, rest) := fun i j k hm => hf i j k (List.mem_cons_of_mem _ hm)
    rcases total with _ | t'
    · exact addTriangles_any A hR pts rest (n + 1) _ none hf' (AccAny.none _ _ _) (by omega)
    · rcases hw : tetrahedronVolume A 0 p1 p2 p3 with _ | w
      · simp only [hw]
        exact addTriangles_any A hR pts rest (n + 1) _ none hf' (AccAny.none _ _ _) (by omega)
      · simp only [hw]
        exact addTriangles_any A hR pts rest (n + 1) _ _ hf' (h.step A hR (by omega) hs hw) (by omega)

theorem addPolygons_any (A : RootArith) (hR : 1 ≤ R) :
    ∀ (faces : List (List (Vec3 ℝ) × Vec3 ℝ × List Tri)) (n : Nat) (T : ℝ) (total : Option ℝ),
      (∀ f ∈ faces, SolidFace R 0 f) → AccAny R n T total → n + triangleCount faces ≤ 10 ^ 6 →
      ∃ total', addPolygons A faces total = .ok total' ∧
        AccAny R (n + triangleCount faces) (T + enclosedVolume faces) total'
  | [], n, T, total, _, h, _ => ⟨total, rfl, by simpa [enclosedVolume, triangleCount] using h⟩
  | (pts, v, tri) :: rest, n, T, t', hf, h, hn => by
    have ec : triangleCount ((pts, v, tri) :: rest) = tri.length + triangleCount rest := by simp [triangleCount]
    have ev : enclosedVolume ((pts, v, tri) :: rest) = faceVolume (pts, v, tri) + enclosedVolume rest := by
      simp [enclosedVolume]
    rw [ec] at hn
    obtain ⟨total1, h1, h2⟩ := addTriangles_any (v := v) A hR pts tri n T t' (hf (pts, v, tri) (by simp)) h (by omega)
    obtain ⟨total2, h3, h4⟩ := addPolygons_any A hR rest (n + tri.length) _ _
      (fun f hm => hf f (List.mem_cons_of_mem _ hm)) h2 (by omega)
    refine ⟨total2, ?_, ?_⟩
    · rw [addPolygons, h1]
      exact h3
    · rw [ec, ev, ← add_assoc, ← add_assoc]
      exact h4

end B3d.Rounded
