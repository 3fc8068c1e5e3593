import Verif.Spec.SimGridRounded
import Verif.Proofs.Sim
import Verif.Proofs.BinaryNear

/-! # Helper lemmas: the voxel grid in rounded arithmetic -/

namespace B3d.SimRounded

open Sim Rounded

variable {A : Arith} {s : ℝ}

theorem small_err {a b : ℝ} (h : |a - b| ≤ 1 / 10 ^ 15 * |b|) (hb : |b| ≤ 10 ^ 7 * s) : |a - b| ≤ s / 10 ^ 8 := by
  refine h.trans ?_
  norm_num at hb ⊢
  linarith

theorem small_div (hs : 0 < s) {x : ℝ} (hx : |x| ≤ 10 ^ 7 * s) : |A.div x s - x / s| ≤ 1 / 10 ^ 8 := by
  refine small_err (s := 1) (A.div_err x s hs.ne') ?_
  rw [abs_div, abs_of_pos hs, div_le_iff₀ hs]
  simpa using hx

/-- The cell numbers of an axis have no gaps. -/
theorem keys_axis (hs : 0 < s) {lo hi eps : ℝ} (h : OrdinaryAxis lo hi s eps) {n : ℤ} (h1 : ⌊(lo - eps) / s⌋ ≤ n)
    (h2 : n * s ≤ hi + eps) : ∃ x ∈ axisRange A lo hi s eps, ⌊A.div x s⌋ = n := by
  obtain ⟨e1, e2, e3, e4, e5⟩ := h
  have e1' := abs_le.1 e1
  have e2' := abs_le.1 e2
  have hfl := Int.floor_le ((lo - eps) / s)
  have hfl' := Int.lt_floor_add_one ((lo - eps) / s)
  generalize hk : ⌊(lo - eps) / s⌋ = k at h1 hfl hfl'
  rw [le_div_iff₀ hs] at hfl
  rw [div_lt_iff₀ hs] at hfl'
  obtain ⟨i, hi'⟩ := Int.eq_ofNat_of_zero_le (sub_nonneg.2 h1)
  have hn : n = k + i := by omega
  have hnr : (n : ℝ) = k + (i : ℝ) := by rw [hn]; push_cast; ring
  have heps : 0 < eps := lt_of_lt_of_le (by positivity) e3
  -- the number of the cell from the start
  have hi0 : (0 : ℝ) ≤ i * s := by positivity
  have his : (i : ℝ) * s ≤ hi - lo + 2 * eps + s := by
    rw [hnr] at h2
    nlinarith
  have a0 := small_err (s := s) (A.sub_err lo eps) (abs_le.2 ⟨by linarith, by linarith⟩)
  have a1 := small_err (s := s) (A.add_err hi eps) (abs_le.2 ⟨by linarith, by linarith⟩)
  have a3 := small_err (s := s) (A.mul_err i s) (abs_le.2 ⟨by linarith, by linarith⟩)
  unfold axisRange
  generalize A.sub lo eps = st at *
  generalize A.add hi eps = u1 at *
  generalize hxi : A.mul (i : ℝ) s = xi at *
  obtain ⟨b0, b0'⟩ := abs_le.1 a0
  obtain ⟨b1, b1'⟩ := abs_le.1 a1
  obtain ⟨b3, b3'⟩ := abs_le.1 a3
  have a4 := small_err (s := s) (A.add_err u1 s) (abs_le.2 ⟨by linarith, by linarith⟩)
  have a5 := small_err (s := s) (A.add_err st xi) (abs_le.2 ⟨by linarith, by linarith⟩)
  generalize A.add u1 s = u2 at *
  generalize hx : A.add st xi = x at *
  obtain ⟨b4, b4'⟩ := abs_le.1 a4
  obtain ⟨b5, b5'⟩ := abs_le.1 a5
  have a6 := small_err (s := s) (A.add_err u2 eps) (abs_le.2 ⟨by linarith, by linarith⟩)
  generalize A.add u2 eps = u3 at *
  obtain ⟨b6, b6'⟩ := abs_le.1 a6
  have a7 := small_err (s := s) (A.sub_err u3 st) (abs_le.2 ⟨by linarith, by linarith⟩)
  refine ⟨x, ?_, ?_⟩
  · unfold arange
    rw [List.mem_map]
    refine ⟨i, ?_, by rw [hxi, hx]⟩
    generalize A.sub u3 st = w at *
    obtain ⟨b7, b7'⟩ := abs_le.1 a7
    have a8 := small_div (A := A) hs (x := w) (abs_le.2 ⟨by linarith, by linarith⟩)
    obtain ⟨b8, -⟩ := abs_le.1 a8
    rw [List.mem_range]
    have hw : (i : ℝ) + 1 / 10 ^ 7 ≤ w / s := by
      rw [le_div_iff₀ hs]
      rw [hnr] at h2
      linarith
    have hlt : ((i : ℤ) : ℝ) < A.div w s := by
      push_cast
      linarith
    have := Int.lt_ceil.2 hlt
    omega
  · have a8 := small_div (A := A) hs (x := x) (abs_le.2 ⟨by linarith, by linarith⟩)
    obtain ⟨b8, b8'⟩ := abs_le.1 a8
    -- the start is not near a side of a cell
    have l1 : (k : ℝ) + 1 / 10 ^ 6 ≤ (lo - eps) / s := by
      have := e5 k
      rwa [abs_of_nonneg (by rw [sub_nonneg, le_div_iff₀ hs]; exact hfl), le_sub_iff_add_le'] at this
    have l2 : (lo - eps) / s ≤ k + 1 - 1 / 10 ^ 6 := by
      have := e5 (k + 1)
      push_cast at this
      rw [abs_of_neg (by rw [sub_neg, div_lt_iff₀ hs]; exact hfl')] at this
      linarith
    rw [le_div_iff₀ hs] at l1
    rw [div_le_iff₀ hs] at l2
    have m1 : (n : ℝ) + 1 / 10 ^ 7 ≤ x / s := by
      rw [le_div_iff₀ hs, hnr]
      linarith
    have m2 : x / s ≤ n + 1 - 1 / 10 ^ 7 := by
      rw [div_le_iff₀ hs, hnr]
      linarith
    rw [Int.floor_eq_iff]
    constructor <;> linarith

/-- Sides of a cell as they are calculated. -/
theorem sides (hs : 0 < s) {m : ℤ} (h1 : -(2 * 10 ^ 6) * s ≤ m * s) (h2 : m * s ≤ 2 * 10 ^ 6 * s) :
    (m * s - s / 10 ^ 8 ≤ A.mul m s ∧ A.mul m s ≤ m * s + s / 10 ^ 8) ∧
      m * s + s - 2 * (s / 10 ^ 8) ≤ A.add (A.mul m s) s ∧ A.add (A.mul m s) s ≤ m * s + s + 2 * (s / 10 ^ 8) := by
  have a1 := small_err (s := s) (A.mul_err m s) (abs_le.2 ⟨by linarith, by linarith⟩)
  obtain ⟨b1, b1'⟩ := abs_le.1 a1
  have a2 := small_err (s := s) (A.add_err (A.mul m s) s) (abs_le.2 ⟨by linarith, by linarith⟩)
  obtain ⟨b2, b2'⟩ := abs_le.1 a2
  refine ⟨⟨by linarith, by linarith⟩, by linarith, by linarith⟩

theorem beside_iff {xs : List ℝ} {m : ℤ} :
    beside A xs m s = false ↔ (∃ x ∈ xs, A.mul m s ≤ x) ∧ ∃ x ∈ xs, x ≤ A.add (A.mul m s) s := outsideAxis_false

/-- A polygon with a point near a position is in a cell next to that of the position. -/
theorem find_axis (hs : 0 < s) {lo hi eps : ℝ} (h : OrdinaryAxis lo hi s eps) {xs : List ℝ} {q p : ℝ} (hq : lo ≤ q ∧ q ≤ hi)
    (hx1 : ∃ x ∈ xs, q ≤ x) (hx2 : ∃ x ∈ xs, x ≤ q) (hgap : NoGap A s xs) (hn : |q - p| ≤ (1 - 1 / 10 ^ 6) * s) :
    ∃ m : ℤ, (∃ x ∈ axisRange A lo hi s eps, ⌊A.div x s⌋ = m) ∧ beside A xs m s = false ∧
      ∃ i ∈ offsets, ⌊A.div p s⌋ + i = m := by
  obtain ⟨e1, e1'⟩ := abs_le.1 h.lo_le
  obtain ⟨e2, e2'⟩ := abs_le.1 h.hi_le
  have e3 := h.eps_ge
  obtain ⟨x1, m1, x1q⟩ := hx1
  obtain ⟨x2, m2, x2q⟩ := hx2
  have hfl := Int.floor_le (q / s)
  have hfl' := Int.lt_floor_add_one (q / s)
  generalize ⌊q / s⌋ = n at hfl hfl'
  rw [le_div_iff₀ hs] at hfl
  rw [div_lt_iff₀ hs] at hfl'
  -- the cell in which the polygon is
  have hcell : ∃ m : ℤ, beside A xs m s = false ∧ m * s ≤ q + s / 10 ^ 7 ∧ q ≤ m * s + s + s / 10 ^ 7 := by
    obtain ⟨⟨s1, s2⟩, s3, s4⟩ := sides (A := A) hs (m := n) (by linarith) (by linarith)
    by_cases hlow : ∃ x ∈ xs, A.mul n s ≤ x
    · by_cases hup : ∃ x ∈ xs, x ≤ A.add (A.mul n s) s
      · exact ⟨n, beside_iff.2 ⟨hlow, hup⟩, by linarith, by linarith⟩
      · push Not at hup
        have hq2 := hup x2 m2
        have c1 : ((n + 1 : ℤ) : ℝ) * s = n * s + s := by push_cast; ring
        obtain ⟨⟨t1, t2⟩, t3, t4⟩ := sides (A := A) hs (m := n + 1) (by linarith) (by linarith)
        refine ⟨n + 1, beside_iff.2 ⟨?_, x2, m2, by linarith⟩, by linarith, by linarith⟩
        rcases hgap (n + 1) with ⟨x, hx, hle⟩ | hr
        · rw [add_sub_cancel_right] at hle
          exact absurd hle (not_le.2 (hup x hx))
        · exact hr
    · push Not at hlow
      have hq1 := hlow x1 m1
      have c1 : ((n - 1 : ℤ) : ℝ) * s = n * s - s := by push_cast; ring
      obtain ⟨⟨t1, t2⟩, t3, t4⟩ := sides (A := A) hs (m := n - 1) (by linarith) (by linarith)
      refine ⟨n - 1, beside_iff.2 ⟨⟨x1, m1, by linarith⟩, ?_⟩, by linarith, by linarith⟩
      rcases hgap n with hl | ⟨x, hx, hle⟩
      · exact hl
      · exact absurd hle (not_le.2 (hlow x hx))
  obtain ⟨m, hb, hm1, hm2⟩ := hcell
  refine ⟨m, keys_axis hs h ?_ (by linarith [hq.2]), hb, ?_⟩
  · have : (lo - eps) / s < m + 1 := by
      rw [div_lt_iff₀ hs]
      linarith [hq.1]
    have := Int.floor_lt.2 (show (lo - eps) / s < ((m + 1 : ℤ) : ℝ) by push_cast; exact this)
    omega
  · obtain ⟨n1, n2⟩ := abs_le.1 hn
    have a := small_div (A := A) hs (x := p) (abs_le.2 ⟨by linarith [hq.1], by linarith [hq.2]⟩)
    obtain ⟨b1, b2⟩ := abs_le.1 a
    have p1 : (m : ℝ) - 1 + 1 / 10 ^ 7 ≤ p / s := by
      rw [le_div_iff₀ hs]; linarith
    have p2 : p / s ≤ m + 2 - 1 / 10 ^ 7 := by
      rw [div_le_iff₀ hs]; linarith
    have f1 : m - 1 ≤ ⌊A.div p s⌋ := by
      rw [Int.le_floor]; push_cast; linarith
    have f2 : ⌊A.div p s⌋ < m + 2 := by
      rw [Int.floor_lt]; push_cast; linarith
    refine ⟨m - ⌊A.div p s⌋, ?_, by ring⟩
    have : m - ⌊A.div p s⌋ = -1 ∨ m - ⌊A.div p s⌋ = 0 ∨ m - ⌊A.div p s⌋ = 1 := by omega
    simpa [offsets] using this

theorem mem_polysIn {polys : List (List (Vec3 ℝ))} {c : Cell} {step : ℝ} {pn : Nat} :
    pn ∈ polysIn A polys c step ↔ ∃ pts, polys[pn]? = some pts ∧ outside A pts c step = false := by
  unfold polysIn
  rw [List.mem_filter, List.mem_range]
  constructor
  · rintro ⟨h1, h2⟩
    rw [List.getElem?_eq_getElem h1] at h2 ⊢
    exact ⟨_, rfl, by simpa using h2⟩
  · rintro ⟨pts, h1, h2⟩
    refine ⟨(List.getElem?_eq_some_iff.1 h1).1, ?_⟩
    rw [h1]
    simp [h2]

theorem point_between {pts : List (Vec3 ℝ)} {q : Vec3 ℝ} (hq : PointOf pts q) (f : Vec3 ℝ → ℝ)
    (hf : ∀ (a b c : ℝ) (p1 p2 p3 : Vec3 ℝ), f (a • p1 + b • p2 + c • p3) = a * f p1 + b * f p2 + c * f p3) :
    (∃ x ∈ pts.map f, f q ≤ x) ∧ ∃ x ∈ pts.map f, x ≤ f q :=
  outsideAxis_false.1 (axis_inside hq f hf le_rfl le_rfl)

/-- All axes together. -/
theorem find_cell (hs : 0 < s) {lo hi : Vec3 ℝ} {eps : ℝ} (h : OrdinaryBox lo hi s eps) {pts : List (Vec3 ℝ)}
    (hw : Within lo hi pts) (hgap : NoGaps A s pts) {q p : Vec3 ℝ} (hq : PointOf pts q)
    (hn : Near ((1 - 1 / 10 ^ 6) * s) p q) :
    ∃ c ∈ gridKeys A lo hi s eps, outside A pts c s = false ∧ ∃ i ∈ offsets, ∃ j ∈ offsets, ∃ k ∈ offsets,
      ((cellOf A p s).1 + i, (cellOf A p s).2.1 + j, (cellOf A p s).2.2 + k) = c := by
  obtain ⟨wx, wy, wz⟩ := pointOf_within hw hq
  obtain ⟨x1, x2⟩ := point_between hq Vec3.x (by intros; simp)
  obtain ⟨y1, y2⟩ := point_between hq Vec3.y (by intros; simp)
  obtain ⟨z1, z2⟩ := point_between hq Vec3.z (by intros; simp)
  obtain ⟨a, ⟨x, mx, ex⟩, bx, i, hi', ei⟩ := find_axis hs h.x wx x1 x2 hgap.1 hn.1
  obtain ⟨b, ⟨y, my, ey⟩, bY, j, hj, ej⟩ := find_axis hs h.y wy y1 y2 hgap.2.1 hn.2.1
  obtain ⟨c, ⟨z, mz, ez⟩, bz, k, hk, ek⟩ := find_axis hs h.z wz z1 z2 hgap.2.2 hn.2.2
  refine ⟨(a, b, c), ?_, ?_, i, hi', j, hj, k, hk, ?_⟩
  · unfold gridKeys
    simp only [List.mem_flatMap, List.mem_map]
    exact ⟨x, mx, y, my, z, mz, by simp only [cellOf, ex, ey, ez]⟩
  · simp only [outside, bx, bY, bz, Bool.or_false]
  · simp only [cellOf, ei, ej, ek]

/-! ### Gaps -/

/-- With 53 binary digits, a number is rounded to a stored number that is less than half a unit of its last digit below it. -/
theorem fl_above {x y : ℝ} {e : ℤ} {k : ℤ} (k1 : 2 ^ 52 ≤ k) (k2 : k < 2 ^ 53) (hy : y = k * 2 ^ e) (h1 : y ≤ x)
    (h2 : x < y + 2 ^ e / 2) : fl x = y := by
  have hp := two_pow_pos e
  have k1' : (2 : ℝ) ^ 52 ≤ k := by exact_mod_cast k1
  have k2' : (k : ℝ) ≤ 2 ^ 53 - 1 := by
    have : k ≤ 2 ^ 53 - 1 := by omega
    exact_mod_cast this
  have k3 := mul_le_mul_of_nonneg_right k2' hp.le
  have k4 := mul_le_mul_of_nonneg_right k1' hp.le
  have hq : (0 : ℝ) < 2 ^ 52 * 2 ^ e := by positivity
  rw [fl_of_pos (by linarith), hy]
  subst hy
  exact flp_eq (by linarith) (by linarith) (by linarith) (by linarith)

theorem fl_below {x y : ℝ} {e : ℤ} {k : ℤ} (k1 : 2 ^ 52 < k) (k2 : k < 2 ^ 53) (hy : y = k * 2 ^ e) (h1 : x ≤ y)
    (h2 : y - 2 ^ e / 2 ≤ x) : fl x = y := by
  have hp := two_pow_pos e
  have k1' : (2 : ℝ) ^ 52 + 1 ≤ k := by exact_mod_cast k1
  have k2' : (k : ℝ) ≤ 2 ^ 53 - 1 := by
    have : k ≤ 2 ^ 53 - 1 := by omega
    exact_mod_cast this
  have k3 := mul_le_mul_of_nonneg_right k2' hp.le
  have k4 := mul_le_mul_of_nonneg_right k1' hp.le
  have hq : (0 : ℝ) < 2 ^ 52 * 2 ^ e := by positivity
  subst hy
  rw [fl_of_pos (by linarith)]
  exact flp_eq (by linarith) (by linarith) (by linarith) (by linarith)

/-- A stored number below the upper end of a binade. -/
theorem exp_le {w m : ℝ} {j f : ℤ} (j2 : j < 2 ^ 53) (hw : w = j * 2 ^ f) (h : 2 ^ 52 * 2 ^ lastExp m ≤ w) : lastExp m ≤ f := by
  by_contra hlt
  have h5 : f + 1 ≤ lastExp m := by omega
  have h6 : (2 : ℝ) ^ (f + 1) ≤ 2 ^ lastExp m := zpow_le_zpow_right₀ one_le_two h5
  rw [zpow_add_one₀ two_ne_zero] at h6
  have j2' : (j : ℝ) < 2 ^ 53 := by exact_mod_cast j2
  have h7 := mul_lt_mul_of_pos_right j2' (two_pow_pos f)
  norm_num at *
  linarith

/-- No gap on the side of the numbers that are not negative. -/
theorem no_gap_nonneg (hs : 0 < s) {v : ℝ} (hf : fl v = v) (h0 : 0 ≤ v) (n : ℤ)
    (g1 : fl (fl (((n - 1 : ℤ) : ℝ) * s) + s) < v) (g2 : v < fl (n * s)) : False := by
  -- the exact sides
  have g3 : v < n * s := by
    by_contra h
    have := fl_mono (not_lt.1 h)
    rw [hf] at this
    linarith
  have g4 : fl (((n - 1 : ℤ) : ℝ) * s) + s < v := by
    by_contra h
    have := fl_mono (not_lt.1 h)
    rw [hf] at this
    linarith
  have hn : 0 < n := by
    have : (0 : ℝ) < n * s := lt_of_le_of_lt h0 g3
    have := pos_of_mul_pos_left this hs.le
    exact_mod_cast this
  have e : (n : ℝ) * s = ((n - 1 : ℤ) : ℝ) * s + s := by push_cast; ring
  have hm0 : 0 ≤ ((n - 1 : ℤ) : ℝ) * s := mul_nonneg (by exact_mod_cast (by omega : 0 ≤ n - 1)) hs.le
  generalize ((n - 1 : ℤ) : ℝ) * s = m at *
  rcases hm0.lt_or_eq with hm | hm
  · obtain ⟨k, k1, -, k3, k4⟩ := flp_bounds hm
    rw [← fl_of_pos hm] at k3 k4
    have hpos := two_pow_pos (lastExp m)
    have k1' : (2 : ℝ) ^ 52 ≤ k := by exact_mod_cast k1
    have hlow : 2 ^ 52 * 2 ^ lastExp m ≤ v := by
      have := mul_le_mul_of_nonneg_right k1' hpos.le
      linarith
    have hv0 : 0 < v := lt_of_lt_of_le (by positivity) hlow
    obtain ⟨j, f, j1, j2, hj⟩ := digits hv0 hf
    have hle : (2 : ℝ) ^ lastExp m ≤ 2 ^ f := zpow_le_zpow_right₀ one_le_two (exp_le j2 hj hlow)
    have := fl_above (x := n * s) j1 j2 hj g3.le (by
      have := (abs_le.1 k4).1
      linarith)
    linarith
  · rw [← hm, fl_zero] at g4
    linarith

/-- No gap on the side of the negative numbers. -/
theorem no_gap_neg (hs : 0 < s) (hss : fl s = s) {w : ℝ} (hf : fl w = w) (h0 : 0 < w) (N : ℤ) (hN : 0 ≤ N)
    (g1 : w < fl (fl (((N + 1 : ℤ) : ℝ) * s) - s)) (g2 : fl (N * s) < w) : False := by
  have g3 : N * s < w := by
    by_contra h
    have := fl_mono (not_lt.1 h)
    rw [hf] at this
    linarith
  have g4 : w < fl (((N + 1 : ℤ) : ℝ) * s) - s := by
    by_contra h
    have := fl_mono (not_lt.1 h)
    rw [hf] at this
    linarith
  have e : ((N + 1 : ℤ) : ℝ) * s = N * s + s := by push_cast; ring
  rcases hN.lt_or_eq with hpos | hz
  · have hN1 : (1 : ℝ) ≤ N := by exact_mod_cast hpos
    have hX : s ≤ N * s := by nlinarith
    have hm : 0 < ((N + 1 : ℤ) : ℝ) * s := by rw [e]; linarith
    generalize ((N + 1 : ℤ) : ℝ) * s = m at *
    generalize (N : ℝ) * s = X at *
    obtain ⟨-, -, -, -, k4⟩ := flp_bounds hm
    rw [← fl_of_pos hm] at k4
    have k5 := (abs_le.1 k4).2
    have hsc := (scale_bounds hm).1
    rw [le_div_iff₀ (two_pow_pos _)] at hsc
    obtain ⟨j, f, j1, j2, hj⟩ := digits h0 hf
    have hp := two_pow_pos f
    have j2' : (j : ℝ) < 2 ^ 53 := by exact_mod_cast j2
    have hw2 : m < 2 * w := by linarith
    rcases le_or_gt (lastExp m) f with hle | hgt
    · have hle' : (2 : ℝ) ^ lastExp m ≤ 2 ^ f := zpow_le_zpow_right₀ one_le_two hle
      have := fl_above (x := fl m - s) j1 j2 hj g4.le (by linarith)
      linarith
    · -- one binade higher
      have hexp : lastExp m = f + 1 := by
        by_contra hne
        have h5 : f + 2 ≤ lastExp m := by omega
        have h6 : (2 : ℝ) ^ (f + 2) ≤ 2 ^ lastExp m := zpow_le_zpow_right₀ one_le_two h5
        rw [zpow_add₀ two_ne_zero] at h6
        have h7 := mul_lt_mul_of_pos_right j2' hp
        rw [← hj] at h7
        norm_num at *
        linarith
      rw [hexp, zpow_add_one₀ two_ne_zero] at k5 hsc
      have hj1 : 2 ^ 52 < j := by
        rcases j1.lt_or_eq with h | h
        · exact h
        · exfalso
          have : (j : ℝ) = 2 ^ 52 := by rw [← h]; norm_num
          rw [this] at hj
          norm_num at *
          linarith
      have hb : X < w - 2 ^ f / 2 := by
        by_contra h
        have := fl_below (x := X) hj1 j2 hj g3.le (not_lt.1 h)
        linarith
      have ha : w + 2 ^ f / 2 ≤ fl m - s := by
        by_contra h
        have := fl_above (x := fl m - s) j1 j2 hj g4.le (not_le.1 h)
        linarith
      linarith
  · rw [e, ← hz] at g4
    norm_num [hss] at g4
    linarith

/-- **No gaps between cells.**  With 53 binary digits and a stored cell size, stored numbers are not in a gap. -/
theorem no_gap (hs : 0 < s) (hss : fl s = s) {xs : List ℝ} (hne : xs ≠ []) (hst : ∀ x ∈ xs, fl x = x) (n : ℤ) :
    (∃ x ∈ xs, x ≤ fl (fl (((n - 1 : ℤ) : ℝ) * s) + s)) ∨ ∃ x ∈ xs, fl (n * s) ≤ x := by
  obtain ⟨v, hv⟩ := List.exists_mem_of_ne_nil _ hne
  have hf := hst v hv
  by_contra hno
  push Not at hno
  have g1 := hno.1 v hv
  have g2 := hno.2 v hv
  rcases le_or_gt 0 v with h0 | h0
  · exact no_gap_nonneg hs hf h0 n g1 g2
  · have hn : n ≤ 0 := by
      by_contra h
      have h1 : 0 ≤ ((n - 1 : ℤ) : ℝ) * s := mul_nonneg (by exact_mod_cast (by omega : 0 ≤ n - 1)) hs.le
      have h2 := fl_mono h1
      rw [fl_zero] at h2
      have h3 := fl_mono (show 0 ≤ fl (((n - 1 : ℤ) : ℝ) * s) + s by linarith)
      rw [fl_zero] at h3
      linarith
    refine no_gap_neg hs hss (w := -v) (by rw [fl_neg, hf]) (by linarith) (-n) (by omega) ?_ ?_
    · rw [show (((-n + 1 : ℤ) : ℝ) * s) = -(((n - 1 : ℤ) : ℝ) * s) by push_cast; ring, fl_neg,
        show -fl (((n - 1 : ℤ) : ℝ) * s) - s = -(fl (((n - 1 : ℤ) : ℝ) * s) + s) by ring, fl_neg]
      linarith
    · rw [show ((-n : ℤ) : ℝ) * s = -(n * s) by push_cast; ring, fl_neg]
      linarith

end B3d.SimRounded
