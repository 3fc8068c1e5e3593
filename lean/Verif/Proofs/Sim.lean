import Verif.Spec.Sim
import Verif.Proofs.Tactics
import Mathlib.Algebra.Order.Floor.Semiring
import Mathlib.Algebra.Order.Field.Basic

/-! # Helper lemmas: voxel grid -/

set_option linter.unusedSectionVars false

namespace B3d.Sim

variable {K : Type} [Field K] [LinearOrder K] [IsStrictOrderedRing K] [FloorRing K]

/-! ### Dictionary -/

theorem find_map_same (g : Grid) (c : Cell) (v : List Nat) (h : g.any (fun e => e.1 = c) = true) :
    (g.map fun e => if e.1 = c then (c, v) else e).find? (fun e => e.1 = c) = some (c, v) := by
  induction g with
  | nil => simp at h
  | cons e g ih =>
    by_cases he : e.1 = c
    · simp [he]
    · simp only [List.any_cons, he, decide_false, Bool.false_or] at h
      simp [he, ih h]

theorem find_map_other (g : Grid) {c c' : Cell} (v : List Nat) (hne : ¬ c' = c) :
    (g.map fun e => if e.1 = c then (c, v) else e).find? (fun e => e.1 = c')
      = g.find? (fun e => e.1 = c') := by
  induction g with
  | nil => rfl
  | cons e g ih =>
    by_cases he : e.1 = c
    · have h1 : ¬ c = c' := fun h => hne h.symm
      have h2 : ¬ e.1 = c' := by rw [he]; exact h1
      simp [he, h1, ih]
    · by_cases he' : e.1 = c'
      · simp [he', hne]
      · simp [he, he', ih]

theorem gridGet_set (g : Grid) (c c' : Cell) (v : List Nat) :
    gridGet (gridSet g c v) c' = if c' = c then some v else gridGet g c' := by
  unfold gridGet gridSet
  by_cases h : g.any (fun e => e.1 = c) = true
  · rw [if_pos h]
    by_cases hc : c' = c
    · subst hc
      rw [if_pos rfl, find_map_same g _ v h]
      rfl
    · rw [if_neg hc, find_map_other g v hc]
  · rw [if_neg h]
    by_cases hc : c' = c
    · subst hc
      have h' : g.find? (fun e => e.1 = c') = none := by
        rw [List.find?_eq_none]
        intro e he
        simp only [List.any_eq_true, not_exists] at h
        intro h2
        exact h e ⟨he, h2⟩
      simp [List.find?_append, h']
    · have h1 : ¬ c = c' := fun h => hc h.symm
      rw [if_neg hc, List.find?_append]
      cases h2 : g.find? (fun e => e.1 = c') with
      | none => simp [h1]
      | some e => simp

theorem gridGet_fold (f : Cell → List Nat) (keys : List Cell) (g : Grid) (c : Cell) :
    gridGet (keys.foldl (fun g c => gridSet g c (f c)) g) c
      = if c ∈ keys then some (f c) else gridGet g c := by
  induction keys generalizing g with
  | nil => simp
  | cons k ks ih =>
    rw [List.foldl_cons, ih, gridGet_set]
    by_cases h1 : c ∈ ks
    · simp [h1]
    · by_cases h2 : c = k
      · subst h2; simp
      · simp [h1, h2]

/-! ### Cells -/

/-- The cell coordinate of every `q` in `[lo, hi]` occurs on the axis. -/
theorem floor_mem_arange {lo hi q step eps : K} (hs : 0 < step) (he : 0 ≤ eps) (h1 : lo ≤ q)
    (h2 : q ≤ hi) :
    ∃ x ∈ arange (lo - eps) (hi + eps + step + eps) step, ⌊x / step⌋ = ⌊q / step⌋ := by
  obtain ⟨s, hsdef⟩ : ∃ s, s = lo - eps := ⟨_, rfl⟩
  rw [← hsdef]
  have hsq : s ≤ q := by linarith
  -- number of whole cells between the first one and the one of q
  have hfl : ⌊s / step⌋ ≤ ⌊q / step⌋ := Int.floor_le_floor (by
    exact div_le_div_of_nonneg_right hsq hs.le)
  obtain ⟨k, hk⟩ := Int.eq_ofNat_of_zero_le (sub_nonneg.2 hfl)
  refine ⟨s + (k : K) * step, ?_, ?_⟩
  · unfold arange
    rw [List.mem_map]
    refine ⟨k, ?_, rfl⟩
    rw [List.mem_range]
    have h4 : (hi + eps + step + eps - s) / step = (hi + eps + eps - s) / step + 1 := by
      field_simp
      ring
    have h5 : (q - s) / step + 1 ≤ (hi + eps + step + eps - s) / step := by
      rw [h4]
      have : (q - s) / step ≤ (hi + eps + eps - s) / step :=
        div_le_div_of_nonneg_right (by linarith) hs.le
      linarith
    have h6 : ((k : Int) : K) < (q - s) / step + 1 := by
      have a1 : (⌊q / step⌋ : K) ≤ q / step := Int.floor_le _
      have a2 : s / step < ⌊s / step⌋ + 1 := Int.lt_floor_add_one _
      have a3 : ((k : Int) : K) = (⌊q / step⌋ : K) - (⌊s / step⌋ : K) := by
        rw [← Int.cast_sub, hk]
      have a4 : (q - s) / step = q / step - s / step := sub_div _ _ _
      rw [a3, a4]
      linarith
    have h7 : ((k : Int) : K) < (⌈(hi + eps + step + eps - s) / step⌉ : K) :=
      lt_of_lt_of_le (lt_of_lt_of_le h6 h5) (Int.le_ceil _)
    have h8 : (k : Int) < ⌈(hi + eps + step + eps - s) / step⌉ := by exact_mod_cast h7
    omega
  · have : (s + (k : K) * step) / step = s / step + (k : Int) := by
      rw [add_div, mul_div_assoc, div_self hs.ne', mul_one, Int.cast_natCast]
    rw [this, Int.floor_add_intCast]
    have : (k : Int) = ⌊q / step⌋ - ⌊s / step⌋ := hk.symm
    omega

theorem mem_gridKeys {lo hi q : Vec3 K} {step eps : K} (hs : 0 < step) (he : 0 ≤ eps)
    (hx : lo.x ≤ q.x ∧ q.x ≤ hi.x) (hy : lo.y ≤ q.y ∧ q.y ≤ hi.y) (hz : lo.z ≤ q.z ∧ q.z ≤ hi.z) :
    cellOf q step ∈ gridKeys lo hi step eps := by
  obtain ⟨x, mx, ex⟩ := floor_mem_arange hs he hx.1 hx.2
  obtain ⟨y, my, ey⟩ := floor_mem_arange hs he hy.1 hy.2
  obtain ⟨z, mz, ez⟩ := floor_mem_arange hs he hz.1 hz.2
  unfold gridKeys
  simp only [List.mem_flatMap, List.mem_map]
  refine ⟨x, mx, y, my, z, mz, ?_⟩
  simp only [cellOf, ex, ey, ez]

/-! ### Polygons in a cell -/

theorem mem_polysIn {polys : List (List (Vec3 K))} {c : Cell} {step : K} {pn : Nat} :
    pn ∈ polysIn polys c step ↔ ∃ pts, polys[pn]? = some pts ∧ outside pts c step = false := by
  unfold polysIn
  rw [List.mem_filter, List.mem_range]
  constructor
  · rintro ⟨h1, h2⟩
    rw [List.getElem?_eq_getElem h1] at h2 ⊢
    exact ⟨_, rfl, by simpa using h2⟩
  · rintro ⟨pts, h1, h2⟩
    refine ⟨(List.getElem?_eq_some_iff.1 h1).1, ?_⟩
    rw [h1]
    simp [h2]

theorem outsideAxis_false {xs : List K} {lo hi : K} :
    outsideAxis xs lo hi = false ↔ (∃ x ∈ xs, lo ≤ x) ∧ ∃ x ∈ xs, x ≤ hi := by
  unfold outsideAxis
  rw [Bool.or_eq_false_iff]
  constructor
  · rintro ⟨h1, h2⟩
    constructor
    · by_contra h
      push Not at h
      rw [List.all_eq_true.2 (fun x hx => by simpa using h x hx)] at h1
      simp at h1
    · by_contra h
      push Not at h
      rw [List.all_eq_true.2 (fun x hx => by simpa using h x hx)] at h2
      simp at h2
  · rintro ⟨⟨x, hx, h1⟩, y, hy, h2⟩
    constructor
    · rw [Bool.eq_false_iff]
      intro h
      have := List.all_eq_true.1 h x hx
      simp only [decide_eq_true_eq] at this
      exact absurd this (not_lt.2 h1)
    · rw [Bool.eq_false_iff]
      intro h
      have := List.all_eq_true.1 h y hy
      simp only [decide_eq_true_eq] at this
      exact absurd this (not_lt.2 h2)

/-- A convex combination lies between the smallest and the largest of three numbers. -/
theorem between {x1 x2 x3 a b c lo : K} (ha : 0 ≤ a) (hb : 0 ≤ b) (hc : 0 ≤ c) (h : a + b + c = 1)
    (hq : lo ≤ a * x1 + b * x2 + c * x3) : lo ≤ x1 ∨ lo ≤ x2 ∨ lo ≤ x3 := by
  by_contra hn
  push Not at hn
  obtain ⟨h1, h2, h3⟩ := hn
  have e : lo = a * lo + b * lo + c * lo := by rw [← add_mul, ← add_mul, h, one_mul]
  have i1 : a * x1 ≤ a * lo := mul_le_mul_of_nonneg_left h1.le ha
  have i2 : b * x2 ≤ b * lo := mul_le_mul_of_nonneg_left h2.le hb
  have i3 : c * x3 ≤ c * lo := mul_le_mul_of_nonneg_left h3.le hc
  have hpos : 0 < a ∨ 0 < b ∨ 0 < c := by
    by_contra hh
    push Not at hh
    linarith [hh.1, hh.2.1, hh.2.2]
  rcases hpos with hp | hp | hp
  · have := mul_lt_mul_of_pos_left h1 hp; linarith
  · have := mul_lt_mul_of_pos_left h2 hp; linarith
  · have := mul_lt_mul_of_pos_left h3 hp; linarith

theorem between' {x1 x2 x3 a b c hi : K} (ha : 0 ≤ a) (hb : 0 ≤ b) (hc : 0 ≤ c) (h : a + b + c = 1)
    (hq : a * x1 + b * x2 + c * x3 ≤ hi) : x1 ≤ hi ∨ x2 ≤ hi ∨ x3 ≤ hi := by
  have := between (x1 := -x1) (x2 := -x2) (x3 := -x3) (lo := -hi) ha hb hc h (by linarith)
  simpa using this

/-- A point of the polygon in the closed cube of the cell on one axis. -/
theorem axis_inside {pts : List (Vec3 K)} {q : Vec3 K} (hq : PointOf pts q) (f : Vec3 K → K)
    (hf : ∀ (a b c : K) (p1 p2 p3 : Vec3 K), f (a • p1 + b • p2 + c • p3)
      = a * f p1 + b * f p2 + c * f p3) {lo hi : K} (h1 : lo ≤ f q) (h2 : f q ≤ hi) :
    outsideAxis (pts.map f) lo hi = false := by
  obtain ⟨p1, m1, p2, m2, p3, m3, a, b, c, ha, hb, hc, hs, rfl⟩ := hq
  rw [hf] at h1 h2
  rw [outsideAxis_false]
  constructor
  · rcases between ha hb hc hs h1 with h | h | h
    · exact ⟨_, List.mem_map_of_mem m1, h⟩
    · exact ⟨_, List.mem_map_of_mem m2, h⟩
    · exact ⟨_, List.mem_map_of_mem m3, h⟩
  · rcases between' ha hb hc hs h2 with h | h | h
    · exact ⟨_, List.mem_map_of_mem m1, h⟩
    · exact ⟨_, List.mem_map_of_mem m2, h⟩
    · exact ⟨_, List.mem_map_of_mem m3, h⟩

theorem floor_bounds {x step : K} (hs : 0 < step) :
    (⌊x / step⌋ : K) * step ≤ x ∧ x ≤ (⌊x / step⌋ : K) * step + step := by
  have a1 := Int.floor_le (x / step)
  have a2 := Int.lt_floor_add_one (x / step)
  have e : x / step * step = x := div_mul_cancel₀ x hs.ne'
  constructor
  · calc (⌊x / step⌋ : K) * step ≤ x / step * step := mul_le_mul_of_nonneg_right a1 hs.le
      _ = x := e
  · have : x / step * step ≤ ((⌊x / step⌋ : K) + 1) * step :=
      mul_le_mul_of_nonneg_right a2.le hs.le
    rw [e] at this
    linarith

theorem outside_cellOf {pts : List (Vec3 K)} {q : Vec3 K} (hq : PointOf pts q) {step : K}
    (hs : 0 < step) : outside pts (cellOf q step) step = false := by
  unfold outside cellOf
  rw [axis_inside hq Vec3.x (by intros; simp) (floor_bounds hs).1 (floor_bounds hs).2,
    axis_inside hq Vec3.y (by intros; simp) (floor_bounds hs).1 (floor_bounds hs).2,
    axis_inside hq Vec3.z (by intros; simp) (floor_bounds hs).1 (floor_bounds hs).2]
  rfl

theorem pointOf_within {lo hi q : Vec3 K} {pts : List (Vec3 K)} (hw : Within lo hi pts)
    (hq : PointOf pts q) : (lo.x ≤ q.x ∧ q.x ≤ hi.x) ∧ (lo.y ≤ q.y ∧ q.y ≤ hi.y) ∧
      (lo.z ≤ q.z ∧ q.z ≤ hi.z) := by
  obtain ⟨p1, m1, p2, m2, p3, m3, a, b, c, ha, hb, hc, hs, rfl⟩ := hq
  have h1 := hw p1 m1
  have h2 := hw p2 m2
  have h3 := hw p3 m3
  have low : ∀ l x1 x2 x3 : K, l ≤ x1 → l ≤ x2 → l ≤ x3 → l ≤ a * x1 + b * x2 + c * x3 := by
    intro l x1 x2 x3 i1 i2 i3
    have e : l = a * l + b * l + c * l := by rw [← add_mul, ← add_mul, hs, one_mul]
    have := mul_le_mul_of_nonneg_left i1 ha
    have := mul_le_mul_of_nonneg_left i2 hb
    have := mul_le_mul_of_nonneg_left i3 hc
    linarith
  have high : ∀ l x1 x2 x3 : K, x1 ≤ l → x2 ≤ l → x3 ≤ l → a * x1 + b * x2 + c * x3 ≤ l := by
    intro l x1 x2 x3 i1 i2 i3
    have := low (-l) (-x1) (-x2) (-x3) (by linarith) (by linarith) (by linarith)
    linarith
  simp only [Vec3.add_x, Vec3.add_y, Vec3.add_z, Vec3.smul_x, Vec3.smul_y, Vec3.smul_z]
  exact ⟨⟨low _ _ _ _ h1.1 h2.1 h3.1, high _ _ _ _ h1.2.1 h2.2.1 h3.2.1⟩,
    ⟨low _ _ _ _ h1.2.2.1 h2.2.2.1 h3.2.2.1, high _ _ _ _ h1.2.2.2.1 h2.2.2.2.1 h3.2.2.2.1⟩,
    ⟨low _ _ _ _ h1.2.2.2.2.1 h2.2.2.2.2.1 h3.2.2.2.2.1,
      high _ _ _ _ h1.2.2.2.2.2 h2.2.2.2.2.2 h3.2.2.2.2.2⟩⟩

theorem vertex_pointOf {pts : List (Vec3 K)} {v : Vec3 K} (hv : v ∈ pts) : PointOf pts v :=
  ⟨v, hv, v, hv, v, hv, 1, 0, 0, zero_le_one, le_refl _, le_refl _, by ring, by
    ext <;> simp⟩

/-- Coordinates that differ by at most one step have neighbouring cells. -/
theorem floor_near {p q step : K} (hs : 0 < step) (h : |q - p| ≤ step) :
    ∃ i ∈ offsets, ⌊p / step⌋ + i = ⌊q / step⌋ := by
  rw [abs_le] at h
  have h1 : q / step ≤ p / step + 1 := by
    rw [div_add_one hs.ne']
    exact div_le_div_of_nonneg_right (by linarith) hs.le
  have h2 : p / step ≤ q / step + 1 := by
    rw [div_add_one hs.ne']
    exact div_le_div_of_nonneg_right (by linarith) hs.le
  have h3 : ⌊q / step⌋ ≤ ⌊p / step⌋ + 1 := by
    rw [← Int.floor_add_one]; exact Int.floor_le_floor h1
  have h4 : ⌊p / step⌋ ≤ ⌊q / step⌋ + 1 := by
    rw [← Int.floor_add_one]; exact Int.floor_le_floor h2
  refine ⟨⌊q / step⌋ - ⌊p / step⌋, ?_, by omega⟩
  simp only [offsets, List.mem_cons, List.not_mem_nil, or_false]
  omega

end B3d.Sim
