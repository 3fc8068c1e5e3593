import Verif.Proofs.InTriangle
import Verif.Props.PointInPolygonCases
import Verif.Proofs.Tactics

/-!
# Polygons with small whole-number coordinates

The tests of the ear clipping are exact for corners with whole-number coordinates in a horizontal plane, so that the
triangulation of such a polygon can be computed with integers.
-/

namespace B3d.Grid

open Spec Triangles Points Polygon

/-- A point of the grid, in the plane `z = 0`. -/
noncomputable def emb (p : ℤ × ℤ) : Vec3 ℝ := ⟨p.1, p.2, 0⟩

/-- Twice the signed area of a triangle. -/
def orient (a b c : ℤ × ℤ) : ℤ := (b.1 - a.1) * (c.2 - a.2) - (b.2 - a.2) * (c.1 - a.1)

/-- Points of a closed triangle with corners in counter-clockwise order. -/
def gInside (t a b c : ℤ × ℤ) : Bool := decide (0 ≤ orient a b t ∧ 0 ≤ orient b c t ∧ 0 ≤ orient c a t)

/-- Corners are at most 40 away from the axes. -/
def Small (p : ℤ × ℤ) : Prop := |p.1| ≤ 40 ∧ |p.2| ≤ 40

instance (p : ℤ × ℤ) : Decidable (Small p) := by unfold Small; infer_instance

theorem Small.bounds {p : ℤ × ℤ} (h : Small p) : -40 ≤ (p.1 : ℝ) ∧ (p.1 : ℝ) ≤ 40 ∧ -40 ≤ (p.2 : ℝ) ∧ (p.2 : ℝ) ≤ 40 := by
  obtain ⟨h1, h2⟩ := h
  rw [abs_le] at h1 h2
  exact ⟨by exact_mod_cast h1.1, by exact_mod_cast h1.2, by exact_mod_cast h2.1, by exact_mod_cast h2.2⟩

theorem emb_sub (p q : ℤ × ℤ) : emb p - emb q = ⟨(p.1 : ℝ) - q.1, (p.2 : ℝ) - q.2, 0⟩ := by
  ext <;> simp [emb]

theorem one_le_norm {p q : ℤ × ℤ} (h : p ≠ q) : 1 ≤ Vec3.norm (emb p - emb q) := by
  apply Vec3.le_norm_of_sq
  rw [emb_sub]
  simp only [Vec3.normSq, Vec3.dot]
  have : 1 ≤ (p.1 - q.1) * (p.1 - q.1) + (p.2 - q.2) * (p.2 - q.2) := by
    by_contra hc
    have h1 : p.1 - q.1 = 0 := by nlinarith [mul_self_nonneg (p.1 - q.1), mul_self_nonneg (p.2 - q.2)]
    have h2 : p.2 - q.2 = 0 := by nlinarith [mul_self_nonneg (p.1 - q.1), mul_self_nonneg (p.2 - q.2)]
    exact h (Prod.ext (by omega) (by omega))
  have h2 : (1 : ℝ) ≤ ((p.1 : ℝ) - q.1) * (p.1 - q.1) + (p.2 - q.2) * (p.2 - q.2) := by exact_mod_cast this
  linarith

theorem eps_lt_norm {p q : ℤ × ℤ} (h : p ≠ q) : EPSILON < Vec3.norm (emb p - emb q) :=
  lt_of_lt_of_le (by norm_num [EPSILON]) (one_le_norm h)

theorem eq_of_pointsEqual {p q : ℤ × ℤ} (hq : Small q) (h : pointsEqual (emb p) (emb q) GEOM_ATOL = true) : p = q := by
  rw [pointsEqual, decide_eq_true_eq] at h
  obtain ⟨h1, h2, -⟩ := h
  obtain ⟨b1, b2, b3, b4⟩ := hq.bounds
  simp only [isClose, emb, NP_RTOL, GEOM_ATOL] at h1 h2
  have a1 : |(q.1 : ℝ)| ≤ 40 := abs_le.2 ⟨b1, b2⟩
  have a2 : |(q.2 : ℝ)| ≤ 40 := abs_le.2 ⟨b3, b4⟩
  have e1 : |(p.1 : ℝ) - q.1| < 1 := by norm_num at h1 ⊢; linarith
  have e2 : |(p.2 : ℝ) - q.2| < 1 := by norm_num at h2 ⊢; linarith
  have f1 : |p.1 - q.1| < 1 := by exact_mod_cast e1
  have f2 : |p.2 - q.2| < 1 := by exact_mod_cast e2
  rw [abs_lt] at f1 f2
  exact Prod.ext (by omega) (by omega)

theorem orient_cast (a b c : ℤ × ℤ) : ((orient a b c : ℤ) : ℝ) =
    ((b.1 : ℝ) - a.1) * (c.2 - a.2) - (b.2 - a.2) * (c.1 - a.1) := by
  unfold orient; push_cast; ring

theorem cross_emb (a b c : ℤ × ℤ) : Vec3.cross (emb b - emb a) (emb c - emb a) = ⟨0, 0, (orient a b c : ℤ)⟩ := by
  rw [emb_sub, emb_sub, orient_cast]
  ext <;> simp

theorem edge_none {t a b : ℤ × ℤ} (ha : Small a) (hb : Small b) (ht : Small t) (h : orient a b t ≠ 0) :
    edgeTest (emb t) (emb a) (emb b) GEOM_ATOL = none := by
  have hba : b ≠ a := by rintro rfl; exact h (by unfold orient; ring)
  have hta : t ≠ a := by rintro rfl; exact h (by unfold orient; ring)
  unfold edgeTest
  rw [notCollinear (eps_lt_norm hba) (eps_lt_norm hta)]
  obtain ⟨a1, a2, a3, a4⟩ := ha.bounds
  obtain ⟨b1, b2, b3, b4⟩ := hb.bounds
  obtain ⟨t1, t2, t3, t4⟩ := ht.bounds
  have hD : (1 : ℝ) ≤ (orient a b t : ℝ) ^ 2 := by
    have : 1 ≤ orient a b t ^ 2 := by
      have := sq_nonneg (orient a b t)
      have h0 : orient a b t ^ 2 ≠ 0 := pow_ne_zero 2 h
      omega
    exact_mod_cast this
  rw [orient_cast] at hD
  rw [emb_sub, emb_sub]
  simp only [Vec3.normSq, Vec3.dot]
  obtain ⟨ux, hux⟩ : ∃ ux, ux = (b.1 : ℝ) - a.1 := ⟨_, rfl⟩
  obtain ⟨uy, huy⟩ : ∃ uy, uy = (b.2 : ℝ) - a.2 := ⟨_, rfl⟩
  obtain ⟨wx, hwx⟩ : ∃ wx, wx = (t.1 : ℝ) - a.1 := ⟨_, rfl⟩
  obtain ⟨wy, hwy⟩ : ∃ wy, wy = (t.2 : ℝ) - a.2 := ⟨_, rfl⟩
  rw [← hux, ← huy, ← hwx, ← hwy] at hD ⊢
  have l1 : ux ^ 2 ≤ 6400 := by nlinarith
  have l2 : uy ^ 2 ≤ 6400 := by nlinarith
  have l3 : wx ^ 2 ≤ 6400 := by nlinarith
  have l4 : wy ^ 2 ≤ 6400 := by nlinarith
  have l5 : (ux * ux + uy * uy + 0 * 0) * (wx * wx + wy * wy + 0 * 0) ≤ 12800 * 12800 :=
    mul_le_mul (by nlinarith) (by nlinarith) (by nlinarith [sq_nonneg wx, sq_nonneg wy]) (by norm_num)
  have e : (ux * ux + uy * uy + 0 * 0) * (wx * wx + wy * wy + 0 * 0) =
      (ux * wx + uy * wy + 0 * 0) ^ 2 + (ux * wy - uy * wx) ^ 2 := by ring
  rw [sub_mul, one_mul]
  norm_num at l5 e ⊢
  linarith

/-- On the line and within the box of the segment. -/
theorem onSegment_of_box {t a b : ℤ × ℤ} (h : orient a b t = 0) (hne : a ≠ b)
    (hx : min a.1 b.1 ≤ t.1 ∧ t.1 ≤ max a.1 b.1) (hy : min a.2 b.2 ≤ t.2 ∧ t.2 ≤ max a.2 b.2) :
    OnSegment (emb a) (emb b) (emb t) := by
  have hr : ((b.1 : ℝ) - a.1) * (t.2 - a.2) - (b.2 - a.2) * (t.1 - a.1) = 0 := by
    rw [← orient_cast, h]; simp
  have key : ∀ p q y : ℤ, p ≠ q → min p q ≤ y ∧ y ≤ max p q →
      0 ≤ ((y : ℝ) - p) / (q - p) ∧ ((y : ℝ) - p) / (q - p) ≤ 1 := by
    intro p q y hne hy
    rcases lt_or_gt_of_ne hne with hlt | hgt
    · rw [min_eq_left hlt.le, max_eq_right hlt.le] at hy
      have c1 : (p : ℝ) < q := by exact_mod_cast hlt
      have c2 : (p : ℝ) ≤ y := by exact_mod_cast hy.1
      have c3 : (y : ℝ) ≤ q := by exact_mod_cast hy.2
      exact ⟨div_nonneg (by linarith) (by linarith), (div_le_one (by linarith)).2 (by linarith)⟩
    · have hgt : q < p := hgt
      rw [min_eq_right hgt.le, max_eq_left hgt.le] at hy
      have c1 : (q : ℝ) < p := by exact_mod_cast hgt
      have c2 : (q : ℝ) ≤ y := by exact_mod_cast hy.1
      have c3 : (y : ℝ) ≤ p := by exact_mod_cast hy.2
      exact ⟨div_nonneg_of_nonpos (by linarith) (by linarith), (div_le_one_of_neg (by linarith)).2 (by linarith)⟩
  by_cases h1 : a.1 = b.1
  · have h2 : a.2 ≠ b.2 := fun h2 => hne (Prod.ext h1 h2)
    have h2' : (b.2 : ℝ) - a.2 ≠ 0 := by
      rw [sub_ne_zero]; exact_mod_cast h2.symm
    obtain ⟨k0, k1⟩ := key _ _ _ h2 hy
    refine ⟨_, k0, k1, ?_⟩
    have hx1 : (t.1 : ℝ) = a.1 := by
      rw [h1] at hx ⊢; simp only [min_self, max_self] at hx
      exact_mod_cast le_antisymm hx.2 hx.1
    have hb1 : (b.1 : ℝ) = a.1 := by rw [h1]
    ext
    · simp [emb, hx1, hb1]
    · simp [emb]; field_simp; ring
    · simp [emb]
  · have h2' : (b.1 : ℝ) - a.1 ≠ 0 := by
      rw [sub_ne_zero]; exact_mod_cast (Ne.symm h1)
    obtain ⟨k0, k1⟩ := key _ _ _ h1 hx
    refine ⟨_, k0, k1, ?_⟩
    ext
    · simp [emb]; field_simp; ring
    · simp [emb]; field_simp; linarith
    · simp [emb]

theorem npRound_int (n : ℤ) : npRound n = n := by
  unfold npRound
  have e : (n : ℝ) * 10 ^ 8 = ((n * 10 ^ 8 : ℤ) : ℝ) := by push_cast; ring
  simp only [e, Int.floor_intCast]
  rw [if_pos (by norm_num)]
  push_cast
  field_simp
  norm_num

theorem box_of_edgeTest {t a b : ℤ × ℤ} (h : edgeTest (emb t) (emb a) (emb b) GEOM_ATOL = some true) :
    (min a.1 b.1 ≤ t.1 ∧ t.1 ≤ max a.1 b.1) ∧ (min a.2 b.2 ≤ t.2 ∧ t.2 ≤ max a.2 b.2) := by
  unfold edgeTest at h
  split at h
  · simp only [Option.some.injEq, decide_eq_true_eq, emb, npRound_int] at h
    push Not at h
    obtain ⟨⟨h1, h2⟩, ⟨h3, h4⟩, -⟩ := h
    have key : ∀ p q y : ℤ, (y : ℝ) ≤ max (p : ℝ) q + GEOM_ATOL → min (p : ℝ) q - GEOM_ATOL ≤ y →
        min p q ≤ y ∧ y ≤ max p q := by
      intro p q y u v
      have hg : (GEOM_ATOL : ℝ) < 1 := by norm_num [GEOM_ATOL]
      rw [← Int.cast_max] at u
      rw [← Int.cast_min] at v
      have u' : (y : ℝ) < ((max p q + 1 : ℤ) : ℝ) := by rw [Int.cast_add, Int.cast_one]; linarith
      have v' : ((min p q - 1 : ℤ) : ℝ) < y := by rw [Int.cast_sub, Int.cast_one]; linarith
      have u'' : y < max p q + 1 := by exact_mod_cast u'
      have v'' : min p q - 1 < y := by exact_mod_cast v'
      exact ⟨by omega, by omega⟩
    exact ⟨key _ _ _ h1 h2, key _ _ _ h3 h4⟩
  · cases h

theorem orient_rot (a b c : ℤ × ℤ) : orient b c a = orient a b c := by unfold orient; ring

theorem orient_sum (a b c t : ℤ × ℤ) : orient a b t + orient b c t + orient c a t = orient a b c := by
  unfold orient; ring

theorem gInside_rot (t a b c : ℤ × ℤ) : gInside t b c a = gInside t a b c := by
  unfold gInside; apply decide_eq_decide.2; tauto

/-- A point on an edge is in the triangle. -/
theorem gInside_of_segment {t a b c : ℤ × ℤ} (hD : 0 < orient a b c) (h : OnSegment (emb a) (emb b) (emb t)) :
    gInside t a b c = true := by
  obtain ⟨l, h0, h1, e⟩ := h
  have ex := congrArg Vec3.x e
  have ey := congrArg Vec3.y e
  simp [emb] at ex ey
  have hD' : (0 : ℝ) < orient a b c := by exact_mod_cast hD
  have e1 : (orient a b t : ℝ) = 0 := by rw [orient_cast, ex, ey]; ring
  have e2 : (orient b c t : ℝ) = (1 - l) * orient a b c := by rw [orient_cast, orient_cast, ex, ey]; ring
  have e3 : (orient c a t : ℝ) = l * orient a b c := by rw [orient_cast, orient_cast, ex, ey]; ring
  have p1 : (0 : ℝ) ≤ orient a b t := e1.ge
  have p2 : (0 : ℝ) ≤ orient b c t := by rw [e2]; exact mul_nonneg (by linarith) hD'.le
  have p3 : (0 : ℝ) ≤ orient c a t := by rw [e3]; exact mul_nonneg h0 hD'.le
  simp only [gInside, decide_eq_true_eq]
  exact ⟨by exact_mod_cast p1, by exact_mod_cast p2, by exact_mod_cast p3⟩

/-- A point of the triangle on the line of an edge is on the edge. -/
theorem segment_of_gInside {t a b c : ℤ × ℤ} (hD : 0 < orient a b c) (h : gInside t a b c = true)
    (h0 : orient a b t = 0) : OnSegment (emb a) (emb b) (emb t) := by
  simp only [gInside, decide_eq_true_eq] at h
  obtain ⟨-, h2, h3⟩ := h
  have hs := orient_sum a b c t
  have hD' : (0 : ℝ) < orient a b c := by exact_mod_cast hD
  have h3' : (0 : ℝ) ≤ orient c a t := by exact_mod_cast h3
  have h4' : (orient c a t : ℝ) ≤ orient a b c := by exact_mod_cast (by omega : orient c a t ≤ orient a b c)
  have h0' : ((b.1 : ℝ) - a.1) * (t.2 - a.2) - (b.2 - a.2) * (t.1 - a.1) = 0 := by rw [← orient_cast, h0]; simp
  have hne := hD'.ne'
  refine ⟨(orient c a t : ℝ) / orient a b c, div_nonneg h3' hD'.le, (div_le_one hD').2 h4', ?_⟩
  ext
  · simp only [emb, Vec3.add_x, Vec3.smul_x, Vec3.sub_x]
    field_simp
    rw [orient_cast, orient_cast]
    linear_combination ((c.1 : ℝ) - a.1) * h0'
  · simp only [emb, Vec3.add_y, Vec3.smul_y, Vec3.sub_y]
    field_simp
    rw [orient_cast, orient_cast]
    linear_combination ((c.2 : ℝ) - a.2) * h0'
  · simp [emb]

theorem inTriangle_emb {t a b c : ℤ × ℤ} (hD : 0 < orient a b c) (h : gInside t a b c = true) :
    InTriangle (emb a) (emb b) (emb c) (emb t) := by
  simp only [gInside, decide_eq_true_eq] at h
  obtain ⟨h1, h2, h3⟩ := h
  have hs : (orient a b t : ℝ) + orient b c t + orient c a t = orient a b c := by
    exact_mod_cast orient_sum a b c t
  have hD' : (0 : ℝ) < orient a b c := by exact_mod_cast hD
  have hne := hD'.ne'
  have h1' : (0 : ℝ) ≤ orient a b t := by exact_mod_cast h1
  have h2' : (0 : ℝ) ≤ orient b c t := by exact_mod_cast h2
  have h3' : (0 : ℝ) ≤ orient c a t := by exact_mod_cast h3
  refine ⟨_, _, _, div_nonneg h2' hD'.le, div_nonneg h3' hD'.le, div_nonneg h1' hD'.le, ?_, ?_⟩
  · field_simp; linarith
  · ext
    · simp only [emb, Vec3.add_x, Vec3.smul_x]
      field_simp
      simp only [orient_cast]
      ring
    · simp only [emb, Vec3.add_y, Vec3.smul_y]
      field_simp
      simp only [orient_cast]
      ring
    · simp [emb]

theorem sameSide_emb {t a b c : ℤ × ℤ} (hD : 0 < orient a b c) (h0 : orient a b t ≠ 0) :
    isPointOnSameSide (emb a) (emb b) (emb t) (emb c) = .ok (decide (0 < orient a b t)) := by
  unfold isPointOnSameSide
  simp only [cross_emb, norm_z]
  have hg : (GEOM_ATOL : ℝ) < 1 := by norm_num [GEOM_ATOL]
  have hD1 : (1 : ℝ) ≤ orient a b c := by exact_mod_cast hD
  have ht1 : (1 : ℝ) ≤ |(orient a b t : ℝ)| := by exact_mod_cast Int.one_le_abs h0
  rw [abs_of_pos (lt_of_lt_of_le one_pos hD1), if_neg (by linarith), if_neg (by linarith)]
  have e2 : (1 / (orient a b c : ℝ)) • (⟨0, 0, (orient a b c : ℝ)⟩ : Vec3 ℝ) = ⟨0, 0, 1⟩ := by
    have := (lt_of_lt_of_le one_pos hD1).ne'
    ext <;> simp [this]
  rw [e2]
  congr 1
  apply decide_eq_decide.2
  rcases lt_or_gt_of_ne h0 with hneg | hpos
  · have hn : (orient a b t : ℝ) < 0 := by exact_mod_cast hneg
    have e1 : (1 / |(orient a b t : ℝ)|) • (⟨0, 0, (orient a b t : ℝ)⟩ : Vec3 ℝ) = ⟨0, 0, -1⟩ := by
      rw [abs_of_neg hn]
      ext <;> simp
      field_simp
    rw [e1]
    constructor
    · rintro ⟨-, -, h3⟩
      simp only [isClose, NP_RTOL, GEOM_ATOL] at h3
      norm_num at h3
    · intro h; omega
  · have hpos : 0 < orient a b t := hpos
    have hp : 0 < (orient a b t : ℝ) := by exact_mod_cast hpos
    have e1 : (1 / |(orient a b t : ℝ)|) • (⟨0, 0, (orient a b t : ℝ)⟩ : Vec3 ℝ) = ⟨0, 0, 1⟩ := by
      rw [abs_of_pos hp]
      ext <;> simp
      field_simp
    rw [e1]
    exact ⟨fun _ => hpos, fun _ => allClose_self (by norm_num [NP_RTOL]) (by norm_num [GEOM_ATOL])⟩

/-- The test of a triangle is exact. -/
theorem isPointInside_emb {t a b c : ℤ × ℤ} (hD : 0 < orient a b c) (ha : Small a) (hb : Small b) (hc : Small c)
    (ht : Small t) : Triangles.isPointInside (emb t) (emb a) (emb b) (emb c) = .ok (gInside t a b c) := by
  have hD2 : 0 < orient b c a := by rw [orient_rot]; exact hD
  have hD3 : 0 < orient c a b := by rw [orient_rot, orient_rot]; exact hD
  have r2 := gInside_rot t a b c
  have r3 := gInside_rot t b c a
  have hab : a ≠ b := by rintro rfl; revert hD; unfold orient; ring_nf; simp
  have hbc : b ≠ c := by rintro rfl; revert hD; unfold orient; ring_nf; simp
  have hca : c ≠ a := by rintro rfl; revert hD; unfold orient; ring_nf; simp
  cases hg : gInside t a b c with
  | true =>
    by_cases hcorner : t = a ∨ t = b ∨ t = c
    · exact isPointInside_corner (by rcases hcorner with rfl | rfl | rfl <;> simp)
    push Not at hcorner
    obtain ⟨ta, tb, tc⟩ := hcorner
    have ed : ∀ p q r : ℤ × ℤ, Small p → Small q → 0 < orient p q r → gInside t p q r = true → p ≠ q → t ≠ p →
        (edgeTest (emb t) (emb p) (emb q) GEOM_ATOL = some true) ∨
        (edgeTest (emb t) (emb p) (emb q) GEOM_ATOL = none ∧
          isPointOnSameSide (emb p) (emb q) (emb t) (emb r) = .ok true) := by
      intro p q r hp hq hd hi hpq htp
      by_cases h0 : orient p q t = 0
      · exact .inl (edgeTest_on (segment_of_gInside hd hi h0) (eps_lt_norm hpq.symm) (eps_lt_norm htp))
      · refine .inr ⟨edge_none hp hq ht h0, ?_⟩
        rw [sameSide_emb hd h0]
        congr 1
        simp only [gInside, decide_eq_true_eq] at hi ⊢
        omega
    unfold Triangles.isPointInside
    rw [inTriangle_bbox (inTriangle_emb hD hg) _ (by simp) (by simp) (by simp)]
    simp only [bind, Except.bind, pure, Except.pure, Bool.not_true, Bool.false_eq_true, if_false]
    split
    · rfl
    rcases ed a b c ha hb hD hg hab ta with e1 | ⟨e1, s1⟩
    · simp only [e1]
    rcases ed b c a hb hc hD2 (r2.trans hg) hbc tb with e2 | ⟨e2, s2⟩
    · simp only [e1, e2]
    rcases ed c a b hc ha hD3 (r3.trans (r2.trans hg)) hca tc with e3 | ⟨e3, s3⟩
    · simp only [e1, e2, e3]
    simp only [e1, e2, e3, s1, s2, s3, Bool.and_self]
  | false =>
    have hlen : ¬ Vec3.norm (Vec3.cross (emb b - emb a) (emb c - emb b)) < GEOM_ATOL := by
      have e : Vec3.cross (emb b - emb a) (emb c - emb b) = ⟨0, 0, (orient a b c : ℤ)⟩ := by
        rw [emb_sub, emb_sub, orient_cast]
        ext <;> simp; ring
      rw [e, norm_z]
      have hD1 : (1 : ℝ) ≤ orient a b c := by exact_mod_cast hD
      rw [abs_of_pos (lt_of_lt_of_le one_pos hD1)]
      have : (GEOM_ATOL : ℝ) < 1 := by norm_num [GEOM_ATOL]
      linarith
    obtain ⟨r, hr⟩ := isPointInside_ok_of_len hlen (emb t)
    rw [hr]
    cases r with
    | false => rfl
    | true =>
      exfalso
      have ed : ∀ p q r : ℤ × ℤ, Small p → Small q → 0 < orient p q r → p ≠ q →
          edgeTest (emb t) (emb p) (emb q) GEOM_ATOL = some true → gInside t p q r = true := by
        intro p q r hp hq hd hpq he
        obtain ⟨bx, by'⟩ := box_of_edgeTest he
        refine gInside_of_segment hd (onSegment_of_box ?_ hpq bx by')
        by_contra h0
        rw [edge_none hp hq ht h0] at he
        cases he
      rcases inside_cases hr with h | h | ⟨h1, h2, h3⟩
      · have : gInside t a b c = true := by
          rcases h with h | h | h
          · rw [eq_of_pointsEqual ha h]
            exact gInside_of_segment hD ⟨0, le_refl _, zero_le_one, by simp⟩
          · rw [eq_of_pointsEqual hb h]
            exact gInside_of_segment hD ⟨1, zero_le_one, le_refl _, by simp⟩
          · rw [eq_of_pointsEqual hc h, ← gInside_rot]
            exact gInside_of_segment hD2 ⟨1, zero_le_one, le_refl _, by simp⟩
        rw [hg] at this; cases this
      · rcases h with h | h | h
        · rw [ed a b c ha hb hD hab h] at hg; cases hg
        · rw [← r2, ed b c a hb hc hD2 hbc h] at hg; cases hg
        · rw [← r2, ← r3, ed c a b hc ha hD3 hca h] at hg; cases hg
      · have side : ∀ p q r : ℤ × ℤ, 0 < orient p q r →
            isPointOnSameSide (emb p) (emb q) (emb t) (emb r) GEOM_ATOL = .ok true → 0 ≤ orient p q t := by
          intro p q r hd h
          by_cases h0 : orient p q t = 0
          · omega
          · rw [sameSide_emb hd h0] at h
            simp only [Except.ok.injEq, decide_eq_true_eq] at h
            omega
        have : gInside t a b c = true := by
          simp only [gInside, decide_eq_true_eq]
          exact ⟨side _ _ _ hD h1, side _ _ _ hD2 h2, side _ _ _ hD3 h3⟩
        rw [hg] at this; cases this

/-- The test of a corner is exact. -/
theorem isCornerConvex_emb (a b c : ℤ × ℤ) :
    isCornerConvex ⟨0, 0, 1⟩ (emb a) (emb b) (emb c) = .ok (decide (0 < orient a b c)) := by
  have e : ((b.1 : ℝ) - a.1) * (c.2 - b.2) - (b.2 - a.2) * (c.1 - b.1) = (orient a b c : ℤ) := by
    rw [orient_cast]; ring
  rcases lt_trichotomy (orient a b c) 0 with h | h | h
  · rw [decide_eq_false (by omega)]
    refine isCornerConvex_z (.inl rfl) ?_
    simp only [Bool.false_eq_true, if_false, one_mul]
    rw [e]
    exact_mod_cast (by omega : orient a b c ≤ -1)
  · rw [decide_eq_false (by omega)]
    unfold isCornerConvex
    have e2 : Vec3.cross (emb b - emb a) (emb c - emb b) = ⟨0, 0, 0⟩ := by
      rw [emb_sub, emb_sub]
      rw [h] at e
      ext <;> simp
      simpa using e
    simp only [e2, norm_z]
    rw [if_neg (by norm_num [GEOM_ATOL]), if_pos (by norm_num [GEOM_ATOL])]
  · rw [decide_eq_true h]
    refine isCornerConvex_z (.inl rfl) ?_
    simp only [if_true, one_mul]
    rw [e]
    exact_mod_cast (by omega : 1 ≤ orient a b c)

/-! ## Runs of the ear clipping -/

section runs

variable {α β : Type}

/-- The state with the points replaced. -/
def mapState (f : α → β) (s : State α) : State β :=
  ⟨s.vertices.map fun v => (v.1, f v.2), s.triangles, s.pos, s.numFail⟩

variable (f : α → β) {convex : β → β → β → Except PyErr Bool} {convex' : α → α → α → Except PyErr Bool}
  {inside : β → β → β → β → Except PyErr Bool} {inside' : α → α → α → α → Except PyErr Bool} {pts : List α}

theorem anyPointInside_map {i j k : Nat}
    (hi : ∀ a b c, pts[i]? = some a → pts[j]? = some b → pts[k]? = some c → ∀ t ∈ pts,
      inside (f t) (f a) (f b) (f c) = inside' t a b c) :
    ∀ (vs : List (Nat × α)) (found : Bool),
      anyPointInside inside (pts.map f) i j k (vs.map fun v => (v.1, f v.2)) found =
        anyPointInside inside' pts i j k vs found
  | [], _ => rfl
  | (t, q) :: vs, found => by
    simp only [List.map_cons, anyPointInside]
    split
    · simp only [List.getElem?_map]
      cases ht : pts[t]? with
      | none => simp
      | some x =>
        cases ha : pts[i]? with
        | none => simp
        | some a =>
          cases hb : pts[j]? with
          | none => simp
          | some b =>
            cases hc : pts[k]? with
            | none => simp
            | some c =>
              simp only [Option.map_some]
              rw [hi a b c ha hb hc x (List.mem_of_getElem? ht)]
              split
              · rfl
              · exact anyPointInside_map hi vs _
    · exact anyPointInside_map hi vs _

/-- The ear clipping depends only on the results of the two tests. -/
theorem run_map (hc : ∀ a ∈ pts, ∀ b ∈ pts, ∀ c ∈ pts, convex (f a) (f b) (f c) = convex' a b c)
    (hi : ∀ a ∈ pts, ∀ b ∈ pts, ∀ c ∈ pts, convex' a b c = .ok true → ∀ t ∈ pts,
      inside (f t) (f a) (f b) (f c) = inside' t a b c) :
    ∀ (fuel : Nat) (s : State α), (∀ v ∈ s.vertices, pts[v.1]? = some v.2) →
      run convex inside (pts.map f) fuel (mapState f s) = run convex' inside' pts fuel s
  | 0, _, _ => rfl
  | fuel + 1, s, hs => by
    have ih := run_map hc hi fuel
    unfold run step
    have hl : (mapState f s).vertices.length = s.vertices.length := by simp [mapState]
    have hn : (mapState f s).numFail = s.numFail := rfl
    have hp : (mapState f s).pos = s.pos := rfl
    have ht : (mapState f s).triangles = s.triangles := rfl
    rw [hl, hn, hp, ht, List.length_map]
    by_cases h2 : s.vertices.length > 2
    · rw [if_pos h2, if_pos h2]
      by_cases hf : s.numFail > pts.length
      · rw [if_pos hf, if_pos hf]
      rw [if_neg hf, if_neg hf]
      generalize (if s.pos > s.vertices.length - 1 then 0 else s.pos) = pos
      simp only []
      generalize (if pos > 0 then pos - 1 else s.vertices.length - 1) = pp
      generalize (if pos < s.vertices.length - 1 then pos + 1 else 0) = np
      simp only [mapState, List.getElem?_map]
      cases h1 : s.vertices[pp]? with
      | none => simp
      | some v1 =>
        cases h2 : s.vertices[pos]? with
        | none => simp
        | some v2 =>
          cases h3 : s.vertices[np]? with
          | none => simp
          | some v3 =>
            have g1 := hs v1 (List.mem_of_getElem? h1)
            have g2 := hs v2 (List.mem_of_getElem? h2)
            have g3 := hs v3 (List.mem_of_getElem? h3)
            have m1 := List.mem_of_getElem? g1
            have m2 := List.mem_of_getElem? g2
            have m3 := List.mem_of_getElem? g3
            simp only [Option.map_some]
            rw [hc _ m1 _ m2 _ m3]
            have hs' : ∀ (b : Nat) (n : Nat), run convex inside (pts.map f) fuel
                ⟨s.vertices.map fun v => (v.1, f v.2), s.triangles, b, n⟩ =
                run convex' inside' pts fuel ⟨s.vertices, s.triangles, b, n⟩ := fun b n =>
              ih ⟨s.vertices, s.triangles, b, n⟩ hs
            cases hcv : convex' v1.2 v2.2 v3.2 with
            | error e => rfl
            | ok r =>
              cases r with
              | false => exact hs' _ _
              | true =>
                have ha := anyPointInside_map (inside := inside) (inside' := inside') (pts := pts) f
                  (i := v1.1) (j := v2.1) (k := v3.1) (by
                    intro a b c ea eb ec t htm
                    rw [g1, Option.some.injEq] at ea
                    rw [g2, Option.some.injEq] at eb
                    rw [g3, Option.some.injEq] at ec
                    subst ea eb ec
                    exact hi _ m1 _ m2 _ m3 hcv t htm) s.vertices false
                simp only [ha]
                cases hany : anyPointInside inside' pts v1.1 v2.1 v3.1 s.vertices false with
                | error e => rfl
                | ok r =>
                  cases r with
                  | true => exact hs' _ _
                  | false =>
                    have := ih ⟨s.vertices.eraseIdx pos, s.triangles ++ [(v1.1, v2.1, v3.1)], pos, s.numFail⟩
                      (fun v hv => hs v (List.mem_of_mem_eraseIdx hv))
                    simp only [mapState, ← List.eraseIdx_map] at this
                    exact this
    · rw [if_neg h2, if_neg h2]

theorem mapState_init (f : α → β) (pts : List α) : mapState f (initState pts) = initState (pts.map f) := by
  simp [mapState, initState, List.zip_map_right]

theorem initState_vertices (pts : List α) : ∀ v ∈ (initState pts).vertices, pts[v.1]? = some v.2 := by
  rintro ⟨i, p⟩ hv
  obtain ⟨k, hk⟩ := List.mem_iff_getElem?.1 hv
  simp only [initState, List.getElem?_zip_eq_some] at hk
  obtain ⟨h1, h2⟩ := hk
  rw [List.getElem?_range (by
    by_contra hc
    rw [List.getElem?_eq_none (by simpa using hc)] at h1
    cases h1)] at h1
  cases h1
  exact h2

theorem tries_map {zeroNormal : Bool} {fuel : Nat} : ∀ (tries : Nat) (pts : List α),
    (∀ a ∈ pts, ∀ b ∈ pts, ∀ c ∈ pts, convex (f a) (f b) (f c) = convex' a b c) →
    (∀ a ∈ pts, ∀ b ∈ pts, ∀ c ∈ pts, convex' a b c = .ok true → ∀ t ∈ pts,
      inside (f t) (f a) (f b) (f c) = inside' t a b c) →
    triangulateTries zeroNormal convex inside fuel tries (pts.map f) =
      (triangulateTries zeroNormal convex' inside' fuel tries pts).map fun r => r.map fun x => (x.1.map f, x.2)
  | 0, _, _, _ => rfl
  | tries + 1, pts, hc, hi => by
    unfold triangulateTries
    rw [← mapState_init, run_map f hc hi fuel _ (initState_vertices pts)]
    split
    · rfl
    cases run convex' inside' pts fuel (initState pts) with
    | none => rfl
    | some r =>
      cases r with
      | error e => rfl
      | ok o =>
        cases o with
        | some tri => rfl
        | none =>
          simp only [← List.map_reverse]
          exact tries_map tries pts.reverse (by simpa using hc) (by simpa using hi)

end runs

/-- The ear clipping of a polygon with whole-number coordinates, computed with integers. -/
def gTriangulate (fuel : Nat) (pts : List (ℤ × ℤ)) : Option (Except PyErr (List (ℤ × ℤ) × List Tri)) :=
  triangulateTries false (fun a b c => .ok (decide (0 < orient a b c))) (fun t a b c => .ok (gInside t a b c)) fuel 2 pts

theorem triangulate_emb {fuel : Nat} {pts : List (ℤ × ℤ)} (h : ∀ p ∈ pts, Small p) :
    triangulate fuel (pts.map emb) ⟨0, 0, 1⟩ =
      (gTriangulate fuel pts).map fun r => r.map fun x => (x.1.map emb, x.2) := by
  unfold triangulate gTriangulate
  rw [decide_eq_false (unit_z (.inl rfl))]
  refine tries_map emb 2 pts (fun a _ b _ c _ => isCornerConvex_emb a b c) ?_
  intro a ha b hb c hc hcv t ht
  simp only [Except.ok.injEq, decide_eq_true_eq] at hcv
  exact isPointInside_emb hcv (h a ha) (h b hb) (h c hc) (h t ht)

theorem coplanar_emb (pts : List (ℤ × ℤ)) : Points.arePointsCoplanar (pts.map emb) = true := by
  have := coplanar_z (pts.map fun p => ((p.1 : ℝ), (p.2 : ℝ)))
  rwa [List.map_map] at this

theorem chooseNormal_emb {pts : List (ℤ × ℤ)} {l p0 p1 : ℤ × ℤ} (hl : pts.getLast? = some l) (h0 : pts[0]? = some p0)
    (h1 : pts[1]? = some p1) (h : 0 < orient l p0 p1) :
    chooseNormal (pts.map emb) none = .ok (some ⟨0, 0, 1⟩) := by
  simp only [chooseNormal, List.getLast?_map, List.getElem?_map, hl, h0, h1, Option.map_some, Except.ok.injEq]
  refine normal_z (.inl rfl) ?_
  rw [one_mul]
  have e := orient_cast l p0 p1
  have : (1 : ℝ) ≤ orient l p0 p1 := by exact_mod_cast h
  rw [e] at this
  linarith

/-- A polygon with whole-number coordinates which cannot be triangulated. -/
theorem polygonNew_emb_error {pts : List (ℤ × ℤ)} {l p0 p1 : ℤ × ℤ} {e : PyErr} (hs : ∀ p ∈ pts, Small p)
    (hn : 3 ≤ pts.length) (hl : pts.getLast? = some l) (h0 : pts[0]? = some p0) (h1 : pts[1]? = some p1)
    (h : 0 < orient l p0 p1) (ht : gTriangulate (2 * pts.length + 2) pts = some (.error e)) :
    polygonNew (pts.map emb) none none = .error e := by
  have ht' := triangulate_emb (fuel := 2 * pts.length + 2) hs
  rw [ht] at ht'
  simp only [polygonNew, coplanar_emb, chooseNormal_emb hl h0 h1 h, chooseTriangles, List.length_map, ht',
    if_neg (not_not.2 hn), Bool.true_eq_false, if_false]
  rfl

/-- A polygon with whole-number coordinates which can be triangulated. -/
theorem polygonNew_emb_ok {pts pts' : List (ℤ × ℤ)} {l p0 p1 : ℤ × ℤ} {tri : List Tri} (hs : ∀ p ∈ pts, Small p)
    (hn : 3 ≤ pts.length) (hl : pts.getLast? = some l) (h0 : pts[0]? = some p0) (h1 : pts[1]? = some p1)
    (h : 0 < orient l p0 p1) (ht : gTriangulate (2 * pts.length + 2) pts = some (.ok (pts', tri))) :
    ∃ P, polygonNew (pts.map emb) none none = .ok P ∧ P.pts = pts'.map emb ∧ P.vn = some ⟨0, 0, 1⟩ ∧ P.tri = tri := by
  have ht' := triangulate_emb (fuel := 2 * pts.length + 2) hs
  rw [ht] at ht'
  refine polygonNew_intro (coplanar_emb pts) (by simpa using hn) (chooseNormal_emb hl h0 h1 h) ?_
  rw [List.length_map]
  exact ht'

end B3d.Grid
