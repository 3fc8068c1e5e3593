import Verif.Proofs.EarTiling
import Mathlib.Topology.Order.Basic
import Mathlib.Topology.Instances.Real.Lemmas
import Mathlib.Order.Interval.Set.Infinite

/-! # Crossing the diagonal of an ear; the ears of a simple outline do not overlap -/

set_option linter.unusedSectionVars false

namespace B3d.Tiling

open Spec Triangles Filter Topology

/-! ### Triangles and winding numbers, edges included -/

/-- The height of `v` above the line through `x` in the direction `u`. -/
def ht (n u x v : V) : ℝ := Vec3.dot (Vec3.cross n u) (v - x)

theorem lone_high_le {ha hb hc sab sbc sca : ℝ} (hA : 0 < sab + sbc + sca)
    (hz : sbc * ha + sca * hb + sab * hc = 0) (a : ha ≤ 0) (b : hb ≤ 0) (c : 0 < hc) (h : sca < 0) : 0 < sbc := by
  by_contra h'
  have h1 : 0 < sab * hc := mul_pos (by linarith) c
  nlinarith

theorem lone_low_le {ha hb hc sab sbc sca : ℝ} (hA : 0 < sab + sbc + sca)
    (hz : sbc * ha + sca * hb + sab * hc = 0) (a : 0 < ha) (b : 0 < hb) (c : hc ≤ 0) (h : sbc < 0) : 0 < sca := by
  by_contra h'
  have h1 : sab * hc ≤ 0 := mul_nonpos_of_nonneg_of_nonpos (by linarith) c
  nlinarith

theorem up_down_nonneg {s1 s2 : ℝ} (h : s2 < 0 → 0 < s1) :
    0 ≤ ((if 0 < s1 then 1 else 0 : ℤ) + if s2 < 0 then -1 else 0) := by
  by_cases h1 : s2 < 0
  · simp [h1, h h1]
  · simp only [h1, if_false, add_zero]
    split <;> simp

/-- A triangle never runs backwards around a point. -/
theorem cr_triangle_nonneg {ha hb hc sab sbc sca : ℝ} (hA : 0 < sab + sbc + sca)
    (hz : sbc * ha + sca * hb + sab * hc = 0) : 0 ≤ cr ha hb sab + cr hb hc sbc + cr hc ha sca := by
  have hA2 : 0 < sbc + sca + sab := by linarith
  have hA3 : 0 < sca + sab + sbc := by linarith
  have hz2 : sca * hb + sab * hc + sbc * ha = 0 := by linarith
  have hz3 : sab * hc + sbc * ha + sca * hb = 0 := by linarith
  rcases le_or_gt ha 0 with a | a <;> rcases le_or_gt hb 0 with b | b <;> rcases le_or_gt hc 0 with c | c
  · rw [cr_low a b, cr_low b c, cr_low c a]; rfl
  · rw [cr_low a b, cr_up b c, cr_down c a, zero_add]
    exact up_down_nonneg (lone_high_le hA hz a b c)
  · rw [cr_up a b, cr_down b c, cr_low c a, add_zero]
    exact up_down_nonneg (lone_high_le hA3 hz3 c a b)
  · rw [cr_up a b, cr_high b c, cr_down c a, add_zero]
    exact up_down_nonneg (lone_low_le hA2 hz2 b c a)
  · rw [cr_down a b, cr_low b c, cr_up c a, add_zero, add_comm]
    exact up_down_nonneg (lone_high_le hA2 hz2 b c a)
  · rw [cr_down a b, cr_up b c, cr_high c a, add_zero, add_comm]
    exact up_down_nonneg (lone_low_le hA3 hz3 c a b)
  · rw [cr_high a b, cr_down b c, cr_up c a, zero_add, add_comm]
    exact up_down_nonneg (lone_low_le hA hz a b c)
  · rw [cr_high a b, cr_high b c, cr_high c a]; rfl

/-- The sum over the edges of a triangle. -/
def around (g : V → V → ℤ) (T : V × V × V) : ℤ := g T.1 T.2.1 + g T.2.1 T.2.2 + g T.2.2 T.1

/-- Twice the signed area. -/
def area (n : V) (T : V × V × V) : ℝ := Vec3.dot n (Vec3.cross (T.2.1 - T.1) (T.2.2 - T.1))

/-- Strictly inside. -/
def Ins (T : V × V × V) (x : V) : Prop := InsideTriangle T.1 T.2.1 T.2.2 x

/-- In the plane. -/
def InPl (n : V) (e : ℝ) (T : V × V × V) : Prop :=
  Vec3.dot n T.1 = e ∧ Vec3.dot n T.2.1 = e ∧ Vec3.dot n T.2.2 = e

theorem around_nonneg {n u x : V} {e : ℝ} {T : V × V × V} (hn : n ≠ 0) (hT : InPl n e T) (hA : 0 < area n T)
    (hx : Vec3.dot n x = e) : 0 ≤ around (crossing n u x) T := by
  obtain ⟨a, b, c⟩ := T
  obtain ⟨ha, hb, hc⟩ := hT
  simp only [around, area] at hA ⊢
  have hs := side_sum n x a b c
  have hz : sideOf n x b c * Vec3.dot (Vec3.cross n u) (a - x) + sideOf n x c a * Vec3.dot (Vec3.cross n u) (b - x)
      + sideOf n x a b * Vec3.dot (Vec3.cross n u) (c - x) = 0 := by
    rw [← Vec3.dot_smul_right, ← Vec3.dot_smul_right, ← Vec3.dot_smul_right, ← Vec3.dot_add_right,
      ← Vec3.dot_add_right, side_comb hn ha hb hc hx, Vec3.dot_zero_right]
  rw [crossing_eq, crossing_eq, crossing_eq]
  exact cr_triangle_nonneg (by rw [hs]; exact hA) hz

/-! ### Along a line -/

theorem height_move (n u x v : V) (s : ℝ) : ht n u (x + s • u) v = ht n u x v := by
  simp only [ht, Vec3.dot, Vec3.cross_x, Vec3.cross_y, Vec3.cross_z, Vec3.sub_x, Vec3.sub_y, Vec3.sub_z,
    Vec3.smul_x, Vec3.smul_y, Vec3.smul_z, Vec3.add_x, Vec3.add_y, Vec3.add_z]
  ring

theorem side_move (n u x v w : V) (s : ℝ) :
    sideOf n (x + s • u) v w = sideOf n x v w - s * (ht n u x w - ht n u x v) := by
  simp only [ht, sideOf, Vec3.dot, Vec3.cross_x, Vec3.cross_y, Vec3.cross_z, Vec3.sub_x, Vec3.sub_y, Vec3.sub_z,
    Vec3.smul_x, Vec3.smul_y, Vec3.smul_z, Vec3.add_x, Vec3.add_y, Vec3.add_z]
  ring

theorem crossing_ht (n u x v w : V) : crossing n u x v w = cr (ht n u x v) (ht n u x w) (sideOf n x v w) := rfl

/-- Where a line meets an edge. -/
theorem meet_comb {n u y v w : V} {e : ℝ} (hn : n ≠ 0) (hu : Vec3.dot n u = 0) (hv : Vec3.dot n v = e)
    (hw : Vec3.dot n w = e) (hy : Vec3.dot n y = e) :
    sideOf n y v w • u - ht n u y w • (v - y) + ht n u y v • (w - y) = 0 := by
  have hyu : Vec3.dot n (y + u) = e := by rw [Vec3.dot_add_right, hy, hu, add_zero]
  have h := side_comb hn hyu hv hw hy
  have e1 : sideOf n y w (y + u) = -ht n u y w := by
    simp only [ht, sideOf, Vec3.dot, Vec3.cross_x, Vec3.cross_y, Vec3.cross_z, Vec3.sub_x, Vec3.sub_y, Vec3.sub_z,
      Vec3.add_x, Vec3.add_y, Vec3.add_z]
    ring
  have e2 : sideOf n y (y + u) v = ht n u y v := by
    simp only [ht, sideOf, Vec3.dot, Vec3.cross_x, Vec3.cross_y, Vec3.cross_z, Vec3.sub_x, Vec3.sub_y, Vec3.sub_z,
      Vec3.add_x, Vec3.add_y, Vec3.add_z]
    ring
  rw [e1, e2, add_sub_cancel_left, neg_smul] at h
  rw [sub_eq_add_neg]
  exact h

/-- If the ends of an edge are on different sides of a line and the line meets the line of the edge in `y`, then `y` is
on the edge. -/
theorem onSegment_of_heights {n u y v w : V} {e : ℝ} (hn : n ≠ 0) (hu : Vec3.dot n u = 0) (hv : Vec3.dot n v = e)
    (hw : Vec3.dot n w = e) (hy : Vec3.dot n y = e) (h0 : sideOf n y v w = 0) (hvw : ht n u y v * ht n u y w < 0) :
    OnSegment v w y := by
  have h := meet_comb hn hu hv hw hy
  rw [h0, zero_smul, zero_sub] at h
  generalize ht n u y v = a at *
  generalize ht n u y w = b at *
  have hab : a - b ≠ 0 := by
    intro h'
    have : a = b := by linarith
    rw [this] at hvw
    nlinarith [mul_self_nonneg b]
  have hx : (a - b) * y.x = a * w.x - b * v.x := by
    have := congrArg Vec3.x h; simp at this; linarith
  have hy' : (a - b) * y.y = a * w.y - b * v.y := by
    have := congrArg Vec3.y h; simp at this; linarith
  have hz : (a - b) * y.z = a * w.z - b * v.z := by
    have := congrArg Vec3.z h; simp at this; linarith
  refine ⟨a / (a - b), ?_, ?_, ?_⟩
  · rcases lt_or_ge a 0 with h1 | h1
    · have : 0 < b := by nlinarith
      exact div_nonneg_of_nonpos h1.le (by linarith)
    · have : b ≤ 0 := by nlinarith
      exact div_nonneg h1 (by linarith)
  · rcases lt_or_ge a 0 with h1 | h1
    · have : 0 < b := by nlinarith
      rw [div_le_one_of_neg (by linarith)]; linarith
    · have : b < 0 := by nlinarith
      rw [div_le_one (by linarith)]; linarith
  · ext
    · simp; field_simp; linarith
    · simp; field_simp; linarith
    · simp; field_simp; linarith

theorem affine_same_sign {σ k : ℝ} (h : ∀ s : ℝ, 0 ≤ s → s ≤ 1 → σ - s * k ≠ 0) :
    (0 < σ ∧ 0 < σ - k) ∨ (σ < 0 ∧ σ - k < 0) := by
  have h0 := h 0 (le_refl _) zero_le_one
  have h1 := h 1 zero_le_one (le_refl _)
  rw [zero_mul, sub_zero] at h0
  rw [one_mul] at h1
  rcases lt_or_gt_of_ne h0 with a | a <;> rcases lt_or_gt_of_ne h1 with b | b
  · exact .inr ⟨a, b⟩
  · exfalso
    have hk : k < 0 := by linarith
    refine h (σ / k) (div_nonneg_of_nonpos a.le hk.le) ?_ (by rw [div_mul_cancel₀ _ hk.ne, sub_self])
    rw [div_le_one_of_neg hk]; linarith
  · exfalso
    have hk : 0 < k := by linarith
    refine h (σ / k) (div_nonneg a.le hk.le) ?_ (by rw [div_mul_cancel₀ _ hk.ne', sub_self])
    rw [div_le_one hk]; linarith
  · exact .inl ⟨a, b⟩

/-- An edge which does not meet the way from `x` to `x + u` is crossed alike just beyond its end. -/
theorem edge_eventually {n u x v w : V} {e : ℝ} (hn : n ≠ 0) (hu : Vec3.dot n u = 0) (hv : Vec3.dot n v = e)
    (hw : Vec3.dot n w = e) (hx : Vec3.dot n x = e) (h1 : ht n u x v ≠ 0) (h2 : ht n u x w ≠ 0)
    (hmiss : ∀ s : ℝ, 0 ≤ s → s ≤ 1 → ¬ OnSegment v w (x + s • u)) :
    ∀ᶠ s : ℝ in 𝓝[>] 1, crossing n u (x + s • u) v w = crossing n u x v w := by
  have hcr : ∀ s : ℝ, crossing n u (x + s • u) v w =
      cr (ht n u x v) (ht n u x w) (sideOf n x v w - s * (ht n u x w - ht n u x v)) := by
    intro s; rw [crossing_ht, height_move, height_move, side_move]
  have hpl : ∀ s : ℝ, Vec3.dot n (x + s • u) = e := by
    intro s; rw [Vec3.dot_add_right, Vec3.dot_smul_right, hx, hu]; ring
  have sgn : ht n u x v * ht n u x w < 0 → (0 < sideOf n x v w ∧ 0 < sideOf n x v w - (ht n u x w - ht n u x v)) ∨
      (sideOf n x v w < 0 ∧ sideOf n x v w - (ht n u x w - ht n u x v) < 0) := by
    intro hneg
    refine affine_same_sign fun s s0 s1 h0 => hmiss s s0 s1 ?_
    refine onSegment_of_heights hn hu hv hw (hpl s) ?_ ?_
    · rw [side_move]; exact h0
    · rw [height_move, height_move]; exact hneg
  have near : ht n u x v * ht n u x w < 0 → ∀ᶠ s : ℝ in 𝓝[>] 1,
      (0 < sideOf n x v w ∧ 0 < sideOf n x v w - s * (ht n u x w - ht n u x v)) ∨
      (sideOf n x v w < 0 ∧ sideOf n x v w - s * (ht n u x w - ht n u x v) < 0) := by
    intro hneg
    have hc : Continuous fun s : ℝ => sideOf n x v w - s * (ht n u x w - ht n u x v) := by fun_prop
    refine Filter.Eventually.filter_mono nhdsWithin_le_nhds ?_
    rcases sgn hneg with ⟨a, b⟩ | ⟨a, b⟩
    · have := (hc.tendsto 1).eventually (lt_mem_nhds (show 0 < sideOf n x v w - 1 * (ht n u x w - ht n u x v) by
        linarith))
      filter_upwards [this] with s hs
      exact .inl ⟨a, hs⟩
    · have := (hc.tendsto 1).eventually (gt_mem_nhds (show sideOf n x v w - 1 * (ht n u x w - ht n u x v) < 0 by
        linarith))
      filter_upwards [this] with s hs
      exact .inr ⟨a, hs⟩
  rcases lt_or_gt_of_ne h1 with a | a <;> rcases lt_or_gt_of_ne h2 with b | b
  · filter_upwards with s
    rw [hcr, crossing_ht, cr_low a.le b.le, cr_low a.le b.le]
  · filter_upwards [near (mul_neg_of_neg_of_pos a b)] with s hs
    rw [hcr, crossing_ht, cr_up a.le b, cr_up a.le b]
    rcases hs with ⟨c, d⟩ | ⟨c, d⟩
    · rw [if_pos c, if_pos d]
    · rw [if_neg (not_lt.2 c.le), if_neg (not_lt.2 d.le)]
  · filter_upwards [near (mul_neg_of_pos_of_neg a b)] with s hs
    rw [hcr, crossing_ht, cr_down a b.le, cr_down a b.le]
    rcases hs with ⟨c, d⟩ | ⟨c, d⟩
    · rw [if_neg (not_lt.2 c.le), if_neg (not_lt.2 d.le)]
    · rw [if_pos c, if_pos d]
  · filter_upwards with s
    rw [hcr, crossing_ht, cr_high a b, cr_high a b]

/-- Almost all points of a line which meets no corner are on no line of an edge. -/
theorem off_eventually {n u x v w : V} {e : ℝ} (hn : n ≠ 0) (hu : Vec3.dot n u = 0) (hv : Vec3.dot n v = e)
    (hw : Vec3.dot n w = e) (hx : Vec3.dot n x = e) (h1 : ht n u x v ≠ 0) (hvw : v ≠ w) :
    ∀ᶠ s : ℝ in 𝓝[>] 1, sideOf n (x + s • u) v w ≠ 0 := by
  by_cases hk : ht n u x w - ht n u x v = 0
  · filter_upwards with s
    rw [side_move, hk, mul_zero, sub_zero]
    intro h0
    have h := meet_comb hn hu hv hw hx
    rw [h0, zero_smul, zero_sub, show ht n u x w = ht n u x v by linarith] at h
    have h' : ht n u x v • (w - v) = 0 := by
      rw [← h]
      ext <;> simp <;> ring
    exact hvw (sub_eq_zero.1 ((smul_eq_zero.1 h').resolve_left h1)).symm
  · have : ∀ᶠ s : ℝ in 𝓝[>] 1, s ≠ sideOf n x v w / (ht n u x w - ht n u x v) := by
      rcases le_or_gt (sideOf n x v w / (ht n u x w - ht n u x v)) 1 with h | h
      · filter_upwards [self_mem_nhdsWithin] with s hs
        exact (lt_of_le_of_lt h hs).ne'
      · refine Filter.Eventually.filter_mono nhdsWithin_le_nhds ?_
        filter_upwards [gt_mem_nhds h] with s hs
        exact (ne_of_lt hs)
    filter_upwards [this] with s hs
    rw [side_move]
    intro h0
    apply hs
    field_simp
    linarith

/-- Along the way across the diagonal from `p` to `q`. -/
theorem diagonal {n x p q : V} {t s : ℝ} (t0 : 0 < t) (t1 : t < 1) (hx : sideOf n x p q < 0) (hs : 1 < s) :
    crossing n (p + t • (q - p) - x) (x + s • (p + t • (q - p) - x)) p q =
      crossing n (p + t • (q - p) - x) x p q + 1 := by
  have e1 : ht n (p + t • (q - p) - x) x p = -t * sideOf n x p q := by
    simp only [ht, sideOf, Vec3.dot, Vec3.cross_x, Vec3.cross_y, Vec3.cross_z, Vec3.sub_x, Vec3.sub_y, Vec3.sub_z,
      Vec3.smul_x, Vec3.smul_y, Vec3.smul_z, Vec3.add_x, Vec3.add_y, Vec3.add_z]
    ring
  have e2 : ht n (p + t • (q - p) - x) x q = (1 - t) * sideOf n x p q := by
    simp only [ht, sideOf, Vec3.dot, Vec3.cross_x, Vec3.cross_y, Vec3.cross_z, Vec3.sub_x, Vec3.sub_y, Vec3.sub_z,
      Vec3.smul_x, Vec3.smul_y, Vec3.smul_z, Vec3.add_x, Vec3.add_y, Vec3.add_z]
    ring
  rw [crossing_ht, crossing_ht, height_move, height_move, side_move, e1, e2]
  have a : 0 < -t * sideOf n x p q := by nlinarith
  have b : (1 - t) * sideOf n x p q ≤ 0 := by nlinarith
  rw [cr_down a b, cr_down a b, if_pos hx, if_neg]
  · rfl
  · rw [not_lt]; nlinarith

/-- For a corner off the triangle there is at most one point of the diagonal in line with it. -/
theorem bad_finite {n x p q v : V} {e : ℝ} (hn : n ≠ 0) (hp : Vec3.dot n p = e) (hq : Vec3.dot n q = e)
    (hv : Vec3.dot n v = e) (hx : Vec3.dot n x = e) (hside : sideOf n x p q ≠ 0) (hne : v ≠ x) :
    {t : ℝ | ht n (p + t • (q - p) - x) x v = 0}.Finite := by
  have aff : ∀ t : ℝ, ht n (p + t • (q - p) - x) x v = ht n (p - x) x v + t * (ht n (q - x) x v - ht n (p - x) x v) := by
    intro t
    simp only [ht, Vec3.dot, Vec3.cross_x, Vec3.cross_y, Vec3.cross_z, Vec3.sub_x, Vec3.sub_y, Vec3.sub_z,
      Vec3.smul_x, Vec3.smul_y, Vec3.smul_z, Vec3.add_x, Vec3.add_y, Vec3.add_z]
    ring
  by_cases hk : ht n (q - x) x v - ht n (p - x) x v = 0
  · have h0 : ht n (p - x) x v ≠ 0 := by
      intro h0
      have hc := side_comb hn hp hq hv hx
      have e1 : sideOf n x q v = ht n (q - x) x v := by
        simp only [ht, sideOf, Vec3.dot, Vec3.cross_x, Vec3.cross_y, Vec3.cross_z, Vec3.sub_x, Vec3.sub_y, Vec3.sub_z]
        ring
      have e2 : sideOf n x v p = -ht n (p - x) x v := by
        simp only [ht, sideOf, Vec3.dot, Vec3.cross_x, Vec3.cross_y, Vec3.cross_z, Vec3.sub_x, Vec3.sub_y, Vec3.sub_z]
        ring
      rw [e1, e2, show ht n (q - x) x v = 0 by linarith, h0, neg_zero, zero_smul, zero_smul, zero_add, zero_add] at hc
      exact hne (sub_eq_zero.1 ((smul_eq_zero.1 hc).resolve_left hside))
    convert Set.finite_empty
    ext t
    simp only [Set.mem_ofPred_eq, Set.mem_empty_iff_false, iff_false]
    rw [aff, hk, mul_zero, add_zero]
    exact h0
  · refine (Set.finite_singleton (-ht n (p - x) x v / (ht n (q - x) x v - ht n (p - x) x v))).subset ?_
    intro t h
    rw [Set.mem_ofPred_eq, aff] at h
    rw [Set.mem_singleton_iff, eq_div_iff hk]
    linarith

theorem exists_clear {n x p q : V} {e : ℝ} (hn : n ≠ 0) (hp : Vec3.dot n p = e) (hq : Vec3.dot n q = e)
    (hx : Vec3.dot n x = e) (hside : sideOf n x p q ≠ 0) (C : List V) (hC : ∀ v ∈ C, Vec3.dot n v = e ∧ v ≠ x) :
    ∃ t : ℝ, 0 < t ∧ t < 1 ∧ ∀ v ∈ C, ht n (p + t • (q - p) - x) x v ≠ 0 := by
  have hfin : (⋃ v ∈ {v | v ∈ C}, {t : ℝ | ht n (p + t • (q - p) - x) x v = 0}).Finite :=
    Set.Finite.biUnion (List.finite_toSet C) fun v hv => bad_finite hn hp hq (hC v hv).1 hx hside (hC v hv).2
  obtain ⟨t, ⟨t0, t1⟩, ht⟩ := ((Set.Ioo_infinite (zero_lt_one (α := ℝ))).sdiff hfin).nonempty
  refine ⟨t, t0, t1, fun v hv h => ht ?_⟩
  exact Set.mem_biUnion (show v ∈ {v | v ∈ C} from hv) h

theorem list_eventually {α β : Type} {l : Filter α} (L : List β) {P : β → α → Prop} (h : ∀ b ∈ L, ∀ᶠ a in l, P b a) :
    ∀ᶠ a in l, ∀ b ∈ L, P b a := by
  induction L with
  | nil => simp
  | cons b L ih =>
    filter_upwards [h b (by simp), ih fun b hb => h b (by simp [hb])] with a h1 h2 b hb
    rcases List.mem_cons.1 hb with rfl | hb
    · exact h1
    · exact h2 b hb

/-- The sum of the crossings of edges. -/
noncomputable def crossings (n u x : V) (E : List (V × V)) : ℤ := (E.map fun e => crossing n u x e.1 e.2).sum

/-- On no line of an edge of the triangle. -/
def Off (n : V) (T : V × V × V) (y : V) : Prop :=
  sideOf n y T.1 T.2.1 ≠ 0 ∧ sideOf n y T.2.1 T.2.2 ≠ 0 ∧ sideOf n y T.2.2 T.1 ≠ 0

theorem area_ne {n : V} {T : V × V × V} (h : 0 < area n T) : T.1 ≠ T.2.1 ∧ T.2.1 ≠ T.2.2 ∧ T.2.2 ≠ T.1 := by
  obtain ⟨a, b, c⟩ := T
  simp only [area] at h ⊢
  refine ⟨?_, ?_, ?_⟩ <;> rintro rfl <;> simp at h

/-- From a point inside the ear across the diagonal: just behind it, the rest of the outline runs around once more. -/
theorem across {n p c q x : V} {e : ℝ} {X : List V} {ts : List (V × V × V)} (hn : n ≠ 0)
    (hpl : ∀ x ∈ p :: c :: q :: X, Vec3.dot n x = e) (hD : 0 < Vec3.dot n (Vec3.cross (c - p) (q - p)))
    (hS : Simp (p :: c :: q :: X)) (hX : X ≠ []) (hE : ∀ x ∈ X, ¬ InTriangle p c q x) (hx : InsideTriangle p c q x)
    (hts : ∀ T ∈ ts, 0 < area n T ∧ T.1 ∈ p :: q :: X ∧ T.2.1 ∈ p :: q :: X ∧ T.2.2 ∈ p :: q :: X) :
    Vec3.dot n x = e ∧ ∃ u y : V, u ≠ 0 ∧ Vec3.dot n u = 0 ∧ Vec3.dot n y = e ∧ (∀ T ∈ ts, Off n T y) ∧
      crossings n u y (cycEdges (p :: q :: X)) = crossings n u x (cycEdges (p :: q :: X)) + 1 := by
  have hp := hpl p (by simp)
  have hc := hpl c (by simp)
  have hq := hpl q (by simp)
  have hxe : Vec3.dot n x = e := by
    obtain ⟨r, s, t, -, -, -, h1, rfl⟩ := hx
    rw [Vec3.dot_add_right, Vec3.dot_add_right, Vec3.dot_smul_right, Vec3.dot_smul_right, Vec3.dot_smul_right, hp, hc, hq]
    linear_combination e * h1
  refine ⟨hxe, ?_⟩
  obtain ⟨x2, x1, x3⟩ := (insideTriangle_iff hn hp hc hq hxe hD).1 hx
  have hside : sideOf n x p q < 0 := by rw [side_swap n x q p] ; linarith
  have hC : ∀ v ∈ p :: q :: X, Vec3.dot n v = e ∧ v ≠ x := by
    intro v hv
    refine ⟨hpl v (by simp only [List.mem_cons] at hv ⊢; tauto), ?_⟩
    rintro rfl
    simp only [List.mem_cons] at hv
    rcases hv with rfl | rfl | hv
    · rw [side_end] at x2; exact lt_irrefl _ x2
    · rw [side_end'] at x1; exact lt_irrefl _ x1
    · exact hE v hv ((inTriangle_iff hn hp hc hq hxe hD).2 ⟨x2.le, x1.le, x3.le⟩)
  obtain ⟨t, t0, t1, hclear⟩ := exists_clear hn hp hq hxe hside.ne (p :: q :: X) hC
  have hu : Vec3.dot n (p + t • (q - p) - x) = 0 := by
    rw [Vec3.dot_sub_right, dot_seg hp hq, hxe, sub_self]
  have hpq := hclear p (by simp)
  -- the way to the diagonal does not meet the rest
  have hmiss : ∀ f ∈ rest p q X, ∀ s : ℝ, 0 ≤ s → s ≤ 1 →
      ¬ OnSegment f.1 f.2 (x + s • (p + t • (q - p) - x)) := by
    intro f hf s s0 s1 hon
    have e1 : sideOf n p c q = Vec3.dot n (Vec3.cross (c - p) (q - p)) := by rw [← area_rot]; rfl
    have e2 : sideOf n q p c = Vec3.dot n (Vec3.cross (c - p) (q - p)) := rfl
    have z1 : 0 < sideOf n (p + t • (q - p)) c q := by
      rw [side_seg, side_end', e1, mul_zero, add_zero]; exact mul_pos (by linarith) hD
    have z2 : 0 < sideOf n (p + t • (q - p)) p c := by
      rw [side_seg, side_end, e2, mul_zero, zero_add]; exact mul_pos t0 hD
    have z3 : sideOf n (p + t • (q - p)) q p = 0 := by
      rw [side_seg, side_end, side_end']; simp
    refine rest_misses hn hpl hD hS hX hE hf hon ?_ ?_ ?_
    · rw [side_seg]
      rcases eq_or_lt_of_le s0 with rfl | s0
      · simpa using x1
      · exact add_pos_of_nonneg_of_pos (mul_nonneg (by linarith) x1.le) (mul_pos s0 z1)
    · rw [side_seg]
      rcases eq_or_lt_of_le s0 with rfl | s0
      · simpa using x2
      · exact add_pos_of_nonneg_of_pos (mul_nonneg (by linarith) x2.le) (mul_pos s0 z2)
    · rw [side_seg, z3, mul_zero, add_zero]
      exact mul_nonneg (by linarith) x3.le
  have ev1 := list_eventually (l := 𝓝[>] (1 : ℝ)) (rest p q X) (P := fun f s =>
      crossing n (p + t • (q - p) - x) (x + s • (p + t • (q - p) - x)) f.1 f.2 =
        crossing n (p + t • (q - p) - x) x f.1 f.2) (by
    intro f hf
    obtain ⟨m1, m2⟩ := mem_rest hf
    have m1' : f.1 ∈ p :: q :: X := by simpa using m1
    have m2' : f.2 ∈ p :: q :: X := by simpa using m2
    exact edge_eventually hn hu (hC _ m1').1 (hC _ m2').1 hxe (hclear _ m1') (hclear _ m2') (hmiss f hf))
  have ev2 := list_eventually (l := 𝓝[>] (1 : ℝ)) ts (P := fun T s => Off n T (x + s • (p + t • (q - p) - x))) (by
    intro T hT
    obtain ⟨hA, i1, i2, i3⟩ := hts T hT
    obtain ⟨d1, d2, d3⟩ := area_ne hA
    filter_upwards [off_eventually hn hu (hC _ i1).1 (hC _ i2).1 hxe (hclear _ i1) d1,
      off_eventually hn hu (hC _ i2).1 (hC _ i3).1 hxe (hclear _ i2) d2,
      off_eventually hn hu (hC _ i3).1 (hC _ i1).1 hxe (hclear _ i3) d3] with s a b c
    exact ⟨a, b, c⟩)
  obtain ⟨s, ⟨hs1, hs2⟩, hs⟩ := ((ev1.and ev2).and self_mem_nhdsWithin).exists
  refine ⟨p + t • (q - p) - x, x + s • (p + t • (q - p) - x), ?_, hu, ?_, hs2, ?_⟩
  · intro h0
    rw [h0] at hpq
    simp [ht] at hpq
  · rw [Vec3.dot_add_right, Vec3.dot_smul_right, hu, hxe, mul_zero, add_zero]
  · rw [cycEdges_cut]
    simp only [crossings, List.map_cons, List.sum_cons]
    rw [diagonal t0 t1 hside hs, List.map_congr_left (g := fun e => crossing n (p + t • (q - p) - x) x e.1 e.2)
      fun f hf => hs1 f hf]
    ring

/-! ### All ears -/

/-- The triangles cut off an outline one after the other: each turns counter-clockwise around `n` and contains no other
corner of what is left of the outline. -/
inductive Ears (n : V) : List V → List (V × V × V) → Prop
  | done {L} : L.length ≤ 2 → Ears n L []
  | cut {L L' p c q X ts} : L.IsRotated (p :: c :: q :: X) → L'.IsRotated (p :: q :: X) →
      0 < Vec3.dot n (Vec3.cross (c - p) (q - p)) → (∀ x ∈ X, ¬ InTriangle p c q x) → Ears n L' ts →
      Ears n L ((p, c, q) :: ts)

theorem Ears.corners {n : V} {L : List V} {ts : List (V × V × V)} (h : Ears n L ts) :
    ∀ T ∈ ts, 0 < area n T ∧ T.1 ∈ L ∧ T.2.1 ∈ L ∧ T.2.2 ∈ L := by
  induction h with
  | done _ => intro T hT; cases hT
  | @cut L L' p c q X ts h1 h2 h3 h4 _ ih =>
    intro T hT
    rcases List.mem_cons.1 hT with rfl | hT
    · refine ⟨h3, ?_, ?_, ?_⟩ <;> rw [h1.perm.mem_iff] <;> simp
    · obtain ⟨k1, k2, k3, k4⟩ := ih T hT
      have sub : ∀ v ∈ L', v ∈ L := by
        intro v hv
        rw [h2.perm.mem_iff] at hv
        rw [h1.perm.mem_iff]
        simp only [List.mem_cons] at hv ⊢
        tauto
      exact ⟨k1, sub _ k2, sub _ k3, sub _ k4⟩

theorem Ears.sum {n : V} {L : List V} {ts : List (V × V × V)} (h : Ears n L ts) (g : V → V → ℤ)
    (hg : ∀ a b, g a b = -g b a) : ((cycEdges L).map fun e => g e.1 e.2).sum = (ts.map (around g)).sum := by
  induction h with
  | @done L hL =>
    match L, hL with
    | [], _ => rfl
    | [a], _ =>
      have := hg a a
      simp only [cycEdges, List.nil_append, List.zip_cons_cons, List.zip_nil_right, List.map_cons, List.map_nil,
        List.sum_cons, List.sum_nil]
      omega
    | [a, b], _ =>
      have := hg a b
      simp only [cycEdges, List.cons_append, List.nil_append, List.zip_cons_cons, List.zip_nil_right, List.map_cons,
        List.map_nil, List.sum_cons, List.sum_nil]
      omega
  | @cut L L' p c q X ts h1 h2 h3 h4 _ ih =>
    rw [((cycEdges_rotated h1).map _).sum_eq, cycEdges_ear]
    rw [((cycEdges_rotated h2).map _).sum_eq, cycEdges_cut] at ih
    simp only [List.map_cons, List.sum_cons, around] at ih ⊢
    rw [hg q p]
    omega

/-- The ears of a simple outline do not overlap. -/
theorem Ears.disjoint {n : V} {L : List V} {ts : List (V × V × V)} {e : ℝ} (h : Ears n L ts) (hn : n ≠ 0)
    (hpl : ∀ x ∈ L, Vec3.dot n x = e) (hS : Simp L) :
    ts.Pairwise fun T T' => ∀ x, Ins T x → Ins T' x → False := by
  induction h with
  | done _ => exact List.Pairwise.nil
  | @cut L L' p c q X ts h1 h2 h3 h4 hts ih =>
    have hS' := hS.rotated h1
    have hpl' : ∀ x ∈ p :: c :: q :: X, Vec3.dot n x = e := fun x hx => hpl x (h1.perm.mem_iff.2 hx)
    by_cases hX : X = []
    · subst hX
      cases hts with
      | done _ => exact List.pairwise_singleton _ _
      | @cut _ _ p' c' q' X' _ k1 _ _ _ _ =>
        have := (k1.symm.trans h2).perm.length_eq
        simp at this
    have hcut := cut_simple hn hpl' h3 hS' hX h4
    have hplc : ∀ x ∈ p :: q :: X, Vec3.dot n x = e := fun x hx => hpl' x (by simp only [List.mem_cons] at hx ⊢; tauto)
    have hdis := ih (fun x hx => hplc x (h2.perm.mem_iff.1 hx)) (hcut.rotated h2.symm)
    refine List.pairwise_cons.2 ⟨?_, hdis⟩
    intro T hT x hx hTx
    have hcor := hts.corners
    have hcor' : ∀ T ∈ ts, 0 < area n T ∧ T.1 ∈ p :: q :: X ∧ T.2.1 ∈ p :: q :: X ∧ T.2.2 ∈ p :: q :: X := by
      intro T hT
      obtain ⟨k1, k2, k3, k4⟩ := hcor T hT
      exact ⟨k1, h2.perm.mem_iff.1 k2, h2.perm.mem_iff.1 k3, h2.perm.mem_iff.1 k4⟩
    have hTpl : ∀ T ∈ ts, InPl n e T := fun T hT =>
      ⟨hplc _ (hcor' T hT).2.1, hplc _ (hcor' T hT).2.2.1, hplc _ (hcor' T hT).2.2.2⟩
    obtain ⟨hxe, u, y, hu0, hu, hy, hoff, hw⟩ := across hn hpl' h3 hS' hX h4 hx hcor'
    have sum : ∀ z, crossings n u z (cycEdges (p :: q :: X)) = (ts.map (around (crossing n u z))).sum := by
      intro z
      rw [← hts.sum _ (crossing_antisymm n u z)]
      exact (((cycEdges_rotated h2).map _).sum_eq).symm
    rw [sum, sum] at hw
    have hx1 : 1 ≤ (ts.map (around (crossing n u x))).sum := by
      have hT1 : around (crossing n u x) T = 1 :=
        (crossing_triangle hn hu0 hu (hTpl T hT).1 (hTpl T hT).2.1 (hTpl T hT).2.2 hxe (hcor T hT).1).2 hTx
      rw [← hT1]
      exact List.single_le_sum (fun k hk => by
        obtain ⟨T', hT', rfl⟩ := List.mem_map.1 hk
        exact around_nonneg hn (hTpl T' hT') (hcor T' hT').1 hxe) _ (List.mem_map.2 ⟨T, hT, rfl⟩)
    have hval : ∀ T ∈ ts, (Ins T y → around (crossing n u y) T = 1) ∧ (¬ Ins T y → around (crossing n u y) T = 0) := by
      intro T hT
      have ct := crossing_triangle hn hu0 hu (hTpl T hT).1 (hTpl T hT).2.1 (hTpl T hT).2.2 hy (hcor T hT).1
      refine ⟨ct.2, fun hni => ct.1 fun hin => hni ?_⟩
      rw [inTriangle_iff hn (hTpl T hT).1 (hTpl T hT).2.1 (hTpl T hT).2.2 hy (hcor T hT).1] at hin
      obtain ⟨o1, o2, o3⟩ := hoff T hT
      exact (insideTriangle_iff hn (hTpl T hT).1 (hTpl T hT).2.1 (hTpl T hT).2.2 hy (hcor T hT).1).2
        ⟨lt_of_le_of_ne hin.1 o1.symm, lt_of_le_of_ne hin.2.1 o2.symm, lt_of_le_of_ne hin.2.2 o3.symm⟩
    have hy1 : (ts.map (around (crossing n u y))).sum ≤ 1 := by
      clear hw hx1 sum hoff hTpl hcor' hcor hts hT h2 ih
      induction ts with
      | nil => simp
      | cons T0 ts ih' =>
        rw [List.map_cons, List.sum_cons]
        obtain ⟨d1, d2⟩ := List.pairwise_cons.1 hdis
        by_cases h0 : Ins T0 y
        · have : (ts.map (around (crossing n u y))).sum = 0 := by
            apply List.sum_eq_zero
            intro k hk
            obtain ⟨T', hT', rfl⟩ := List.mem_map.1 hk
            exact (hval T' (by simp [hT'])).2 fun h => d1 T' hT' y h0 h
          rw [this, (hval T0 (by simp)).1 h0]; rfl
        · rw [(hval T0 (by simp)).2 h0, zero_add]
          exact ih' d2 fun T hT => hval T (by simp [hT])
    omega

end B3d.Tiling
