import Verif.Props.RoundedSlanted

/-! # C110: the area with rounding -/

namespace B3d.Rounded

open Spec Planar Triangles

variable (A : Arith)

theorem abs_err {a x e : ℝ} (h : |a - x| ≤ e) : |a| ≤ |x| + e := by
  have := abs_add_le (a - x) x
  rw [sub_add_cancel] at this
  linarith

/-- One component of a cross product. -/
theorem crossComp_err {R a b c d : ℝ} (ha : |a| ≤ R) (hb : |b| ≤ R) (hc : |c| ≤ R) (hd : |d| ≤ R) :
    |A.sub (A.mul a b) (A.mul c d) - (a * b - c * d)| ≤ 5 / 10 ^ 15 * R ^ 2 ∧ |a * b - c * d| ≤ 2 * R ^ 2 := by
  have hR : 0 ≤ R := le_trans (abs_nonneg a) ha
  have p1 : |a * b| ≤ R ^ 2 := by rw [abs_mul, pow_two]; exact mul_le_mul ha hb (abs_nonneg _) hR
  have p2 : |c * d| ≤ R ^ 2 := by rw [abs_mul, pow_two]; exact mul_le_mul hc hd (abs_nonneg _) hR
  have e1 := A.mul_err a b
  have e2 := A.mul_err c d
  have e3 := A.sub_err (A.mul a b) (A.mul c d)
  have t1 := abs_err e1
  have t2 := abs_err e2
  have t3 := abs_sub (A.mul a b) (A.mul c d)
  have t4 := abs_sub (a * b) (c * d)
  refine ⟨?_, by linarith⟩
  have e : A.sub (A.mul a b) (A.mul c d) - (a * b - c * d) = (A.sub (A.mul a b) (A.mul c d) - (A.mul a b - A.mul c d)) +
      ((A.mul a b - a * b) - (A.mul c d - c * d)) := by ring
  rw [e]
  refine (abs_add_le _ _).trans ?_
  have t5 := abs_sub (A.mul a b - a * b) (A.mul c d - c * d)
  have hR2 := sq_nonneg R
  norm_num at e1 e2 e3 t1 t2 p1 p2 ⊢
  linarith

/-- One step of a sum: `t` is the exact and `t'` the rounded sum of `k` terms. -/
theorem sumStep_err {R t t' c c' : ℝ} {k : Nat} (hk : (k : ℝ) ≤ 10 ^ 12) (ht : |t' - t| ≤ 8 / 10 ^ 15 * k ^ 2 * R ^ 2)
    (ht2 : |t| ≤ 2 * k * R ^ 2) (hc : |c' - c| ≤ 5 / 10 ^ 15 * R ^ 2) (hc2 : |c| ≤ 2 * R ^ 2) :
    |A.add t' c' - (t + c)| ≤ 8 / 10 ^ 15 * ((k + 1 : ℕ) : ℝ) ^ 2 * R ^ 2 ∧ |t + c| ≤ 2 * ((k + 1 : ℕ) : ℝ) * R ^ 2 := by
  have hR2 := sq_nonneg R
  have hk0 : (0 : ℝ) ≤ k := Nat.cast_nonneg k
  have t1 := abs_err ht
  have t2 := abs_err hc
  have t3 := abs_add_le t' c'
  have t4 := abs_add_le t c
  have t5 := A.add_err t' c'
  push_cast
  refine ⟨?_, by linarith⟩
  have small : 8 / 10 ^ 15 * (k : ℝ) ^ 2 * R ^ 2 ≤ k * R ^ 2 := by
    apply mul_le_mul_of_nonneg_right _ hR2
    rw [pow_two, ← mul_assoc]
    refine le_trans (mul_le_mul_of_nonneg_right (?_ : 8 / 10 ^ 15 * (k : ℝ) ≤ 1) hk0) (by linarith)
    have hk' : (k : ℝ) ≤ 1000000000000 := hk.trans (by norm_num)
    norm_num
    linarith
  have big : |t' + c'| ≤ 3 * (k + 1) * R ^ 2 := by norm_num at *; linarith
  have e : A.add t' c' - (t + c) = (A.add t' c' - (t' + c')) + ((t' - t) + (c' - c)) := by ring
  rw [e]
  refine (abs_add_le _ _).trans ?_
  have t6 := abs_add_le (t' - t) (c' - c)
  have t7 : |A.add t' c' - (t' + c')| ≤ 1 / 10 ^ 15 * (3 * (k + 1) * R ^ 2) :=
    t5.trans (mul_le_mul_of_nonneg_left big (by positivity))
  have hkR := mul_nonneg hk0 hR2
  have e2 : 8 / 10 ^ 15 * ((k : ℝ) + 1) ^ 2 * R ^ 2 =
      8 / 10 ^ 15 * (k : ℝ) ^ 2 * R ^ 2 + 16 / 10 ^ 15 * (k * R ^ 2) + 8 / 10 ^ 15 * R ^ 2 := by ring
  have e3 : 1 / 10 ^ 15 * (3 * ((k : ℝ) + 1) * R ^ 2) = 3 / 10 ^ 15 * (k * R ^ 2) + 3 / 10 ^ 15 * R ^ 2 := by ring
  rw [e2]
  rw [e3] at t7
  norm_num at t6 t7 hc ht ⊢
  linarith


/-- A sum of cross products. -/
theorem total_err {R : ℝ} {n : Nat} {f g : Vec3 ℝ → Nat → Vec3 ℝ}
    (h : ∀ i < n, ∃ p q, Bounded R p ∧ Bounded R q ∧ ∀ t, f t i = addv A t (cross A p q) ∧ g t i = t + Vec3.cross p q)
    (hn : (n : ℝ) ≤ 10 ^ 12) :
    WithinBy (8 / 10 ^ 15 * (n : ℝ) ^ 2 * R ^ 2) ((List.range n).foldl f 0) ((List.range n).foldl g 0) ∧
      Bounded (2 * n * R ^ 2) ((List.range n).foldl g 0) := by
  induction n with
  | zero => simp [WithinBy, Bounded]
  | succ k ih =>
    have hk' : (k : ℝ) ≤ 10 ^ 12 := le_trans (by exact_mod_cast (by omega : k ≤ k + 1)) hn
    obtain ⟨⟨a1, a2, a3⟩, b1, b2, b3⟩ := ih (fun i hi => h i (by omega)) hk'
    obtain ⟨p, q, ⟨p1, p2, p3⟩, ⟨q1, q2, q3⟩, e⟩ := h k (by omega)
    simp only [List.range_succ, List.foldl_append, List.foldl_cons, List.foldl_nil, (e _).1, (e _).2]
    have c1 := crossComp_err A p2 q3 p3 q2
    have c2 := crossComp_err A p3 q1 p1 q3
    have c3 := crossComp_err A p1 q2 p2 q1
    have s1 := sumStep_err A hk' a1 b1 c1.1 c1.2
    have s2 := sumStep_err A hk' a2 b2 c2.1 c2.2
    have s3 := sumStep_err A hk' a3 b3 c3.1 c3.2
    exact ⟨⟨s1.1, s2.1, s3.1⟩, s1.2, s2.2, s3.2⟩

/-- The loop of the area. -/
theorem areaTotal_err {R : ℝ} {pts : List (Vec3 ℝ)} (h : ∀ p ∈ pts, Bounded R p) (hn : (pts.length : ℝ) ≤ 10 ^ 12) :
    WithinBy (8 / 10 ^ 15 * (pts.length : ℝ) ^ 2 * R ^ 2) (areaTotal A pts) (Polygon.areaTotal pts) ∧
      Bounded (2 * pts.length * R ^ 2) (Polygon.areaTotal pts) := by
  refine total_err A (fun k hk => ?_) hn
  obtain ⟨p, hp⟩ : ∃ p, pts[k]? = some p := ⟨_, List.getElem?_eq_getElem (by omega)⟩
  obtain ⟨q, hq⟩ : ∃ q, (if k = pts.length - 1 then pts[0]? else pts[k + 1]?) = some q := by
    split
    · exact ⟨_, List.getElem?_eq_getElem (by omega)⟩
    · exact ⟨_, List.getElem?_eq_getElem (by omega)⟩
  have mq : Bounded R q := by
    split at hq <;> exact h q (List.mem_of_getElem? hq)
  refine ⟨p, q, h p (List.mem_of_getElem? hp), mq, fun t => ?_⟩
  simp only [hp, hq, and_self]

/-- One product of the scalar product: the rounded `t'`, `v'` instead of the exact `t`, `v`. -/
theorem prod_err {e B d t t' v v' : ℝ} (ht : |t' - t| ≤ e) (hB : |t| ≤ B) (hv : |v' - v| ≤ d) (hv1 : |v| ≤ 1) (hd : d ≤ 1) :
    |t' * v' - t * v| ≤ 2 * e + d * B ∧ |t' * v'| ≤ 2 * (B + e) := by
  have v2 := abs_err hv
  have t2 := abs_err ht
  have he : 0 ≤ e := le_trans (abs_nonneg _) ht
  have hB0 : 0 ≤ B := le_trans (abs_nonneg _) hB
  constructor
  · rw [show t' * v' - t * v = (t' - t) * v' + (v' - v) * t by ring]
    refine (abs_add_le _ _).trans ?_
    rw [abs_mul, abs_mul]
    have h1 : |t' - t| * |v'| ≤ e * 2 := mul_le_mul ht (by linarith) (abs_nonneg _) he
    have h2 : |v' - v| * |t| ≤ d * B := mul_le_mul hv hB (abs_nonneg _) (le_trans (abs_nonneg _) hv)
    linarith
  · rw [abs_mul, mul_comm]
    exact mul_le_mul (by linarith) (by linarith) (abs_nonneg _) (by norm_num)

/-- **C110, the area of given corners.**  For every rounded arithmetic and every list of `n` points with coordinates up
to `R`, the area computed with a normal vector `v'` within `1e-13` of the unit vector `v` differs from the exact one by at
most `n² R²` times `1e-12`. -/
theorem C110_area {R : ℝ} {pts : List (Vec3 ℝ)} {v v' : Vec3 ℝ} (h : ∀ p ∈ pts, Bounded R p)
    (hn : (pts.length : ℝ) ≤ 10 ^ 12) (hv : Vec3.norm v = 1) (hv' : WithinBy (1 / 10 ^ 13) v' v) :
    |polygonArea A pts v' - Polygon.polygonArea pts v| ≤ 1 / 10 ^ 12 * (pts.length : ℝ) ^ 2 * R ^ 2 := by
  by_cases h3 : pts.length < 3
  · rw [polygonArea, Polygon.polygonArea, if_pos h3, if_pos h3]
    simp only [sub_zero, abs_zero]
    positivity
  rw [polygonArea, Polygon.polygonArea, if_neg h3, if_neg h3]
  obtain ⟨⟨a1, a2, a3⟩, b1, b2, b3⟩ := areaTotal_err A h hn
  have l1 := Vec3.abs_x_le v
  have l2 := Vec3.abs_y_le v
  have l3 := Vec3.abs_z_le v
  rw [hv] at l1 l2 l3
  obtain ⟨d1, d2, d3⟩ := hv'
  have p1 := prod_err a1 b1 d1 l1 (by norm_num)
  have p2 := prod_err a2 b2 d2 l2 (by norm_num)
  have p3 := prod_err a3 b3 d3 l3 (by norm_num)
  have e1 := A.dot_err (areaTotal A pts) v'
  set t' := areaTotal A pts
  set t := Polygon.areaTotal pts
  have e2 : |Vec3.dot t' v' - Vec3.dot t v| ≤ |t'.x * v'.x - t.x * v.x| + |t'.y * v'.y - t.y * v.y| + |t'.z * v'.z - t.z * v.z| := by
    rw [show Vec3.dot t' v' - Vec3.dot t v = (t'.x * v'.x - t.x * v.x) + (t'.y * v'.y - t.y * v.y) + (t'.z * v'.z - t.z * v.z) by
      simp only [Vec3.dot]; ring]
    exact (abs_add_le _ _).trans (add_le_add_left (abs_add_le _ _) _)
  have e3 := A.div_err (A.dot t' v') 2 (by norm_num)
  have e4 := abs_abs_sub_abs_le (A.div (A.dot t' v') 2) (Vec3.dot t v / 2)
  have e5 : |A.div (A.dot t' v') 2 - Vec3.dot t v / 2| ≤
      |A.div (A.dot t' v') 2 - A.dot t' v' / 2| + (|A.dot t' v' - Vec3.dot t' v'| + |Vec3.dot t' v' - Vec3.dot t v|) / 2 := by
    rw [show A.div (A.dot t' v') 2 - Vec3.dot t v / 2 = (A.div (A.dot t' v') 2 - A.dot t' v' / 2) +
      ((A.dot t' v' - Vec3.dot t' v') + (Vec3.dot t' v' - Vec3.dot t v)) / 2 by ring]
    refine (abs_add_le _ _).trans ?_
    rw [abs_div _ (2 : ℝ), abs_of_pos (by norm_num : (0 : ℝ) < 2)]
    have := abs_add_le (A.dot t' v' - Vec3.dot t' v') (Vec3.dot t' v' - Vec3.dot t v)
    linarith
  have e6 : |A.dot t' v'| ≤ |Vec3.dot t' v'| + |A.dot t' v' - Vec3.dot t' v'| := abs_err le_rfl
  have e7 : |Vec3.dot t' v'| ≤ |t'.x * v'.x| + |t'.y * v'.y| + |t'.z * v'.z| :=
    (abs_add_le _ _).trans (add_le_add_left (abs_add_le _ _) _)
  rw [abs_div, abs_of_pos (by norm_num : (0 : ℝ) < 2)] at e3
  have hn3 : (3 : ℝ) ≤ pts.length := by
    have : 3 ≤ pts.length := by omega
    exact_mod_cast this
  set n : ℝ := (pts.length : ℝ)
  have hR2 := sq_nonneg R
  have m1 : n * R ^ 2 ≤ 1 / 3 * (n ^ 2 * R ^ 2) := by
    nlinarith [mul_nonneg (mul_nonneg (show 0 ≤ n by linarith) hR2) (show 0 ≤ n - 3 by linarith)]
  have hX : 0 ≤ n ^ 2 * R ^ 2 := by positivity
  have r1 : 8 / 10 ^ 15 * n ^ 2 * R ^ 2 = 8 / 10 ^ 15 * (n ^ 2 * R ^ 2) := by ring
  have r2 : 2 * n * R ^ 2 = 2 * (n * R ^ 2) := by ring
  rw [r1, r2] at p1 p2 p3
  rw [mul_assoc (1 / 10 ^ 12)]
  set X := n ^ 2 * R ^ 2
  set Y := n * R ^ 2
  obtain ⟨p1, g1⟩ := p1
  obtain ⟨p2, g2⟩ := p2
  obtain ⟨p3, g3⟩ := p3
  refine e4.trans (e5.trans ?_)
  clear_value X Y
  norm_num at e1 e2 e3 e6 e7 p1 p2 p3 g1 g2 g3 m1 ⊢
  linarith

/-- **C110, polygons.**  If rounding does not change how an outline becomes a polygon (as in C109), then the area of the
rounded polygon differs from the exact one by at most `n² R²` times `1e-12`, for `n` corners with coordinates up to
`R`. -/
theorem C110_polygon_partial {o u w : Vec3 ℝ} {m R : ℝ} {pts : List (ℝ × ℝ)} {P : Polygon.Poly} (hx : Axes u w)
    (hf : AxisPlane u w) (h : Crisp m pts) (hm : m ≤ 10 ^ 6) (hs : StraightOnAxes o u w pts)
    (hr : ∀ p ∈ pts, Reach m (inPlane o u w p)) (hR : ∀ p ∈ pts, Bounded R (inPlane o u w p))
    (hn : (pts.length : ℝ) ≤ 10 ^ 12) (hP : Polygon.polygonNew (pts.map (inPlane o u w)) none none = .ok P) :
    ∃ v a, polygonNew A (pts.map (inPlane o u w)) = .ok (P.pts, v, P.tri) ∧ P.area = some a ∧
      |polygonArea A P.pts v - a| ≤ 1 / 10 ^ 12 * (pts.length : ℝ) ^ 2 * R ^ 2 := by
  have hc := C109_axis_planes_partial A (o := o) hx hf h hm hs hr
  rw [hP] at hc
  obtain ⟨n, v, e1, e2, e3⟩ := hc
  obtain ⟨hlen, n', f1, f2, f3, f4, -⟩ := Polygon.polygonNew_ok hP
  rw [e1] at f1
  obtain rfl := Option.some.inj f1
  have hunit : Vec3.norm n = 1 := by
    unfold Polygon.chooseNormal at f2
    simp only at f2
    split at f2
    · exact Rotation.normal_unit (Except.ok.inj f2)
    · cases f2
  have hp : P.pts = pts.map (inPlane o u w) ∨ P.pts = (pts.map (inPlane o u w)).reverse :=
    (C20_triangulate_valid _ _ _ _ _ _ _ hlen f3).1
  have hl : P.pts.length = pts.length := by rcases hp with hp | hp <;> simp [hp]
  refine ⟨v, _, e2, f4, ?_⟩
  rw [← hl]
  refine C110_area A ?_ (by rw [hl]; exact hn) hunit e3
  intro p hpp
  have : p ∈ pts.map (inPlane o u w) := by rcases hp with hp | hp <;> simpa [hp] using hpp
  obtain ⟨q, hq, rfl⟩ := List.mem_map.1 this
  exact hR q hq

/-- **C110, rectangles.**  A rectangle in a plane parallel to two coordinate axes, of sides `p` and `q` that differ by a
factor of at most 50, becomes a polygon whose area is `p q` up to `16e-12 R²`, for coordinates up to `R`. -/
theorem C110_rectangle {o u w : Vec3 ℝ} {m p q R : ℝ} (hx : Axes u w) (hf : AxisPlane u w) (hs : 1 / 10 ^ 3 ≤ m)
    (hm : m ≤ 10 ^ 6) (hp : m ≤ p) (hp' : p ≤ 50 * m) (hq : m ≤ q) (hq' : q ≤ 50 * m)
    (hr : ∀ c ∈ [o, o + p • u, o + p • u + q • w, o + q • w], Reach m c ∧ Bounded R c) :
    ∃ v, polygonNew A [o, o + p • u, o + p • u + q • w, o + q • w] =
        .ok ([o, o + p • u, o + p • u + q • w, o + q • w], v, [(3, 0, 1), (3, 1, 2)]) ∧
      |polygonArea A [o, o + p • u, o + p • u + q • w, o + q • w] v - p * q| ≤ 16 / 10 ^ 12 * R ^ 2 := by
  obtain ⟨v, h1, h2⟩ := C109_rectangle A (o := o) hx hf hs hm hp hp' hq hq' ⟨(hr _ (by simp)).1, (hr _ (by simp)).1,
    (hr _ (by simp)).1, (hr _ (by simp)).1⟩
  refine ⟨v, h2, ?_⟩
  have hu := norm_cross hx
  have := C110_area A (R := R) (pts := [o, o + p • u, o + p • u + q • w, o + q • w]) (fun c hc => (hr c hc).2)
    (by norm_num) hu h1
  have e : Polygon.polygonArea [o, o + p • u, o + p • u + q • w, o + q • w] (Vec3.cross u w) = p * q := by
    have hsq : Vec3.dot (Vec3.cross u w) (Vec3.cross u w) = 1 := by
      have := Vec3.norm_sq (Vec3.cross u w)
      rw [hu] at this
      simpa [Vec3.normSq] using this.symm
    have hm0 : 0 < m := lt_of_lt_of_le (by norm_num) hs
    have ht : Polygon.areaTotal [o, o + p • u, o + p • u + q • w, o + q • w] = (2 * p * q) • Vec3.cross u w := by
      simp only [Polygon.areaTotal, List.length_cons, List.length_nil, Nat.zero_add, Nat.reduceAdd, List.range_succ,
        List.range_zero, List.nil_append, List.cons_append, List.foldl_cons, List.foldl_nil]
      ext <;> simp [Vec3.cross] <;> ring
    rw [Polygon.polygonArea, if_neg (by simp), ht]
    rw [Vec3.dot_smul_left, hsq, mul_one, abs_of_pos (half_pos (mul_pos (mul_pos two_pos (hm0.trans_le hp)) (hm0.trans_le hq)))]
    ring
  rw [e] at this
  refine this.trans (le_of_eq ?_)
  norm_num

/-- Non-vacuity of `C110_rectangle` (and so of `C110_polygon_partial`): a wall of 6 m by 2.5 m in the plane `x = 40`. -/
example : ∃ v, polygonNew binary [⟨40, 7, 3⟩, ⟨40, 13, 3⟩, ⟨40, 13, 11 / 2⟩, ⟨40, 7, 11 / 2⟩] =
      .ok ([⟨40, 7, 3⟩, ⟨40, 13, 3⟩, ⟨40, 13, 11 / 2⟩, ⟨40, 7, 11 / 2⟩], v, [(3, 0, 1), (3, 1, 2)]) ∧
    |polygonArea binary [⟨40, 7, 3⟩, ⟨40, 13, 3⟩, ⟨40, 13, 11 / 2⟩, ⟨40, 7, 11 / 2⟩] v - 15| ≤ 1 / 10 ^ 7 := by
  have e1' : (⟨40, 7, 3⟩ : Vec3 ℝ) + (6 : ℝ) • ⟨0, 1, 0⟩ = ⟨40, 13, 3⟩ := by ext <;> simp; norm_num
  have e3' : (⟨40, 7, 3⟩ : Vec3 ℝ) + (5 / 2 : ℝ) • ⟨0, 0, 1⟩ = ⟨40, 7, 11 / 2⟩ := by ext <;> simp; norm_num
  have e2' : (⟨40, 7, 3⟩ : Vec3 ℝ) + (6 : ℝ) • ⟨0, 1, 0⟩ + (5 / 2 : ℝ) • ⟨0, 0, 1⟩ = ⟨40, 13, 11 / 2⟩ := by
    ext <;> simp <;> norm_num
  obtain ⟨v, h1, h2⟩ := C110_rectangle binary (o := ⟨40, 7, 3⟩) (u := ⟨0, 1, 0⟩) (w := ⟨0, 0, 1⟩) (m := 2) (p := 6)
    (q := 5 / 2) (R := 40) (by constructor <;> simp [Vec3.dot]) (.inl ⟨rfl, rfl⟩) (by norm_num) (by norm_num)
    (by norm_num) (by norm_num) (by norm_num) (by norm_num) (by
      rw [e2', e1', e3']
      simp only [List.forall_mem_cons, Bounded, Reach]
      norm_num [abs_le])
  rw [e2', e1', e3'] at h1 h2
  refine ⟨v, h1, ?_⟩
  rw [show (6 : ℝ) * (5 / 2) = 15 by norm_num] at h2
  refine h2.trans ?_
  norm_num

/-- Non-vacuity of `C110_area`: an L-shaped outline of 21 square metres, 200 metres from the origin. -/
example : Polygon.polygonArea [⟨100, 200, 3⟩, ⟨106, 200, 3⟩, ⟨106, 202, 3⟩, ⟨103, 202, 3⟩, ⟨103, 205, 3⟩, ⟨100, 205, 3⟩]
      (⟨0, 0, 1⟩ : Vec3 ℝ) = 21 ∧
    |polygonArea binary [⟨100, 200, 3⟩, ⟨106, 200, 3⟩, ⟨106, 202, 3⟩, ⟨103, 202, 3⟩, ⟨103, 205, 3⟩, ⟨100, 205, 3⟩]
      ⟨0, 0, 1⟩ - 21| ≤ 1 / 10 ^ 5 := by
  have e : Polygon.polygonArea [⟨100, 200, 3⟩, ⟨106, 200, 3⟩, ⟨106, 202, 3⟩, ⟨103, 202, 3⟩, ⟨103, 205, 3⟩, ⟨100, 205, 3⟩]
      (⟨0, 0, 1⟩ : Vec3 ℝ) = 21 := by
    rw [Polygon.polygonArea, if_neg (by simp), Polygon.areaTotal]
    simp [List.range_succ, Vec3.cross, Vec3.dot]
    norm_num
  refine ⟨e, ?_⟩
  have := C110_area binary (R := 250) (pts := [⟨100, 200, 3⟩, ⟨106, 200, 3⟩, ⟨106, 202, 3⟩, ⟨103, 202, 3⟩, ⟨103, 205, 3⟩,
    ⟨100, 205, 3⟩]) (v := ⟨0, 0, 1⟩) (v' := ⟨0, 0, 1⟩) (by simp only [List.forall_mem_cons, Bounded]; norm_num)
    (by norm_num) (by simp [Vec3.norm, Vec3.normSq, Vec3.dot]) (by simp [WithinBy])
  rw [e] at this
  refine this.trans ?_
  norm_num

/-! ## A small triangle far from the origin -/

theorem far_p0 : fl (36864016512001845 / 256) = (4608002064000231 / 32) := by
  rw [fl_of_pos (by norm_num), flp_eq (e := -5) (k := 4608002064000231) (by norm_num) (by norm_num) (by norm_num) (by norm_num)]
  norm_num

theorem far_q0 : fl (18432005664000429 / 128) = (4608001416000107 / 32) := by
  rw [fl_of_pos (by norm_num), flp_eq (e := -5) (k := 4608001416000107) (by norm_num) (by norm_num) (by norm_num) (by norm_num)]
  norm_num

theorem far_d0 : fl (162000031 / 8) = (162000031 / 8) := by
  rw [fl_of_pos (by norm_num), flp_eq (e := -28) (k := 5435819024187392) (by norm_num) (by norm_num) (by norm_num) (by norm_num)]
  norm_num

theorem far_p1 : fl (18432004320000247 / 128) = (2304000540000031 / 16) := by
  rw [fl_of_pos (by norm_num), flp_eq (e := -5) (k := 4608001080000062) (by norm_num) (by norm_num) (by norm_num) (by norm_num)]
  norm_num

theorem far_q1 : fl (36864015744001665 / 256) = (288000123000013 / 2) := by
  rw [fl_of_pos (by norm_num), flp_eq (e := -5) (k := 4608001968000208) (by norm_num) (by norm_num) (by norm_num) (by norm_num)]
  norm_num

theorem far_d1 : fl (-(444000073 / 16)) = -(444000073 / 16) := by
  rw [fl_neg, fl_of_pos (by norm_num), flp_eq (e := -28) (k := 7449085128736768) (by norm_num) (by norm_num) (by norm_num) (by norm_num)]
  norm_num

theorem far_s1 : fl (-(120000011 / 16)) = -(120000011 / 16) := by
  rw [fl_neg, fl_of_pos (by norm_num), flp_eq (e := -30) (k := 8053064418197504) (by norm_num) (by norm_num) (by norm_num) (by norm_num)]
  norm_num

theorem far_p2 : fl (36864013440001221 / 256) = (4608001680000153 / 32) := by
  rw [fl_of_pos (by norm_num), flp_eq (e := -5) (k := 4608001680000153) (by norm_num) (by norm_num) (by norm_num) (by norm_num)]
  norm_num

theorem far_q2 : fl (36864011520000779 / 256) = (4608001440000097 / 32) := by
  rw [fl_of_pos (by norm_num), flp_eq (e := -5) (k := 4608001440000097) (by norm_num) (by norm_num) (by norm_num) (by norm_num)]
  norm_num

theorem far_d2 : fl (30000007 / 4) = (30000007 / 4) := by
  rw [fl_of_pos (by norm_num), flp_eq (e := -30) (k := 8053065559048192) (by norm_num) (by norm_num) (by norm_num) (by norm_num)]
  norm_num

theorem far_s2 : fl (17 / 16) = (17 / 16) := by
  rw [fl_of_pos (by norm_num), flp_eq (e := -52) (k := 4785074604081152) (by norm_num) (by norm_num) (by norm_num) (by norm_num)]
  norm_num

theorem far_half : fl (17 / 32) = (17 / 32) := by
  rw [fl_of_pos (by norm_num), flp_eq (e := -53) (k := 4785074604081152) (by norm_num) (by norm_num) (by norm_num) (by norm_num)]
  norm_num

/-- A triangle with legs of about one metre, at coordinates as in the Web Mercator projection of maps. -/
noncomputable def farTriangle : List (Vec3 ℝ) := [⟨(192000041 / 16), (192000033 / 16), 0⟩, ⟨(96000013 / 8), (192000045 / 16), 0⟩, ⟨(192000037 / 16), (192000019 / 16), 0⟩]

theorem far_cross0 : cross binary ⟨(192000041 / 16), (192000033 / 16), 0⟩ ⟨(96000013 / 8), (192000045 / 16), 0⟩ = ⟨0, 0, (162000031 / 8)⟩ := by
  have e1 : ((192000041 / 16) * (192000045 / 16) : ℝ) = (36864016512001845 / 256) := by norm_num
  have e2 : ((192000033 / 16) * (96000013 / 8) : ℝ) = (18432005664000429 / 128) := by norm_num
  have e3 : ((4608002064000231 / 32) - (4608001416000107 / 32) : ℝ) = (162000031 / 8) := by norm_num
  simp only [cross, binary, mul_zero, zero_mul, fl_zero, sub_zero, e1, e2, far_p0, far_q0, e3, far_d0]

theorem far_cross1 : cross binary ⟨(96000013 / 8), (192000045 / 16), 0⟩ ⟨(192000037 / 16), (192000019 / 16), 0⟩ = ⟨0, 0, -(444000073 / 16)⟩ := by
  have e1 : ((96000013 / 8) * (192000019 / 16) : ℝ) = (18432004320000247 / 128) := by norm_num
  have e2 : ((192000045 / 16) * (192000037 / 16) : ℝ) = (36864015744001665 / 256) := by norm_num
  have e3 : ((2304000540000031 / 16) - (288000123000013 / 2) : ℝ) = -(444000073 / 16) := by norm_num
  simp only [cross, binary, mul_zero, zero_mul, fl_zero, sub_zero, e1, e2, far_p1, far_q1, e3, far_d1]

theorem far_cross2 : cross binary ⟨(192000037 / 16), (192000019 / 16), 0⟩ ⟨(192000041 / 16), (192000033 / 16), 0⟩ = ⟨0, 0, (30000007 / 4)⟩ := by
  have e1 : ((192000037 / 16) * (192000033 / 16) : ℝ) = (36864013440001221 / 256) := by norm_num
  have e2 : ((192000019 / 16) * (192000041 / 16) : ℝ) = (36864011520000779 / 256) := by norm_num
  have e3 : ((4608001680000153 / 32) - (4608001440000097 / 32) : ℝ) = (30000007 / 4) := by norm_num
  simp only [cross, binary, mul_zero, zero_mul, fl_zero, sub_zero, e1, e2, far_p2, far_q2, e3, far_d2]

theorem addv_z (a b : ℝ) : addv binary ⟨0, 0, a⟩ ⟨0, 0, b⟩ = ⟨0, 0, fl (a + b)⟩ := by
  simp only [addv, binary, add_zero, fl_zero]

theorem far_total : areaTotal binary farTriangle = ⟨0, 0, (17 / 16)⟩ := by
  have e1 : ((162000031 / 8) + -(444000073 / 16) : ℝ) = -(120000011 / 16) := by norm_num
  have e2 : (-(120000011 / 16) + (30000007 / 4) : ℝ) = (17 / 16) := by norm_num
  show addv binary (addv binary (addv binary ⟨0, 0, 0⟩
    (cross binary ⟨(192000041 / 16), (192000033 / 16), 0⟩ ⟨(96000013 / 8), (192000045 / 16), 0⟩))
    (cross binary ⟨(96000013 / 8), (192000045 / 16), 0⟩ ⟨(192000037 / 16), (192000019 / 16), 0⟩))
    (cross binary ⟨(192000037 / 16), (192000019 / 16), 0⟩ ⟨(192000041 / 16), (192000033 / 16), 0⟩) = _
  rw [far_cross0, far_cross1, far_cross2, addv_z, zero_add, far_d0, addv_z, e1, far_s1, addv_z, e2, far_s2]

/-- **C110, how much the area can be off.**  With 53 binary digits the area of a triangle far from the origin is computed
more than five percent too large: 17/32 instead of 129/256.  All coordinates are numbers with few digits, and the normal
vector is exact. -/
theorem C110_far_area : polygonArea binary farTriangle ⟨0, 0, 1⟩ = (17 / 32) ∧
    Polygon.polygonArea farTriangle ⟨0, 0, 1⟩ = (129 / 256) := by
  constructor
  · have h3 : ¬ farTriangle.length < 3 := by simp [farTriangle]
    rw [polygonArea, if_neg h3, far_total, binary.dot_z]
    show |fl (fl ((17 / 16) * 1) / 2)| = _
    rw [mul_one, ← far_s2, fl_fl, far_s2, show ((17 / 16) / 2 : ℝ) = (17 / 32) by norm_num, far_half]
    norm_num
  · have h3 : ¬ farTriangle.length < 3 := by simp [farTriangle]
    rw [Polygon.polygonArea, if_neg h3, Polygon.areaTotal, farTriangle]
    simp [List.range_succ, Vec3.cross, Vec3.dot]
    norm_num

end B3d.Rounded
