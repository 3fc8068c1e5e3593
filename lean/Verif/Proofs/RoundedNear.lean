import Verif.Proofs.RoundedTurn
import Verif.Proofs.BinaryNear

/-!
# Rays near floors, ceilings and walls with 53 binary digits

Normals of such polygons are exact, so the errors are proportional to the distance from the polygon.
-/

namespace B3d.Rounded

open Spec Polygon Triangles

/-! ## Arithmetic with 53 digits in any order of the axes -/

/-- Every operation rounds the exact result to 53 digits; lengths of vectors along the axes are exact. -/
structure IsBinary (A : Arith) : Prop where
  add : ∀ x y, A.add x y = fl (x + y)
  sub : ∀ x y, A.sub x y = fl (x - y)
  mul : ∀ x y, A.mul x y = fl (x * y)
  div : ∀ x y, A.div x y = fl (x / y)
  norm_x : ∀ c, fl c = c → A.norm ⟨c, 0, 0⟩ = |c|
  norm_y : ∀ c, fl c = c → A.norm ⟨0, c, 0⟩ = |c|
  norm_z : ∀ c, fl c = c → A.norm ⟨0, 0, c⟩ = |c|

theorem isBinary_binary : IsBinary binary where
  add _ _ := rfl
  sub _ _ := rfl
  mul _ _ := rfl
  div _ _ := rfl
  norm_x c hc := by
    change bnorm _ = _
    simp only [bnorm, mul_zero, fl_zero, add_zero, fl_fl]
    exact fl_root_sq hc
  norm_y c hc := by
    change bnorm _ = _
    simp only [bnorm, mul_zero, fl_zero, add_zero, zero_add, fl_fl]
    exact fl_root_sq hc
  norm_z c hc := by
    change bnorm _ = _
    simp only [bnorm, mul_zero, fl_zero, add_zero, zero_add, fl_fl]
    exact fl_root_sq hc

variable {A B : Arith}

theorem IsBinary.turn (h : IsBinary A) : IsBinary A.turn :=
  ⟨h.add, h.sub, h.mul, h.div, h.norm_y, h.norm_z, h.norm_x⟩

theorem IsBinary.precise (h : IsBinary A) : Precise A (1 / 2 ^ 53) where
  nonneg := by norm_num
  small := by norm_num
  add x y := by rw [h.add]; exact fl_err _
  sub x y := by rw [h.sub]; exact fl_err _
  mul x y := by rw [h.mul]; exact fl_err _
  div x y _ := by rw [h.div]; exact fl_err _

/-- The arithmetic `B` seen along an axis, with the coordinates `f`, is the arithmetic `A`. -/
structure Axis (A B : Arith) (f : Vec3 ℝ → Vec3 ℝ) : Prop where
  binA : IsBinary A
  bin : IsBinary B
  inj : ∀ a b, f a = f b → a = b
  lin : ∀ p v (s : ℝ), f (p + s • v) = f p + s • f v
  addv : ∀ p q, f (addv A p q) = addv B (f p) (f q)
  scale : ∀ s v, f (scale A s v) = scale B s (f v)
  subv : ∀ p q, f (subv A p q) = subv B (f p) (f q)
  le : ∀ w, |(f w).x| ≤ Vec3.norm w ∧ |(f w).y| ≤ Vec3.norm w ∧ |(f w).z| ≤ Vec3.norm w
  normal : ∀ a b c, normal B (f a) (f b) (f c) = (normal A a b c).map f
  test : ∀ atol p pts tri, pointInPolygonTol B atol (f p) (pts.map f) tri = pointInPolygonTol A atol p pts tri
  dot : ∀ n g w, f n = ⟨0, 0, g⟩ → A.dot n w = fl (g * (f w).z)
  norm : ∀ n g, f n = ⟨0, 0, g⟩ → fl g = g → A.norm n = |g|
  den : ∀ n g v, f n = ⟨0, 0, g⟩ → A.add (A.add (A.mul n.x v.x) (A.mul n.y v.y)) (A.mul n.z v.z) = fl (g * (f v).z)
  num : ∀ n g p d, f n = ⟨0, 0, g⟩ → fl d = d →
    A.sub (A.sub (A.sub d (A.mul n.x p.x)) (A.mul n.y p.y)) (A.mul n.z p.z) = fl (d - fl (g * (f p).z))

theorem axis_z (h : IsBinary A) : Axis A A id where
  binA := h
  bin := h
  inj _ _ e := e
  lin _ _ _ := rfl
  addv _ _ := rfl
  scale _ _ := rfl
  subv _ _ := rfl
  le w := ⟨Vec3.abs_x_le w, Vec3.abs_y_le w, Vec3.abs_z_le w⟩
  normal a b c := by simp
  test atol p pts tri := by simp
  dot n g w e := by simp only [id] at e; rw [e, A.dot_z, h.mul]; rfl
  norm n g e hg := by simp only [id] at e; rw [e, h.norm_z g hg]
  den n g v e := by simp only [id] at e; rw [e]; simp [h.add, h.mul, fl_zero, fl_fl]
  num n g p d e hd := by simp only [id] at e; rw [e]; simp [h.sub, h.mul, fl_zero, hd]

theorem roll_x {n : Vec3 ℝ} {g : ℝ} (e : roll n = ⟨0, 0, g⟩) : n = ⟨g, 0, 0⟩ := by
  simp only [roll, Vec3.ext_iff] at e
  ext
  exacts [e.2.2, e.1, e.2.1]

theorem roll_y {n : Vec3 ℝ} {g : ℝ} (e : (roll ∘ roll) n = ⟨0, 0, g⟩) : n = ⟨0, g, 0⟩ := by
  simp only [Function.comp_apply, roll, Vec3.ext_iff] at e
  ext
  exacts [e.2.1, e.2.2, e.1]

theorem roll_inj {a b : Vec3 ℝ} (e : roll a = roll b) : a = b := by
  simp only [roll, Vec3.ext_iff] at e
  ext
  exacts [e.2.2, e.1, e.2.1]

theorem axis_x (h : IsBinary A) : Axis A A.turn roll where
  binA := h
  bin := h.turn
  inj _ _ e := roll_inj e
  lin _ _ _ := rfl
  addv _ _ := rfl
  scale _ _ := rfl
  subv _ _ := rfl
  le w := ⟨Vec3.abs_y_le w, Vec3.abs_z_le w, Vec3.abs_x_le w⟩
  normal := turn_normal A
  test atol p pts tri := turn_polygon A atol p pts tri
  dot n g w e := by rw [roll_x e, A.dot_x, h.mul]; rfl
  norm n g e hg := by rw [roll_x e, h.norm_x g hg]
  den n g v e := by rw [roll_x e]; simp [h.add, h.mul, fl_zero, fl_fl, roll]
  num n g p d e hd := by rw [roll_x e]; simp [h.sub, h.mul, fl_zero, fl_fl, roll]

theorem axis_y (h : IsBinary A) : Axis A A.turn.turn (roll ∘ roll) where
  binA := h
  bin := h.turn.turn
  inj _ _ e := roll_inj (roll_inj e)
  lin _ _ _ := rfl
  addv _ _ := rfl
  scale _ _ := rfl
  subv _ _ := rfl
  le w := ⟨Vec3.abs_z_le w, Vec3.abs_x_le w, Vec3.abs_y_le w⟩
  normal a b c := by
    simp only [Function.comp_apply, turn_normal, Option.map_map]
  test atol p pts tri := by
    rw [← List.map_map]
    exact (turn_polygon A.turn atol _ _ tri).trans (turn_polygon A atol p pts tri)
  dot n g w e := by rw [roll_y e, A.dot_y, h.mul]; rfl
  norm n g e hg := by rw [roll_y e, h.norm_y g hg]
  den n g v e := by rw [roll_y e]; simp [h.add, h.mul, fl_zero, fl_fl, roll]
  num n g p d e hd := by rw [roll_y e]; simp [h.sub, h.mul, fl_zero, fl_fl, roll, hd]

theorem axis_any (h : IsBinary A) {f : Vec3 ℝ → Vec3 ℝ} (hf : AlongAxis f) : ∃ B, Axis A B f := by
  rcases hf with rfl | rfl | rfl
  exacts [⟨_, axis_z h⟩, ⟨_, axis_x h⟩, ⟨_, axis_y h⟩]

/-! ## Exact normals -/

open Classical in
/-- The computed normal of three level points is vertical and has the length 1. -/
theorem normal_exact (h : IsBinary A) {a b c : Vec3 ℝ} {R : ℝ} (hR : R ≤ 1000) (ha : Bounded R a) (hb : Bounded R b)
    (hc : Bounded R c) (h1 : b.z = a.z) (h2 : c.z = a.z) (hD : 1 / 10 ^ 7 ≤ |levelArea a b c|) :
    ∃ g : ℝ, normal A a b c = some ⟨0, 0, g⟩ ∧ (g = 1 ∨ g = -1) := by
  obtain ⟨g, hg, -⟩ := level_normal (A := A) hR ha hb hc h1 h2 hD
  refine ⟨g, hg, ?_⟩
  obtain ⟨zx, zy⟩ := level_cross (A := A) h1 h2
  have hz := level_cross_z (A := A) hR ha hb hc hD
  have hv : Rounded.cross A (subv A b a) (subv A c a) = ⟨0, 0, (Rounded.cross A (subv A b a) (subv A c a)).z⟩ := by
    ext
    exacts [zx, zy, rfl]
  have hrep : fl (Rounded.cross A (subv A b a) (subv A c a)).z = (Rounded.cross A (subv A b a) (subv A c a)).z := by
    simp only [Rounded.cross, h.sub, fl_fl]
  set w := (Rounded.cross A (subv A b a) (subv A c a)).z
  have hw : w ≠ 0 := by intro h0; rw [h0] at hz; norm_num at hz
  unfold normal at hg
  simp only [hv, h.norm_z w hrep, divv, h.div] at hg
  split at hg
  · simp at hg
  · rw [Option.some.injEq, Vec3.ext_iff] at hg
    have hg := hg.2.2
    simp only at hg
    rcases lt_or_gt_of_ne hw with hn | hp
    · rw [abs_of_neg hn, div_neg, div_self hw, fl_neg, fl_one] at hg
      exact .inr hg.symm
    · rw [abs_of_pos hp, div_self hw, fl_one] at hg
      exact .inl hg.symm

/-! ## The ray near the polygon -/

variable {f : Vec3 ℝ → Vec3 ℝ} {R z0 h : ℝ} {pts : List (Vec3 ℝ)} {tri : List Tri} {p v : Vec3 ℝ}

theorem fl_sign {g x : ℝ} (hg : g = 1 ∨ g = -1) : fl (g * x) = g * fl x := by
  rcases hg with rfl | rfl
  · rw [one_mul, one_mul]
  · rw [neg_one_mul, neg_one_mul, fl_neg]

theorem plane_exact (X : Axis A B f) (hR : R ≤ 1000) (HP : LevelPolygon R z0 (pts.map f) tri) (hz : fl z0 = z0) :
    ∃ n g, f n = ⟨0, 0, g⟩ ∧ (g = 1 ∨ g = -1) ∧ planeCoefficients A pts = .ok (some (n, -(g * z0))) := by
  obtain ⟨l', p0', p1', p2', el, e0, e1, -, hl, -⟩ := HP.corners
  have ml := List.mem_of_getLast? el
  have m0 := List.mem_of_getElem? e0
  have m1 := List.mem_of_getElem? e1
  obtain ⟨g, hn, hg⟩ := normal_exact X.bin hR (HP.bounded l' ml) (HP.bounded p0' m0) (HP.bounded p1' m1)
    ((HP.level p0' m0).trans (HP.level l' ml).symm) ((HP.level p1' m1).trans (HP.level l' ml).symm) hl
  have hz0 := HP.level p0' m0
  rw [List.getLast?_map, Option.map_eq_some_iff] at el
  rw [List.getElem?_map, Option.map_eq_some_iff] at e0 e1
  obtain ⟨l, el, rfl⟩ := el
  obtain ⟨p0, e0, rfl⟩ := e0
  obtain ⟨p1, e1, rfl⟩ := e1
  rw [X.normal, Option.map_eq_some_iff] at hn
  obtain ⟨n, hn, hfn⟩ := hn
  refine ⟨n, g, hfn, hg, ?_⟩
  unfold planeCoefficients
  rw [el, e0, e1]
  simp only [hn, Option.map_some, projectionCoefficient, X.dot n g p0 hfn, hz0, fl_sign hg, hz]

theorem sign_ne {g : ℝ} (hg : g = 1 ∨ g = -1) : g ≠ 0 := by rcases hg with rfl | rfl <;> norm_num

theorem sign_abs {g : ℝ} (hg : g = 1 ∨ g = -1) : |g| = 1 := by rcases hg with rfl | rfl <;> norm_num

theorem sign_rep {g : ℝ} (hg : g = 1 ∨ g = -1) : fl g = g := by
  rcases hg with rfl | rfl
  · exact fl_one
  · rw [fl_neg, fl_one]

theorem sign_sq {g : ℝ} (hg : g = 1 ∨ g = -1) : g * g = 1 := by rcases hg with rfl | rfl <;> norm_num

open Classical in
/-- What the ray test does, with exact normals. -/
theorem ray_exact (X : Axis A B f) (hR : R ≤ 1000) (HP : LevelPolygon R z0 (pts.map f) tri) (hz : fl z0 = z0)
    (hpz : fl (f p).z = (f p).z) (hvz : fl (f v).z = (f v).z) (hv : 2 / 1000 ≤ |(f v).z|) :
    isPointInsideProjection A (1 / 1000) p v pts tri =
      if fl (fl (z0 - (f p).z) / (f v).z) < 0 then .ok false else
        pointInPolygonTol B (1 / 1000) (addv B (f p) (scale B (fl (fl (z0 - (f p).z) / (f v).z)) (f v))) (pts.map f) tri := by
  obtain ⟨n, g, hn, hg, hplane⟩ := plane_exact X hR HP hz
  have hd := X.den n g v hn
  rw [fl_sign hg, hvz] at hd
  have hnum := X.num n g p (g * z0) hn (by rw [fl_sign hg, hz])
  rw [fl_sign hg, hpz, ← mul_sub, fl_sign hg] at hnum
  have hs : fl (g * fl (z0 - (f p).z) / (g * (f v).z)) = fl (fl (z0 - (f p).z) / (f v).z) := by
    rw [mul_div_mul_left _ _ (sign_ne hg)]
  have hden : ¬ |g * (f v).z| < A.lit (1 / 1000) := by
    have hlit := (lit_rel A (1 / 1000)).le (by norm_num)
    rw [abs_mul, sign_abs hg, one_mul]
    norm_num at hlit ⊢
    linarith [hlit.2]
  unfold isPointInsideProjection
  rw [hplane]
  simp only [neg_neg, hd, hnum, X.binA.div, hs, if_neg hden, ← X.scale, ← X.addv, X.test]

/-- The height of the computed point. -/
theorem near_height {pz vz w s : ℝ} (hz : fl z0 = z0) (hv : vz ≠ 0) (hw : w = fl (z0 - pz)) (hs : s = fl (w / vz)) :
    |s * vz - (z0 - pz)| ≤ 21 / 10 * (1 / 2 ^ 53 * |z0 - pz|) ∧
    |fl (pz + fl (s * vz)) - z0| ≤ 16 / 2 ^ 53 * |z0 - pz| := by
  set F := z0 - pz with hF
  have r1 : Rel (1 / 2 ^ 53) w F := by rw [hw]; exact fl_rel F
  have r2 : Rel (1 / 2 ^ 53) s (w / vz) := by rw [hs]; exact fl_rel _
  have r3 : Rel (1 / 2 ^ 53) (s * vz) w := by
    have := r2.mul (⟨0, by simp, by simp⟩ : Rel 0 vz vz) (g := 1 / 2 ^ 53) (by norm_num)
    rwa [div_mul_cancel₀ _ hv] at this
  have r4 := r3.trans r1 (g := 201 / 100 / 2 ^ 53) (by norm_num)
  have r5 := (fl_rel (s * vz)).trans r4 (g := 302 / 100 / 2 ^ 53) (by norm_num)
  have e4 := r4.err
  have e5 := r5.err
  have hF0 := abs_nonneg F
  refine ⟨e4.trans (by norm_num; linarith), ?_⟩
  have e : pz + fl (s * vz) - z0 = fl (s * vz) - F := by rw [hF]; ring
  rcases le_or_gt (125 / 10 * |F|) |z0| with hc | hc
  · by_cases hz0 : z0 = 0
    · have : F = 0 := by
        rw [hz0, abs_zero] at hc
        exact abs_nonpos_iff.1 (by linarith)
      rw [this, abs_zero, mul_zero, sub_zero] at e5
      have h0 := abs_nonpos_iff.1 e5
      rw [h0, add_zero]
      have : pz = z0 := by linarith
      rw [this, hz, sub_self, abs_zero]
      positivity
    · rw [fl_near hz0 hz, sub_self, abs_zero]
      · positivity
      · rw [e]
        refine e5.trans ?_
        norm_num at hc ⊢
        linarith
  · have k := fl_err (pz + fl (s * vz))
    have k2 : |pz + fl (s * vz)| ≤ |z0| + 302 / 100 / 2 ^ 53 * |F| := by
      have := abs_add_le (pz + fl (s * vz) - z0) z0
      rw [sub_add_cancel, e] at this
      linarith
    have := abs_sub_le (fl (pz + fl (s * vz))) (pz + fl (s * vz)) z0
    rw [e] at this
    norm_num at k k2 e5 ⊢
    linarith

theorem fl_nonneg {x : ℝ} (h : 0 ≤ x) : 0 ≤ fl x := by
  have := fl_mono h
  rwa [fl_zero] at this

theorem fl_nonpos {x : ℝ} (h : x ≤ 0) : fl x ≤ 0 := by
  have := fl_mono h
  rwa [fl_zero] at this

/-- **Rays near a polygon notice it.** -/
theorem near_noticed (X : Axis A B f) (hR : R ≤ 1000) (h5 : 1 / 10 ^ 4 ≤ h) (hhR : h ≤ R) (hRh : R ≤ 2000 * h)
    (HP : LevelPolygon R z0 (pts.map f) tri) (hz : fl z0 = z0)
    (hpz : fl (f p).z = (f p).z) (hvz : fl (f v).z = (f v).z) (hf2 : |z0 - (f p).z| ≤ 2 * R) (hnear : |z0 - (f p).z| ≤ 50 * h)
    (hv : 2 / 1000 ≤ |(f v).z|) (hx : |(f v).x| ≤ 10 ^ 6 * |(f v).z|) (hy : |(f v).y| ≤ 10 ^ 6 * |(f v).z|) {s0 : ℝ} (hs0 : 0 ≤ s0)
    (hpl : (f (p + s0 • v)).z = z0) (hd : DeepInside h (pts.map f) tri (f (p + s0 • v))) :
    isPointInsideProjection A (1 / 1000) p v pts tri = .ok true := by
  rw [ray_exact X hR HP hz hpz hvz hv]
  rw [X.lin] at hpl hd
  generalize f p = p' at *
  generalize f v = v' at *
  generalize pts.map f = pts' at *
  clear hpz hvz
  have hp := X.bin.precise
  have hh : 0 < h := lt_of_lt_of_le (by norm_num) h5
  have hR0 : 0 < R := lt_of_lt_of_le hh hhR
  have hvn : v'.z ≠ 0 := by intro h0; rw [h0] at hv; norm_num at hv
  have hvz : 0 < |v'.z| := abs_pos.2 hvn
  have hff : s0 * v'.z = z0 - p'.z := by
    simp only [Vec3.add_z, Vec3.smul_z] at hpl
    linarith
  have hs1 : s0 = (z0 - p'.z) / v'.z := by rw [eq_div_iff hvn]; exact hff
  have hsn : ¬ fl (fl (z0 - p'.z) / v'.z) < 0 := by
    rw [not_lt]
    refine fl_nonneg ?_
    rw [← hff]
    rcases lt_or_gt_of_ne hvn with h1 | h1
    · exact div_nonneg_of_nonpos (fl_nonpos (mul_nonpos_of_nonneg_of_nonpos hs0 h1.le)) h1.le
    · exact div_nonneg (fl_nonneg (mul_nonneg hs0 h1.le)) h1.le
  rw [if_neg hsn]
  obtain ⟨way, height⟩ := near_height (pz := p'.z) hz hvn rfl rfl
  set s := fl (fl (z0 - p'.z) / v'.z)
  obtain ⟨l, p0, p1, p2, el, e0, e1, e2, hl, hc⟩ := HP.corners
  have m0 := List.mem_of_getElem? e0
  have hz0 : |z0| ≤ R := by rw [← HP.level p0 m0]; exact (HP.bounded p0 m0).2.2
  have way' : |s * v'.z - (z0 - p'.z)| ≤ 5 * (1 / 2 ^ 53 * R) := by
    refine way.trans ?_
    norm_num at hf2 ⊢
    linarith
  obtain ⟨tr, htr, a, b, c, ea, eb, ec, hT⟩ := hd
  have ma := List.mem_of_getElem? ea
  have mb := List.mem_of_getElem? eb
  have mc := List.mem_of_getElem? ec
  have hD : levelArea a b c ≠ 0 := by
    obtain ⟨a', b', c', ea', eb', ec', hA⟩ := HP.triangles tr htr
    rw [ea, Option.some.injEq] at ea'
    rw [eb, Option.some.injEq] at eb'
    rw [ec, Option.some.injEq] at ec'
    subst ea' eb' ec'
    exact levelArea_eq_zero_or hA
  have fb : ∀ p : Vec3 ℝ, Bounded R p → -R ≤ p.x ∧ -R ≤ p.y ∧ p.x ≤ R ∧ p.y ≤ R := fun p hp =>
    ⟨(abs_le.1 hp.1).1, (abs_le.1 hp.2.1).1, (abs_le.1 hp.1).2, (abs_le.1 hp.2.1).2⟩
  obtain ⟨bx, by'⟩ := DeepIn.between hT hh.le hD (lo := ⟨-R, -R, 0⟩) (hi := ⟨R, R, 0⟩) (fb a (HP.bounded a ma))
    (fb b (HP.bounded b mb)) (fb c (HP.bounded c mc))
  have qx := way_step (A := B) hp (by norm_num) (by norm_num) hvn way' hf2 (v := v'.x) (p := p'.x) (G := 10 ^ 6) (by norm_num) hx (by
    rw [← hs1]; exact abs_le.2 bx)
  have qy := way_step (A := B) hp (by norm_num) (by norm_num) hvn way' hf2 (v := v'.y) (p := p'.y) (G := 10 ^ 6) (by norm_num) hy (by
    rw [← hs1]; exact abs_le.2 by')
  rw [← hs1] at qx qy
  have qz : |(addv B p' (scale B s v')).z - z0| ≤ 16 / 2 ^ 53 * |z0 - p'.z| := by
    simp only [addv, scale, X.bin.add, X.bin.mul]
    exact height
  have hlit := (lit_rel B (1 / 1000)).le (by norm_num)
  set t : Vec3 ℝ := addv B p' (scale B s v') with ht
  have hdt : DeepInside (999 / 1000 * h) pts' tri t := by
    refine ⟨tr, htr, a, b, c, ea, eb, ec, DeepIn.move hT qx qy ?_⟩
    norm_num
    linarith
  refine polygon_deep (A := B) (atol := 1 / 1000) (h := 999 / 1000 * h) (t := t) hR (by norm_num at h5 ⊢; linarith)
    (by linarith) (by linarith) HP hdt (by
      refine le_trans qz ?_
      norm_num at hnear ⊢
      linarith) (fun g' hg' => by
      have := plane_near (A := B) (ε := 1 / 2 ^ 53) hg' hz0 qz hp
      refine lt_of_le_of_lt this ?_
      norm_num at hlit hf2 ⊢
      linarith [hlit.1]) (by norm_num at hlit ⊢; linarith [hlit.1])

/-! ## The distance near the polygon -/

/-- The height of the polygon moved to the point. -/
theorem moved_height {pz w : ℝ} (hp : fl pz = pz) (hw : w = fl (pz - z0)) :
    |pz - fl (z0 + w)| ≤ 6 / 2 ^ 53 * |z0 - pz| := by
  have e1 := fl_err (pz - z0)
  rw [← hw, abs_sub_comm pz z0] at e1
  have hF0 := abs_nonneg (z0 - pz)
  have e : z0 + w - pz = w - (pz - z0) := by ring
  rcases le_or_gt (4 * |z0 - pz|) |pz| with hc | hc
  · by_cases hz0 : pz = 0
    · have h0 : z0 = 0 := by
        rw [hz0, abs_zero, sub_zero] at hc
        exact abs_nonpos_iff.1 (by linarith)
      rw [hw, hz0, h0]
      simp [fl_zero]
    · rw [fl_near hz0 hp, sub_self, abs_zero]
      · positivity
      · rw [e]
        refine e1.trans ?_
        norm_num at hc ⊢
        linarith
  · have k := fl_err (z0 + w)
    have k2 : |z0 + w| ≤ |pz| + 1 / 2 ^ 53 * |z0 - pz| := by
      have := abs_add_le (z0 + w - pz) pz
      rw [sub_add_cancel, e] at this
      linarith
    have := abs_sub_le (fl (z0 + w)) (z0 + w) pz
    rw [e] at this
    rw [abs_sub_comm]
    norm_num at k k2 e1 ⊢
    linarith

theorem triangleWith_level {F : Vec3 ℝ → Vec3 ℝ} {q : List (Vec3 ℝ)} {t : Tri} {P : Vec3 ℝ → Vec3 ℝ → Vec3 ℝ → Prop}
    (h : TriangleWith q t P) (hP : ∀ a b c, P a b c → P (F a) (F b) (F c)) : TriangleWith (q.map F) t P := by
  obtain ⟨a, b, c, ea, eb, ec, k⟩ := h
  exact ⟨F a, F b, F c, by rw [List.getElem?_map, ea]; rfl, by rw [List.getElem?_map, eb]; rfl,
    by rw [List.getElem?_map, ec]; rfl, hP a b c k⟩

/-- A level polygon at another height. -/
def raised (z : ℝ) (p : Vec3 ℝ) : Vec3 ℝ := ⟨p.x, p.y, z⟩

theorem LevelPolygon.raise {R' z : ℝ} {q : List (Vec3 ℝ)} (H : LevelPolygon R z0 q tri) (hR : R ≤ R') (hz : |z| ≤ R') :
    LevelPolygon R' z (q.map (raised z)) tri where
  level p hp := by
    rw [List.mem_map] at hp
    obtain ⟨a, -, rfl⟩ := hp
    rfl
  bounded p hp := by
    rw [List.mem_map] at hp
    obtain ⟨a, ha, rfl⟩ := hp
    have := H.bounded a ha
    exact ⟨this.1.trans hR, this.2.1.trans hR, hz⟩
  corners := by
    obtain ⟨l, p0, p1, p2, el, e0, e1, e2, h1, h2⟩ := H.corners
    refine ⟨raised z l, raised z p0, raised z p1, raised z p2, ?_, ?_, ?_, ?_, h1, h2⟩
    · rw [List.getLast?_map, el]; rfl
    · rw [List.getElem?_map, e0]; rfl
    · rw [List.getElem?_map, e1]; rfl
    · rw [List.getElem?_map, e2]; rfl
  triangles t ht := triangleWith_level (H.triangles t ht) fun _ _ _ h => h

theorem DeepInside.raise {z : ℝ} {q : List (Vec3 ℝ)} {t : Vec3 ℝ} (H : DeepInside h q tri t) : DeepInside h (q.map (raised z)) tri t := by
  obtain ⟨tr, htr, k⟩ := H
  exact ⟨tr, htr, triangleWith_level k fun _ _ _ h => h⟩

/-- Coordinates with 53 digits. -/
def Stored (p : Vec3 ℝ) : Prop := fl p.x = p.x ∧ fl p.y = p.y ∧ fl p.z = p.z

open Classical in
/-- The foot of the perpendicular is found in the polygon. -/
theorem near_ortho (X : Axis A B f) (hR : R ≤ 100) (h5 : 1 / 10 ^ 4 ≤ h) (hhR : h ≤ R) (hRh : R ≤ 2000 * h)
    (HP : LevelPolygon R z0 (pts.map f) tri) (hz : fl z0 = z0) (hq : ∀ q ∈ pts, Stored (f q))
    (hpz : fl (f p).z = (f p).z) (hb : |(f p).z| ≤ R) (hnear : |z0 - (f p).z| ≤ 50 * h) (hnear' : |z0 - (f p).z| ≤ R / 2)
    (hd : DeepInside h (pts.map f) tri (f p)) : isPointInsideOrtho A p pts tri = .ok true := by
  obtain ⟨n, g, hn, hg, hplane⟩ := plane_exact X (hR.trans (by norm_num)) HP hz
  have hdist : A.sub (-(g * z0)) (projectionCoefficient A p n) = g * fl ((f p).z - z0) := by
    unfold projectionCoefficient
    rw [X.binA.sub, X.dot n g p hn, fl_sign hg, hpz, ← fl_sign hg]
    congr 1
    ring
  have hw := moved_height (z0 := z0) hpz rfl
  set w := fl ((f p).z - z0) with hwd
  have hmove : (pts.map fun q => addv A q (scale A (g * w) n)).map f = (pts.map f).map (raised (fl (z0 + w))) := by
    rw [List.map_map, List.map_map]
    refine List.map_congr_left fun q hq' => ?_
    obtain ⟨q1, q2, q3⟩ := hq q hq'
    have qz : (f q).z = z0 := HP.level _ (List.mem_map_of_mem hq')
    have e : g * w * g = w := by rw [mul_comm, ← mul_assoc, sign_sq hg, one_mul]
    have ew : fl w = w := by rw [hwd, fl_fl]
    rw [Function.comp_apply, Function.comp_apply, X.addv, X.scale, hn]
    simp only [addv, scale, X.bin.add, X.bin.mul, mul_zero, fl_zero, add_zero, raised, q1, q2, qz, e, ew]
  unfold isPointInsideOrtho
  rw [hplane]
  simp only [hdist]
  rw [← X.test, hmove]
  have hF0 := abs_nonneg (z0 - (f p).z)
  have hh : 0 < h := lt_of_lt_of_le (by norm_num) h5
  have hz' : |fl (z0 + w)| ≤ 1001 / 1000 * R := by
    have := abs_sub_abs_le_abs_sub (fl (z0 + w)) (f p).z
    rw [abs_sub_comm] at this
    norm_num at hw hnear' ⊢
    linarith
  have hlit := (lit_rel B GEOM_ATOL).le (by norm_num [GEOM_ATOL])
  refine polygon_deep (A := B) (atol := GEOM_ATOL) (h := h) (t := f p) (R := 1001 / 1000 * R) (by linarith) (by norm_num at h5 ⊢; linarith)
    (by linarith) (by linarith) (LevelPolygon.raise HP (by linarith) hz') (DeepInside.raise hd) (by
      refine le_trans hw ?_
      norm_num at hnear ⊢
      linarith) (fun g' hg' => by
      have := plane_near (A := B) (ε := 1 / 2 ^ 53) hg' hz' hw X.bin.precise
      refine lt_of_le_of_lt this ?_
      norm_num [GEOM_ATOL] at hlit hnear' ⊢
      linarith [hlit.1]) (by norm_num [GEOM_ATOL] at hlit ⊢; linarith [hlit.1])

open Classical in
/-- **The distance is the rounded height.** -/
theorem near_distance (X : Axis A B f) (hR : R ≤ 100) (h5 : 1 / 10 ^ 4 ≤ h) (hhR : h ≤ R) (hRh : R ≤ 2000 * h)
    (HP : LevelPolygon R z0 (pts.map f) tri) (hz : fl z0 = z0) (hq : ∀ q ∈ pts, Stored (f q))
    (hpz : fl (f p).z = (f p).z) (hb : |(f p).z| ≤ R) (hnear : |z0 - (f p).z| ≤ 50 * h) (hnear' : |z0 - (f p).z| ≤ R / 2)
    (hd : DeepInside h (pts.map f) tri (f p)) :
    distancePointToPolygon A p pts tri = .ok (some |fl (z0 - (f p).z)|) := by
  obtain ⟨n, g, hn, hg, hplane⟩ := plane_exact X (hR.trans (by norm_num)) HP hz
  have hdist : A.div (A.add (A.dot n p) (-(g * z0))) (A.norm n) = g * fl ((f p).z - z0) := by
    rw [X.norm n g hn (sign_rep hg), sign_abs hg, X.binA.div, div_one, X.binA.add, fl_fl, X.dot n g p hn, fl_sign hg, hpz,
      ← fl_sign hg]
    congr 1
    ring
  unfold distancePointToPolygon
  rw [hplane]
  simp only [hdist, near_ortho X hR h5 hhR hRh HP hz hq hpz hb hnear hnear' hd]
  rw [abs_mul, sign_abs hg, one_mul, ← neg_sub z0, fl_neg, abs_neg]

/-! ## Distances are not smaller than the height -/

theorem norm_height (X : Axis A B f) {w : Vec3 ℝ} {d : ℝ} (h : (f w).z = d) : (1 - 8 / 10 ^ 15) * |d| ≤ A.norm w := by
  have h1 := ((norm_rel A w).le (Vec3.norm_nonneg w)).1
  have h2 := (X.le w).2.2
  rw [h] at h2
  norm_num at h1 ⊢
  linarith

open Classical in
theorem edge_height (X : Axis A B f) (hz : fl z0 = z0) {a b : Vec3 ℝ} (ha : (f a).z = z0) (hb : (f b).z = z0) {d : ℝ}
    (h : distancePointToEdge A p a b = .ok d) : (1 - 8 / 10 ^ 15) * |fl (z0 - (f p).z)| ≤ d := by
  unfold distancePointToEdge at h
  simp only at h
  split_ifs at h
  all_goals (simp only [Except.ok.injEq] at h; rw [← h]; refine norm_height X ?_; rw [X.subv])
  · simp only [subv, X.bin.sub, ha]
  · simp only [subv, X.bin.sub, hb]
  · rw [X.addv, X.scale, X.subv]
    simp only [subv, addv, scale, X.bin.sub, X.bin.add, X.bin.mul, ha, hb, sub_self, fl_zero, mul_zero, add_zero, hz]

theorem edgeMin_height (X : Axis A B f) (hz : fl z0 = z0) : ∀ (edges : List (Vec3 ℝ × Vec3 ℝ)) (m : Option ℝ) {d : ℝ},
    (∀ e ∈ edges, (f e.1).z = z0 ∧ (f e.2).z = z0) → (∀ x, m = some x → (1 - 8 / 10 ^ 15) * |fl (z0 - (f p).z)| ≤ x) →
    edgeMin A p edges m = .ok (some d) → (1 - 8 / 10 ^ 15) * |fl (z0 - (f p).z)| ≤ d
  | [], m, d, _, hm, h => by
    simp only [edgeMin, Except.ok.injEq] at h
    exact hm d h
  | (a, b) :: rest, m, d, he, hm, h => by
    have hab := he (a, b) (by simp)
    unfold edgeMin at h
    split at h
    · simp at h
    · rename_i x hx
      have hx' := edge_height X hz hab.1 hab.2 hx
      have hrest : ∀ e ∈ rest, (f e.1).z = z0 ∧ (f e.2).z = z0 := fun e h => he e (by simp [h])
      split at h
      · refine edgeMin_height X hz rest _ hrest ?_ h
        rintro y ⟨⟩
        exact hx'
      · rename_i y
        refine edgeMin_height X hz rest _ hrest ?_ h
        rintro w ⟨⟩
        split_ifs
        · exact hx'
        · exact hm y rfl

/-- **A calculated distance is not smaller than the height.** -/
theorem distance_height (X : Axis A B f) (hR : R ≤ 1000)
    (HP : LevelPolygon R z0 (pts.map f) tri) (hz : fl z0 = z0) (hpz : fl (f p).z = (f p).z) {d : ℝ}
    (hd : distancePointToPolygon A p pts tri = .ok (some d)) : (1 - 8 / 10 ^ 15) * |fl (z0 - (f p).z)| ≤ d := by
  obtain ⟨n, g, hn, hg, hplane⟩ := plane_exact X hR HP hz
  have hdist : A.div (A.add (A.dot n p) (-(g * z0))) (A.norm n) = g * fl ((f p).z - z0) := by
    rw [X.norm n g hn (sign_rep hg), sign_abs hg, X.binA.div, div_one, X.binA.add, fl_fl, X.dot n g p hn, fl_sign hg, hpz,
      ← fl_sign hg]
    congr 1
    ring
  unfold distancePointToPolygon at hd
  rw [hplane] at hd
  simp only [hdist] at hd
  split at hd
  · simp at hd
  · simp only [Except.ok.injEq, Option.some.injEq] at hd
    rw [← hd, abs_mul, sign_abs hg, one_mul, ← neg_sub z0, fl_neg, abs_neg]
    have := abs_nonneg (fl (z0 - (f p).z))
    linarith
  · split at hd
    · simp at hd
    · rename_i edges he
      refine edgeMin_height X hz edges none ?_ (by simp) hd
      intro e h
      have hne : pts ≠ [] := by
        obtain ⟨_, _, _, _, -, h0, -⟩ := HP.corners
        rintro rfl
        simp at h0
      rw [polygonEdges_eq 0 pts hne, Except.ok.injEq] at he
      rw [← he] at h
      have := PointExact.cycEdges_mem h
      exact ⟨HP.level _ (List.mem_map_of_mem this.1), HP.level _ (List.mem_map_of_mem this.2)⟩

/-! ## Rays that are parallel to the polygon -/

theorem box_off {q : List (Vec3 ℝ)} {t : Vec3 ℝ} (hR : R ≤ 1000) (HP : LevelPolygon R z0 q tri) (hfar : 11 / 1000 ≤ |z0 - t.z|) :
    insideBbox A t q (1 / 100) = .ok false := by
  obtain ⟨l, p0, p1, p2, el, e0, e1, e2, hl, hc⟩ := HP.corners
  have m0 := List.mem_of_getElem? e0
  have hz0 : |z0| ≤ R := by rw [← HP.level p0 m0]; exact (HP.bounded p0 m0).2.2
  obtain ⟨lo, hi, hb, hin, -, -, ⟨pz, hpz, ez⟩, -, -, ⟨qz, hqz, fz⟩⟩ := Bboxes.boundingBox_spec (List.ne_nil_of_mem m0)
  rw [HP.level pz hpz] at ez
  rw [HP.level qz hqz] at fz
  have hlit := (lit_rel A (1 / 100)).le (by norm_num)
  have k1 := abs_le.1 (A.sub_err z0 (A.lit (1 / 100)))
  have k2 := abs_le.1 (A.add_err z0 (A.lit (1 / 100)))
  have k3 := abs_sub z0 (A.lit (1 / 100))
  have k4 := abs_add_le z0 (A.lit (1 / 100))
  have k5 : |A.lit (1 / 100)| ≤ 1 := by
    rw [abs_le]; norm_num at hlit ⊢; constructor <;> linarith [hlit.1, hlit.2]
  unfold insideBbox
  rw [hb]
  refine congrArg Except.ok (decide_eq_false ?_)
  rw [not_not]
  refine .inr (.inr ?_)
  simp only [← ez, ← fz]
  rcases le_abs.1 hfar with h1 | h1
  · left
    norm_num at hlit k1 ⊢
    linarith [hlit.2, k1.1]
  · right
    norm_num at hlit k2 ⊢
    linarith [hlit.2, k2.2]

open Classical in
/-- A ray that is parallel to the polygon and far from its plane does not notice it. -/
theorem parallel_missed (X : Axis A B f) (hR : R ≤ 1000) (HP : LevelPolygon R z0 (pts.map f) tri) (hz : fl z0 = z0)
    (hv : |(f v).z| ≤ 9 / 10 ^ 4) (hfar : 11 / 1000 ≤ |z0 - (f p).z|) :
    isPointInsideProjection A (1 / 1000) p v pts tri = .ok false := by
  obtain ⟨n, g, hn, hg, hplane⟩ := plane_exact X hR HP hz
  have hd := X.den n g v hn
  have hlit := (lit_rel A (1 / 1000)).le (by norm_num)
  have hden : |fl (g * (f v).z)| < A.lit (1 / 1000) := by
    have k := ((fl_rel (g * (f v).z)).abs (by norm_num)).le (abs_nonneg _)
    rw [abs_mul g, sign_abs hg, one_mul] at k
    norm_num at k hlit hv ⊢
    linarith [k.2, hlit.1]
  unfold isPointInsideProjection
  rw [hplane]
  simp only [hd, if_pos hden]
  rw [← X.test]
  unfold pointInPolygonTol
  rw [box_off hR HP hfar]

end B3d.Rounded
