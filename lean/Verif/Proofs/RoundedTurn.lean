import Verif.Proofs.RoundedPass

/-!
# Turning the axes

Polygons in planes perpendicular to the first or the second axis are level polygons after the axes have changed their roles.
-/

namespace B3d.Rounded

open Spec Polygon Triangles

variable {A : Arith} {ε R z0 : ℝ}

/-! ## The computed way to other planes -/

/-- The way from a numerator and a denominator with given errors. -/
theorem way_any (hp : Precise A ε) {g vz f N D : ℝ} (hg : |(|g|) - 1| ≤ 2 / 10 ^ 14) (hR0 : 0 ≤ R) (fR : |f| ≤ 2 * R) (hv : vz ≠ 0)
    (hN : |N - g * f| ≤ 82 / 10 * ε * (|g| * R)) (d0 : Rel (31 / 10 * ε) D (g * vz)) :
    |A.div N D * vz - f| ≤ 18 * (ε * R) := by
  have hε := hp.nonneg
  have hε1 := hp.small
  have hεR := mul_nonneg hε hR0
  have hεεR : ε * (ε * R) ≤ 1 / 10 ^ 15 * (ε * R) := mul_le_mul_of_nonneg_right hε1 hεR
  have hg' := abs_le.1 hg
  have hg0 : 0 < |g| := lt_of_lt_of_le (by norm_num : (0 : ℝ) < 1 - 2 / 10 ^ 14) (by linarith [hg'.1])
  have hgn : g ≠ 0 := abs_pos.1 hg0
  have hε2 : ε * ε ≤ ε / 10 ^ 15 := by
    have := mul_le_mul_of_nonneg_left hε1 hε
    linarith
  have hgv : g * vz ≠ 0 := mul_ne_zero hgn hv
  have hε3 : 31 / 10 * ε < 1 := by norm_num at hε1 ⊢; linarith
  have hD : D ≠ 0 := by
    have := ((d0.abs hε3).pos hε3 (abs_pos.2 hgv))
    exact abs_pos.1 this
  have hs := rel_of_err hε (hp.div N D hD)
  have hi := d0.inv hε3 (g := 32 / 10 * ε) (by norm_num at hε2 hε1 ⊢; nlinarith)
  have q6 : |N / g - f| ≤ 82 / 10 * ε * R := by
    have : N / g - f = (N - g * f) / g := by field_simp
    rw [this, abs_div, div_le_iff₀ hg0]
    linarith
  have q7 : |N / g| ≤ 2 * R + 82 / 10 * ε * R := by
    have := abs_add_le (N / g - f) f
    rw [sub_add_cancel] at this
    linarith
  have hs2 : Rel (43 / 10 * ε) (A.div N D * vz) (N / g) := by
    have h1 : Rel (32 / 10 * ε) (N / D) (N / (g * vz)) := by
      rw [div_eq_mul_inv, div_eq_mul_inv]
      exact Rel.mul (⟨0, by simp, by simp⟩ : Rel 0 N N) hi (by linarith)
    have h2 := hs.trans h1 (g := 43 / 10 * ε) (by norm_num at hε2 ⊢; nlinarith)
    have h3 := h2.mul (⟨0, by simp, by simp⟩ : Rel 0 vz vz) (g := 43 / 10 * ε) (by linarith)
    have e : N / (g * vz) * vz = N / g := by field_simp
    rwa [e] at h3
  have q8 := hs2.err
  have q9 := mul_le_mul_of_nonneg_left q7 (show 0 ≤ 43 / 10 * ε by positivity)
  have := abs_sub_le (A.div N D * vz) (N / g) f
  norm_num at hεεR q9 q6 q8 ⊢
  nlinarith

/-- The numerator: at most one more rounding before and two more after the difference. -/
theorem numerator (hp : Precise A ε) {g pz N1 N : ℝ} {α β : ℝ} (hz : |z0| ≤ R) (hpz : |pz| ≤ R)
    (h1 : Rel α N1 (g * z0)) (h2 : Rel β N (A.sub N1 (A.mul g pz)))
    (hab : α = ε ∧ β = 205 / 100 * ε ∨ α = 205 / 100 * ε ∧ β = ε) : |N - g * (z0 - pz)| ≤ 82 / 10 * ε * (|g| * R) := by
  have hε := hp.nonneg
  have hε1 := hp.small
  have hR0 : 0 ≤ R := (abs_nonneg _).trans hz
  have hg0 := abs_nonneg g
  have m2 := rel_of_err hε (hp.mul g pz)
  set N2 := A.mul g pz
  have hX : 0 ≤ ε * (|g| * R) := by positivity
  have hXX : ε * (ε * (|g| * R)) ≤ 1 / 10 ^ 15 * (ε * (|g| * R)) := mul_le_mul_of_nonneg_right hε1 hX
  have az : |g * z0| ≤ |g| * R := by rw [abs_mul]; exact mul_le_mul_of_nonneg_left hz hg0
  have ap : |g * pz| ≤ |g| * R := by rw [abs_mul]; exact mul_le_mul_of_nonneg_left hpz hg0
  have q2 : |N2 - g * pz| ≤ ε * (|g| * R) := m2.err.trans (mul_le_mul_of_nonneg_left ap hε)
  have gf : |g * (z0 - pz)| ≤ 2 * (|g| * R) := by
    rw [mul_sub]; exact (abs_sub _ _).trans (by linarith)
  have hS := hp.sub N1 N2
  have main : ∀ x y : ℝ, 0 ≤ x → 0 ≤ y → x ≤ 21 / 10 → y ≤ 21 / 10 → α = x * ε → β = y * ε → x + 2 * y ≤ 51 / 10 →
      |N - g * (z0 - pz)| ≤ 82 / 10 * ε * (|g| * R) := by
    intro x y hx hy hx2 hy2 ea eb hxy
    have q1 : |N1 - g * z0| ≤ x * (ε * (|g| * R)) := by
      have := h1.err.trans (mul_le_mul_of_nonneg_left az (by rw [ea]; positivity))
      rw [ea] at this; linarith
    have q1' : x * (ε * (|g| * R)) ≤ 21 / 10 * (ε * (|g| * R)) := mul_le_mul_of_nonneg_right hx2 hX
    have q3 : |(N1 - N2) - g * (z0 - pz)| ≤ (x + 1) * (ε * (|g| * R)) := by
      have : N1 - N2 - g * (z0 - pz) = (N1 - g * z0) - (N2 - g * pz) := by ring
      rw [this]
      exact (abs_sub _ _).trans (by linarith)
    have q4 : |N1 - N2| ≤ 2 * (|g| * R) + (x + 1) * (ε * (|g| * R)) := by
      have := abs_add_le (N1 - N2 - g * (z0 - pz)) (g * (z0 - pz))
      rw [sub_add_cancel] at this
      linarith
    have q5 : |A.sub N1 N2 - g * (z0 - pz)| ≤ (x + 3 + 1 / 100) * (ε * (|g| * R)) := by
      have := abs_sub_le (A.sub N1 N2) (N1 - N2) (g * (z0 - pz))
      have h2 := mul_le_mul_of_nonneg_left (q4.trans (show _ ≤ 2 * (|g| * R) + 4 * (ε * (|g| * R)) by linarith)) hε
      norm_num at hXX h2 ⊢
      nlinarith
    have q6 : |A.sub N1 N2| ≤ 2 * (|g| * R) + 6 * (ε * (|g| * R)) := by
      have := abs_add_le (A.sub N1 N2 - g * (z0 - pz)) (g * (z0 - pz))
      rw [sub_add_cancel] at this
      linarith
    have e3 := h2.err
    rw [eb] at e3
    have q7 := mul_le_mul_of_nonneg_left q6 (show 0 ≤ y * ε by positivity)
    have q8 : y * (ε * (ε * (|g| * R))) ≤ 21 / 10 * (1 / 10 ^ 15 * (ε * (|g| * R))) :=
      mul_le_mul hy2 hXX (by positivity) (by norm_num)
    have q9 : (x + 2 * y) * (ε * (|g| * R)) ≤ 51 / 10 * (ε * (|g| * R)) := mul_le_mul_of_nonneg_right hxy hX
    have := abs_sub_le N (A.sub N1 N2) (g * (z0 - pz))
    linarith
  rcases hab with ⟨ea, eb⟩ | ⟨ea, eb⟩
  · exact main 1 (205 / 100) (by norm_num) (by norm_num) (by norm_num) (by norm_num) (by rw [ea, one_mul]) eb (by norm_num)
  · exact main (205 / 100) 1 (by norm_num) (by norm_num) (by norm_num) (by norm_num) ea (by rw [eb, one_mul]) (by norm_num)

open Classical in
/-- What the ray test does with a level polygon. -/
theorem ray_steps (hp : Precise A ε) {pts : List (Vec3 ℝ)} {tri : List Tri} {p v : Vec3 ℝ} (hR : R ≤ 1000)
    (HP : LevelPolygon R z0 pts tri) (hb : |p.z| ≤ R) (hv : 2 / 1000 ≤ |v.z|) :
    ∃ s : ℝ, |s * v.z - (z0 - p.z)| ≤ 13 * (ε * R) ∧ isPointInsideProjection A (1 / 1000) p v pts tri =
      if s < 0 then .ok false else pointInPolygonTol A (1 / 1000) (addv A p (scale A s v)) pts tri := by
  obtain ⟨l, p0, p1, p2, el, e0, e1, e2, hl, hc⟩ := HP.corners
  have ml := List.mem_of_getLast? el
  have m0 := List.mem_of_getElem? e0
  have m1 := List.mem_of_getElem? e1
  obtain ⟨g, hg, hg1⟩ := level_normal (A := A) hR (HP.bounded l ml) (HP.bounded p0 m0) (HP.bounded p1 m1)
    ((HP.level p0 m0).trans (HP.level l ml).symm) ((HP.level p1 m1).trans (HP.level l ml).symm) hl
  have hz0 : |z0| ≤ R := by rw [← HP.level p0 m0]; exact (HP.bounded p0 m0).2.2
  have hvn : v.z ≠ 0 := by intro h0; rw [h0] at hv; norm_num at hv
  have hvz : 0 < |v.z| := abs_pos.2 hvn
  have hplane : planeCoefficients A pts = .ok (some (⟨0, 0, g⟩, -A.mul g z0)) := by
    unfold planeCoefficients
    rw [el, e0, e1]
    simp only [hg, Option.map_some, projectionCoefficient, A.dot_z, HP.level p0 m0]
  have way := ray_way hp hg1 hz0 hb rfl hvn
  rw [mul_assoc] at way
  have hlit := (lit_rel A (1 / 1000)).le (by norm_num)
  have add0 : A.add 0 0 = 0 := by
    have := add_rel A 0 0; rw [add_zero] at this; exact this.zero
  have hden : ¬ |A.add 0 (A.mul g v.z)| < A.lit (1 / 1000) := by
    have h1 := add_rel A 0 (A.mul g v.z)
    rw [zero_add] at h1
    have h2 := (h1.trans (mul_rel A g v.z) (g := 3 / 10 ^ 15) (by norm_num))
    have h3 := ((h2.abs (by norm_num)).le (abs_nonneg _)).1
    rw [abs_mul] at h3
    have hg' := (abs_le.1 hg1).1
    have h4 : 9 / 10 * |v.z| ≤ |g| * |v.z| := mul_le_mul_of_nonneg_right (by norm_num at hg' ⊢; linarith) hvz.le
    norm_num at h3 hlit ⊢
    linarith [hlit.2]
  refine ⟨_, way, ?_⟩
  unfold isPointInsideProjection
  rw [hplane]
  simp only [zero_mul', add0, neg_neg, if_neg hden]

/-! ## Turned arithmetic -/

/-- The turn back. -/
def back (p : Vec3 ℝ) : Vec3 ℝ := ⟨p.z, p.x, p.y⟩

theorem turn_norm (v : Vec3 ℝ) : Vec3.norm (back v) = Vec3.norm v := by
  unfold Vec3.norm
  congr 1
  simp only [Vec3.normSq_def, back]
  ring

/-- The same arithmetic after the turn. -/
def Arith.turn (A : Arith) : Arith where
  add := A.add
  sub := A.sub
  mul := A.mul
  div := A.div
  norm v := A.norm (back v)
  dot v w := A.dot (back v) (back w)
  lit := A.lit
  round8 := A.round8
  add_err := A.add_err
  sub_err := A.sub_err
  mul_err := A.mul_err
  div_err := A.div_err
  norm_err v := by have := A.norm_err (back v); rwa [turn_norm] at this
  dot_err v w := by
    have h := A.dot_err (back v) (back w)
    have e : Vec3.dot (back v) (back w) = Vec3.dot v w := by simp only [Vec3.dot, back]; ring
    rw [e] at h
    simp only [back] at h ⊢
    linarith
  lit_err := A.lit_err
  round8_err := A.round8_err
  round8_mono := A.round8_mono
  add_grow := A.add_grow
  sub_shrink := A.sub_shrink
  sub_swap := A.sub_swap
  mul_neg := A.mul_neg
  mul_comm := A.mul_comm
  dot_x a w := A.dot_y a (back w)
  dot_y a w := A.dot_z a (back w)
  dot_z a w := A.dot_x a (back w)

theorem Precise.turn (h : Precise A ε) : Precise A.turn ε := ⟨h.nonneg, h.small, h.add, h.sub, h.mul, h.div⟩

variable (A)

theorem turn_subv (p q : Vec3 ℝ) : subv A.turn (roll p) (roll q) = roll (subv A p q) := rfl
theorem turn_addv (p q : Vec3 ℝ) : addv A.turn (roll p) (roll q) = roll (addv A p q) := rfl
theorem turn_scale (s : ℝ) (q : Vec3 ℝ) : scale A.turn s (roll q) = roll (scale A s q) := rfl
theorem turn_divv (p : Vec3 ℝ) (s : ℝ) : divv A.turn (roll p) s = roll (divv A p s) := rfl
theorem turn_cross (p q : Vec3 ℝ) : cross A.turn (roll p) (roll q) = roll (cross A p q) := rfl
theorem turn_length (p : Vec3 ℝ) : A.turn.norm (roll p) = A.norm p := rfl
theorem turn_dot (p q : Vec3 ℝ) : A.turn.dot (roll p) (roll q) = A.dot p q := rfl
theorem turn_lit (x : ℝ) : A.turn.lit x = A.lit x := rfl
theorem turn_add (x y : ℝ) : A.turn.add x y = A.add x y := rfl
theorem turn_isClose (x y r a : ℝ) : isClose A.turn x y r a = isClose A x y r a := rfl
theorem turn_neg (p : Vec3 ℝ) : -roll p = roll (-p) := rfl
theorem turn_zero : roll 0 = 0 := rfl

theorem turn_allClose (p q : Vec3 ℝ) (r a : ℝ) : allClose A.turn (roll p) (roll q) r a = allClose A p q r a :=
  propext ⟨fun ⟨h1, h2, h3⟩ => ⟨h3, h1, h2⟩, fun ⟨h1, h2, h3⟩ => ⟨h2, h3, h1⟩⟩

theorem turn_pointsEqual (p q : Vec3 ℝ) : pointsEqual A.turn (roll p) (roll q) = pointsEqual A p q := by
  exact decide_eq_decide.2 (iff_of_eq (turn_allClose A p q _ _))

theorem turn_unitFrom (p q : Vec3 ℝ) : unitFrom A.turn (roll p) (roll q) = roll (unitFrom A p q) := by
  by_cases h : A.norm (subv A q p) > A.lit EPSILON
  · have h' : A.turn.norm (subv A.turn (roll q) (roll p)) > A.turn.lit EPSILON := h
    exact (if_pos h').trans (congrArg roll (show unitFrom A p q = _ from if_pos h).symm)
  · have h' : ¬ A.turn.norm (subv A.turn (roll q) (roll p)) > A.turn.lit EPSILON := h
    exact (if_neg h').trans (congrArg roll (show unitFrom A p q = _ from if_neg h).symm)

open Classical in
theorem turn_loop (l : List (Vec3 ℝ)) : collinearLoop A.turn (l.map roll) = collinearLoop A l := by
  induction l with
  | nil => rfl
  | cons a t ih =>
    cases t with
    | nil => rfl
    | cons b t =>
      simp only [List.map_cons] at ih ⊢
      simp only [collinearLoop, turn_neg, ih]
      have e : (allClose A.turn (roll b) (roll a) NP_RTOL GEOM_ATOL ∨ allClose A.turn (roll b) (roll (-a)) NP_RTOL GEOM_ATOL) =
        (allClose A b a NP_RTOL GEOM_ATOL ∨ allClose A b (-a) NP_RTOL GEOM_ATOL) := by rw [turn_allClose, turn_allClose]
      exact if_congr (iff_of_eq e) rfl rfl

open Classical in
theorem turn_loopTol (atol : ℝ) (l : List (Vec3 ℝ)) : collinearLoopTol A.turn atol (l.map roll) = collinearLoopTol A atol l := by
  induction l with
  | nil => rfl
  | cons a t ih =>
    cases t with
    | nil => rfl
    | cons b t =>
      simp only [List.map_cons] at ih ⊢
      simp only [collinearLoopTol, turn_neg, ih]
      have e : (allClose A.turn (roll b) (roll a) NP_RTOL atol ∨ allClose A.turn (roll b) (roll (-a)) NP_RTOL atol) =
        (allClose A b a NP_RTOL atol ∨ allClose A b (-a) NP_RTOL atol) := by rw [turn_allClose, turn_allClose]
      exact if_congr (iff_of_eq e) rfl rfl

theorem turn_units (p : Vec3 ℝ) (l : List (Vec3 ℝ)) :
    (l.map roll).map (unitFrom A.turn (roll p)) = (l.map (unitFrom A p)).map roll := by
  simp only [List.map_map]
  exact List.map_congr_left fun q _ => turn_unitFrom A p q

theorem turn_collinear (l : List (Vec3 ℝ)) : arePointsCollinear A.turn (l.map roll) = arePointsCollinear A l := by
  match l with
  | [] => rfl
  | [_] => rfl
  | [_, _] => rfl
  | p0 :: p1 :: p2 :: t =>
    have h := turn_units A p0 (p1 :: p2 :: t)
    simp only [List.map_cons] at h ⊢
    unfold arePointsCollinear
    simp only [List.map_cons, h]
    exact congrArg Except.ok (turn_loop A ((p1 :: p2 :: t).map (unitFrom A p0)))

theorem turn_collinearTol (atol : ℝ) (l : List (Vec3 ℝ)) :
    arePointsCollinearTol A.turn atol (l.map roll) = arePointsCollinearTol A atol l := by
  match l with
  | [] => rfl
  | [_] => rfl
  | [_, _] => rfl
  | p0 :: p1 :: p2 :: t =>
    have h := turn_units A p0 (p1 :: p2 :: t)
    simp only [List.map_cons] at h ⊢
    unfold arePointsCollinearTol
    simp only [List.map_cons, h]
    exact congrArg Except.ok (turn_loopTol A atol ((p1 :: p2 :: t).map (unitFrom A p0)))

theorem turn_normal (p q r : Vec3 ℝ) : normal A.turn (roll p) (roll q) (roll r) = (normal A p q r).map roll := by
  by_cases h : isClose A (A.norm (cross A (subv A q p) (subv A r p))) 0 NP_RTOL NP_ATOL
  · exact (if_pos (show isClose A.turn (A.turn.norm (cross A.turn (subv A.turn (roll q) (roll p)) (subv A.turn (roll r) (roll p)))) 0
      NP_RTOL NP_ATOL from h)).trans (congrArg (Option.map roll) (show normal A p q r = _ from if_pos h).symm)
  · exact (if_neg (show ¬ isClose A.turn (A.turn.norm (cross A.turn (subv A.turn (roll q) (roll p)) (subv A.turn (roll r) (roll p)))) 0
      NP_RTOL NP_ATOL from h)).trans (congrArg (Option.map roll) (show normal A p q r = _ from if_neg h).symm)

theorem turn_firstNormal (l : List (Vec3 ℝ)) : firstNormal A.turn (l.map roll) = (firstNormal A l).map roll := by
  match l with
  | [] => rfl
  | [_] => rfl
  | [_, _] => rfl
  | a :: b :: c :: t =>
    have ih := turn_firstNormal (b :: c :: t)
    simp only [List.map_cons] at ih ⊢
    simp only [firstNormal, turn_normal]
    cases normal A a b c with
    | none => exact ih
    | some v => rfl

theorem turn_coplanarTol (atol : ℝ) (l : List (Vec3 ℝ)) :
    arePointsCoplanarTol A.turn atol (l.map roll) = arePointsCoplanarTol A atol l := by
  cases l with
  | nil => rfl
  | cons r t =>
    have h1 := turn_collinearTol A atol (r :: t)
    have h2 := turn_firstNormal A (r :: t)
    simp only [List.map_cons] at h1 h2 ⊢
    unfold arePointsCoplanarTol
    simp only [List.length_map, h1, h2]
    congr 1
    cases arePointsCollinearTol A atol (r :: t) with
    | error e =>
      cases firstNormal A (r :: t) with
      | none => rfl
      | some vn => simp only [Option.map_some, ← List.map_cons, List.all_map]; rfl
    | ok b =>
      cases b with
      | true => rfl
      | false =>
        cases firstNormal A (r :: t) with
        | none => rfl
        | some vn => simp only [Option.map_some, ← List.map_cons, List.all_map]; rfl

theorem turn_sameSide (a b p r : Vec3 ℝ) :
    isPointOnSameSide A.turn (roll a) (roll b) (roll p) (roll r) = isPointOnSameSide A a b p r := by
  unfold isPointOnSameSide
  simp only [turn_subv, turn_cross, turn_length, turn_divv, turn_lit]
  refine if_congr Iff.rfl rfl (if_congr Iff.rfl rfl (congrArg Except.ok (decide_eq_decide.2 (iff_of_eq (turn_allClose A _ _ _ _)))))

theorem or_turn (a b c : Prop) : (b ∨ c ∨ a) = (a ∨ b ∨ c) := propext (by tauto)

theorem turn_edgeTest (p a b : Vec3 ℝ) : edgeTest A.turn (roll p) (roll a) (roll b) = edgeTest A p a b := by
  have h := turn_collinear A [a, b, p]
  simp only [List.map_cons, List.map_nil] at h
  unfold edgeTest
  rw [h]
  cases arePointsCollinear A [a, b, p] with
  | error e => rfl
  | ok b =>
    cases b with
    | false => rfl
    | true => exact congrArg some (decide_eq_decide.2 (not_congr (iff_of_eq (or_turn _ _ _))))

theorem turn_inBbox (p a b c : Vec3 ℝ) : inBbox A.turn (roll p) (roll a) (roll b) (roll c) = inBbox A p a b c :=
  decide_eq_decide.2 (not_congr (iff_of_eq (or_turn _ _ _)))

theorem turn_isPointInside (p a b c : Vec3 ℝ) :
    isPointInside A.turn (roll p) (roll a) (roll b) (roll c) = isPointInside A p a b c := by
  unfold isPointInside
  simp only [turn_inBbox, turn_pointsEqual, turn_edgeTest, turn_sameSide]

theorem turn_triangles (p : Vec3 ℝ) (pts : List (Vec3 ℝ)) (tri : List Tri) :
    triangleLoop A.turn (roll p) (pts.map roll) true tri = triangleLoop A p pts true tri := by
  induction tri with
  | nil => rfl
  | cons t rest ih =>
    obtain ⟨i, j, k⟩ := t
    simp only [triangleLoop, List.getElem?_map, ih]
    rcases pts[i]? with _ | a <;> rcases pts[j]? with _ | b <;> rcases pts[k]? with _ | c <;> try rfl
    simp only [Option.map_some, turn_isPointInside, if_true]

theorem turn_box (p : Vec3 ℝ) (pts : List (Vec3 ℝ)) (a : ℝ) : insideBbox A.turn (roll p) (pts.map roll) a = insideBbox A p pts a := by
  cases pts with
  | nil => rfl
  | cons q t =>
    have hx : (List.map roll t).map (·.x) = t.map (·.y) := by rw [List.map_map]; rfl
    have hy : (List.map roll t).map (·.y) = t.map (·.z) := by rw [List.map_map]; rfl
    have hz : (List.map roll t).map (·.z) = t.map (·.x) := by rw [List.map_map]; rfl
    unfold insideBbox Bboxes.boundingBox
    simp only [List.map_cons, hx, hy, hz]
    exact congrArg Except.ok (decide_eq_decide.2 (not_congr (iff_of_eq (or_turn _ _ _))))

/-- The test of a point against a polygon does not depend on the roles of the axes. -/
theorem turn_polygon (atol : ℝ) (p : Vec3 ℝ) (pts : List (Vec3 ℝ)) (tri : List Tri) :
    pointInPolygonTol A.turn atol (roll p) (pts.map roll) tri = pointInPolygonTol A atol p pts tri := by
  have e : pts.map roll ++ [roll p] = (pts ++ [p]).map roll := by simp
  unfold pointInPolygonTol
  simp only [turn_box, e, turn_coplanarTol, turn_triangles]

/-! ## Rays and walls -/

variable {A}

theorem Rel.grow {e e' x y : ℝ} (h : Rel e x y) (he : e ≤ e') : Rel e' x y := by
  obtain ⟨d, hd, e⟩ := h
  exact ⟨d, hd.trans he, e⟩

/-- The denominator is not taken for zero. -/
theorem not_flat {g w D : ℝ} (hg1 : |(|g|) - 1| ≤ 2 / 10 ^ 14) (hw : 2 / 1000 ≤ |w|) (hD : Rel (4 / 10 ^ 15) D (g * w)) :
    ¬ |D| < A.lit (1 / 1000) := by
  have hlit := (lit_rel A (1 / 1000)).le (by norm_num)
  have h3 := ((hD.abs (by norm_num)).le (abs_nonneg _)).1
  rw [abs_mul] at h3
  have hg' := (abs_le.1 hg1).1
  have h4 : 9 / 10 * |w| ≤ |g| * |w| := mul_le_mul_of_nonneg_right (by norm_num at hg' ⊢; linarith) (abs_nonneg _)
  norm_num at h3 hlit ⊢
  linarith [hlit.2]

open Classical in
/-- What the ray test does with a wall perpendicular to the first axis. -/
theorem ray_steps_x (hp : Precise A ε) {pts : List (Vec3 ℝ)} {tri : List Tri} {p v : Vec3 ℝ} (hR : R ≤ 1000)
    (HP : LevelPolygon R z0 (pts.map roll) tri) (hb : |p.x| ≤ R) (hv : 2 / 1000 ≤ |v.x|) :
    ∃ s : ℝ, |s * v.x - (z0 - p.x)| ≤ 18 * (ε * R) ∧ isPointInsideProjection A (1 / 1000) p v pts tri =
      if s < 0 then .ok false else pointInPolygonTol A (1 / 1000) (addv A p (scale A s v)) pts tri := by
  obtain ⟨l', p0', p1', p2', el, e0, e1, -, hl, -⟩ := HP.corners
  have ml := List.mem_of_getLast? el
  have m0 := List.mem_of_getElem? e0
  have m1 := List.mem_of_getElem? e1
  obtain ⟨g, hg, hg1⟩ := level_normal (A := A.turn) hR (HP.bounded l' ml) (HP.bounded p0' m0) (HP.bounded p1' m1)
    ((HP.level p0' m0).trans (HP.level l' ml).symm) ((HP.level p1' m1).trans (HP.level l' ml).symm) hl
  have hz0 : |z0| ≤ R := by rw [← HP.level p0' m0]; exact (HP.bounded p0' m0).2.2
  have hz := HP.level p0' m0
  rw [List.getLast?_map, Option.map_eq_some_iff] at el
  rw [List.getElem?_map, Option.map_eq_some_iff] at e0 e1
  obtain ⟨l, el, rfl⟩ := el
  obtain ⟨p0, e0, rfl⟩ := e0
  obtain ⟨p1, e1, rfl⟩ := e1
  rw [turn_normal, Option.map_eq_some_iff] at hg
  obtain ⟨n, hn, hng⟩ := hg
  have en : n = ⟨g, 0, 0⟩ := by
    simp only [roll, Vec3.ext_iff] at hng
    ext
    · exact hng.2.2
    · exact hng.1
    · exact hng.2.1
  rw [en] at hn
  have hvn : v.x ≠ 0 := by intro h0; rw [h0] at hv; norm_num at hv
  have hR0 : 0 ≤ R := (abs_nonneg _).trans hz0
  have hε := hp.nonneg
  have hε1 := hp.small
  have hε2 : ε * ε ≤ ε / 10 ^ 15 := by
    have := mul_le_mul_of_nonneg_left hε1 hε
    linarith
  have hplane : planeCoefficients A pts = .ok (some (⟨g, 0, 0⟩, -A.mul g z0)) := by
    unfold planeCoefficients
    rw [el, e0, e1]
    simp only [hn, Option.map_some, projectionCoefficient, A.dot_x, show p0.x = z0 from hz]
  have sub0 : ∀ x, Rel ε (A.sub x 0) x := fun x => by
    have := rel_of_err hε (hp.sub x 0)
    rwa [sub_zero] at this
  have add0 : ∀ x, Rel ε (A.add x 0) x := fun x => by
    have := rel_of_err hε (hp.add x 0)
    rwa [add_zero] at this
  have hD : Rel (31 / 10 * ε) (A.add (A.add (A.mul g v.x) 0) 0) (g * v.x) :=
    (((add0 _).trans (add0 _) (g := 205 / 100 * ε) (by norm_num at hε2 ⊢; nlinarith)).trans
      (rel_of_err hε (hp.mul g v.x)) (by norm_num at hε2 ⊢; nlinarith))
  have hN := numerator hp hz0 hb (rel_of_err hε (hp.mul g z0))
    ((sub0 (A.sub (A.sub (A.mul g z0) (A.mul g p.x)) 0)).trans (sub0 _) (g := 205 / 100 * ε) (by norm_num at hε2 ⊢; nlinarith))
    (.inl ⟨rfl, rfl⟩)
  have fR : |z0 - p.x| ≤ 2 * R := (abs_sub _ _).trans (by linarith)
  refine ⟨_, way_any hp hg1 hR0 fR hvn hN hD, ?_⟩
  unfold isPointInsideProjection
  rw [hplane]
  simp only [zero_mul', neg_neg, if_neg (not_flat (A := A) hg1 hv (hD.grow (by norm_num at hε1 ⊢; linarith)))]

open Classical in
/-- What the ray test does with a wall perpendicular to the second axis. -/
theorem ray_steps_y (hp : Precise A ε) {pts : List (Vec3 ℝ)} {tri : List Tri} {p v : Vec3 ℝ} (hR : R ≤ 1000)
    (HP : LevelPolygon R z0 ((pts.map roll).map roll) tri) (hb : |p.y| ≤ R) (hv : 2 / 1000 ≤ |v.y|) :
    ∃ s : ℝ, |s * v.y - (z0 - p.y)| ≤ 18 * (ε * R) ∧ isPointInsideProjection A (1 / 1000) p v pts tri =
      if s < 0 then .ok false else pointInPolygonTol A (1 / 1000) (addv A p (scale A s v)) pts tri := by
  obtain ⟨l', p0', p1', p2', el, e0, e1, -, hl, -⟩ := HP.corners
  have ml := List.mem_of_getLast? el
  have m0 := List.mem_of_getElem? e0
  have m1 := List.mem_of_getElem? e1
  obtain ⟨g, hg, hg1⟩ := level_normal (A := A.turn.turn) hR (HP.bounded l' ml) (HP.bounded p0' m0) (HP.bounded p1' m1)
    ((HP.level p0' m0).trans (HP.level l' ml).symm) ((HP.level p1' m1).trans (HP.level l' ml).symm) hl
  have hz0 : |z0| ≤ R := by rw [← HP.level p0' m0]; exact (HP.bounded p0' m0).2.2
  have hz := HP.level p0' m0
  rw [List.map_map, List.getLast?_map, Option.map_eq_some_iff] at el
  rw [List.map_map, List.getElem?_map, Option.map_eq_some_iff] at e0 e1
  obtain ⟨l, el, rfl⟩ := el
  obtain ⟨p0, e0, rfl⟩ := e0
  obtain ⟨p1, e1, rfl⟩ := e1
  simp only [Function.comp_apply, turn_normal, Option.map_map] at hg
  rw [Option.map_eq_some_iff] at hg
  obtain ⟨n, hn, hng⟩ := hg
  have en : n = ⟨0, g, 0⟩ := by
    simp only [Function.comp_apply, roll, Vec3.ext_iff] at hng
    ext
    · exact hng.2.1
    · exact hng.2.2
    · exact hng.1
  rw [en] at hn
  have hvn : v.y ≠ 0 := by intro h0; rw [h0] at hv; norm_num at hv
  have hR0 : 0 ≤ R := (abs_nonneg _).trans hz0
  have hε := hp.nonneg
  have hε1 := hp.small
  have hε2 : ε * ε ≤ ε / 10 ^ 15 := by
    have := mul_le_mul_of_nonneg_left hε1 hε
    linarith
  have hplane : planeCoefficients A pts = .ok (some (⟨0, g, 0⟩, -A.mul g z0)) := by
    unfold planeCoefficients
    rw [el, e0, e1]
    simp only [hn, Option.map_some, projectionCoefficient, A.dot_y, show p0.y = z0 from hz]
  have sub0 : ∀ x, Rel ε (A.sub x 0) x := fun x => by
    have := rel_of_err hε (hp.sub x 0)
    rwa [sub_zero] at this
  have add0 : ∀ x, Rel ε (A.add x 0) x := fun x => by
    have := rel_of_err hε (hp.add x 0)
    rwa [add_zero] at this
  have add1 : ∀ x, Rel ε (A.add 0 x) x := fun x => by
    have := rel_of_err hε (hp.add 0 x)
    rwa [zero_add] at this
  have hD : Rel (31 / 10 * ε) (A.add (A.add 0 (A.mul g v.y)) 0) (g * v.y) :=
    (((add0 _).trans (add1 _) (g := 205 / 100 * ε) (by norm_num at hε2 ⊢; nlinarith)).trans
      (rel_of_err hε (hp.mul g v.y)) (by norm_num at hε2 ⊢; nlinarith))
  have hN := numerator hp hz0 hb
    ((sub0 _).trans (rel_of_err hε (hp.mul g z0)) (g := 205 / 100 * ε) (by norm_num at hε2 ⊢; nlinarith))
    (sub0 (A.sub (A.sub (A.mul g z0) 0) (A.mul g p.y))) (.inr ⟨rfl, rfl⟩)
  have fR : |z0 - p.y| ≤ 2 * R := (abs_sub _ _).trans (by linarith)
  refine ⟨_, way_any hp hg1 hR0 fR hvn hN hD, ?_⟩
  unfold isPointInsideProjection
  rw [hplane]
  simp only [zero_mul', neg_neg, if_neg (not_flat (A := A) hg1 hv (hD.grow (by norm_num at hε1 ⊢; linarith)))]

open Classical in
/-- What the ray test does with a polygon perpendicular to one of the axes, seen along that axis. -/
theorem ray_steps_any (hp : Precise A ε) {f : Vec3 ℝ → Vec3 ℝ} (hf : AlongAxis f) {pts : List (Vec3 ℝ)}
    {tri : List Tri} {p v : Vec3 ℝ} (hR : R ≤ 1000) (HP : LevelPolygon R z0 (pts.map f) tri) (hb : |(f p).z| ≤ R)
    (hv : 2 / 1000 ≤ |(f v).z|) :
    ∃ B : Arith, Precise B ε ∧ ∃ s : ℝ, |s * (f v).z - (z0 - (f p).z)| ≤ 18 * (ε * R) ∧
      isPointInsideProjection A (1 / 1000) p v pts tri =
        if s < 0 then .ok false else pointInPolygonTol B (1 / 1000) (addv B (f p) (scale B s (f v))) (pts.map f) tri := by
  rcases hf with rfl | rfl | rfl
  · rw [List.map_id] at HP ⊢
    obtain ⟨s, way, e⟩ := ray_steps hp hR HP hb hv
    have hR0 : 0 ≤ R := (abs_nonneg _).trans hb
    have := mul_nonneg hp.nonneg hR0
    exact ⟨A, hp, s, way.trans (by linarith), e⟩
  · obtain ⟨s, way, e⟩ := ray_steps_x hp hR HP hb hv
    refine ⟨A.turn, hp.turn, s, way, ?_⟩
    rw [e, turn_scale, turn_addv, turn_polygon]
  · rw [← List.map_map] at HP ⊢
    obtain ⟨s, way, e⟩ := ray_steps_y hp hR HP hb hv
    refine ⟨A.turn.turn, hp.turn.turn, s, way, ?_⟩
    rw [e]
    simp only [Function.comp_apply]
    rw [turn_scale, turn_scale, turn_addv, turn_addv, turn_polygon, turn_polygon]

end B3d.Rounded
