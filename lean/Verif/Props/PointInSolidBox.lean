import Verif.Props.PointInSolid

/-! # C74 for boxes -/

namespace B3d.Solids

open Spec Polygon Triangles Points Enclose

/-! ## Rectangular faces -/

/-- A rectangular face, as the constructor of boxes makes it. -/
structure RectFace (P : Poly) (a u w e : Vec3 ℝ) : Prop where
  pts : P.pts = [a, a + u, a + u + w, a + w]
  tri : P.tri = [(3, 0, 1), (3, 1, 2)]
  new : ∃ pts vn, polygonNew pts none vn = .ok P
  vn : P.vn = some e
  perp : Vec3.dot u w = 0
  cross : Vec3.cross u w = (Vec3.norm u * Vec3.norm w) • e
  unit : Vec3.norm e = 1
  leu : 1 / 1000 ≤ Vec3.norm u
  lew : 1 / 1000 ≤ Vec3.norm w
  ratio : Vec3.norm u ≤ 10000 * Vec3.norm w

namespace RectFace

variable {P : Poly} {a u w e : Vec3 ℝ} (h : RectFace P a u w e)
include h

theorem pos : 0 < Vec3.norm u ∧ 0 < Vec3.norm w :=
  ⟨lt_of_lt_of_le (by norm_num) h.leu, lt_of_lt_of_le (by norm_num) h.lew⟩

theorem dots : Vec3.dot e u = 0 ∧ Vec3.dot e w = 0 := by
  have hk : Vec3.norm u * Vec3.norm w ≠ 0 := mul_ne_zero h.pos.1.ne' h.pos.2.ne'
  have h1 : Vec3.dot (Vec3.cross u w) u = 0 := by simp only [Vec3.dot, Vec3.cross]; ring
  have h2 : Vec3.dot (Vec3.cross u w) w = 0 := by simp only [Vec3.dot, Vec3.cross]; ring
  rw [h.cross, Vec3.dot_smul_left] at h1 h2
  exact ⟨(mul_eq_zero.1 h1).resolve_left hk, (mul_eq_zero.1 h2).resolve_left hk⟩

theorem plane : ∀ p ∈ P.pts, Vec3.dot e p = Vec3.dot e a := by
  obtain ⟨h1, h2⟩ := h.dots
  intro p hp
  rw [h.pts] at hp
  simp only [List.mem_cons, List.not_mem_nil, or_false] at hp
  rcases hp with rfl | rfl | rfl | rfl <;> simp only [Vec3.dot_add_right, h1, h2, add_zero]

theorem big : 1 / 10 ^ 8 < Vec3.norm (Vec3.cross u w) := by
  rw [h.cross, Vec3.norm_smul, h.unit, mul_one, abs_of_pos (mul_pos h.pos.1 h.pos.2)]
  have := mul_le_mul h.leu h.lew (by norm_num) h.pos.1.le
  exact lt_of_lt_of_le (by norm_num) this

theorem face : Face P e e (Vec3.dot e a) := by
  refine ⟨h.new, h.vn, h.plane, h.unit, a + w, a, a + u, by rw [h.pts]; rfl, by rw [h.pts]; rfl, by rw [h.pts]; rfl, ?_⟩
  have e1 : Vec3.cross (a - (a + w)) (a + u - (a + w)) = Vec3.cross u w := by
    ext <;> simp <;> ring
  rw [e1]
  refine ⟨h.big, ?_⟩
  rw [h.cross, Vec3.norm_smul, h.unit, mul_one, abs_of_pos (mul_pos h.pos.1 h.pos.2)]

theorem spans : SpansPlane P.pts := by
  obtain ⟨p1, p2⟩ := h.pos
  have hu : Vec3.normSq u = Vec3.norm u ^ 2 := (Vec3.norm_sq u).symm
  have hw : Vec3.normSq w = Vec3.norm w ^ 2 := (Vec3.norm_sq w).symm
  have hsum : Vec3.normSq (u + w) = Vec3.norm u ^ 2 + Vec3.norm w ^ 2 := by
    rw [← hu, ← hw]
    have : Vec3.normSq (u + w) = Vec3.normSq u + Vec3.normSq w + 2 * Vec3.dot u w := by
      simp only [Vec3.normSq, Vec3.dot, Vec3.add_x, Vec3.add_y, Vec3.add_z]; ring
    rw [this, h.perp]; ring
  have e1 : a + u + w - a = u + w := by abel
  have e2 : a + u - a = u := by abel
  refine ⟨⟨0, a, a + u, a + u + w, by rw [h.pts]; rfl, by rw [h.pts]; rfl, by rw [h.pts]; rfl, ?_⟩,
    0, a, a + u, a + u + w, by rw [h.pts]; rfl, by rw [h.pts]; rfl, by rw [h.pts]; rfl, ?_, ?_, ?_⟩
  · have : Vec3.cross (a + u - a) (a + u + w - a) = Vec3.cross u w := by ext <;> simp <;> ring
    rw [this]; exact h.big
  · rw [e2]; exact le_trans (by norm_num) h.leu
  · rw [e1]
    apply Vec3.le_norm_of_sq
    rw [hsum]
    have := h.leu
    nlinarith [sq_nonneg (Vec3.norm w)]
  · rw [e1, e2, hsum, hu]
    have : Vec3.dot u (u + w) = Vec3.norm u ^ 2 := by
      rw [Vec3.dot_add_right, h.perp, add_zero, ← hu, Vec3.normSq]
    rw [this]
    have hr : Vec3.norm u ^ 2 ≤ 10 ^ 8 * Vec3.norm w ^ 2 := by
      have := pow_le_pow_left₀ p1.le h.ratio 2
      nlinarith
    have h0 : 0 ≤ Vec3.norm u ^ 2 := by positivity
    have h1 : Vec3.norm u ^ 2 ≤ (1 - 4 / 10 ^ 9) * (Vec3.norm u ^ 2 + Vec3.norm w ^ 2) := by linarith
    have := mul_le_mul_of_nonneg_left h1 h0
    linarith

theorem triangleWith {R : Vec3 ℝ → Vec3 ℝ → Vec3 ℝ → Prop} :
    (TriangleWith P.pts (3, 0, 1) R ↔ R (a + w) a (a + u)) ∧ (TriangleWith P.pts (3, 1, 2) R ↔ R (a + w) (a + u) (a + u + w)) := by
  rw [h.pts]
  constructor
  · exact triangleWith_eq rfl rfl rfl
  · exact triangleWith_eq rfl rfl rfl

/-- Coordinates along the sides are unique. -/
theorem coords {α β α' β' : ℝ} (he : α • u + β • w = α' • u + β' • w) : α = α' ∧ β = β' := by
  have hu : Vec3.dot u u ≠ 0 := by
    rw [show Vec3.dot u u = Vec3.normSq u from rfl, ← Vec3.norm_sq]
    exact pow_ne_zero _ h.pos.1.ne'
  have hw : Vec3.dot w w ≠ 0 := by
    rw [show Vec3.dot w w = Vec3.normSq w from rfl, ← Vec3.norm_sq]
    exact pow_ne_zero _ h.pos.2.ne'
  have h1 := congrArg (Vec3.dot u) he
  have h2 := congrArg (Vec3.dot w) he
  simp only [Vec3.dot_add_right, Vec3.dot_smul_right, h.perp, Vec3.dot_comm w u, mul_zero, add_zero, zero_add] at h1 h2
  exact ⟨mul_right_cancel₀ hu h1, mul_right_cancel₀ hw h2⟩

omit h in
theorem in_first {α β : ℝ} (h1 : 0 ≤ α) (h2 : 0 ≤ β) (h3 : α + β ≤ 1) :
    InTriangle (a + w) a (a + u) (a + (α • u + β • w)) :=
  ⟨β, 1 - α - β, α, h2, by linarith, h1, by ring, by ext <;> simp <;> ring⟩

omit h in
theorem in_second {α β : ℝ} (h1 : α ≤ 1) (h2 : β ≤ 1) (h3 : 1 ≤ α + β) :
    InTriangle (a + w) (a + u) (a + u + w) (a + (α • u + β • w)) :=
  ⟨1 - α, 1 - β, α + β - 1, by linarith, by linarith, by linarith, by ring, by ext <;> simp <;> ring⟩

omit h in
theorem of_first {y : Vec3 ℝ} (hy : InTriangle (a + w) a (a + u) y) :
    ∃ α β : ℝ, 0 ≤ α ∧ 0 ≤ β ∧ α + β ≤ 1 ∧ y = a + (α • u + β • w) := by
  obtain ⟨r, s, t, hr, hs, ht, hsum, rfl⟩ := hy
  have : s = 1 - r - t := by linarith
  exact ⟨t, r, ht, hr, by linarith, by rw [this]; ext <;> simp <;> ring⟩

omit h in
theorem of_second {y : Vec3 ℝ} (hy : InTriangle (a + w) (a + u) (a + u + w) y) :
    ∃ α β : ℝ, α ≤ 1 ∧ β ≤ 1 ∧ 1 ≤ α + β ∧ y = a + (α • u + β • w) := by
  obtain ⟨r, s, t, hr, hs, ht, hsum, rfl⟩ := hy
  have : t = 1 - r - s := by linarith
  exact ⟨1 - r, 1 - s, by linarith, by linarith, by linarith, by rw [this]; ext <;> simp <;> ring⟩

/-- The face is the rectangle. -/
theorem region_iff {y : Vec3 ℝ} : Region P.pts P.tri y ↔
    ∃ α β : ℝ, 0 ≤ α ∧ α ≤ 1 ∧ 0 ≤ β ∧ β ≤ 1 ∧ y = a + (α • u + β • w) := by
  constructor
  · rintro ⟨t, ht, hy⟩
    rw [h.tri] at ht
    simp only [List.mem_cons, List.not_mem_nil, or_false] at ht
    rcases ht with rfl | rfl
    · obtain ⟨α, β, h1, h2, h3, he⟩ := of_first (h.triangleWith.1.1 hy)
      exact ⟨α, β, h1, by linarith, h2, by linarith, he⟩
    · obtain ⟨α, β, h1, h2, h3, he⟩ := of_second (h.triangleWith.2.1 hy)
      exact ⟨α, β, by linarith, h1, by linarith, h2, he⟩
  · rintro ⟨α, β, h1, h2, h3, h4, rfl⟩
    rcases le_total (α + β) 1 with h5 | h5
    · exact ⟨(3, 0, 1), by rw [h.tri]; simp, h.triangleWith.1.2 (in_first h1 h3 h5)⟩
    · exact ⟨(3, 1, 2), by rw [h.tri]; simp, h.triangleWith.2.2 (in_second h2 h4 h5)⟩

theorem norm_comb (s t : ℝ) : Vec3.normSq (s • u + t • w) = (s * Vec3.norm u) ^ 2 + (t * Vec3.norm w) ^ 2 := by
  have : Vec3.normSq (s • u + t • w) = s ^ 2 * Vec3.normSq u + t ^ 2 * Vec3.normSq w + 2 * s * t * Vec3.dot u w := by
    simp only [Vec3.normSq, Vec3.dot, Vec3.add_x, Vec3.add_y, Vec3.add_z, Vec3.smul_x, Vec3.smul_y, Vec3.smul_z]; ring
  rw [this, h.perp, ← Vec3.norm_sq, ← Vec3.norm_sq]
  ring

/-- A point of the rectangle, away from its edges and the diagonal, is well inside one of the triangles. -/
theorem hits {x v : Vec3 ℝ} {s α β m : ℝ} (hs : 0 ≤ s) (hy : x + s • v = a + (α • u + β • w))
    (a0 : m ≤ α * Vec3.norm u) (a1 : m ≤ (1 - α) * Vec3.norm u) (b0 : m ≤ β * Vec3.norm w)
    (b1 : m ≤ (1 - β) * Vec3.norm w) (hd : AwayFromLine (a + w) (a + u) (x + s • v) m)
    (hm : 1 / 10 ^ 6 ≤ m) (hmu : 1 / 10 ^ 4 * (Vec3.norm u + Vec3.norm w) ≤ m) : RayHits P x v := by
  obtain ⟨p1, p2⟩ := h.pos
  have hm0 : 0 < m := lt_of_lt_of_le (by norm_num) hm
  have ha0 : 0 < α := by by_contra hc; nlinarith
  have ha1 : α < 1 := by by_contra hc; nlinarith
  have hb0 : 0 < β := by by_contra hc; nlinarith
  have hb1 : β < 1 := by by_contra hc; nlinarith
  have hmax : max (1 / 10 ^ 6) (1 / 10 ^ 4 * (Vec3.norm u + Vec3.norm w)) ≤ m := max_le hm hmu
  have away : ∀ p q y : Vec3 ℝ, AwayFromLine p q y m →
      AwayFromLine p q y (max (1 / 10 ^ 6) (1 / 10 ^ 4 * (Vec3.norm u + Vec3.norm w))) := fun p q y hh t =>
    hmax.trans (hh t)
  have swap : ∀ p q y : Vec3 ℝ, AwayFromLine p q y m → AwayFromLine q p y m := by
    intro p q y hh t
    have e1 : q + t • (p - q) = p + (1 - t) • (q - p) := by ext <;> simp <;> ring
    rw [e1]
    exact hh (1 - t)
  have le1 : Vec3.norm (w - u) ≤ Vec3.norm u + Vec3.norm w := by
    rw [add_comm]; exact Vec3.norm_sub_le w u
  have le2 : Vec3.norm (u - w) ≤ Vec3.norm u + Vec3.norm w := Vec3.norm_sub_le u w
  have leu : Vec3.norm u ≤ Vec3.norm u + Vec3.norm w := by linarith
  have lew : Vec3.norm w ≤ Vec3.norm u + Vec3.norm w := by linarith
  have nu : Vec3.norm (-u) ≤ Vec3.norm u + Vec3.norm w := by rw [Vec3.norm_neg]; exact leu
  have nw : Vec3.norm (-w) ≤ Vec3.norm u + Vec3.norm w := by rw [Vec3.norm_neg]; exact lew
  have bot : AwayFromLine a (a + u) (x + s • v) m := by
    intro t
    have e1 : x + s • v - (a + t • (a + u - a)) = (α - t) • u + β • w := by
      rw [hy]; ext <;> simp <;> ring
    rw [e1]
    apply Vec3.le_norm_of_sq
    rw [h.norm_comb]
    nlinarith [sq_nonneg ((α - t) * Vec3.norm u)]
  have left : AwayFromLine (a + w) a (x + s • v) m := by
    intro t
    have e1 : x + s • v - (a + w + t • (a - (a + w))) = α • u + (β - 1 + t) • w := by
      rw [hy]; ext <;> simp <;> ring
    rw [e1]
    apply Vec3.le_norm_of_sq
    rw [h.norm_comb]
    nlinarith [sq_nonneg ((β - 1 + t) * Vec3.norm w)]
  have right : AwayFromLine (a + u) (a + u + w) (x + s • v) m := by
    intro t
    have e1 : x + s • v - (a + u + t • (a + u + w - (a + u))) = (α - 1) • u + (β - t) • w := by
      rw [hy]; ext <;> simp <;> ring
    rw [e1]
    apply Vec3.le_norm_of_sq
    rw [h.norm_comb]
    nlinarith [sq_nonneg ((β - t) * Vec3.norm w)]
  have top : AwayFromLine (a + u + w) (a + w) (x + s • v) m := by
    intro t
    have e1 : x + s • v - (a + u + w + t • (a + w - (a + u + w))) = (α - 1 + t) • u + (β - 1) • w := by
      rw [hy]; ext <;> simp <;> ring
    rw [e1]
    apply Vec3.le_norm_of_sq
    rw [h.norm_comb]
    nlinarith [sq_nonneg ((α - 1 + t) * Vec3.norm u)]
  have hne : α + β ≠ 1 := by
    intro h1
    have := hd α
    have e1 : x + s • v - (a + w + α • (a + u - (a + w))) = 0 := by
      have : β = 1 - α := by linarith
      rw [hy, this]; ext <;> simp <;> ring
    rw [e1, Vec3.norm_eq_zero.2 rfl] at this
    linarith
  rcases lt_or_gt_of_ne hne with hlt | hgt
  · refine ⟨s, hs, [], (3, 0, 1), [(3, 1, 2)], h.tri, h.triangleWith.1.2 ?_, ?_⟩
    · refine ⟨by rw [hy]; exact in_first ha0.le hb0.le hlt.le, Vec3.norm u + Vec3.norm w, ?_, ?_, ?_, away _ _ _ left,
        away _ _ _ bot, away _ _ _ (swap _ _ _ hd)⟩
      · rw [show a - (a + w) = -w by abel]; exact nw
      · rw [show a + u - a = u by abel]; exact leu
      · rw [show a + w - (a + u) = w - u by abel]; exact le1
    · intro t' ht'
      simp only [List.nil_append, List.mem_cons, List.not_mem_nil, or_false] at ht'
      subst ht'
      rw [h.triangleWith.2]
      intro hin
      obtain ⟨α', β', -, -, h3, he⟩ := of_second hin
      rw [hy] at he
      obtain ⟨rfl, rfl⟩ := h.coords (add_left_cancel he)
      linarith
  · refine ⟨s, hs, [(3, 0, 1)], (3, 1, 2), [], h.tri, h.triangleWith.2.2 ?_, ?_⟩
    · refine ⟨by rw [hy]; exact in_second ha1.le hb1.le hgt.le, Vec3.norm u + Vec3.norm w, ?_, ?_, ?_, away _ _ _ hd,
        away _ _ _ right, away _ _ _ top⟩
      · rw [show a + u - (a + w) = u - w by abel]; exact le2
      · rw [show a + u + w - (a + u) = w by abel]; exact lew
      · rw [show a + w - (a + u + w) = -u by abel]; exact nu
    · intro t' ht'
      simp only [List.append_nil, List.mem_cons, List.not_mem_nil, or_false] at ht'
      subst ht'
      rw [h.triangleWith.1]
      intro hin
      obtain ⟨α', β', -, -, h3, he⟩ := of_first hin
      rw [hy] at he
      obtain ⟨rfl, rfl⟩ := h.coords (add_left_cancel he)
      linarith

omit h in
/-- The ray runs away from the face. -/
theorem misses_behind {x v : Vec3 ℝ} (h1 : Vec3.dot e v < 0) (h2 : Vec3.dot e x < Vec3.dot e a) (d : ℝ) :
    RayMisses P e (Vec3.dot e a) x v d := by
  intro s hs hp
  rw [Vec3.dot_add_right, Vec3.dot_smul_right] at hp
  nlinarith

/-- The ray has left through another face before. -/
theorem misses_other {x v e' : Vec3 ℝ} {s b m d : ℝ} (hu : Vec3.norm e' = 1) (hb : ∀ p ∈ P.pts, Vec3.dot e' p ≤ b)
    (h1 : 0 < Vec3.dot e v) (h2 : 3 / 20 * Vec3.dot e v ≤ Vec3.dot e' v) (hx : Vec3.dot e' (x + s • v) = b)
    (hm : Vec3.dot e (x + s • v) ≤ Vec3.dot e a - m) (hd : d < 3 / 20 * m) (hm0 : 0 ≤ m) :
    RayMisses P e (Vec3.dot e a) x v d := by
  rintro t ht hp ⟨y, hy, hn⟩
  have hyb : Vec3.dot e' y ≤ b := by
    obtain ⟨α, β, a0, a1, b0, b1, rfl⟩ := h.region_iff.1 hy
    have q0 := hb a (by rw [h.pts]; simp)
    have q1 := hb (a + u) (by rw [h.pts]; simp)
    have q2 := hb (a + u + w) (by rw [h.pts]; simp)
    have q3 := hb (a + w) (by rw [h.pts]; simp)
    simp only [Vec3.dot_add_right, Vec3.dot_smul_right] at q1 q2 q3 ⊢
    have r0 := mul_nonneg (sub_nonneg.2 a1) (sub_nonneg.2 b1)
    have r1 := mul_nonneg a0 (sub_nonneg.2 b1)
    have r2 := mul_nonneg (sub_nonneg.2 a1) b0
    have r3 := mul_nonneg a0 b0
    nlinarith [mul_le_mul_of_nonneg_left q0 r0, mul_le_mul_of_nonneg_left q1 r1, mul_le_mul_of_nonneg_left q2 r3,
      mul_le_mul_of_nonneg_left q3 r2]
  have h3 : Vec3.dot e' (x + t • v - y) ≤ d := by
    have := Vec3.abs_dot_le e' (x + t • v - y)
    rw [hu, one_mul] at this
    exact (le_abs_self _).trans (this.trans hn)
  simp only [Vec3.dot_add_right, Vec3.dot_smul_right, Vec3.dot_sub_right] at hx hm hp h3
  have h4 : m ≤ (t - s) * Vec3.dot e v := by nlinarith
  have h5 : 0 ≤ t - s := by
    by_contra hc
    push Not at hc
    nlinarith
  nlinarith [mul_le_mul_of_nonneg_left h2 h5]

end RectFace

/-! ## The faces of a box -/

theorem norm_x (a : ℝ) (ha : 0 < a) : Vec3.norm (⟨a, 0, 0⟩ : Vec3 ℝ) = a ∧ Vec3.norm (⟨0, a, 0⟩ : Vec3 ℝ) = a ∧
    Vec3.norm (⟨0, 0, a⟩ : Vec3 ℝ) = a := by
  refine ⟨?_, ?_, ?_⟩ <;>
  · rw [Vec3.norm, Real.sqrt_eq_iff_mul_self_eq (by simp only [Vec3.normSq, Vec3.dot]; positivity) ha.le]
    simp [Vec3.normSq, Vec3.dot]

theorem norm_unit_x : Vec3.norm (⟨-1, 0, 0⟩ : Vec3 ℝ) = 1 ∧ Vec3.norm (⟨0, -1, 0⟩ : Vec3 ℝ) = 1 ∧
    Vec3.norm (⟨0, 0, -1⟩ : Vec3 ℝ) = 1 := by
  refine ⟨?_, ?_, ?_⟩ <;>
  · rw [Vec3.norm, Real.sqrt_eq_iff_mul_self_eq (by simp [Vec3.normSq, Vec3.dot]) zero_le_one]
    simp [Vec3.normSq, Vec3.dot]

/-- The six faces of a box. -/
structure BoxFaces (S : SolidG) (x y z : ℝ) (mv : Vec3 ℝ) (P0 P1 P2 P3 P4 P5 : Poly) : Prop where
  faces : facesOf S = [P0, P1, P2, P3, P4, P5]
  pos : 0 < x ∧ 0 < y ∧ 0 < z
  floor : RectFace P0 (corner x y z mv false false false) ⟨0, y, 0⟩ ⟨x, 0, 0⟩ ⟨0, 0, -1⟩
  front : RectFace P1 (corner x y z mv false false false) ⟨x, 0, 0⟩ ⟨0, 0, z⟩ ⟨0, -1, 0⟩
  right : RectFace P2 (corner x y z mv true false false) ⟨0, y, 0⟩ ⟨0, 0, z⟩ ⟨1, 0, 0⟩
  back : RectFace P3 (corner x y z mv false true false) ⟨0, 0, z⟩ ⟨x, 0, 0⟩ ⟨0, 1, 0⟩
  left : RectFace P4 (corner x y z mv false false false) ⟨0, 0, z⟩ ⟨0, y, 0⟩ ⟨-1, 0, 0⟩
  ceiling : RectFace P5 (corner x y z mv false false true) ⟨x, 0, 0⟩ ⟨0, y, 0⟩ ⟨0, 0, 1⟩

theorem box_faces {x y z : ℝ} {mv : Vec3 ℝ} (h : BoxSize x y z mv) {S : SolidG} (hS : box x y z mv = .ok S) :
    (∃ P0 P1 P2 P3 P4 P5, BoxFaces S x y z mv P0 P1 P2 P3 P4 P5) ∧ Closed ((facesOf S).map Poly.pts) ∧
    solidBbox S = .ok (mv, mv + ⟨x, y, z⟩) := by
  obtain ⟨S', h1, -, -, h2, h3, -, h4, -, h5, -, h6, -⟩ := C31_box_partial h
  obtain rfl : S = S' := by rw [h1] at hS; exact (Except.ok.inj hS).symm
  obtain ⟨hx, hy, hz, M, hMx, hMy, hMz, hxM, hyM, hzM⟩ := h
  have hx0 : 0 < x := by linarith
  have hy0 : 0 < y := by linarith
  have hz0 : 0 < z := by linarith
  have ax := abs_nonneg mv.x
  have ay := abs_nonneg mv.y
  have az := abs_nonneg mv.z
  rw [allPolys_eq] at h2 h3 h4 h5
  refine ⟨?_, h4, h6⟩
  clear h4
  generalize hF : facesOf S = F at h2 h3 h5
  have hl : F.length = 6 := by simpa using congrArg List.length h3
  match F, hl with
  | [P0, P1, P2, P3, P4, P5], _ =>
    refine ⟨P0, P1, P2, P3, P4, P5, hF, ⟨hx0, hy0, hz0⟩, ?_, ?_, ?_, ?_, ?_, ?_⟩
    all_goals
      simp only [List.map_cons, List.map_nil, List.cons.injEq, and_true] at h2 h3
      obtain ⟨a0, a1, a2, a3, a4, a5⟩ := h2
      obtain ⟨b0, b1, b2, b3, b4, b5⟩ := h3
      have nx := norm_x x hx0
      have ny := norm_x y hy0
      have nz := norm_x z hz0
      have n1 := norm_x 1 one_pos
      have n2 := norm_unit_x
    · obtain ⟨-, ⟨pts, vn, v, hn, -⟩, ht⟩ := h5 P0 (by simp)
      refine ⟨by rw [a0]; simp [corner, Vec3.ext_iff], ht, ⟨_, _, hn⟩, b0, by simp [Vec3.dot], ?_, n2.2.2, ?_, ?_, ?_⟩ <;>
        simp only [nx.1, ny.2.1] <;> first | linarith | (ext <;> simp; try ring)
    · obtain ⟨-, ⟨pts, vn, v, hn, -⟩, ht⟩ := h5 P1 (by simp)
      refine ⟨by rw [a1]; simp [corner, Vec3.ext_iff], ht, ⟨_, _, hn⟩, b1, by simp [Vec3.dot], ?_, n2.2.1, ?_, ?_, ?_⟩ <;>
        simp only [nx.1, nz.2.2] <;> first | linarith | (ext <;> simp; try ring)
    · obtain ⟨-, ⟨pts, vn, v, hn, -⟩, ht⟩ := h5 P2 (by simp)
      refine ⟨by rw [a2]; simp [corner, Vec3.ext_iff], ht, ⟨_, _, hn⟩, b2, by simp [Vec3.dot], ?_, n1.1, ?_, ?_, ?_⟩ <;>
        simp only [ny.2.1, nz.2.2] <;> first | linarith | (ext <;> simp; try ring)
    · obtain ⟨-, ⟨pts, vn, v, hn, -⟩, ht⟩ := h5 P3 (by simp)
      refine ⟨by rw [a3]; simp [corner, Vec3.ext_iff], ht, ⟨_, _, hn⟩, b3, by simp [Vec3.dot], ?_, n1.2.1, ?_, ?_, ?_⟩ <;>
        simp only [nx.1, nz.2.2] <;> first | linarith | (ext <;> simp; try ring)
    · obtain ⟨-, ⟨pts, vn, v, hn, -⟩, ht⟩ := h5 P4 (by simp)
      refine ⟨by rw [a4]; simp [corner, Vec3.ext_iff], ht, ⟨_, _, hn⟩, b4, by simp [Vec3.dot], ?_, n2.1, ?_, ?_, ?_⟩ <;>
        simp only [ny.2.1, nz.2.2] <;> first | linarith | (ext <;> simp; try ring)
    · obtain ⟨-, ⟨pts, vn, v, hn, -⟩, ht⟩ := h5 P5 (by simp)
      refine ⟨by rw [a5]; simp [corner, Vec3.ext_iff], ht, ⟨_, _, hn⟩, b5, by simp [Vec3.dot], ?_, n1.2.2, ?_, ?_, ?_⟩ <;>
        simp only [nx.1, ny.2.1] <;> first | linarith | (ext <;> simp; try ring)

/-- The point lies in the closed box. -/
def InClosedBox (x y z : ℝ) (mv q : Vec3 ℝ) : Prop :=
  (mv.x ≤ q.x ∧ q.x ≤ mv.x + x) ∧ (mv.y ≤ q.y ∧ q.y ≤ mv.y + y) ∧ (mv.z ≤ q.z ∧ q.z ≤ mv.z + z)

/-- The point lies in the open box. -/
def InOpenBox (x y z : ℝ) (mv q : Vec3 ℝ) : Prop :=
  (mv.x < q.x ∧ q.x < mv.x + x) ∧ (mv.y < q.y ∧ q.y < mv.y + y) ∧ (mv.z < q.z ∧ q.z < mv.z + z)

theorem interval_iff {l x t : ℝ} (hx : 0 < x) : (∃ α : ℝ, 0 ≤ α ∧ α ≤ 1 ∧ t = l + α * x) ↔ l ≤ t ∧ t ≤ l + x := by
  constructor
  · rintro ⟨α, h0, h1, rfl⟩
    constructor <;> nlinarith
  · rintro ⟨h0, h1⟩
    exact ⟨(t - l) / x, div_nonneg (by linarith) hx.le, (div_le_one hx).2 (by linarith), by field_simp; ring⟩

section

variable {S : SolidG} {x y z : ℝ} {mv : Vec3 ℝ} {P0 P1 P2 P3 P4 P5 : Poly} (h : BoxFaces S x y z mv P0 P1 P2 P3 P4 P5)
include h

theorem BoxFaces.region (q : Vec3 ℝ) :
    (Region P0.pts P0.tri q ↔ InClosedBox x y z mv q ∧ q.z = mv.z) ∧
    (Region P1.pts P1.tri q ↔ InClosedBox x y z mv q ∧ q.y = mv.y) ∧
    (Region P2.pts P2.tri q ↔ InClosedBox x y z mv q ∧ q.x = mv.x + x) ∧
    (Region P3.pts P3.tri q ↔ InClosedBox x y z mv q ∧ q.y = mv.y + y) ∧
    (Region P4.pts P4.tri q ↔ InClosedBox x y z mv q ∧ q.x = mv.x) ∧
    (Region P5.pts P5.tri q ↔ InClosedBox x y z mv q ∧ q.z = mv.z + z) := by
  obtain ⟨hx, hy, hz⟩ := h.pos
  refine ⟨?_, ?_, ?_, ?_, ?_, ?_⟩
  · rw [h.floor.region_iff]
    constructor
    · rintro ⟨α, β, a0, a1, b0, b1, rfl⟩
      simp only [InClosedBox, corner, Vec3.add_x, Vec3.add_y, Vec3.add_z, Vec3.smul_x, Vec3.smul_y, Vec3.smul_z]
      simp
      refine ⟨⟨?_, ?_⟩, ⟨?_, ?_⟩, ?_⟩ <;> nlinarith
    · rintro ⟨⟨h1, h2, h3⟩, h4⟩
      obtain ⟨α, a0, a1, ha⟩ := (interval_iff hy).2 h2
      obtain ⟨β, b0, b1, hb⟩ := (interval_iff hx).2 h1
      exact ⟨α, β, a0, a1, b0, b1, by ext <;> simp [corner, ha, hb, h4]⟩
  · rw [h.front.region_iff]
    constructor
    · rintro ⟨α, β, a0, a1, b0, b1, rfl⟩
      simp only [InClosedBox, corner, Vec3.add_x, Vec3.add_y, Vec3.add_z, Vec3.smul_x, Vec3.smul_y, Vec3.smul_z]
      simp
      refine ⟨⟨?_, ?_⟩, ?_, ?_, ?_⟩ <;> nlinarith
    · rintro ⟨⟨h1, h2, h3⟩, h4⟩
      obtain ⟨α, a0, a1, ha⟩ := (interval_iff hx).2 h1
      obtain ⟨β, b0, b1, hb⟩ := (interval_iff hz).2 h3
      exact ⟨α, β, a0, a1, b0, b1, by ext <;> simp [corner, ha, hb, h4]⟩
  · rw [h.right.region_iff]
    constructor
    · rintro ⟨α, β, a0, a1, b0, b1, rfl⟩
      simp only [InClosedBox, corner, Vec3.add_x, Vec3.add_y, Vec3.add_z, Vec3.smul_x, Vec3.smul_y, Vec3.smul_z]
      simp
      refine ⟨?_, ⟨?_, ?_⟩, ?_, ?_⟩ <;> nlinarith
    · rintro ⟨⟨h1, h2, h3⟩, h4⟩
      obtain ⟨α, a0, a1, ha⟩ := (interval_iff hy).2 h2
      obtain ⟨β, b0, b1, hb⟩ := (interval_iff hz).2 h3
      exact ⟨α, β, a0, a1, b0, b1, by ext <;> simp [corner, ha, hb, h4]⟩
  · rw [h.back.region_iff]
    constructor
    · rintro ⟨α, β, a0, a1, b0, b1, rfl⟩
      simp only [InClosedBox, corner, Vec3.add_x, Vec3.add_y, Vec3.add_z, Vec3.smul_x, Vec3.smul_y, Vec3.smul_z]
      simp
      refine ⟨⟨?_, ?_⟩, ?_, ?_, ?_⟩ <;> nlinarith
    · rintro ⟨⟨h1, h2, h3⟩, h4⟩
      obtain ⟨α, a0, a1, ha⟩ := (interval_iff hz).2 h3
      obtain ⟨β, b0, b1, hb⟩ := (interval_iff hx).2 h1
      exact ⟨α, β, a0, a1, b0, b1, by ext <;> simp [corner, ha, hb, h4]⟩
  · rw [h.left.region_iff]
    constructor
    · rintro ⟨α, β, a0, a1, b0, b1, rfl⟩
      simp only [InClosedBox, corner, Vec3.add_x, Vec3.add_y, Vec3.add_z, Vec3.smul_x, Vec3.smul_y, Vec3.smul_z]
      simp
      refine ⟨?_, ⟨?_, ?_⟩, ?_, ?_⟩ <;> nlinarith
    · rintro ⟨⟨h1, h2, h3⟩, h4⟩
      obtain ⟨α, a0, a1, ha⟩ := (interval_iff hz).2 h3
      obtain ⟨β, b0, b1, hb⟩ := (interval_iff hy).2 h2
      exact ⟨α, β, a0, a1, b0, b1, by ext <;> simp [corner, ha, hb, h4]⟩
  · rw [h.ceiling.region_iff]
    constructor
    · rintro ⟨α, β, a0, a1, b0, b1, rfl⟩
      simp only [InClosedBox, corner, Vec3.add_x, Vec3.add_y, Vec3.add_z, Vec3.smul_x, Vec3.smul_y, Vec3.smul_z]
      simp
      refine ⟨⟨?_, ?_⟩, ⟨?_, ?_⟩, ?_⟩ <;> nlinarith
    · rintro ⟨⟨h1, h2, h3⟩, h4⟩
      obtain ⟨α, a0, a1, ha⟩ := (interval_iff hx).2 h1
      obtain ⟨β, b0, b1, hb⟩ := (interval_iff hy).2 h2
      exact ⟨α, β, a0, a1, b0, b1, by ext <;> simp [corner, ha, hb, h4]⟩

theorem BoxFaces.face : ∀ P ∈ facesOf S, ∃ v w e, Face P v w e := by
  rw [h.faces]
  intro P hP
  simp only [List.mem_cons, List.not_mem_nil, or_false] at hP
  rcases hP with rfl | rfl | rfl | rfl | rfl | rfl
  exacts [⟨_, _, _, h.floor.face⟩, ⟨_, _, _, h.front.face⟩, ⟨_, _, _, h.right.face⟩, ⟨_, _, _, h.back.face⟩,
    ⟨_, _, _, h.left.face⟩, ⟨_, _, _, h.ceiling.face⟩]

theorem BoxFaces.corners : ∀ P ∈ facesOf S, ∀ p ∈ P.pts, InClosedBox x y z mv p ∧ ∃ i j k, p = corner x y z mv i j k := by
  obtain ⟨hx, hy, hz⟩ := h.pos
  have key : ∀ i j k, InClosedBox x y z mv (corner x y z mv i j k) := by
    intro i j k
    cases i <;> cases j <;> cases k <;> simp [InClosedBox, corner, hx.le, hy.le, hz.le]
  have key2 : ∀ p, (∃ i j k, p = corner x y z mv i j k) → InClosedBox x y z mv p ∧ ∃ i j k, p = corner x y z mv i j k := by
    rintro p ⟨i, j, k, rfl⟩
    exact ⟨key i j k, i, j, k, rfl⟩
  have f1 := h.floor.pts
  have f2 := h.front.pts
  have f3 := h.right.pts
  have f4 := h.back.pts
  have f5 := h.left.pts
  have f6 := h.ceiling.pts
  rw [h.faces]
  intro P hP p hp
  simp only [List.mem_cons, List.not_mem_nil, or_false] at hP
  apply key2
  rcases hP with rfl | rfl | rfl | rfl | rfl | rfl
  · rw [f1] at hp
    simp only [List.mem_cons, List.not_mem_nil, or_false] at hp
    rcases hp with rfl | rfl | rfl | rfl
    exacts [⟨false, false, false, rfl⟩, ⟨false, true, false, by simp [corner, Vec3.ext_iff]⟩,
      ⟨true, true, false, by simp [corner, Vec3.ext_iff]⟩, ⟨true, false, false, by simp [corner, Vec3.ext_iff]⟩]
  · rw [f2] at hp
    simp only [List.mem_cons, List.not_mem_nil, or_false] at hp
    rcases hp with rfl | rfl | rfl | rfl
    exacts [⟨false, false, false, rfl⟩, ⟨true, false, false, by simp [corner, Vec3.ext_iff]⟩,
      ⟨true, false, true, by simp [corner, Vec3.ext_iff]⟩, ⟨false, false, true, by simp [corner, Vec3.ext_iff]⟩]
  · rw [f3] at hp
    simp only [List.mem_cons, List.not_mem_nil, or_false] at hp
    rcases hp with rfl | rfl | rfl | rfl
    exacts [⟨true, false, false, rfl⟩, ⟨true, true, false, by simp [corner, Vec3.ext_iff]⟩,
      ⟨true, true, true, by simp [corner, Vec3.ext_iff]⟩, ⟨true, false, true, by simp [corner, Vec3.ext_iff]⟩]
  · rw [f4] at hp
    simp only [List.mem_cons, List.not_mem_nil, or_false] at hp
    rcases hp with rfl | rfl | rfl | rfl
    exacts [⟨false, true, false, rfl⟩, ⟨false, true, true, by simp [corner, Vec3.ext_iff]⟩,
      ⟨true, true, true, by simp [corner, Vec3.ext_iff]⟩, ⟨true, true, false, by simp [corner, Vec3.ext_iff]⟩]
  · rw [f5] at hp
    simp only [List.mem_cons, List.not_mem_nil, or_false] at hp
    rcases hp with rfl | rfl | rfl | rfl
    exacts [⟨false, false, false, rfl⟩, ⟨false, false, true, by simp [corner, Vec3.ext_iff]⟩,
      ⟨false, true, true, by simp [corner, Vec3.ext_iff]⟩, ⟨false, true, false, by simp [corner, Vec3.ext_iff]⟩]
  · rw [f6] at hp
    simp only [List.mem_cons, List.not_mem_nil, or_false] at hp
    rcases hp with rfl | rfl | rfl | rfl
    exacts [⟨false, false, true, rfl⟩, ⟨true, false, true, by simp [corner, Vec3.ext_iff]⟩,
      ⟨true, true, true, by simp [corner, Vec3.ext_iff]⟩, ⟨false, true, true, by simp [corner, Vec3.ext_iff]⟩]

end

theorem offSurface_iff {S : SolidG} {q : Vec3 ℝ} :
    OffSurface (facets S) q ↔ ∀ P ∈ facesOf S, ¬ Region P.pts P.tri q := by
  constructor
  · rintro h P hP ⟨t, ht, a, b, c, ha, hb, hc, hin⟩
    exact h (a, b, c) (List.mem_flatMap.2 ⟨P, hP, mem_trianglesOf.2 ⟨t, ht, ha, hb, hc⟩⟩) hin
  · intro h t ht hin
    obtain ⟨P, hP, hr⟩ := mem_region ht hin
    exact h P hP hr

theorem BoxFaces.offSurface {S : SolidG} {x y z : ℝ} {mv : Vec3 ℝ} {P0 P1 P2 P3 P4 P5 : Poly}
    (h : BoxFaces S x y z mv P0 P1 P2 P3 P4 P5) (q : Vec3 ℝ) :
    OffSurface (facets S) q ↔ ¬ InClosedBox x y z mv q ∨ InOpenBox x y z mv q := by
  obtain ⟨r0, r1, r2, r3, r4, r5⟩ := h.region q
  rw [offSurface_iff, h.faces]
  simp only [List.forall_mem_cons, List.not_mem_nil, false_imp_iff, implies_true, and_true, r0, r1, r2, r3, r4, r5]
  by_cases hq : InClosedBox x y z mv q
  · simp only [hq, true_and, not_true, false_or]
    obtain ⟨⟨a1, a2⟩, ⟨a3, a4⟩, a5, a6⟩ := hq
    constructor
    · rintro ⟨c1, c2, c3, c4, c5, c6⟩
      exact ⟨⟨lt_of_le_of_ne a1 (Ne.symm c5), lt_of_le_of_ne a2 c3⟩, ⟨lt_of_le_of_ne a3 (Ne.symm c2), lt_of_le_of_ne a4 c4⟩,
        lt_of_le_of_ne a5 (Ne.symm c1), lt_of_le_of_ne a6 c6⟩
    · rintro ⟨⟨c1, c2⟩, ⟨c3, c4⟩, c5, c6⟩
      exact ⟨c5.ne', c3.ne', c2.ne, c4.ne, c1.ne', c6.ne⟩
  · simp [hq]

/-- **C74, what a box encloses.**  The surface of a box consists of the points of the closed box that are not in the
open box; a point off it is enclosed exactly if it lies in the open box. -/
theorem C74_box_enclosed {x y z : ℝ} {mv : Vec3 ℝ} (h : BoxSize x y z mv) {S : SolidG} (hS : box x y z mv = .ok S)
    (q : Vec3 ℝ) : (OffSurface (facets S) q ↔ ¬ InClosedBox x y z mv q ∨ InOpenBox x y z mv q) ∧
      (OffSurface (facets S) q → (Enclosed (facets S) q ↔ InOpenBox x y z mv q)) := by
  classical
  obtain ⟨⟨P0, P1, P2, P3, P4, P5, hB⟩, hc, -⟩ := box_faces h hS
  refine ⟨hB.offSurface q, fun hoff => ?_⟩
  by_cases hq : InClosedBox x y z mv q
  swap
  · refine iff_of_false (not_enclosed (lo := mv) (hi := mv + ⟨x, y, z⟩) hB.face hoff ?_ ?_) ?_
    · intro P hP p hp
      obtain ⟨⟨⟨a1, a2⟩, ⟨a3, a4⟩, a5, a6⟩, -⟩ := hB.corners P hP p hp
      exact ⟨a1, a2, a3, a4, a5, a6⟩
    · rintro ⟨a1, a2, a3, a4, a5, a6⟩
      exact hq ⟨⟨a1, a2⟩, ⟨a3, a4⟩, a5, a6⟩
    · rintro ⟨⟨a1, a2⟩, ⟨a3, a4⟩, a5, a6⟩
      exact hq ⟨⟨a1.le, a2.le⟩, ⟨a3.le, a4.le⟩, a5.le, a6.le⟩
  have hin : InOpenBox x y z mv q := by
    rcases (hB.offSurface q).1 hoff with h1 | h1
    · exact absurd hq h1
    · exact h1
  refine iff_of_true ?_ hin
  obtain ⟨hx, hy, hz⟩ := hB.pos
  obtain ⟨⟨a1, a2⟩, ⟨a3, a4⟩, a5, a6⟩ := hin
  -- a ray to the middle of a triangle of the ceiling
  obtain ⟨g, hg⟩ : ∃ g : Vec3 ℝ, g = ⟨mv.x + x / 3, mv.y + y / 3, mv.z + z⟩ := ⟨_, rfl⟩
  have g1 : g.x = mv.x + x / 3 := by rw [hg]
  have g2 : g.y = mv.y + y / 3 := by rw [hg]
  have g3 : g.z = mv.z + z := by rw [hg]
  have only : ∀ s : ℝ, 0 ≤ s → InClosedBox x y z mv (q + s • (g - q)) → s ≤ 1 := by
    rintro s hs ⟨-, -, -, hz'⟩
    simp only [Vec3.add_z, Vec3.smul_z, Vec3.sub_z, g3] at hz'
    by_contra hc
    push Not at hc
    nlinarith
  have between : ∀ s a b l u : ℝ, 0 ≤ s → s ≤ 1 → l < a → a < u → l < b → b < u → l < a + s * (b - a) ∧ a + s * (b - a) < u := by
    intro s a b l u h0 h1 la au lb bu
    rcases eq_or_lt_of_le h0 with rfl | h0'
    · simp [la, au]
    · constructor <;> nlinarith
  have miss : ∀ s : ℝ, 0 ≤ s → ∀ P ∈ [P0, P1, P2, P3, P4], ¬ Region P.pts P.tri (q + s • (g - q)) := by
    intro s hs
    obtain ⟨r0, r1, r2, r3, r4, -⟩ := hB.region (q + s • (g - q))
    simp only [List.forall_mem_cons, List.not_mem_nil, false_imp_iff, implies_true, and_true, r0, r1, r2, r3, r4]
    refine ⟨?_, ?_, ?_, ?_, ?_⟩ <;> rintro ⟨hc, he⟩ <;> have hs1 := only s hs hc <;>
      simp only [Vec3.add_x, Vec3.add_y, Vec3.add_z, Vec3.smul_x, Vec3.smul_y, Vec3.smul_z, Vec3.sub_x, Vec3.sub_y,
        Vec3.sub_z, g1, g2, g3] at he
    · have : 0 ≤ s * (mv.z + z - q.z) := mul_nonneg hs (by linarith)
      linarith
    · have := between s q.y (mv.y + y / 3) mv.y (mv.y + y) hs hs1 a3 a4 (by linarith) (by linarith)
      linarith
    · have := between s q.x (mv.x + x / 3) mv.x (mv.x + x) hs hs1 a1 a2 (by linarith) (by linarith)
      linarith
    · have := between s q.y (mv.y + y / 3) mv.y (mv.y + y) hs hs1 a3 a4 (by linarith) (by linarith)
      linarith
    · have := between s q.x (mv.x + x / 3) mv.x (mv.x + x) hs hs1 a1 a2 (by linarith) (by linarith)
      linarith
  have top : ∀ s : ℝ, 0 ≤ s → Region P5.pts P5.tri (q + s • (g - q)) → s = 1 := by
    intro s hs hr
    obtain ⟨-, he⟩ := (hB.region _).2.2.2.2.2.1 hr
    simp only [Vec3.add_z, Vec3.smul_z, Vec3.sub_z, g3] at he
    have : (s - 1) * (mv.z + z - q.z) = 0 := by linarith
    rcases mul_eq_zero.1 this with h1 | h1 <;> linarith
  have hqg : q + (1 : ℝ) • (g - q) = g := by ext <;> simp
  obtain ⟨a, ha⟩ : ∃ a, a = corner x y z mv false false true := ⟨_, rfl⟩
  obtain ⟨u, hu⟩ : ∃ u : Vec3 ℝ, u = ⟨x, 0, 0⟩ := ⟨_, rfl⟩
  obtain ⟨w, hw⟩ : ∃ w : Vec3 ℝ, w = ⟨0, y, 0⟩ := ⟨_, rfl⟩
  have hg' : g = a + ((1 / 3 : ℝ) • u + (1 / 3 : ℝ) • w) := by
    rw [hg, ha, hu, hw]; ext <;> simp [corner] <;> ring
  have hC := hB.ceiling
  rw [← ha, ← hu, ← hw] at hC
  have first : InsideTriangle (a + w) a (a + u) g :=
    ⟨1 / 3, 1 / 3, 1 / 3, by norm_num, by norm_num, by norm_num, by norm_num, by rw [hg']; ext <;> simp <;> ring⟩
  have second : ¬ InTriangle (a + w) (a + u) (a + u + w) g := by
    intro hin
    obtain ⟨α, β, -, -, h3, he⟩ := RectFace.of_second hin
    rw [hg'] at he
    obtain ⟨rfl, rfl⟩ := hC.coords (add_left_cancel he)
    norm_num at h3
  have tri5 : trianglesOf P5.pts P5.tri = [(a + w, a, a + u), (a + w, a + u, a + u + w)] := by
    rw [hC.pts, hC.tri]; rfl
  have notseg : ¬ OnSegment (a + w) a g ∧ ¬ OnSegment a (a + u) g ∧ ¬ OnSegment (a + u) (a + w) g := by
    refine ⟨?_, ?_, ?_⟩
    · rintro ⟨t, -, -, he⟩
      have e1 : a + w + t • (a - (a + w)) = a + ((0 : ℝ) • u + (1 - t) • w) := by ext <;> simp <;> ring
      rw [hg', e1] at he
      have := (hC.coords (add_left_cancel he)).1
      norm_num at this
    · rintro ⟨t, -, -, he⟩
      have e1 : a + t • (a + u - a) = a + (t • u + (0 : ℝ) • w) := by ext <;> simp
      rw [hg', e1] at he
      have := (hC.coords (add_left_cancel he)).2
      norm_num at this
    · rintro ⟨t, -, -, he⟩
      have e1 : a + u + t • (a + w - (a + u)) = a + ((1 - t) • u + t • w) := by ext <;> simp <;> ring
      rw [hg', e1] at he
      obtain ⟨p1, p2⟩ := hC.coords (add_left_cancel he)
      linarith
  have missT : ∀ P ∈ [P0, P1, P2, P3, P4], ∀ t ∈ trianglesOf P.pts P.tri, ∀ s : ℝ, 0 ≤ s →
      ¬ InTriangle t.1 t.2.1 t.2.2 (q + s • (g - q)) := by
    intro P hP t ht s hs hin
    obtain ⟨t', htm, ha, hb, hc⟩ := mem_trianglesOf.1 (show (t.1, t.2.1, t.2.2) ∈ _ from ht)
    exact miss s hs P hP ⟨t', htm, _, _, _, ha, hb, hc, hin⟩
  have topT : ∀ t ∈ trianglesOf P5.pts P5.tri, ∀ s : ℝ, 0 ≤ s →
      InTriangle t.1 t.2.1 t.2.2 (q + s • (g - q)) → s = 1 ∧ t = (a + w, a, a + u) := by
    intro t ht s hs hin
    obtain ⟨t', htm, ha, hb, hc⟩ := mem_trianglesOf.1 (show (t.1, t.2.1, t.2.2) ∈ _ from ht)
    obtain rfl := top s hs ⟨t', htm, _, _, _, ha, hb, hc, hin⟩
    refine ⟨rfl, ?_⟩
    rw [tri5] at ht
    simp only [List.mem_cons, List.not_mem_nil, or_false] at ht
    rcases ht with rfl | rfl
    · rfl
    · rw [hqg] at hin; exact absurd hin second
  have hsplit : facets S = [P0, P1, P2, P3, P4].flatMap (fun P => trianglesOf P.pts P.tri) ++ trianglesOf P5.pts P5.tri := by
    rw [facets, hB.faces]
    simp
  have hclear : ClearRay (facets S) q (g - q) := by
    constructor
    · intro h0
      have := congrArg Vec3.z h0
      simp only [Vec3.sub_z, g3, Vec3.zero_z] at this
      linarith
    · intro t ht s hs
      have key : ∀ hn : InTriangle t.1 t.2.1 t.2.2 (q + s • (g - q)), s = 1 ∧ t = (a + w, a, a + u) := by
        intro hn
        rw [hsplit, List.mem_append] at ht
        rcases ht with ht | ht
        · obtain ⟨P, hP, ht⟩ := List.mem_flatMap.1 ht
          exact absurd hn (missT P hP t ht s hs)
        · exact topT t ht s hs hn
      refine ⟨fun hn => ?_, fun hn => ?_, fun hn => ?_⟩
      · obtain ⟨rfl, rfl⟩ := key (segment_in hn)
        rw [hqg] at hn; exact notseg.1 hn
      · obtain ⟨rfl, rfl⟩ := key (inTriangle_rot (inTriangle_rot (segment_in hn)))
        rw [hqg] at hn; exact notseg.2.1 hn
      · obtain ⟨rfl, rfl⟩ := key (inTriangle_rot (segment_in hn))
        rw [hqg] at hn; exact notseg.2.2 hn
  rw [← (C74_any_ray hB.face hc hoff).2 _ hclear, hsplit, crossings_append]
  have c0 : crossings ([P0, P1, P2, P3, P4].flatMap fun P => trianglesOf P.pts P.tri) q (g - q) = 0 := by
    rw [crossings, List.countP_eq_zero]
    intro t ht
    obtain ⟨P, hP, ht⟩ := List.mem_flatMap.1 ht
    rw [decide_eq_true_iff]
    rintro ⟨s, hs, hin⟩
    exact missT P hP t ht s hs.le (inside_in hin)
  have c1 : crossings (trianglesOf P5.pts P5.tri) q (g - q) = 1 := by
    rw [crossings, tri5, List.countP_cons_of_pos, List.countP_cons_of_neg]
    · rfl
    · rw [decide_eq_true_iff]
      rintro ⟨s, hs, hin⟩
      have := topT _ (by rw [tri5]; simp) s hs.le (inside_in hin)
      obtain ⟨rfl, -⟩ := this
      rw [hqg] at hin
      exact second (inside_in hin)
    · rw [decide_eq_true_iff]
      exact ⟨1, one_pos, by rw [hqg]; exact first⟩
  rw [c0, c1]
  exact odd_one

/-! ## The code's ray -/

theorem rayDir_eq : ∃ k : ℝ, 1 ≤ k ∧ rayDir = (⟨k * (739 / 1000), k * (239 / 1000), k * (113 / 1000)⟩ : Vec3 ℝ) := by
  refine ⟨1 / Vec3.norm (⟨739 / 1000, 239 / 1000, 113 / 1000⟩ : Vec3 ℝ), ?_, ?_⟩
  · have h1 : Vec3.norm (⟨739 / 1000, 239 / 1000, 113 / 1000⟩ : Vec3 ℝ) ≤ 1 :=
      Vec3.norm_le_of_sq zero_le_one (by norm_num [Vec3.normSq, Vec3.dot])
    have h2 : 0 < Vec3.norm (⟨739 / 1000, 239 / 1000, 113 / 1000⟩ : Vec3 ℝ) :=
      lt_of_lt_of_le (show (0 : ℝ) < 1 / 10 by norm_num) (Vec3.le_norm_of_sq (by norm_num [Vec3.normSq, Vec3.dot]))
    rw [le_div_iff₀ h2]
    linarith
  · rw [rayDir]
    ext <;> simp

/-- The ray leaves the box at `e`, which is at least `m` away from the edges of the face it lies in and from the
diagonal that divides the face into two triangles. -/
def ExitsWell (x y z : ℝ) (mv e : Vec3 ℝ) (m : ℝ) : Prop :=
  let c := corner x y z mv
  (e.x = mv.x + x ∧ (mv.y + m ≤ e.y ∧ e.y ≤ mv.y + y - m) ∧ (mv.z + m ≤ e.z ∧ e.z ≤ mv.z + z - m) ∧
    AwayFromLine (c true false true) (c true true false) e m) ∨
  (e.y = mv.y + y ∧ (mv.x + m ≤ e.x ∧ e.x ≤ mv.x + x - m) ∧ (mv.z + m ≤ e.z ∧ e.z ≤ mv.z + z - m) ∧
    AwayFromLine (c true true false) (c false true true) e m) ∨
  (e.z = mv.z + z ∧ (mv.x + m ≤ e.x ∧ e.x ≤ mv.x + x - m) ∧ (mv.y + m ≤ e.y ∧ e.y ≤ mv.y + y - m) ∧
    AwayFromLine (c false true true) (c true false true) e m)

theorem BoxFaces.far {S : SolidG} {x y z : ℝ} {mv : Vec3 ℝ} {P0 P1 P2 P3 P4 P5 : Poly}
    (hB : BoxFaces S x y z mv P0 P1 P2 P3 P4 P5) {p : Vec3 ℝ} {M m : ℝ} (hM0 : 0 ≤ M)
    (hm : 1 / 10 ^ 3 * M + 1 / 10 ^ 6 ≤ m) (hpx : mv.x + m ≤ p.x ∧ p.x ≤ mv.x + x - m)
    (hpy : mv.y + m ≤ p.y ∧ p.y ≤ mv.y + y - m) (hpz : mv.z + m ≤ p.z ∧ p.z ≤ mv.z + z - m) :
    ∀ P ∈ facesOf S, ¬ Near (Region P.pts P.tri) p (1 / 10 ^ 4 * M + 2 / 10 ^ 7) := by
  have far : ∀ q : Vec3 ℝ, (q.x = mv.x ∨ q.x = mv.x + x ∨ q.y = mv.y ∨ q.y = mv.y + y ∨ q.z = mv.z ∨ q.z = mv.z + z) →
      m ≤ Vec3.norm (p - q) := by
    intro q hq
    have bx := Vec3.abs_x_le (p - q)
    have by' := Vec3.abs_y_le (p - q)
    have bz := Vec3.abs_z_le (p - q)
    simp only [Vec3.sub_x, Vec3.sub_y, Vec3.sub_z, abs_le] at bx by' bz
    obtain ⟨bx1, bx2⟩ := bx
    obtain ⟨by1, by2⟩ := by'
    obtain ⟨bz1, bz2⟩ := bz
    rcases hq with h1 | h1 | h1 | h1 | h1 | h1
    · rw [h1] at bx2; linarith
    · rw [h1] at bx1; linarith
    · rw [h1] at by2; linarith
    · rw [h1] at by1; linarith
    · rw [h1] at bz2; linarith
    · rw [h1] at bz1; linarith
  have key : ∀ P : Poly, (∀ q, Region P.pts P.tri q → (q.x = mv.x ∨ q.x = mv.x + x ∨ q.y = mv.y ∨ q.y = mv.y + y ∨
      q.z = mv.z ∨ q.z = mv.z + z)) → ¬ Near (Region P.pts P.tri) p (1 / 10 ^ 4 * M + 2 / 10 ^ 7) := by
    rintro P hP ⟨q, hq, hn⟩
    have := far q (hP q hq)
    linarith
  rw [hB.faces]
  simp only [List.forall_mem_cons, List.not_mem_nil, false_imp_iff, implies_true, and_true]
  refine ⟨key _ fun q hq => ?_, key _ fun q hq => ?_, key _ fun q hq => ?_, key _ fun q hq => ?_, key _ fun q hq => ?_,
    key _ fun q hq => ?_⟩
  · have := ((hB.region q).1.1 hq).2; simp [this]
  · have := ((hB.region q).2.1.1 hq).2; simp [this]
  · have := ((hB.region q).2.2.1.1 hq).2; simp [this]
  · have := ((hB.region q).2.2.2.1.1 hq).2; simp [this]
  · have := ((hB.region q).2.2.2.2.1.1 hq).2; simp [this]
  · have := ((hB.region q).2.2.2.2.2.1 hq).2; simp [this]

theorem BoxFaces.exits {S : SolidG} {x y z : ℝ} {mv : Vec3 ℝ} {P0 P1 P2 P3 P4 P5 : Poly}
    (hB : BoxFaces S x y z mv P0 P1 P2 P3 P4 P5) {p : Vec3 ℝ} {M m s : ℝ}
    (hM : ∀ i j k, Vec3.norm (corner x y z mv i j k) ≤ M) (hm : 1 / 10 ^ 3 * M + 1 / 10 ^ 6 ≤ m) (hs : 0 ≤ s)
    (hex : ExitsWell x y z mv (p + s • rayDir) m) :
    (RayHits P2 p rayDir ∨ RayMisses P2 ⟨1, 0, 0⟩ (Vec3.dot ⟨1, 0, 0⟩ (corner x y z mv true false false)) p
      rayDir (1 / 10 ^ 4 * M + 1 / 10 ^ 7)) ∧
    (RayHits P3 p rayDir ∨ RayMisses P3 ⟨0, 1, 0⟩ (Vec3.dot ⟨0, 1, 0⟩ (corner x y z mv false true false)) p
      rayDir (1 / 10 ^ 4 * M + 1 / 10 ^ 7)) ∧
    (RayHits P5 p rayDir ∨ RayMisses P5 ⟨0, 0, 1⟩ (Vec3.dot ⟨0, 0, 1⟩ (corner x y z mv false false true)) p
      rayDir (1 / 10 ^ 4 * M + 1 / 10 ^ 7)) := by
  obtain ⟨hx, hy, hz⟩ := hB.pos
  have hM0 : 0 ≤ M := (Vec3.norm_nonneg _).trans (hM true true true)
  have hm6 : 1 / 10 ^ 6 ≤ m := by linarith [mul_nonneg (show (0 : ℝ) ≤ 1 / 10 ^ 3 by norm_num) hM0]
  have hm0 : 0 < m := lt_of_lt_of_le (by norm_num) hm6
  obtain ⟨k, hk, hr⟩ := rayDir_eq
  have hk0 : 0 < k := by linarith
  -- sizes
  have size : ∀ c d : Vec3 ℝ, Vec3.norm c ≤ M → Vec3.norm d ≤ M → Vec3.norm (c - d) ≤ 2 * M := fun c d h1 h2 =>
    (Vec3.norm_sub_le c d).trans (by linarith)
  have nx := norm_x x hx
  have ny := norm_x y hy
  have nz := norm_x z hz
  have lx : x ≤ 2 * M := by
    have := size _ _ (hM true false false) (hM false false false)
    rwa [show corner x y z mv true false false - corner x y z mv false false false = ⟨x, 0, 0⟩ by
      ext <;> simp [corner], nx.1] at this
  have ly : y ≤ 2 * M := by
    have := size _ _ (hM false true false) (hM false false false)
    rwa [show corner x y z mv false true false - corner x y z mv false false false = ⟨0, y, 0⟩ by
      ext <;> simp [corner], ny.2.1] at this
  have lz : z ≤ 2 * M := by
    have := size _ _ (hM false false true) (hM false false false)
    rwa [show corner x y z mv false false true - corner x y z mv false false false = ⟨0, 0, z⟩ by
      ext <;> simp [corner], nz.2.2] at this
  have hd : 1 / 10 ^ 4 * M + 1 / 10 ^ 7 < 3 / 20 * m := by linarith
  have bd : ∀ P ∈ facesOf S, ∀ q ∈ P.pts, Vec3.dot (⟨1, 0, 0⟩ : Vec3 ℝ) q ≤ mv.x + x ∧
      Vec3.dot (⟨0, 1, 0⟩ : Vec3 ℝ) q ≤ mv.y + y ∧ Vec3.dot (⟨0, 0, 1⟩ : Vec3 ℝ) q ≤ mv.z + z := by
    intro P hP q hq
    obtain ⟨⟨⟨-, a2⟩, ⟨-, a4⟩, -, a6⟩, -⟩ := hB.corners P hP q hq
    simp [Vec3.dot, a2, a4, a6]
  have n1 := norm_x 1 one_pos
  have i2 : P2 ∈ facesOf S := by rw [hB.faces]; simp
  have i3 : P3 ∈ facesOf S := by rw [hB.faces]; simp
  have i5 : P5 ∈ facesOf S := by rw [hB.faces]; simp
  obtain ⟨e, he⟩ : ∃ e, e = p + s • rayDir := ⟨_, rfl⟩
  rw [← he] at hex
  have dr : Vec3.dot (⟨1, 0, 0⟩ : Vec3 ℝ) rayDir = k * (739 / 1000) ∧
      Vec3.dot (⟨0, 1, 0⟩ : Vec3 ℝ) rayDir = k * (239 / 1000) ∧
      Vec3.dot (⟨0, 0, 1⟩ : Vec3 ℝ) rayDir = k * (113 / 1000) := by
    rw [hr]; simp [Vec3.dot]
  have de : ∀ q : Vec3 ℝ, Vec3.dot (⟨1, 0, 0⟩ : Vec3 ℝ) q = q.x ∧ Vec3.dot (⟨0, 1, 0⟩ : Vec3 ℝ) q = q.y ∧
      Vec3.dot (⟨0, 0, 1⟩ : Vec3 ℝ) q = q.z := by
    intro q; simp [Vec3.dot]
  have ca : (corner x y z mv true false false).x = mv.x + x ∧ (corner x y z mv false true false).y = mv.y + y ∧
      (corner x y z mv false false true).z = mv.z + z := by simp [corner]
  rcases hex with ⟨h1, h2, h3, h4⟩ | ⟨h1, h2, h3, h4⟩ | ⟨h1, h2, h3, h4⟩
  · refine ⟨.inl ?_, .inr ?_, .inr ?_⟩
    · obtain ⟨α, hα⟩ : ∃ α, α = (e.y - mv.y) / y := ⟨_, rfl⟩
      obtain ⟨β, hβ⟩ : ∃ β, β = (e.z - mv.z) / z := ⟨_, rfl⟩
      have eα : α * y = e.y - mv.y := by rw [hα]; field_simp
      have eβ : β * z = e.z - mv.z := by rw [hβ]; field_simp
      refine hB.right.hits (α := α) (β := β) (m := m) hs ?_ ?_ ?_ ?_ ?_ ?_ hm6 ?_
      · rw [← he]; ext <;> simp [corner, h1, eα, eβ]
      · rw [ny.2.1]; linarith
      · rw [ny.2.1]; linarith
      · rw [nz.2.2]; linarith
      · rw [nz.2.2]; linarith
      · rw [← he]
        convert h4 using 1 <;> ext <;> simp [corner]
      · rw [ny.2.1, nz.2.2]; linarith
    · refine hB.back.misses_other (s := s) (b := mv.x + x) (e' := ⟨1, 0, 0⟩) (m := m) n1.1 (fun q hq => (bd P3 i3 q hq).1)
        ?_ ?_ ?_ ?_ hd hm0.le
      · rw [dr.2.1]; positivity
      · rw [dr.1, dr.2.1]; linarith
      · rw [← he, (de e).1, h1]
      · rw [← he, (de e).2.1, (de _).2.1, ca.2.1]; linarith
    · refine hB.ceiling.misses_other (s := s) (b := mv.x + x) (e' := ⟨1, 0, 0⟩) (m := m) n1.1 (fun q hq => (bd P5 i5 q hq).1)
        ?_ ?_ ?_ ?_ hd hm0.le
      · rw [dr.2.2]; positivity
      · rw [dr.1, dr.2.2]; linarith
      · rw [← he, (de e).1, h1]
      · rw [← he, (de e).2.2, (de _).2.2, ca.2.2]; linarith
  · refine ⟨.inr ?_, .inl ?_, .inr ?_⟩
    · refine hB.right.misses_other (s := s) (b := mv.y + y) (e' := ⟨0, 1, 0⟩) (m := m) n1.2.1
        (fun q hq => (bd P2 i2 q hq).2.1) ?_ ?_ ?_ ?_ hd hm0.le
      · rw [dr.1]; positivity
      · rw [dr.1, dr.2.1]; linarith
      · rw [← he, (de e).2.1, h1]
      · rw [← he, (de e).1, (de _).1, ca.1]; linarith
    · obtain ⟨α, hα⟩ : ∃ α, α = (e.z - mv.z) / z := ⟨_, rfl⟩
      obtain ⟨β, hβ⟩ : ∃ β, β = (e.x - mv.x) / x := ⟨_, rfl⟩
      have eα : α * z = e.z - mv.z := by rw [hα]; field_simp
      have eβ : β * x = e.x - mv.x := by rw [hβ]; field_simp
      refine hB.back.hits (α := α) (β := β) (m := m) hs ?_ ?_ ?_ ?_ ?_ ?_ hm6 ?_
      · rw [← he]; ext <;> simp [corner, h1, eα, eβ]
      · rw [nz.2.2]; linarith
      · rw [nz.2.2]; linarith
      · rw [nx.1]; linarith
      · rw [nx.1]; linarith
      · rw [← he]
        convert h4 using 1 <;> ext <;> simp [corner]
      · rw [nx.1, nz.2.2]; linarith
    · refine hB.ceiling.misses_other (s := s) (b := mv.y + y) (e' := ⟨0, 1, 0⟩) (m := m) n1.2.1
        (fun q hq => (bd P5 i5 q hq).2.1) ?_ ?_ ?_ ?_ hd hm0.le
      · rw [dr.2.2]; positivity
      · rw [dr.2.1, dr.2.2]; linarith
      · rw [← he, (de e).2.1, h1]
      · rw [← he, (de e).2.2, (de _).2.2, ca.2.2]; linarith
  · refine ⟨.inr ?_, .inr ?_, .inl ?_⟩
    · refine hB.right.misses_other (s := s) (b := mv.z + z) (e' := ⟨0, 0, 1⟩) (m := m) n1.2.2
        (fun q hq => (bd P2 i2 q hq).2.2) ?_ ?_ ?_ ?_ hd hm0.le
      · rw [dr.1]; positivity
      · rw [dr.1, dr.2.2]; linarith
      · rw [← he, (de e).2.2, h1]
      · rw [← he, (de e).1, (de _).1, ca.1]; linarith
    · refine hB.back.misses_other (s := s) (b := mv.z + z) (e' := ⟨0, 0, 1⟩) (m := m) n1.2.2
        (fun q hq => (bd P3 i3 q hq).2.2) ?_ ?_ ?_ ?_ hd hm0.le
      · rw [dr.2.1]; positivity
      · rw [dr.2.1, dr.2.2]; linarith
      · rw [← he, (de e).2.2, h1]
      · rw [← he, (de e).2.1, (de _).2.1, ca.2.1]; linarith
    · obtain ⟨α, hα⟩ : ∃ α, α = (e.x - mv.x) / x := ⟨_, rfl⟩
      obtain ⟨β, hβ⟩ : ∃ β, β = (e.y - mv.y) / y := ⟨_, rfl⟩
      have eα : α * x = e.x - mv.x := by rw [hα]; field_simp
      have eβ : β * y = e.y - mv.y := by rw [hβ]; field_simp
      refine hB.ceiling.hits (α := α) (β := β) (m := m) hs ?_ ?_ ?_ ?_ ?_ ?_ hm6 ?_
      · rw [← he]; ext <;> simp [corner, h1, eα, eβ]
      · rw [nx.1]; linarith
      · rw [nx.1]; linarith
      · rw [ny.2.1]; linarith
      · rw [ny.2.1]; linarith
      · rw [← he]
        convert h4 using 1 <;> ext <;> simp [corner]
      · rw [nx.1, ny.2.1]; linarith

/-- **C74 for boxes.**  Nothing outside a box is said to be inside.  A point in the box, more than `1e-3` of the
greatest distance from the origin (plus a micrometre) away from the faces, is said to be inside if the ray used by the
code leaves the box that far from the edges and the diagonal of a face.
Missing: rays that pass close to an edge, see `C74_ray_through_edge`. -/
theorem C74_box_partial {x y z : ℝ} {mv : Vec3 ℝ} (h : BoxSize x y z mv) {S : SolidG} (hS : box x y z mv = .ok S)
    {p : Vec3 ℝ} :
    (¬ InClosedBox x y z mv p → isPointInside S p = .ok false) ∧
    (∀ (M m s : ℝ), (∀ i j k, Vec3.norm (corner x y z mv i j k) ≤ M) → 1 / 10 ^ 3 * M + 1 / 10 ^ 6 ≤ m →
      (mv.x + m ≤ p.x ∧ p.x ≤ mv.x + x - m) → (mv.y + m ≤ p.y ∧ p.y ≤ mv.y + y - m) →
      (mv.z + m ≤ p.z ∧ p.z ≤ mv.z + z - m) → 0 ≤ s → ExitsWell x y z mv (p + s • rayDir) m →
      isPointInside S p = .ok true) := by
  obtain ⟨⟨P0, P1, P2, P3, P4, P5, hB⟩, hc, hbox⟩ := box_faces h hS
  have hne : facesOf S ≠ [] := by rw [hB.faces]; simp
  constructor
  · intro hout
    obtain ⟨lo, hi, h1, r, h2, h3⟩ := C74_total hne (fun P hP => by
      obtain ⟨v, w, e, hf⟩ := hB.face P hP
      exact hf.new) p
    rw [hbox] at h1
    obtain ⟨rfl, rfl⟩ := Prod.mk.inj (Except.ok.inj h1)
    rw [h2]
    cases r with
    | false => rfl
    | true =>
      obtain ⟨a1, a2, a3, a4, a5, a6⟩ := h3 rfl
      exact absurd ⟨⟨a1, a2⟩, ⟨a3, a4⟩, a5, a6⟩ hout
  · intro M m s hM hm hpx hpy hpz hs hex
    obtain ⟨hx, hy, hz⟩ := hB.pos
    have hM0 : 0 ≤ M := (Vec3.norm_nonneg _).trans (hM true true true)
    have hm6 : 1 / 10 ^ 6 ≤ m := by linarith [mul_nonneg (show (0 : ℝ) ≤ 1 / 10 ^ 3 by norm_num) hM0]
    have hm0 : 0 < m := lt_of_lt_of_le (by norm_num) hm6
    have hcn : ∀ P ∈ facesOf S, ∀ q ∈ P.pts, Vec3.norm q ≤ M := by
      intro P hP q hq
      obtain ⟨-, i, j, k, rfl⟩ := hB.corners P hP q hq
      exact hM i j k
    have hin : InOpenBox x y z mv p :=
      ⟨⟨by linarith, by linarith⟩, ⟨by linarith, by linarith⟩, by linarith, by linarith⟩
    obtain ⟨k, hk, hr⟩ := rayDir_eq
    have hk0 : 0 < k := by linarith
    -- the faces that the ray runs away from
    have m0 : RayMisses P0 ⟨0, 0, -1⟩ (Vec3.dot ⟨0, 0, -1⟩ (corner x y z mv false false false)) p rayDir
        (1 / 10 ^ 4 * M + 1 / 10 ^ 7) := by
      refine RectFace.misses_behind ?_ ?_ _
      · rw [hr]; simp [Vec3.dot]; positivity
      · simp [Vec3.dot, corner]; linarith
    have m1 : RayMisses P1 ⟨0, -1, 0⟩ (Vec3.dot ⟨0, -1, 0⟩ (corner x y z mv false false false)) p rayDir
        (1 / 10 ^ 4 * M + 1 / 10 ^ 7) := by
      refine RectFace.misses_behind ?_ ?_ _
      · rw [hr]; simp [Vec3.dot]; positivity
      · simp [Vec3.dot, corner]; linarith
    have m4 : RayMisses P4 ⟨-1, 0, 0⟩ (Vec3.dot ⟨-1, 0, 0⟩ (corner x y z mv false false false)) p rayDir
        (1 / 10 ^ 4 * M + 1 / 10 ^ 7) := by
      refine RectFace.misses_behind ?_ ?_ _
      · rw [hr]; simp [Vec3.dot]; positivity
      · simp [Vec3.dot, corner]; linarith
    obtain ⟨x2, x3, x5⟩ := hB.exits hM hm hs hex
    have hat : GEOM_ATOL ≤ k * (113 / 1000) := by
      have : (GEOM_ATOL : ℝ) ≤ 113 / 1000 := by norm_num [GEOM_ATOL]
      linarith
    have habs : ∀ v : Vec3 ℝ, (|v.x| = 1 ∧ v.y = 0 ∧ v.z = 0 ∨ v.x = 0 ∧ |v.y| = 1 ∧ v.z = 0 ∨ v.x = 0 ∧ v.y = 0 ∧ |v.z| = 1) →
        GEOM_ATOL ≤ |Vec3.dot v rayDir| := by
      intro v hv
      rw [hr, Vec3.dot]
      rcases hv with ⟨v1, v2, v3⟩ | ⟨v1, v2, v3⟩ | ⟨v1, v2, v3⟩
      · rw [v2, v3, zero_mul, zero_mul, add_zero, add_zero, abs_mul, v1, one_mul, abs_of_pos (by positivity)]; linarith
      · rw [v1, v3, zero_mul, zero_mul, add_zero, zero_add, abs_mul, v2, one_mul, abs_of_pos (by positivity)]; linarith
      · rw [v1, v2, zero_mul, zero_mul, zero_add, zero_add, abs_mul, v3, one_mul, abs_of_pos (by positivity)]; linarith
    obtain ⟨r, h1, h2⟩ : ∃ r, isPointInside S p = .ok r ∧ (r = true ↔ Enclosed (facets S) p) := by
      refine C74_enclosed_partial (M := M) hne hc hcn ?_ ?_
      · rw [hB.faces]
        simp only [List.forall_mem_cons, List.not_mem_nil, false_imp_iff, implies_true, and_true]
        exact ⟨⟨hB.floor.spans, _, _, _, hB.floor.face, habs _ (by simp), .inr m0⟩,
          ⟨hB.front.spans, _, _, _, hB.front.face, habs _ (by simp), .inr m1⟩,
          ⟨hB.right.spans, _, _, _, hB.right.face, habs _ (by simp), x2⟩,
          ⟨hB.back.spans, _, _, _, hB.back.face, habs _ (by simp), x3⟩,
          ⟨hB.left.spans, _, _, _, hB.left.face, habs _ (by simp), .inr m4⟩,
          ⟨hB.ceiling.spans, _, _, _, hB.ceiling.face, habs _ (by simp), x5⟩⟩
      · exact hB.far hM0 hm hpx hpy hpz
    rw [h1, h2.2 (((C74_box_enclosed h hS p).2 ((C74_box_enclosed h hS p).1.2 (.inr hin))).2 hin)]

theorem unit_size : BoxSize 1 1 1 0 := ⟨by norm_num, by norm_num, by norm_num, 2, by norm_num⟩

theorem unit_corner (i j k : Bool) : Vec3.norm (corner 1 1 1 0 i j k) ≤ 2 := by
  apply Vec3.norm_le_of_sq (by norm_num)
  cases i <;> cases j <;> cases k <;> norm_num [corner, Vec3.normSq, Vec3.dot]

/-- The centre of the unit cube meets the hypotheses of `C74_box_partial`, and so of `C74_enclosed_partial`, from which
that theorem is derived. -/
example : ∃ S, box 1 1 1 0 = .ok S ∧ isPointInside S ⟨1 / 2, 1 / 2, 1 / 2⟩ = .ok true ∧
    isPointInside S ⟨2, 1 / 2, 1 / 2⟩ = .ok false := by
  obtain ⟨S, hS, -⟩ := C31_box_partial unit_size
  refine ⟨S, hS, ?_, ?_⟩
  · obtain ⟨k, hk, hr⟩ := rayDir_eq
    have hk0 : k ≠ 0 := by linarith
    have e : (⟨1 / 2, 1 / 2, 1 / 2⟩ : Vec3 ℝ) + (500 / 739 / k) • rayDir =
        ⟨1, 1 / 2 + 239 / 1478, 1 / 2 + 113 / 1478⟩ := by
      rw [hr]
      ext <;> simp <;> field_simp <;> norm_num
    refine (C74_box_partial unit_size hS).2 2 (1 / 100) (500 / 739 / k) unit_corner (by norm_num) (by norm_num)
      (by norm_num) (by norm_num) (by positivity) ?_
    rw [e]
    refine .inl ⟨by norm_num, by norm_num, by norm_num, fun t => ?_⟩
    apply Vec3.le_norm_of_sq
    simp [corner, Vec3.normSq, Vec3.dot]
    nlinarith [sq_nonneg (1 / 2 + 239 / 1478 - t - (1 / 2 - 113 / 1478 - t)), sq_nonneg (t - 1 / 2 - 239 / 2956 + 113 / 2956)]
  · refine (C74_box_partial unit_size hS).1 ?_
    rintro ⟨⟨-, h⟩, -⟩
    norm_num at h

/-- **C74, rays through an edge.**  A point inside the unit cube, more than 10 cm from its faces, is said to be outside:
the ray leaves the cube through the middle of an edge, and both faces are counted. -/
theorem C74_ray_through_edge : ∃ S p, box 1 1 1 0 = .ok S ∧ isPointInside S p = .ok false ∧
    Enclosed (facets S) p ∧ (1 / 10 ≤ p.x ∧ p.x ≤ 9 / 10) ∧ (1 / 10 ≤ p.y ∧ p.y ≤ 9 / 10) ∧ (1 / 10 ≤ p.z ∧ p.z ≤ 9 / 10) := by
  classical
  obtain ⟨S, hS, -⟩ := C31_box_partial unit_size
  obtain ⟨p, hp⟩ : ∃ p : Vec3 ℝ, p = ⟨1 - 739 / 2000, 1 - 239 / 2000, 1 / 2 - 113 / 2000⟩ := ⟨_, rfl⟩
  have hin : InOpenBox 1 1 1 0 p := by rw [hp]; norm_num [InOpenBox]
  have henc := C74_box_enclosed unit_size hS p
  obtain ⟨⟨P0, P1, P2, P3, P4, P5, hB⟩, hc, -⟩ := box_faces unit_size hS
  have hne : facesOf S ≠ [] := by rw [hB.faces]; simp
  have hnew : ∀ P ∈ facesOf S, ∃ pts vn, polygonNew pts none vn = .ok P := fun P hP => by
    obtain ⟨v, w, e, hf⟩ := hB.face P hP
    exact hf.new
  have hcn : ∀ P ∈ facesOf S, ∀ q ∈ P.pts, Vec3.norm q ≤ 2 := by
    intro P hP q hq
    obtain ⟨-, i, j, k, rfl⟩ := hB.corners P hP q hq
    exact unit_corner i j k
  refine ⟨S, p, hS, ?_, (henc.2 (henc.1.2 (.inr hin))).2 hin, ?_, ?_, ?_⟩
  rotate_left
  · rw [hp]; norm_num
  · rw [hp]; norm_num
  · rw [hp]; norm_num
  obtain ⟨k, hk, hr⟩ := rayDir_eq
  have hk0 : 0 < k := by linarith
  have hy : p + (1 / 2 / k) • rayDir = ⟨1, 1, 1 / 2⟩ := by
    rw [hp, hr]
    ext <;> simp <;> field_simp <;> norm_num
  have hat : (GEOM_ATOL : ℝ) ≤ 113 / 1000 := by norm_num [GEOM_ATOL]
  -- the faces that are missed
  have miss : ∀ (P : Poly) (a u w e : Vec3 ℝ), P ∈ facesOf S → RectFace P a u w e → GEOM_ATOL ≤ |Vec3.dot e rayDir| →
      RayMisses P e (Vec3.dot e a) p rayDir (1 / 10 ^ 4 * 2 + 1 / 10 ^ 7) →
      isPointInsideProjection p rayDir P.pts P.tri ≠ .ok true := by
    intro P a u w e hP hR hd hmiss hin
    obtain ⟨pts, vn, hn⟩ := hR.new
    obtain ⟨s, hs, hpl, hnear⟩ := C73_sound_partial hn hR.vn hR.plane hR.face.corner (hcn P hP) GEOM_ATOL_pos hd hin
    exact hmiss s (hs rfl) hpl hnear
  have hit : ∀ (P : Poly) (a u w e : Vec3 ℝ), RectFace P a u w e → GEOM_ATOL ≤ |Vec3.dot e rayDir| →
      Vec3.dot e ⟨1, 1, 1 / 2⟩ = Vec3.dot e a →
      Polygon.isPointInside ⟨1, 1, 1 / 2⟩ P.pts P.tri = .ok true →
      isPointInsideProjection p rayDir P.pts P.tri = .ok true := by
    intro P a u w e hR hd hpl hin
    obtain ⟨pts, vn, hn⟩ := hR.new
    have hd0 : Vec3.dot e rayDir ≠ 0 := by
      intro h0
      rw [h0, abs_zero] at hd
      exact absurd hd (not_le.2 GEOM_ATOL_pos)
    obtain ⟨s, hs, heq⟩ := (isPointInsideProjection_eq (polygonNew_flat hn hR.vn hR.plane) hR.face.corner p rayDir true
      GEOM_ATOL).2 (not_lt.2 hd) hd0
    have hs' : s = 1 / 2 / k := by
      rw [← hy] at hpl
      rw [← hpl, Vec3.dot_add_right, Vec3.dot_add_right, Vec3.dot_smul_right, Vec3.dot_smul_right] at hs
      exact mul_right_cancel₀ hd0 (add_left_cancel hs)
    rw [heq, hs', hy, if_neg (by rintro ⟨-, h⟩; exact absurd h (not_lt.2 (by positivity))), hin]
  have i : P0 ∈ facesOf S ∧ P1 ∈ facesOf S ∧ P4 ∈ facesOf S ∧ P5 ∈ facesOf S := by rw [hB.faces]; simp
  have d0 : GEOM_ATOL ≤ |Vec3.dot (⟨0, 0, -1⟩ : Vec3 ℝ) rayDir| := by
    rw [hr]; simp [Vec3.dot, abs_of_pos hk0]; linarith
  have d1 : GEOM_ATOL ≤ |Vec3.dot (⟨0, -1, 0⟩ : Vec3 ℝ) rayDir| := by
    rw [hr]; simp [Vec3.dot, abs_of_pos hk0]; linarith
  have d2 : GEOM_ATOL ≤ |Vec3.dot (⟨1, 0, 0⟩ : Vec3 ℝ) rayDir| := by
    rw [hr]; simp [Vec3.dot, abs_of_pos hk0]; linarith
  have d3 : GEOM_ATOL ≤ |Vec3.dot (⟨0, 1, 0⟩ : Vec3 ℝ) rayDir| := by
    rw [hr]; simp [Vec3.dot, abs_of_pos hk0]; linarith
  have d4 : GEOM_ATOL ≤ |Vec3.dot (⟨-1, 0, 0⟩ : Vec3 ℝ) rayDir| := by
    rw [hr]; simp [Vec3.dot, abs_of_pos hk0]; linarith
  have d5 : GEOM_ATOL ≤ |Vec3.dot (⟨0, 0, 1⟩ : Vec3 ℝ) rayDir| := by
    rw [hr]; simp [Vec3.dot, abs_of_pos hk0]; linarith
  have m0 := miss _ _ _ _ _ i.1 hB.floor d0 (by
    refine RectFace.misses_behind ?_ ?_ _
    · rw [hr]; simp [Vec3.dot]; positivity
    · rw [hp]; norm_num [Vec3.dot, corner])
  have m1 := miss _ _ _ _ _ i.2.1 hB.front d1 (by
    refine RectFace.misses_behind ?_ ?_ _
    · rw [hr]; simp [Vec3.dot]; positivity
    · rw [hp]; norm_num [Vec3.dot, corner])
  have m4 := miss _ _ _ _ _ i.2.2.1 hB.left d4 (by
    refine RectFace.misses_behind ?_ ?_ _
    · rw [hr]; simp [Vec3.dot]; positivity
    · rw [hp]; norm_num [Vec3.dot, corner])
  have m5 := miss _ _ _ _ _ i.2.2.2 hB.ceiling d5 (by
    refine hB.ceiling.misses_other (s := 1 / 2 / k) (b := 1) (e' := ⟨1, 0, 0⟩) (m := 1 / 10) (norm_x 1 one_pos).1 ?_ ?_ ?_ ?_ ?_
      (by norm_num) (by norm_num)
    · intro q hq
      obtain ⟨⟨⟨-, a2⟩, -⟩, -⟩ := hB.corners P5 i.2.2.2 q hq
      simpa [Vec3.dot] using a2
    · rw [hr]; simp [Vec3.dot]; positivity
    · rw [hr]; simp [Vec3.dot]; linarith
    · rw [hy]; simp [Vec3.dot]
    · rw [hy]; norm_num [Vec3.dot, corner])
  have hmax : max (1 / 10 ^ 6 : ℝ) (1 / 10 ^ 4 * 2) = 2 / 10 ^ 4 := by norm_num
  have n2 := hit _ _ _ _ _ hB.right d2 (by simp [Vec3.dot, corner]) (by
    obtain ⟨pts, vn, hn⟩ := hB.right.new
    refine C71_accepts_edge_partial hn hB.right.vn hB.right.plane ⟨(3, 1, 2), by rw [hB.right.tri]; simp,
      hB.right.triangleWith.2.2 (.inr (.inl ⟨⟨1 / 2, by norm_num, by norm_num, ?_⟩, 2, ?_, ?_, ?_, ?_, ?_⟩))⟩
    · ext <;> norm_num [corner]
    · exact Vec3.norm_le_of_sq (by norm_num) (by norm_num [corner, Vec3.normSq, Vec3.dot])
    · exact Vec3.norm_le_of_sq (by norm_num) (by norm_num [corner, Vec3.normSq, Vec3.dot])
    · exact Vec3.norm_le_of_sq (by norm_num) (by norm_num [corner, Vec3.normSq, Vec3.dot])
    · rw [hmax]
      intro t
      apply Vec3.le_norm_of_sq
      simp [corner, Vec3.normSq, Vec3.dot]
      nlinarith [sq_nonneg t]
    · rw [hmax]
      intro t
      apply Vec3.le_norm_of_sq
      simp [corner, Vec3.normSq, Vec3.dot]
      nlinarith [sq_nonneg (t - 3 / 4)])
  have n3 := hit _ _ _ _ _ hB.back d3 (by simp [Vec3.dot, corner]) (by
    obtain ⟨pts, vn, hn⟩ := hB.back.new
    refine C71_accepts_edge_partial hn hB.back.vn hB.back.plane ⟨(3, 1, 2), by rw [hB.back.tri]; simp,
      hB.back.triangleWith.2.2 (.inr (.inr ⟨⟨1 / 2, by norm_num, by norm_num, ?_⟩, 2, ?_, ?_, ?_, ?_, ?_⟩))⟩
    · ext <;> norm_num [corner]
    · exact Vec3.norm_le_of_sq (by norm_num) (by norm_num [corner, Vec3.normSq, Vec3.dot])
    · exact Vec3.norm_le_of_sq (by norm_num) (by norm_num [corner, Vec3.normSq, Vec3.dot])
    · exact Vec3.norm_le_of_sq (by norm_num) (by norm_num [corner, Vec3.normSq, Vec3.dot])
    · rw [hmax]
      intro t
      apply Vec3.le_norm_of_sq
      simp [corner, Vec3.normSq, Vec3.dot]
      nlinarith [sq_nonneg (t - 1 / 4)]
    · rw [hmax]
      intro t
      apply Vec3.le_norm_of_sq
      simp [corner, Vec3.normSq, Vec3.dot]
      nlinarith [sq_nonneg (t - 1)])
  have hnum : numHits S p = 2 := by
    unfold numHits
    rw [hB.faces]
    simp [m0, m1, n2, n3, m4, m5]
  have hfar := hB.far (p := p) (M := 2) (m := 1 / 10) (by norm_num) (by norm_num) (by rw [hp]; norm_num)
    (by rw [hp]; norm_num) (by rw [hp]; norm_num)
  obtain ⟨lo, hi, -, -, r, hr', hiff⟩ := inside_spec (x := p) hne hnew
  rw [hr']
  cases r with
  | false => rfl
  | true =>
    exfalso
    obtain ⟨-, hodd | ⟨P, hP, hin'⟩⟩ := hiff.1 rfl
    · rw [hnum] at hodd
      exact absurd hodd (by decide)
    · have hfaceR : SpansPlane P.pts ∧ ∃ v e, P.vn = some v ∧ ∀ q ∈ P.pts, Vec3.dot v q = e := by
        have hP' := hP
        rw [hB.faces] at hP'
        simp only [List.mem_cons, List.not_mem_nil, or_false] at hP'
        rcases hP' with rfl | rfl | rfl | rfl | rfl | rfl
        exacts [⟨hB.floor.spans, _, _, hB.floor.vn, hB.floor.plane⟩, ⟨hB.front.spans, _, _, hB.front.vn, hB.front.plane⟩,
          ⟨hB.right.spans, _, _, hB.right.vn, hB.right.plane⟩, ⟨hB.back.spans, _, _, hB.back.vn, hB.back.plane⟩,
          ⟨hB.left.spans, _, _, hB.left.vn, hB.left.plane⟩, ⟨hB.ceiling.spans, _, _, hB.ceiling.vn, hB.ceiling.plane⟩]
      obtain ⟨hsp, v, e, hv, hpl⟩ := hfaceR
      obtain ⟨pts, vn, hn⟩ := hnew P hP
      exact hfar P hP (C71_sound_partial hn hv hpl hsp (hcn P hP) hin')

end B3d.Solids
