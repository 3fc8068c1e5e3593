import Verif.Proofs.SegmentCrossing
import Verif.Proofs.Region

/-!
# How a triangle and a box can meet
-/

namespace B3d.Polygon

open Spec Points Triangles
open Bboxes (InBox cubeEdges)

/-! ### The edges of a box -/

theorem onSegment_x {lo hi : Vec3 ℝ} {x Y Z : ℝ} (h : lo.x < hi.x) (h0 : lo.x ≤ x) (h1 : x ≤ hi.x) :
    OnSegment ⟨lo.x, Y, Z⟩ ⟨hi.x, Y, Z⟩ (⟨x, Y, Z⟩ : Vec3 ℝ) := by
  have : 0 < hi.x - lo.x := by linarith
  refine ⟨(x - lo.x) / (hi.x - lo.x), div_nonneg (by linarith) this.le, by rw [div_le_one this]; linarith, ?_⟩
  ext
  · simp only [Vec3.add_x, Vec3.smul_x, Vec3.sub_x]
    rw [div_mul_cancel₀ _ this.ne']; ring
  · simp
  · simp

theorem onSegment_y {lo hi : Vec3 ℝ} {X y Z : ℝ} (h : lo.y < hi.y) (h0 : lo.y ≤ y) (h1 : y ≤ hi.y) :
    OnSegment ⟨X, lo.y, Z⟩ ⟨X, hi.y, Z⟩ (⟨X, y, Z⟩ : Vec3 ℝ) := by
  have : 0 < hi.y - lo.y := by linarith
  refine ⟨(y - lo.y) / (hi.y - lo.y), div_nonneg (by linarith) this.le, by rw [div_le_one this]; linarith, ?_⟩
  ext
  · simp
  · simp only [Vec3.add_y, Vec3.smul_y, Vec3.sub_y]
    rw [div_mul_cancel₀ _ this.ne']; ring
  · simp

theorem onSegment_z {lo hi : Vec3 ℝ} {X Y z : ℝ} (h : lo.z < hi.z) (h0 : lo.z ≤ z) (h1 : z ≤ hi.z) :
    OnSegment ⟨X, Y, lo.z⟩ ⟨X, Y, hi.z⟩ (⟨X, Y, z⟩ : Vec3 ℝ) := by
  have : 0 < hi.z - lo.z := by linarith
  refine ⟨(z - lo.z) / (hi.z - lo.z), div_nonneg (by linarith) this.le, by rw [div_le_one this]; linarith, ?_⟩
  ext
  · simp
  · simp
  · simp only [Vec3.add_z, Vec3.smul_z, Vec3.sub_z]
    rw [div_mul_cancel₀ _ this.ne']; ring

/-- A point of the box with two coordinates at the ends of their ranges is on an edge. -/
theorem on_cubeEdge {lo hi p : Vec3 ℝ} (hx : lo.x < hi.x) (hy : lo.y < hi.y) (hz : lo.z < hi.z) (hp : InBox lo hi p)
    (h : ((p.y = lo.y ∨ p.y = hi.y) ∧ (p.z = lo.z ∨ p.z = hi.z)) ∨
      ((p.x = lo.x ∨ p.x = hi.x) ∧ (p.z = lo.z ∨ p.z = hi.z)) ∨
      ((p.x = lo.x ∨ p.x = hi.x) ∧ (p.y = lo.y ∨ p.y = hi.y))) :
    ∃ ed ∈ cubeEdges lo hi, OnSegment ed.1 ed.2 p := by
  obtain ⟨x, y, z⟩ := p
  obtain ⟨⟨x0, x1⟩, ⟨y0, y1⟩, z0, z1⟩ := hp
  simp only at h x0 x1 y0 y1 z0 z1
  rcases h with ⟨rfl | rfl, rfl | rfl⟩ | ⟨rfl | rfl, rfl | rfl⟩ | ⟨rfl | rfl, rfl | rfl⟩
  · exact ⟨(⟨lo.x, lo.y, lo.z⟩, ⟨hi.x, lo.y, lo.z⟩), by simp [cubeEdges], onSegment_x hx x0 x1⟩
  · exact ⟨(⟨lo.x, lo.y, hi.z⟩, ⟨hi.x, lo.y, hi.z⟩), by simp [cubeEdges], onSegment_x hx x0 x1⟩
  · exact ⟨(⟨lo.x, hi.y, lo.z⟩, ⟨hi.x, hi.y, lo.z⟩), by simp [cubeEdges], onSegment_x hx x0 x1⟩
  · exact ⟨(⟨lo.x, hi.y, hi.z⟩, ⟨hi.x, hi.y, hi.z⟩), by simp [cubeEdges], onSegment_x hx x0 x1⟩
  · exact ⟨(⟨lo.x, lo.y, lo.z⟩, ⟨lo.x, hi.y, lo.z⟩), by simp [cubeEdges], onSegment_y hy y0 y1⟩
  · exact ⟨(⟨lo.x, lo.y, hi.z⟩, ⟨lo.x, hi.y, hi.z⟩), by simp [cubeEdges], onSegment_y hy y0 y1⟩
  · exact ⟨(⟨hi.x, lo.y, lo.z⟩, ⟨hi.x, hi.y, lo.z⟩), by simp [cubeEdges], onSegment_y hy y0 y1⟩
  · exact ⟨(⟨hi.x, lo.y, hi.z⟩, ⟨hi.x, hi.y, hi.z⟩), by simp [cubeEdges], onSegment_y hy y0 y1⟩
  · exact ⟨(⟨lo.x, lo.y, lo.z⟩, ⟨lo.x, lo.y, hi.z⟩), by simp [cubeEdges], onSegment_z hz z0 z1⟩
  · exact ⟨(⟨lo.x, hi.y, lo.z⟩, ⟨lo.x, hi.y, hi.z⟩), by simp [cubeEdges], onSegment_z hz z0 z1⟩
  · exact ⟨(⟨hi.x, lo.y, lo.z⟩, ⟨hi.x, lo.y, hi.z⟩), by simp [cubeEdges], onSegment_z hz z0 z1⟩
  · exact ⟨(⟨hi.x, hi.y, lo.z⟩, ⟨hi.x, hi.y, hi.z⟩), by simp [cubeEdges], onSegment_z hz z0 z1⟩

theorem cubeEdge_inBox {lo hi p : Vec3 ℝ} (hx : lo.x ≤ hi.x) (hy : lo.y ≤ hi.y) (hz : lo.z ≤ hi.z)
    (h : ∃ ed ∈ cubeEdges lo hi, OnSegment ed.1 ed.2 p) : InBox lo hi p := by
  obtain ⟨ed, he, t, t0, t1, rfl⟩ := h
  have key : ∀ a b : ℝ, a ≤ b → a ≤ a + t * (b - a) ∧ a + t * (b - a) ≤ b := by
    intro a b hab
    constructor <;> nlinarith
  simp only [cubeEdges, List.mem_cons, List.not_mem_nil, or_false] at he
  have kx := key _ _ hx
  have ky := key _ _ hy
  have kz := key _ _ hz
  rcases he with rfl | rfl | rfl | rfl | rfl | rfl | rfl | rfl | rfl | rfl | rfl | rfl <;>
    simp only [InBox, Vec3.add_x, Vec3.add_y, Vec3.add_z, Vec3.smul_x, Vec3.smul_y, Vec3.smul_z, Vec3.sub_x, Vec3.sub_y,
      Vec3.sub_z, sub_self, mul_zero, add_zero, le_refl, true_and, and_true] <;> simp [*]

/-- A quantity that changes evenly from at most zero to at least zero. -/
theorem zero_between {g d : ℝ} (h0 : g ≤ 0) (h1 : 0 ≤ g + d) : ∃ t : ℝ, 0 ≤ t ∧ t ≤ 1 ∧ g + t * d = 0 := by
  by_cases hd : d = 0
  · subst hd
    exact ⟨0, le_refl _, zero_le_one, by linarith⟩
  · have hd' : 0 < d := lt_of_le_of_ne (by linarith) (Ne.symm hd)
    refine ⟨-g / d, div_nonneg (by linarith) hd'.le, by rw [div_le_one hd']; linarith, ?_⟩
    rw [div_mul_cancel₀ _ hd]
    ring

theorem end_le (n : ℝ) {lo hi x : ℝ} (h0 : lo ≤ x) (h1 : x ≤ hi) : ∃ X, (X = lo ∨ X = hi) ∧ n * X ≤ n * x := by
  rcases le_total 0 n with h | h
  · exact ⟨lo, .inl rfl, by nlinarith⟩
  · exact ⟨hi, .inr rfl, by nlinarith⟩

theorem le_end (n : ℝ) {lo hi x : ℝ} (h0 : lo ≤ x) (h1 : x ≤ hi) : ∃ X, (X = lo ∨ X = hi) ∧ n * x ≤ n * X := by
  rcases le_total 0 n with h | h
  · exact ⟨hi, .inr rfl, by nlinarith⟩
  · exact ⟨lo, .inl rfl, by nlinarith⟩

/-- A plane that meets the box meets one of its edges. -/
theorem plane_meets_edge {lo hi n x : Vec3 ℝ} {e : ℝ} (hx : lo.x < hi.x) (hy : lo.y < hi.y) (hz : lo.z < hi.z)
    (hb : InBox lo hi x) (he : Vec3.dot n x = e) :
    ∃ ed ∈ cubeEdges lo hi, ∃ p, OnSegment ed.1 ed.2 p ∧ Vec3.dot n p = e := by
  obtain ⟨⟨x0, x1⟩, ⟨y0, y1⟩, z0, z1⟩ := hb
  obtain ⟨X, hX, lX⟩ := end_le n.x x0 x1
  obtain ⟨Y, hY, lY⟩ := end_le n.y y0 y1
  obtain ⟨Z, hZ, lZ⟩ := end_le n.z z0 z1
  obtain ⟨X', hX', lX'⟩ := le_end n.x x0 x1
  obtain ⟨Y', hY', lY'⟩ := le_end n.y y0 y1
  obtain ⟨Z', hZ', lZ'⟩ := le_end n.z z0 z1
  have hd : n.x * x.x + n.y * x.y + n.z * x.z = e := he
  have rng : ∀ {lo hi X : ℝ}, lo < hi → (X = lo ∨ X = hi) → lo ≤ X ∧ X ≤ hi := by
    rintro lo hi X h (rfl | rfl)
    · exact ⟨le_refl _, h.le⟩
    · exact ⟨h.le, le_refl _⟩
  have btw : ∀ {lo hi X Y t : ℝ}, lo ≤ X ∧ X ≤ hi → lo ≤ Y ∧ Y ≤ hi → 0 ≤ t → t ≤ 1 →
      lo ≤ X + t * (Y - X) ∧ X + t * (Y - X) ≤ hi := by
    intro lo hi X Y t h1 h2 t0 t1
    constructor <;> nlinarith
  have fin : ∀ {p : Vec3 ℝ}, (∃ ed ∈ cubeEdges lo hi, OnSegment ed.1 ed.2 p) → Vec3.dot n p = e →
      ∃ ed ∈ cubeEdges lo hi, ∃ p, OnSegment ed.1 ed.2 p ∧ Vec3.dot n p = e :=
    fun ⟨ed, h1, h2⟩ h3 => ⟨ed, h1, _, h2, h3⟩
  rcases le_total (n.x * X' + n.y * Y + n.z * Z - e) 0 with h1 | h1
  · rcases le_total (n.x * X' + n.y * Y' + n.z * Z - e) 0 with h2 | h2
    · obtain ⟨t, t0, t1, ht⟩ := zero_between (d := n.z * (Z' - Z)) h2 (by linarith)
      refine fin (p := ⟨X', Y', Z + t * (Z' - Z)⟩) (on_cubeEdge hx hy hz ⟨rng hx hX', rng hy hY',
        btw (rng hz hZ) (rng hz hZ') t0 t1⟩ (.inr (.inr ⟨hX', hY'⟩))) ?_
      simp only [Vec3.dot]
      linarith
    · obtain ⟨t, t0, t1, ht⟩ := zero_between (d := n.y * (Y' - Y)) h1 (by linarith)
      refine fin (p := ⟨X', Y + t * (Y' - Y), Z⟩) (on_cubeEdge hx hy hz ⟨rng hx hX',
        btw (rng hy hY) (rng hy hY') t0 t1, rng hz hZ⟩ (.inr (.inl ⟨hX', hZ⟩))) ?_
      simp only [Vec3.dot]
      linarith
  · obtain ⟨t, t0, t1, ht⟩ := zero_between (g := n.x * X + n.y * Y + n.z * Z - e) (d := n.x * (X' - X)) (by linarith)
      (by linarith)
    refine fin (p := ⟨X + t * (X' - X), Y, Z⟩) (on_cubeEdge hx hy hz ⟨btw (rng hx hX) (rng hx hX') t0 t1,
      rng hy hY, rng hz hZ⟩ (.inl ⟨hY, hZ⟩)) ?_
    simp only [Vec3.dot]
    linarith

/-! ### Leaving the box and the triangle -/

/-- `p` is on the surface of the box. -/
def OnSurface (lo hi p : Vec3 ℝ) : Prop :=
  InBox lo hi p ∧ (p.x = lo.x ∨ p.x = hi.x ∨ p.y = lo.y ∨ p.y = hi.y ∨ p.z = lo.z ∨ p.z = hi.z)

/-- The way from a point in the box to a point outside meets the surface. -/
theorem leaves_box {lo hi p q : Vec3 ℝ} (hp : InBox lo hi p) (hq : ¬ InBox lo hi q) :
    ∃ s : ℝ, 0 ≤ s ∧ s ≤ 1 ∧ OnSurface lo hi (p + s • (q - p)) := by
  obtain ⟨⟨x0, x1⟩, ⟨y0, y1⟩, z0, z1⟩ := hp
  obtain ⟨s, s0, s1, hall, hz⟩ := first_zero [(p.x - lo.x, q.x - p.x), (hi.x - p.x, -(q.x - p.x)),
    (p.y - lo.y, q.y - p.y), (hi.y - p.y, -(q.y - p.y)), (p.z - lo.z, q.z - p.z), (hi.z - p.z, -(q.z - p.z))]
    (by simp [x0, x1, y0, y1, z0, z1]) (by
      by_contra h
      apply hq
      simp only [List.mem_cons, List.not_mem_nil, or_false, exists_eq_or_imp, exists_eq_left, not_or, not_lt] at h
      obtain ⟨h1, h2, h3, h4, h5, h6⟩ := h
      exact ⟨⟨by linarith, by linarith⟩, ⟨by linarith, by linarith⟩, by linarith, by linarith⟩)
  refine ⟨s, s0, s1, ?_, ?_⟩
  · simp only [List.mem_cons, List.not_mem_nil, or_false, forall_eq_or_imp, forall_eq] at hall
    obtain ⟨h1, h2, h3, h4, h5, h6⟩ := hall
    simp only [InBox, Vec3.add_x, Vec3.add_y, Vec3.add_z, Vec3.smul_x, Vec3.smul_y, Vec3.smul_z, Vec3.sub_x, Vec3.sub_y,
      Vec3.sub_z]
    exact ⟨⟨by linarith, by linarith⟩, ⟨by linarith, by linarith⟩, by linarith, by linarith⟩
  · simp only [List.mem_cons, List.not_mem_nil, or_false, exists_eq_or_imp, exists_eq_left] at hz
    simp only [Vec3.add_x, Vec3.add_y, Vec3.add_z, Vec3.smul_x, Vec3.smul_y, Vec3.smul_z, Vec3.sub_x, Vec3.sub_y,
      Vec3.sub_z]
    rcases hz with h | h | h | h | h | h
    · left; linarith
    · right; left; linarith
    · right; right; left; linarith
    · right; right; right; left; linarith
    · right; right; right; right; left; linarith
    · right; right; right; right; right; linarith

theorem inBox_segment {lo hi p q : Vec3 ℝ} {s : ℝ} (hp : InBox lo hi p) (hq : InBox lo hi q) (h0 : 0 ≤ s) (h1 : s ≤ 1) :
    InBox lo hi (p + s • (q - p)) := by
  obtain ⟨⟨a1, a2⟩, ⟨a3, a4⟩, a5, a6⟩ := hp
  obtain ⟨⟨b1, b2⟩, ⟨b3, b4⟩, b5, b6⟩ := hq
  simp only [InBox, Vec3.add_x, Vec3.add_y, Vec3.add_z, Vec3.smul_x, Vec3.smul_y, Vec3.smul_z, Vec3.sub_x, Vec3.sub_y,
    Vec3.sub_z]
  refine ⟨⟨?_, ?_⟩, ⟨?_, ?_⟩, ?_, ?_⟩ <;> nlinarith

theorem segment_of_zero {a b c : Vec3 ℝ} {r s t : ℝ} (hr : 0 ≤ r) (hs : 0 ≤ s) (ht : 0 ≤ t) (h1 : r + s + t = 1)
    (h0 : t = 0) : OnSegment a b (r • a + s • b + t • c) := by
  subst h0
  obtain rfl : r = 1 - s := by linarith
  exact ⟨s, hs, by linarith, by rw [sub_smul, one_smul, smul_sub, zero_smul]; abel⟩

/-- The way, in the plane of a triangle, from a point of the triangle to a point outside meets an edge. -/
theorem leaves_triangle {n a b c x y : Vec3 ℝ} {e : ℝ} (hn : n ≠ 0) (ha : Vec3.dot n a = e) (hb : Vec3.dot n b = e)
    (hc : Vec3.dot n c = e) (hA : 0 < Vec3.dot n (Vec3.cross (b - a) (c - a))) (hx : InTriangle a b c x)
    (hy : Vec3.dot n y = e) (hyo : ¬ InTriangle a b c y) :
    ∃ s : ℝ, 0 ≤ s ∧ s ≤ 1 ∧ (OnSegment a b (x + s • (y - x)) ∨ OnSegment b c (x + s • (y - x)) ∨
      OnSegment c a (x + s • (y - x))) := by
  obtain ⟨e1, e2⟩ := comb_of_sides hn ha hb hc hy rfl hA.ne'
  generalize sideOf n y b c / _ = r' at *
  generalize sideOf n y c a / _ = s' at *
  generalize sideOf n y a b / _ = t' at *
  obtain ⟨r, s, t, hr, hs, ht, h1, rfl⟩ := hx
  subst e2
  obtain ⟨u, u0, u1, hall, hz⟩ := first_zero [(r, r' - r), (s, s' - s), (t, t' - t)] (by simp [hr, hs, ht]) (by
    by_contra h
    apply hyo
    simp only [List.mem_cons, List.not_mem_nil, or_false, exists_eq_or_imp, exists_eq_left, not_or, not_lt] at h
    obtain ⟨k1, k2, k3⟩ := h
    exact ⟨r', s', t', by linarith, by linarith, by linarith, e1, rfl⟩)
  simp only [List.mem_cons, List.not_mem_nil, or_false, forall_eq_or_imp, forall_eq] at hall
  obtain ⟨k1, k2, k3⟩ := hall
  have hsum : (r + u * (r' - r)) + (s + u * (s' - s)) + (t + u * (t' - t)) = 1 := by
    linear_combination h1 + u * (e1 - h1)
  have hp : r • a + s • b + t • c + u • (r' • a + s' • b + t' • c - (r • a + s • b + t • c)) =
      (r + u * (r' - r)) • a + (s + u * (s' - s)) • b + (t + u * (t' - t)) • c := by
    ext <;> simp <;> ring
  refine ⟨u, u0, u1, ?_⟩
  rw [hp]
  simp only [List.mem_cons, List.not_mem_nil, or_false, exists_eq_or_imp, exists_eq_left] at hz
  rcases hz with h | h | h
  · right; left
    have := segment_of_zero (a := b) (b := c) (c := a) k2 k3 k1 (by linarith) h
    rwa [show (r + u * (r' - r)) • a + (s + u * (s' - s)) • b + (t + u * (t' - t)) • c =
      (s + u * (s' - s)) • b + (t + u * (t' - t)) • c + (r + u * (r' - r)) • a from by abel]
  · right; right
    have := segment_of_zero (a := c) (b := a) (c := b) k3 k1 k2 (by linarith) h
    rwa [show (r + u * (r' - r)) • a + (s + u * (s' - s)) • b + (t + u * (t' - t)) • c =
      (t + u * (t' - t)) • c + (r + u * (r' - r)) • a + (s + u * (s' - s)) • b from by abel]
  · left
    exact segment_of_zero k1 k2 k3 hsum h

/-- **How a triangle and a box can meet**: a corner of the triangle is in the box, an edge of the triangle meets the
surface of the box, or an edge of the box meets the triangle. -/
theorem triangle_meets_box {n a b c lo hi x : Vec3 ℝ} {e : ℝ} (hlx : lo.x < hi.x) (hly : lo.y < hi.y)
    (hlz : lo.z < hi.z) (hn : n ≠ 0) (ha : Vec3.dot n a = e) (hb : Vec3.dot n b = e) (hc : Vec3.dot n c = e)
    (hA : 0 < Vec3.dot n (Vec3.cross (b - a) (c - a))) (hx : InTriangle a b c x) (hxb : InBox lo hi x) :
    (InBox lo hi a ∨ InBox lo hi b ∨ InBox lo hi c) ∨
    (∃ y, OnSurface lo hi y ∧ (OnSegment a b y ∨ OnSegment b c y ∨ OnSegment c a y)) ∨
    ∃ ed ∈ cubeEdges lo hi, ∃ y, OnSegment ed.1 ed.2 y ∧ InTriangle a b c y := by
  by_cases hedge : ∃ y, InBox lo hi y ∧ (OnSegment a b y ∨ OnSegment b c y ∨ OnSegment c a y)
  · have key : ∀ {p q y : Vec3 ℝ}, InBox lo hi y → OnSegment p q y → InBox lo hi q ∨
        ∃ y, OnSurface lo hi y ∧ OnSegment p q y := by
      intro p q y hy hs
      by_cases hq : InBox lo hi q
      · exact .inl hq
      · obtain ⟨s, s0, s1, hsf⟩ := leaves_box hy hq
        obtain ⟨t, t0, t1, rfl⟩ := hs
        refine .inr ⟨_, hsf, t + s * (1 - t), by nlinarith, by nlinarith, ?_⟩
        ext <;> simp <;> ring
    obtain ⟨y, hy, h | h | h⟩ := hedge
    · rcases key hy h with h | ⟨z, h1, h2⟩
      · exact .inl (.inr (.inl h))
      · exact .inr (.inl ⟨z, h1, .inl h2⟩)
    · rcases key hy h with h | ⟨z, h1, h2⟩
      · exact .inl (.inr (.inr h))
      · exact .inr (.inl ⟨z, h1, .inr (.inl h2)⟩)
    · rcases key hy h with h | ⟨z, h1, h2⟩
      · exact .inl (.inl h)
      · exact .inr (.inl ⟨z, h1, .inr (.inr h2)⟩)
  · right; right
    obtain ⟨ed, he, y, hy, hyp⟩ := plane_meets_edge hlx hly hlz hxb (inTriangle_plane ha hb hc hx)
    refine ⟨ed, he, y, hy, ?_⟩
    by_contra hyo
    obtain ⟨s, s0, s1, hs⟩ := leaves_triangle hn ha hb hc hA hx hyp hyo
    exact hedge ⟨_, inBox_segment hxb (cubeEdge_inBox hlx.le hly.le hlz.le ⟨ed, he, hy⟩) s0 s1, hs⟩

end B3d.Polygon
