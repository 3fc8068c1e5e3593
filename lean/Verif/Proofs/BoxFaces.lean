import Verif.Proofs.BoxMeet

/-!
# The faces of a box as polygons
-/

namespace B3d.Polygon

open Spec Points Triangles
open Bboxes (InBox cubeEdges cubePolygons)

/-- The two triangles of a face. -/
def faceTri : List Tri := [(0, 1, 2), (0, 2, 3)]

/-- A parallelogram. -/
def facePts (a u w : Vec3 ℝ) : List (Vec3 ℝ) := [a, a + u, a + u + w, a + w]

theorem face_region {a u w : Vec3 ℝ} {y : Vec3 ℝ} : Region (facePts a u w) faceTri y ↔
    ∃ r s : ℝ, (0 ≤ r ∧ r ≤ 1) ∧ (0 ≤ s ∧ s ≤ 1) ∧ y = a + r • u + s • w := by
  constructor
  · rintro ⟨t, ht, p, q, o, hp, hq, ho, r, s, z, hr, hs, hz, h1, rfl⟩
    obtain rfl : r = 1 - s - z := by linarith
    simp only [faceTri, List.mem_cons, List.not_mem_nil, or_false] at ht
    rcases ht with rfl | rfl
    · simp only [facePts, List.getElem?_cons_zero, List.getElem?_cons_succ, Option.some.injEq] at hp hq ho
      subst hp hq ho
      exact ⟨s + z, z, ⟨by linarith, by linarith⟩, ⟨hz, by linarith⟩, by ext <;> simp <;> ring⟩
    · simp only [facePts, List.getElem?_cons_zero, List.getElem?_cons_succ, Option.some.injEq] at hp hq ho
      subst hp hq ho
      exact ⟨s, s + z, ⟨hs, by linarith⟩, ⟨by linarith, by linarith⟩, by ext <;> simp <;> ring⟩
  · rintro ⟨r, s, ⟨r0, r1⟩, ⟨s0, s1⟩, rfl⟩
    rcases le_total s r with h | h
    · exact ⟨(0, 1, 2), by simp [faceTri], _, _, _, rfl, rfl, rfl, 1 - r, r - s, s, by linarith, by linarith, s0, by ring,
        by ext <;> simp <;> ring⟩
    · exact ⟨(0, 2, 3), by simp [faceTri], _, _, _, rfl, rfl, rfl, 1 - s, r, s - r, by linarith, r0, by linarith, by ring,
        by ext <;> simp <;> ring⟩

section
variable {a u w : Vec3 ℝ}

theorem face_cross1 : Vec3.cross (a + u - a) (a + u + w - a) = Vec3.cross u w := by ext <;> simp <;> ring
theorem face_cross2 : Vec3.cross (a + u + w - a) (a + w - a) = Vec3.cross u w := by ext <;> simp <;> ring
theorem face_cross3 : Vec3.cross (a + u - a) (a + u + w - (a + u)) = Vec3.cross u w := by ext <;> simp
theorem face_cross4 : Vec3.cross (a + u + w - a) (a + w - (a + u + w)) = Vec3.cross u w := by ext <;> simp <;> ring
theorem face_cross5 : Vec3.cross (a - (a + w)) (a + u - (a + w)) = Vec3.cross u w := by ext <;> simp <;> ring

variable (h : 1 / 10 ^ 8 < Vec3.norm (Vec3.cross u w))
include h

theorem face_cross_ne : Vec3.cross u w ≠ 0 := by
  intro h0
  rw [h0, Vec3.norm_eq_zero.2 rfl] at h
  norm_num at h

theorem face_sturdy : Sturdy (facePts a u w) faceTri := by
  have hb : ¬ Vec3.norm (Vec3.cross u w) < GEOM_ATOL := by
    rw [not_lt]
    refine le_trans ?_ h.le
    norm_num [GEOM_ATOL]
  refine ⟨by simp [facePts], fun t ht => ?_⟩
  simp only [faceTri, List.mem_cons, List.not_mem_nil, or_false] at ht
  rcases ht with rfl | rfl
  · exact ⟨_, _, _, rfl, rfl, rfl, by beta_reduce; rw [face_cross3]; exact hb⟩
  · exact ⟨_, _, _, rfl, rfl, rfl, by beta_reduce; rw [face_cross4]; exact hb⟩

theorem face_flat : Flat (facePts a u w) faceTri (Vec3.cross u w) (Vec3.dot (Vec3.cross u w) a) := by
  have h0 := Vec3.normSq_pos (face_cross_ne h)
  refine ⟨face_cross_ne h, ?_, fun t ht => ?_⟩
  · intro p hp
    simp only [facePts, List.mem_cons, List.not_mem_nil, or_false] at hp
    rcases hp with rfl | rfl | rfl | rfl <;> simp [Vec3.dot] <;> ring
  · simp only [faceTri, List.mem_cons, List.not_mem_nil, or_false] at ht
    rcases ht with rfl | rfl
    · exact ⟨_, _, _, rfl, rfl, rfl, by beta_reduce; rw [face_cross1]; exact h0⟩
    · exact ⟨_, _, _, rfl, rfl, rfl, by beta_reduce; rw [face_cross2]; exact h0⟩

theorem face_normal : CornerNormal (facePts a u w) ((1 / Vec3.norm (Vec3.cross u w)) • Vec3.cross u w) := by
  have h0 : 0 < Vec3.norm (Vec3.cross u w) := lt_trans (by positivity) h
  refine ⟨?_, a + w, a, a + u, rfl, rfl, rfl, ?_, ?_⟩
  · rw [Vec3.norm_smul, abs_of_pos (by positivity), one_div, inv_mul_cancel₀ h0.ne']
  · rw [face_cross5]
    exact h
  · rw [face_cross5, smul_smul, mul_one_div, div_self h0.ne', one_smul]

end

/-- The box is not too small. -/
def BoxSides (lo hi : Vec3 ℝ) : Prop := 1 / 1000 ≤ hi.x - lo.x ∧ 1 / 1000 ≤ hi.y - lo.y ∧ 1 / 1000 ≤ hi.z - lo.z

theorem side_product {p q : ℝ} (hp : 1 / 1000 ≤ p) (hq : 1 / 1000 ≤ q) : 1 / 10 ^ 8 < p * q := by
  have : (1 / 1000 : ℝ) * (1 / 1000) ≤ p * q := mul_le_mul hp hq (by norm_num) (by linarith)
  norm_num at this ⊢
  linarith

theorem face_form {lo hi : Vec3 ℝ} (hs : BoxSides lo hi) {face : List (Vec3 ℝ)} (hf : face ∈ cubePolygons lo hi) :
    ∃ a u w, face = facePts a u w ∧ 1 / 10 ^ 8 < Vec3.norm (Vec3.cross u w) ∧
      ∀ r s : ℝ, (0 ≤ r ∧ r ≤ 1) → (0 ≤ s ∧ s ≤ 1) → InBox lo hi (a + r • u + s • w) := by
  obtain ⟨hx, hy, hz⟩ := hs
  have k1 : ∀ {a b r : ℝ}, 1 / 1000 ≤ b - a → 0 ≤ r ∧ r ≤ 1 → a ≤ a + r * (b - a) ∧ a + r * (b - a) ≤ b := by
    intro a b r h hr
    constructor <;> nlinarith
  have k2 : ∀ {a b r : ℝ}, 1 / 1000 ≤ b - a → 0 ≤ r ∧ r ≤ 1 → a ≤ b + r * (a - b) ∧ b + r * (a - b) ≤ b := by
    intro a b r h hr
    constructor <;> nlinarith
  have lx : lo.x ≤ hi.x := by linarith
  have ly : lo.y ≤ hi.y := by linarith
  have lz : lo.z ≤ hi.z := by linarith
  simp only [cubePolygons, List.mem_cons, List.not_mem_nil, or_false] at hf
  rcases hf with rfl | rfl | rfl | rfl | rfl | rfl
  · refine ⟨⟨lo.x, lo.y, lo.z⟩, ⟨hi.x - lo.x, 0, 0⟩, ⟨0, hi.y - lo.y, 0⟩, ?_, ?_, fun r s hr hs => ?_⟩
    · simp [facePts, Vec3.ext_iff]
    · refine lt_of_lt_of_le ?_ (Vec3.abs_z_le _)
      simpa using lt_of_lt_of_le (side_product hx hy) (le_abs_self _)
    · have := k1 hx hr
      have := k1 hy hs
      simp [InBox, *]
  · refine ⟨⟨lo.x, hi.y, hi.z⟩, ⟨hi.x - lo.x, 0, 0⟩, ⟨0, lo.y - hi.y, 0⟩, ?_, ?_, fun r s hr hs => ?_⟩
    · simp [facePts, Vec3.ext_iff]
    · refine lt_of_lt_of_le ?_ (Vec3.abs_z_le _)
      have := lt_of_lt_of_le (side_product hx hy) (neg_le_abs ((hi.x - lo.x) * (lo.y - hi.y)) |>.trans' (by linarith))
      simpa using this
    · have := k1 hx hr
      have := k2 hy hs
      simp [InBox, *]
  · refine ⟨⟨lo.x, lo.y, lo.z⟩, ⟨0, hi.y - lo.y, 0⟩, ⟨0, 0, hi.z - lo.z⟩, ?_, ?_, fun r s hr hs => ?_⟩
    · simp [facePts, Vec3.ext_iff]
    · refine lt_of_lt_of_le ?_ (Vec3.abs_x_le _)
      simpa using lt_of_lt_of_le (side_product hy hz) (le_abs_self _)
    · have := k1 hy hr
      have := k1 hz hs
      simp [InBox, *]
  · refine ⟨⟨hi.x, lo.y, lo.z⟩, ⟨0, hi.y - lo.y, 0⟩, ⟨0, 0, hi.z - lo.z⟩, ?_, ?_, fun r s hr hs => ?_⟩
    · simp [facePts, Vec3.ext_iff]
    · refine lt_of_lt_of_le ?_ (Vec3.abs_x_le _)
      simpa using lt_of_lt_of_le (side_product hy hz) (le_abs_self _)
    · have := k1 hy hr
      have := k1 hz hs
      simp [InBox, *]
  · refine ⟨⟨lo.x, lo.y, lo.z⟩, ⟨hi.x - lo.x, 0, 0⟩, ⟨0, 0, hi.z - lo.z⟩, ?_, ?_, fun r s hr hs => ?_⟩
    · simp [facePts, Vec3.ext_iff]
    · refine lt_of_lt_of_le ?_ (Vec3.abs_y_le _)
      have := lt_of_lt_of_le (side_product hz hx) (le_abs_self _)
      simpa [mul_comm] using this
    · have := k1 hx hr
      have := k1 hz hs
      simp [InBox, *]
  · refine ⟨⟨lo.x, hi.y, lo.z⟩, ⟨hi.x - lo.x, 0, 0⟩, ⟨0, 0, hi.z - lo.z⟩, ?_, ?_, fun r s hr hs => ?_⟩
    · simp [facePts, Vec3.ext_iff]
    · refine lt_of_lt_of_le ?_ (Vec3.abs_y_le _)
      have := lt_of_lt_of_le (side_product hz hx) (le_abs_self _)
      simpa [mul_comm] using this
    · have := k1 hx hr
      have := k1 hz hs
      simp [InBox, *]

theorem face_facts {lo hi : Vec3 ℝ} (hs : BoxSides lo hi) {face : List (Vec3 ℝ)} (hf : face ∈ cubePolygons lo hi) :
    Sturdy face faceTri ∧ (∃ n e, Flat face faceTri n e) ∧ (∃ w, CornerNormal face w) ∧
      (∀ y, Region face faceTri y → InBox lo hi y) ∧ ∀ p ∈ face, InBox lo hi p := by
  obtain ⟨a, u, w, rfl, h1, h2⟩ := face_form hs hf
  have h3 : ∀ y, Region (facePts a u w) faceTri y → InBox lo hi y := by
    intro y hy
    obtain ⟨r, s, hr, hs, rfl⟩ := face_region.1 hy
    exact h2 r s hr hs
  refine ⟨face_sturdy h1, ⟨_, _, face_flat h1⟩, ⟨_, face_normal h1⟩, h3, fun p hp => ?_⟩
  apply h3
  rw [face_region]
  simp only [facePts, List.mem_cons, List.not_mem_nil, or_false] at hp
  rcases hp with rfl | rfl | rfl | rfl
  · exact ⟨0, 0, by norm_num, by norm_num, by simp⟩
  · exact ⟨1, 0, by norm_num, by norm_num, by simp⟩
  · exact ⟨1, 1, by norm_num, by norm_num, by simp⟩
  · exact ⟨0, 1, by norm_num, by norm_num, by simp⟩

/-- A point of the surface is on a face. -/
theorem surface_face {lo hi y : Vec3 ℝ} (hs : BoxSides lo hi) (h : OnSurface lo hi y) :
    ∃ face ∈ cubePolygons lo hi, Region face faceTri y := by
  obtain ⟨⟨⟨x0, x1⟩, ⟨y0, y1⟩, z0, z1⟩, h⟩ := h
  obtain ⟨hx, hy, hz⟩ := hs
  have dx : 0 < hi.x - lo.x := by linarith
  have dy : 0 < hi.y - lo.y := by linarith
  have dz : 0 < hi.z - lo.z := by linarith
  have frac : ∀ {a b t : ℝ}, 0 < b - a → a ≤ t → t ≤ b → 0 ≤ (t - a) / (b - a) ∧ (t - a) / (b - a) ≤ 1 := by
    intro a b t h1 h2 h3
    exact ⟨div_nonneg (by linarith) h1.le, by rw [div_le_one h1]; linarith⟩
  have gx := frac dx x0 x1
  have gy := frac dy y0 y1
  have gz := frac dz z0 z1
  have ex : (y.x - lo.x) / (hi.x - lo.x) * (hi.x - lo.x) = y.x - lo.x := div_mul_cancel₀ _ dx.ne'
  have ey : (y.y - lo.y) / (hi.y - lo.y) * (hi.y - lo.y) = y.y - lo.y := div_mul_cancel₀ _ dy.ne'
  have ez : (y.z - lo.z) / (hi.z - lo.z) * (hi.z - lo.z) = y.z - lo.z := div_mul_cancel₀ _ dz.ne'
  have form : ∀ {a u w : Vec3 ℝ} {face : List (Vec3 ℝ)}, face ∈ cubePolygons lo hi → face = facePts a u w →
      (∃ r s : ℝ, (0 ≤ r ∧ r ≤ 1) ∧ (0 ≤ s ∧ s ≤ 1) ∧ y = a + r • u + s • w) →
      ∃ face ∈ cubePolygons lo hi, Region face faceTri y := by
    rintro a u w face h1 rfl h2
    exact ⟨_, h1, face_region.2 h2⟩
  rcases h with h | h | h | h | h | h
  · refine form (a := ⟨lo.x, lo.y, lo.z⟩) (u := ⟨0, hi.y - lo.y, 0⟩) (w := ⟨0, 0, hi.z - lo.z⟩)
      (face := [⟨lo.x, lo.y, lo.z⟩, ⟨lo.x, hi.y, lo.z⟩, ⟨lo.x, hi.y, hi.z⟩, ⟨lo.x, lo.y, hi.z⟩])
      (by simp [cubePolygons]) (by simp [facePts, Vec3.ext_iff]) ⟨_, _, gy, gz, ?_⟩
    ext <;> simp [h, ey, ez]
  · refine form (a := ⟨hi.x, lo.y, lo.z⟩) (u := ⟨0, hi.y - lo.y, 0⟩) (w := ⟨0, 0, hi.z - lo.z⟩)
      (face := [⟨hi.x, lo.y, lo.z⟩, ⟨hi.x, hi.y, lo.z⟩, ⟨hi.x, hi.y, hi.z⟩, ⟨hi.x, lo.y, hi.z⟩])
      (by simp [cubePolygons]) (by simp [facePts, Vec3.ext_iff]) ⟨_, _, gy, gz, ?_⟩
    ext <;> simp [h, ey, ez]
  · refine form (a := ⟨lo.x, lo.y, lo.z⟩) (u := ⟨hi.x - lo.x, 0, 0⟩) (w := ⟨0, 0, hi.z - lo.z⟩)
      (face := [⟨lo.x, lo.y, lo.z⟩, ⟨hi.x, lo.y, lo.z⟩, ⟨hi.x, lo.y, hi.z⟩, ⟨lo.x, lo.y, hi.z⟩])
      (by simp [cubePolygons]) (by simp [facePts, Vec3.ext_iff]) ⟨_, _, gx, gz, ?_⟩
    ext <;> simp [h, ex, ez]
  · refine form (a := ⟨lo.x, hi.y, lo.z⟩) (u := ⟨hi.x - lo.x, 0, 0⟩) (w := ⟨0, 0, hi.z - lo.z⟩)
      (face := [⟨lo.x, hi.y, lo.z⟩, ⟨hi.x, hi.y, lo.z⟩, ⟨hi.x, hi.y, hi.z⟩, ⟨lo.x, hi.y, hi.z⟩])
      (by simp [cubePolygons]) (by simp [facePts, Vec3.ext_iff]) ⟨_, _, gx, gz, ?_⟩
    ext <;> simp [h, ex, ez]
  · refine form (a := ⟨lo.x, lo.y, lo.z⟩) (u := ⟨hi.x - lo.x, 0, 0⟩) (w := ⟨0, hi.y - lo.y, 0⟩)
      (face := [⟨lo.x, lo.y, lo.z⟩, ⟨hi.x, lo.y, lo.z⟩, ⟨hi.x, hi.y, lo.z⟩, ⟨lo.x, hi.y, lo.z⟩])
      (by simp [cubePolygons]) (by simp [facePts, Vec3.ext_iff]) ⟨_, _, gx, gy, ?_⟩
    ext <;> simp [h, ex, ey]
  · refine form (a := ⟨lo.x, hi.y, hi.z⟩) (u := ⟨hi.x - lo.x, 0, 0⟩) (w := ⟨0, lo.y - hi.y, 0⟩)
      (face := [⟨lo.x, hi.y, hi.z⟩, ⟨hi.x, hi.y, hi.z⟩, ⟨hi.x, lo.y, hi.z⟩, ⟨lo.x, lo.y, hi.z⟩])
      (by simp [cubePolygons]) (by simp [facePts, Vec3.ext_iff]) ⟨_, 1 - (y.y - lo.y) / (hi.y - lo.y), gx,
        ⟨by linarith [gy.2], by linarith [gy.1]⟩, ?_⟩
    ext
    · simp [ex]
    · simp only [Vec3.add_y, Vec3.smul_y, mul_zero, add_zero]
      linarith
    · simp [h]

end B3d.Polygon
