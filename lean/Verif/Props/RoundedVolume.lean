import Verif.Proofs.RoundedBox
import Verif.Proofs.RoundedNan
import Verif.Proofs.RoundedAnySolid

/-!
# C120: volumes in rounded arithmetic

`tetrahedron_volume`, `Solid.volume` and `box` with every operation rounded (`Verif/Model/RoundedVolume.lean`).  The value
`none` is NaN.
-/

namespace B3d.Rounded

open Spec Planar Polygon Triangles

variable {R t : ℝ}

/-- **C120, one tetrahedron.**  All corners are within `R` of each other.  If 144 times the square of the volume is at least
`7e-12 * R ^ 6`, then the rounded volume is a number.  Whenever it is a number, it is not negative and the squares differ by
at most `1e-13 * (R ^ 6 + 1)`. -/
theorem C120_tetrahedron_partial (A : RootArith) {p0 p1 p2 p3 : Vec3 ℝ} (h1 : Vec3.norm (p1 - p0) ≤ R) (h2 : Vec3.norm (p2 - p0) ≤ R)
    (h3 : Vec3.norm (p3 - p0) ≤ R) (h4 : Vec3.norm (p2 - p1) ≤ R) (h5 : Vec3.norm (p3 - p2) ≤ R)
    (h6 : Vec3.norm (p3 - p1) ≤ R) :
    let V := |Vec3.dot (p1 - p0) (Vec3.cross (p2 - p0) (p3 - p0))| / 6
    (7 / 10 ^ 12 * R ^ 6 ≤ 144 * V ^ 2 → ∃ v, tetrahedronVolume A p0 p1 p2 p3 = some v) ∧
    ∀ v, tetrahedronVolume A p0 p1 p2 p3 = some v → 0 ≤ v ∧ |v ^ 2 - V ^ 2| ≤ (R ^ 6 + 1) / 10 ^ 13 := by
  intro V
  obtain ⟨g1, g2⟩ := volume_err A (R := R) ⟨h1, h2, h3, h4, h5, h6⟩
  have e : (2 * det6 p0 p1 p2 p3) ^ 2 = 144 * V ^ 2 := by
    simp only [V, det6]
    rw [div_pow, sq_abs]
    ring
  rw [e] at g1 g2
  refine ⟨g1, fun v hv => ?_⟩
  obtain ⟨k1, k2⟩ := g2 v hv
  refine ⟨k1, ?_⟩
  have e2 : 144 * v ^ 2 - 144 * V ^ 2 = 144 * (v ^ 2 - V ^ 2) := by ring
  rw [e2, abs_mul, abs_of_pos (by norm_num : (0 : ℝ) < 144)] at k2
  have hR : (0 : ℝ) ≤ R := (Vec3.norm_nonneg _).trans h1
  have h6 : 0 ≤ R ^ 6 := by positivity
  norm_num at k2 ⊢
  linarith

/-- **C120, a solid.**  The faces have together at most 500 triangles, none of which rounding disturbs: everything is within
`R` of the origin and of each other, and the volume over each triangle is at least `t * R ^ 3` with `t` at least `1e-6`.  The
rounded volume is a number, off by at most `1e-13 * R ^ 3 / t` for each triangle. -/
theorem C120_solid_partial (A : RootArith) (hR : 1 ≤ R) (ht : 1 / 10 ^ 6 ≤ t)
    {faces : List (List (Vec3 ℝ) × Vec3 ℝ × List Tri)} (hf : ∀ f ∈ faces, SolidFace R t f) (hn : triangleCount faces ≤ 500) :
    ∃ v, solidVolume A faces = .ok (some v) ∧
      |v - abs (enclosedVolume faces)| ≤ triangleCount faces * (R ^ 3 / t) / 10 ^ 13 := by
  obtain ⟨total, h1, h2, h3⟩ := addPolygons_acc A hR ht faces 0 0 0 hf ⟨by simp, by simp⟩ (by omega)
  refine ⟨|total|, ?_, ?_⟩
  · unfold solidVolume
    rw [h1]
    rfl
  · rw [zero_add, zero_add] at h3
    refine (abs_abs_sub_abs_le _ _).trans (h3.trans (le_of_eq ?_))
    ring

/-- **C120, any solid.**  The triangles are allowed to be in planes through the origin; there may be up to a million.  The
volume is NaN, or off by at most `3e-7 * R ^ 3` for each triangle. -/
theorem C120_number_partial (A : RootArith) (hR : 1 ≤ R) {faces : List (List (Vec3 ℝ) × Vec3 ℝ × List Tri)}
    (hf : ∀ f ∈ faces, SolidFace R 0 f) (hn : triangleCount faces ≤ 10 ^ 6) :
    ∃ r, solidVolume A faces = .ok r ∧ ∀ v, r = some v →
      |v - abs (enclosedVolume faces)| ≤ triangleCount faces * (3 / 10 ^ 7 * R ^ 3) := by
  obtain ⟨total, h1, h2⟩ := addPolygons_any A hR faces 0 0 (some 0) hf (by intro t' h; cases h; simp) (by omega)
  refine ⟨total.map abs, ?_, ?_⟩
  · unfold solidVolume
    rw [h1]
  · intro v hv
    rcases total with _ | t'
    · cases hv
    · cases hv
      have h3 := (h2 t' rfl).2
      rw [zero_add, zero_add] at h3
      exact (abs_abs_sub_abs_le _ _).trans h3

section
variable {m M h x y z : ℝ} {mv : Vec3 ℝ}

theorem axes_xy : Axes (⟨1, 0, 0⟩ : Vec3 ℝ) ⟨0, 1, 0⟩ := by constructor <;> norm_num [Vec3.dot]
theorem axes_yx : Axes (⟨0, 1, 0⟩ : Vec3 ℝ) ⟨1, 0, 0⟩ := by constructor <;> norm_num [Vec3.dot]
theorem axes_xz : Axes (⟨1, 0, 0⟩ : Vec3 ℝ) ⟨0, 0, 1⟩ := by constructor <;> norm_num [Vec3.dot]
theorem axes_zx : Axes (⟨0, 0, 1⟩ : Vec3 ℝ) ⟨1, 0, 0⟩ := by constructor <;> norm_num [Vec3.dot]
theorem axes_yz : Axes (⟨0, 1, 0⟩ : Vec3 ℝ) ⟨0, 0, 1⟩ := by constructor <;> norm_num [Vec3.dot]
theorem axes_zy : Axes (⟨0, 0, 1⟩ : Vec3 ℝ) ⟨0, 1, 0⟩ := by constructor <;> norm_num [Vec3.dot]

/-- The six outlines of an exact box. -/
def outlines (X0 X1 Y0 Y1 Z0 Z1 : ℝ) : List (List (Vec3 ℝ)) :=
  [rect ⟨X0, Y0, Z0⟩ ⟨0, 1, 0⟩ ⟨1, 0, 0⟩ (Y1 - Y0) (X1 - X0),
   rect ⟨X0, Y0, Z0⟩ ⟨1, 0, 0⟩ ⟨0, 0, 1⟩ (X1 - X0) (Z1 - Z0),
   rect ⟨X1, Y0, Z0⟩ ⟨0, 1, 0⟩ ⟨0, 0, 1⟩ (Y1 - Y0) (Z1 - Z0),
   rect ⟨X0, Y1, Z0⟩ ⟨0, 0, 1⟩ ⟨1, 0, 0⟩ (Z1 - Z0) (X1 - X0),
   rect ⟨X0, Y0, Z0⟩ ⟨0, 0, 1⟩ ⟨0, 1, 0⟩ (Z1 - Z0) (Y1 - Y0),
   rect ⟨X0, Y0, Z1⟩ ⟨1, 0, 0⟩ ⟨0, 1, 0⟩ (X1 - X0) (Y1 - Y0)]

theorem boxFaces_outlines (A : Arith) (x y z : ℝ) (mv : Vec3 ℝ) : boxFaces A x y z mv =
    outlines (A.add (A.mul 0 x) mv.x) (A.add (A.mul 1 x) mv.x) (A.add (A.mul 0 y) mv.y) (A.add (A.mul 1 y) mv.y)
      (A.add (A.mul 0 z) mv.z) (A.add (A.mul 1 z) mv.z) := by
  have e : ∀ a b c d e f : ℝ, (⟨a, b, c⟩ : Vec3 ℝ) + ⟨d, e, f⟩ = ⟨a + d, b + e, c + f⟩ := fun _ _ _ _ _ _ => rfl
  have s : ∀ k d e f : ℝ, k • (⟨d, e, f⟩ : Vec3 ℝ) = ⟨k * d, k * e, k * f⟩ := fun _ _ _ _ => rfl
  simp only [boxFaces, outlines, rect, boxPoint, e, s, mul_one, mul_zero, add_zero, add_sub_cancel]

theorem box_of (A : Arith) {x y z : ℝ} {mv : Vec3 ℝ} {f0 f1 f2 f3 f4 f5 : List (Vec3 ℝ)}
    {g0 g1 g2 g3 g4 g5 : List (Vec3 ℝ) × Vec3 ℝ × List Tri} (hb : boxFaces A x y z mv = [f0, f1, f2, f3, f4, f5])
    (h0 : polygonNew A f0 = .ok g0) (h1 : polygonNew A f1 = .ok g1) (h2 : polygonNew A f2 = .ok g2)
    (h3 : polygonNew A f3 = .ok g3) (h4 : polygonNew A f4 = .ok g4) (h5 : polygonNew A f5 = .ok g5) :
    box A x y z mv = .ok [g0, g1, g2, g3, g4, g5] := by
  unfold box
  rw [hb]
  simp [Solids.mapExcept, h0, h1, h2, h3, h4, h5]

/-- The rounded box. -/
theorem box_sides (A : Arith) (hm : 1 / 500 ≤ m) (hm' : m ≤ 10 ^ 6) (hM : M ≤ 9000 * m) (hM0 : 0 ≤ M) (hh0 : 0 ≤ h)
    (sx : Side m M h x (A.add (A.mul 0 x) mv.x) (A.add (A.mul 1 x) mv.x))
    (sy : Side m M h y (A.add (A.mul 0 y) mv.y) (A.add (A.mul 1 y) mv.y))
    (sz : Side m M h z (A.add (A.mul 0 z) mv.z) (A.add (A.mul 1 z) mv.z))
    (ht : t * (7 / 4 * M) ^ 3 ≤ h * m ^ 2 / 8) :
    ∃ S X Y Z, box A x y z mv = .ok S ∧ (∀ f ∈ S, SolidFace (7 / 4 * M) t f) ∧ triangleCount S = 12 ∧
      enclosedVolume S = X * Y * Z ∧ |X - x| ≤ 4 / 10 ^ 15 * M ∧ |Y - y| ≤ 4 / 10 ^ 15 * M ∧ |Z - z| ≤ 4 / 10 ^ 15 * M ∧
      0 ≤ X ∧ 0 ≤ Y ∧ 0 ≤ Z ∧ X ≤ 1001 / 1000 * M ∧ Y ≤ 1001 / 1000 * M ∧ Z ≤ 1001 / 1000 * M := by
  have hm0 : 0 < m := lt_of_lt_of_le (by norm_num) hm
  have hb := boxFaces_outlines A x y z mv
  set X0 := A.add (A.mul 0 x) mv.x
  set X1 := A.add (A.mul 1 x) mv.x
  set Y0 := A.add (A.mul 0 y) mv.y
  set Y1 := A.add (A.mul 1 y) mv.y
  set Z0 := A.add (A.mul 0 z) mv.z
  set Z1 := A.add (A.mul 1 z) mv.z
  have hc : ∀ {o u w : Vec3 ℝ} {p q : ℝ}, Corner X0 X1 Y0 Y1 Z0 Z1 o → Corner X0 X1 Y0 Y1 Z0 Z1 (o + p • u) →
      Corner X0 X1 Y0 Y1 Z0 Z1 (o + p • u + q • w) → Corner X0 X1 Y0 Y1 Z0 Z1 (o + q • w) →
      ∀ a ∈ rect o u w p q, Corner X0 X1 Y0 Y1 Z0 Z1 a := by
    intro o u w p q h1 h2 h3 h4 a ha
    simp only [rect, List.mem_cons, List.not_mem_nil, or_false] at ha
    rcases ha with rfl | rfl | rfl | rfl
    · exact h1
    · exact h2
    · exact h3
    · exact h4
  obtain ⟨v0, a0, b0, c0⟩ := box_face (t := t) (o := ⟨X0, Y0, Z0⟩) sx sy sz A hm hm' hM hM0 hh0 axes_yx (by simp [AxisPlane])
    sy.long sy.short sx.long sx.short (hc (by simp [Corner]) (by simp [Corner]) (by simp [Corner]) (by simp [Corner]))
    (by simpa [Vec3.dot, Vec3.cross] using sz.la) ht
  obtain ⟨v1, a1, b1, c1⟩ := box_face (t := t) (o := ⟨X0, Y0, Z0⟩) sx sy sz A hm hm' hM hM0 hh0 axes_xz (by simp [AxisPlane])
    sx.long sx.short sz.long sz.short (hc (by simp [Corner]) (by simp [Corner]) (by simp [Corner]) (by simp [Corner]))
    (by simpa [Vec3.dot, Vec3.cross] using sy.la) ht
  obtain ⟨v2, a2, b2, c2⟩ := box_face (t := t) (o := ⟨X1, Y0, Z0⟩) sx sy sz A hm hm' hM hM0 hh0 axes_yz (by simp [AxisPlane])
    sy.long sy.short sz.long sz.short (hc (by simp [Corner]) (by simp [Corner]) (by simp [Corner]) (by simp [Corner]))
    (by simpa [Vec3.dot, Vec3.cross] using sx.lb) ht
  obtain ⟨v3, a3, b3, c3⟩ := box_face (t := t) (o := ⟨X0, Y1, Z0⟩) sx sy sz A hm hm' hM hM0 hh0 axes_zx (by simp [AxisPlane])
    sz.long sz.short sx.long sx.short (hc (by simp [Corner]) (by simp [Corner]) (by simp [Corner]) (by simp [Corner]))
    (by simpa [Vec3.dot, Vec3.cross] using sy.lb) ht
  obtain ⟨v4, a4, b4, c4⟩ := box_face (t := t) (o := ⟨X0, Y0, Z0⟩) sx sy sz A hm hm' hM hM0 hh0 axes_zy (by simp [AxisPlane])
    sz.long sz.short sy.long sy.short (hc (by simp [Corner]) (by simp [Corner]) (by simp [Corner]) (by simp [Corner]))
    (by simpa [Vec3.dot, Vec3.cross] using sx.la) ht
  obtain ⟨v5, a5, b5, c5⟩ := box_face (t := t) (o := ⟨X0, Y0, Z1⟩) sx sy sz A hm hm' hM hM0 hh0 axes_xy (by simp [AxisPlane])
    sx.long sx.short sy.long sy.short (hc (by simp [Corner]) (by simp [Corner]) (by simp [Corner]) (by simp [Corner]))
    (by simpa [Vec3.dot, Vec3.cross] using sz.lb) ht
  have pos : ∀ {a : ℝ}, 99 / 100 * m ≤ a → 0 ≤ a := fun ha => le_trans (by positivity) ha
  refine ⟨_, X1 - X0, Y1 - Y0, Z1 - Z0, box_of A hb a0 a1 a2 a3 a4 a5, ?_, ?_, ?_, sx.near, sy.near, sz.near, pos sx.long,
    pos sy.long, pos sz.long, sx.gd, sy.gd, sz.gd⟩
  · intro f hf
    simp only [List.mem_cons, List.not_mem_nil, or_false] at hf
    rcases hf with rfl | rfl | rfl | rfl | rfl | rfl <;> assumption
  · simp [triangleCount]
  · simp only [enclosedVolume, List.map_cons, List.map_nil, List.sum_cons, List.sum_nil, c0, c1, c2, c3, c4, c5, Vec3.dot, Vec3.cross]
    ring

theorem box_solid (A : Arith) (hm : 1 / 500 ≤ m) (hm' : m ≤ 10 ^ 6) (hM : M ≤ 9000 * m) (hM0 : 0 ≤ M)
    (hx : Aside m M h mv.x x) (hy : Aside m M h mv.y y) (hz : Aside m M h mv.z z) (hh : 1 / (3 * 10 ^ 5) * M ≤ h)
    (ht : t * (7 / 4 * M) ^ 3 ≤ h * m ^ 2 / 8) :
    ∃ S X Y Z, box A x y z mv = .ok S ∧ (∀ f ∈ S, SolidFace (7 / 4 * M) t f) ∧ triangleCount S = 12 ∧
      enclosedVolume S = X * Y * Z ∧ |X - x| ≤ 4 / 10 ^ 15 * M ∧ |Y - y| ≤ 4 / 10 ^ 15 * M ∧ |Z - z| ≤ 4 / 10 ^ 15 * M ∧
      0 ≤ X ∧ 0 ≤ Y ∧ 0 ≤ Z ∧ X ≤ 1001 / 1000 * M ∧ Y ≤ 1001 / 1000 * M ∧ Z ≤ 1001 / 1000 * M := by
  have hm0 : 0 < m := lt_of_lt_of_le (by norm_num) hm
  exact box_sides A hm hm' hM hM0 (le_trans (by positivity) hh)
    (side_of A hm0 hx.long hx.short hM hx.near.1 hx.near.2 hh hx.side)
    (side_of A hm0 hy.long hy.short hM hy.near.1 hy.near.2 hh hy.side)
    (side_of A hm0 hz.long hz.short hM hz.near.1 hz.near.2 hh hz.side) ht

/-- The product of nearly right sizes. -/
theorem product_near {X Y Z : ℝ} (hM0 : 0 < M) (xM : x ≤ M) (yM : y ≤ M) (x0 : 0 ≤ x) (y0 : 0 ≤ y)
    (eX : |X - x| ≤ 4 / 10 ^ 15 * M) (eY : |Y - y| ≤ 4 / 10 ^ 15 * M) (eZ : |Z - z| ≤ 4 / 10 ^ 15 * M)
    (pY : 0 ≤ Y) (pZ : 0 ≤ Z) (lY : Y ≤ 1001 / 1000 * M) (lZ : Z ≤ 1001 / 1000 * M) :
    |X * Y * Z - x * y * z| ≤ 2 / 10 ^ 14 * M ^ 3 := by
  have e2 : X * Y * Z - x * y * z = (X - x) * (Y * Z) + (x * (Y - y) * Z + x * y * (Z - z)) := by ring
  have d1 : |(X - x) * (Y * Z)| ≤ 4 / 10 ^ 15 * M * (1001 / 1000 * M * (1001 / 1000 * M)) := by
    rw [abs_mul, abs_of_nonneg (mul_nonneg pY pZ)]
    exact mul_le_mul eX (mul_le_mul lY lZ pZ (by positivity)) (mul_nonneg pY pZ) (by positivity)
  have d2 : |x * (Y - y) * Z| ≤ M * (4 / 10 ^ 15 * M) * (1001 / 1000 * M) := by
    rw [abs_mul, abs_mul, abs_of_nonneg x0, abs_of_nonneg pZ]
    exact mul_le_mul (mul_le_mul xM eY (abs_nonneg _) hM0.le) lZ pZ (by positivity)
  have d3 : |x * y * (Z - z)| ≤ M * M * (4 / 10 ^ 15 * M) := by
    rw [abs_mul, abs_mul, abs_of_nonneg x0, abs_of_nonneg y0]
    exact mul_le_mul (mul_le_mul xM yM y0 hM0.le) eZ (abs_nonneg _) (by positivity)
  rw [e2]
  refine (abs_add_le _ _).trans ?_
  have := abs_add_le (x * (Y - y) * Z) (x * y * (Z - z))
  have p3 : 0 < M ^ 3 := by positivity
  have r1 : 4 / 10 ^ 15 * M * (1001 / 1000 * M * (1001 / 1000 * M)) = 4 / 10 ^ 15 * (1001 / 1000) ^ 2 * M ^ 3 := by ring
  have r2 : M * (4 / 10 ^ 15 * M) * (1001 / 1000 * M) = 4 / 10 ^ 15 * (1001 / 1000) * M ^ 3 := by ring
  have r3 : M * M * (4 / 10 ^ 15 * M) = 4 / 10 ^ 15 * M ^ 3 := by ring
  rw [r1] at d1
  rw [r2] at d2
  rw [r3] at d3
  linarith

/-- **C120, a box.**  The box is away from the three coordinate planes: every side is at least `h` away from the parallel plane
through the origin, and the box does not cross it.  The sizes are between `m` and `49 * m`, all coordinates are at most `M` in
size, and `5e-5 * M ^ 3` is at most `h * m ^ 2`.  With rounding the box is made and its volume is a number near the product of
the sizes. -/
theorem C120_box_partial (A : RootArith) (hm : 1 / 500 ≤ m) (hm' : m ≤ 10 ^ 6) (hM1 : 1 ≤ M) (hM : M ≤ 9000 * m)
    (hx : Aside m M h mv.x x) (hy : Aside m M h mv.y y) (hz : Aside m M h mv.z z) (hh : 5 / 10 ^ 5 * M ^ 3 ≤ h * m ^ 2) :
    ∃ S v, box A.toArith x y z mv = .ok S ∧ solidVolume A S = .ok (some v) ∧
      |v - x * y * z| ≤ 3 / 10 ^ 10 * (M ^ 6 / (h * m ^ 2)) := by
  have hm0 : 0 < m := lt_of_lt_of_le (by norm_num) hm
  have hM0 : 0 < M := by linarith
  have hd : 0 < h * m ^ 2 := lt_of_lt_of_le (by positivity) hh
  have hh0 : 0 < h := by
    by_contra hcon
    have : h * m ^ 2 ≤ 0 := mul_nonpos_of_nonpos_of_nonneg (by linarith) (by positivity)
    linarith
  have hxM : ∀ {c s : ℝ}, Aside m M h c s → m ≤ M ∧ s ≤ M ∧ 0 ≤ s ∧ h ≤ M := by
    intro c s hs
    have h1 := abs_le.1 hs.near.1
    have h2 := abs_le.1 hs.near.2
    have h3 := hs.long
    rcases hs.side with h | h <;> exact ⟨by linarith, by linarith, by linarith, by linarith⟩
  obtain ⟨mM, xM, x0, hM'⟩ := hxM hx
  obtain ⟨-, yM, y0, -⟩ := hxM hy
  have hmM : m ^ 2 ≤ M ^ 2 := by gcongr
  have hhM : 1 / (3 * 10 ^ 5) * M ≤ h := by
    have h1 : 5 / 10 ^ 5 * M * M ^ 2 ≤ h * M ^ 2 := by
      have : h * m ^ 2 ≤ h * M ^ 2 := mul_le_mul_of_nonneg_left hmM hh0.le
      have e : 5 / 10 ^ 5 * M * M ^ 2 = 5 / 10 ^ 5 * M ^ 3 := by ring
      linarith
    have h2 := le_of_mul_le_mul_right h1 (by positivity)
    norm_num at h2 ⊢
    linarith
  have hle : h * m ^ 2 ≤ M ^ 3 := by
    have : h * m ^ 2 ≤ M * M ^ 2 := mul_le_mul hM' hmM (by positivity) hM0.le
    have e : M * M ^ 2 = M ^ 3 := by ring
    linarith
  have hR3 : 0 < (7 / 4 * M) ^ 3 := by positivity
  obtain ⟨S, X, Y, Z, h1, h2, h3, h4, eX, eY, eZ, pX, pY, pZ, lX, lY, lZ⟩ := box_solid (t := h * m ^ 2 / 8 / (7 / 4 * M) ^ 3)
    A.toArith hm hm' hM hM0.le hx hy hz hhM (le_of_eq (div_mul_cancel₀ _ hR3.ne'))
  obtain ⟨v, h5, h6⟩ := C120_solid_partial A (R := 7 / 4 * M) (t := h * m ^ 2 / 8 / (7 / 4 * M) ^ 3) (by linarith) (by
    rw [le_div_iff₀ hR3, mul_pow]
    norm_num at hh ⊢
    have : 0 < M ^ 3 := by positivity
    linarith) h2 (by rw [h3]; norm_num)
  refine ⟨S, v, h1, h5, ?_⟩
  rw [h3, h4, abs_of_nonneg (mul_nonneg (mul_nonneg pX pY) pZ)] at h6
  set Q := M ^ 6 / (h * m ^ 2) with hQ
  have e1 : ((12 : ℕ) : ℝ) * ((7 / 4 * M) ^ 3 / (h * m ^ 2 / 8 / (7 / 4 * M) ^ 3)) / 10 ^ 13 =
      12 * 8 * (7 / 4) ^ 6 / 10 ^ 13 * Q := by
    rw [hQ]
    push_cast
    field_simp
  rw [e1] at h6
  have hMQ : M ^ 3 ≤ Q := by
    rw [hQ, le_div_iff₀ hd]
    have : M ^ 3 * (h * m ^ 2) ≤ M ^ 3 * M ^ 3 := mul_le_mul_of_nonneg_left hle (by positivity)
    have e : M ^ 3 * M ^ 3 = M ^ 6 := by ring
    linarith
  have d4 := product_near hM0 xM yM x0 y0 eX eY eZ pY pZ lY lZ
  have := abs_add_le (v - X * Y * Z) (X * Y * Z - x * y * z)
  rw [sub_add_sub_cancel] at this
  have hQ0 : 0 < Q := lt_of_lt_of_le (by positivity) hMQ
  linarith

/-- **C120, a box anywhere.**  The sizes are between `m` and `49 * m`, sizes and coordinates are at most `M`, which is at most
`9000 * m`; the box may be on the origin.  With rounding the box is made, and its volume is NaN or off by at most
`2e-5 * M ^ 3`. -/
theorem C120_box_number_partial (A : RootArith) (hm : 1 / 500 ≤ m) (hm' : m ≤ 10 ^ 6) (hM1 : 1 ≤ M) (hM : M ≤ 9000 * m)
    (hx : (m ≤ x ∧ x ≤ 49 * m) ∧ x ≤ M ∧ |mv.x| ≤ M ∧ |mv.x + x| ≤ M)
    (hy : (m ≤ y ∧ y ≤ 49 * m) ∧ y ≤ M ∧ |mv.y| ≤ M ∧ |mv.y + y| ≤ M)
    (hz : (m ≤ z ∧ z ≤ 49 * m) ∧ z ≤ M ∧ |mv.z| ≤ M ∧ |mv.z + z| ≤ M) :
    ∃ S r, box A.toArith x y z mv = .ok S ∧ solidVolume A S = .ok r ∧
      ∀ v, r = some v → |v - x * y * z| ≤ 2 / 10 ^ 5 * M ^ 3 := by
  have hm0 : 0 < m := lt_of_lt_of_le (by norm_num) hm
  have hM0 : 0 < M := by linarith
  obtain ⟨S, X, Y, Z, h1, h2, h3, h4, eX, eY, eZ, pX, pY, pZ, lX, lY, lZ⟩ := box_sides (t := 0) (h := 0) (mv := mv)
    A.toArith hm hm' hM hM0.le le_rfl
    (side_core A.toArith hm0 hx.1.1 hx.1.2 hM hx.2.2.1 hx.2.2.2 hx.2.1 (.inl rfl))
    (side_core A.toArith hm0 hy.1.1 hy.1.2 hM hy.2.2.1 hy.2.2.2 hy.2.1 (.inl rfl))
    (side_core A.toArith hm0 hz.1.1 hz.1.2 hM hz.2.2.1 hz.2.2.2 hz.2.1 (.inl rfl)) (by norm_num)
  obtain ⟨r, h5, h6⟩ := C120_number_partial A (R := 7 / 4 * M) (by linarith) h2 (by rw [h3]; norm_num)
  refine ⟨S, r, h1, h5, fun v hv => ?_⟩
  have h7 := h6 v hv
  rw [h3, h4, abs_of_nonneg (mul_nonneg (mul_nonneg pX pY) pZ), mul_pow] at h7
  have d4 := product_near hM0 hx.2.1 hy.2.1 (by linarith [hx.1.1]) (by linarith [hy.1.1]) eX eY eZ pY pZ lY lZ
  have := abs_add_le (v - X * Y * Z) (X * Y * Z - x * y * z)
  rw [sub_add_sub_cancel] at this
  have hM3 : 0 < M ^ 3 := by positivity
  push_cast at h7
  linarith

/-- The room of 4 m by 5 m by 3 m on the origin. -/
example (A : RootArith) : ∃ S r, box A.toArith 4 5 3 0 = .ok S ∧ solidVolume A S = .ok r ∧ ∀ v, r = some v → |v - 60| ≤ 1 / 300 := by
  obtain ⟨S, r, h1, h2, h3⟩ := C120_box_number_partial (m := 3) (M := 5) (x := 4) (y := 5) (z := 3) (mv := 0) A
    (by norm_num) (by norm_num) (by norm_num) (by norm_num) (by norm_num [abs_of_pos]) (by norm_num [abs_of_pos])
    (by norm_num [abs_of_pos])
  refine ⟨S, r, h1, h2, fun v hv => ?_⟩
  have := h3 v hv
  norm_num at this ⊢
  linarith

/-- The room of 4 m by 5 m by 3 m with a corner at (1, 1, 1), with 53 binary digits. -/
example : ∃ S v, box binary 4 5 3 ⟨1, 1, 1⟩ = .ok S ∧ solidVolume binaryRoot S = .ok (some v) ∧ |v - 60| ≤ 2 / 10 ^ 6 := by
  obtain ⟨S, v, h1, h2, h3⟩ := C120_box_partial (m := 3) (M := 6) (h := 1) (x := 4) (y := 5) (z := 3) (mv := ⟨1, 1, 1⟩) binaryRoot
    (by norm_num) (by norm_num) (by norm_num) (by norm_num)
    ⟨by norm_num, by norm_num, by norm_num [abs_of_pos], .inl (by norm_num)⟩
    ⟨by norm_num, by norm_num, by norm_num [abs_of_pos], .inl (by norm_num)⟩
    ⟨by norm_num, by norm_num, by norm_num [abs_of_pos], .inl (by norm_num)⟩ (by norm_num)
  refine ⟨S, v, h1, h2, ?_⟩
  norm_num at h3 ⊢
  linarith

/-- `C120_solid_partial`: its faces meet the hypotheses. -/
example : ∃ S, box binary 4 5 3 ⟨1, 1, 1⟩ = .ok S ∧ (∀ f ∈ S, SolidFace (7 / 4 * 6) (1 / 2000 : ℝ) f) ∧ triangleCount S = 12 := by
  obtain ⟨S, -, -, -, h1, h2, h3, -⟩ := box_solid (m := 3) (M := 6) (h := 1) (x := 4) (y := 5) (z := 3) (mv := ⟨1, 1, 1⟩)
    (t := 1 / 2000) binary
    (by norm_num) (by norm_num) (by norm_num) (by norm_num)
    ⟨by norm_num, by norm_num, by norm_num [abs_of_pos], .inl (by norm_num)⟩
    ⟨by norm_num, by norm_num, by norm_num [abs_of_pos], .inl (by norm_num)⟩
    ⟨by norm_num, by norm_num, by norm_num [abs_of_pos], .inl (by norm_num)⟩ (by norm_num) (by norm_num)
  exact ⟨S, h1, h2, h3⟩

/-- `C120_tetrahedron_partial`: a corner of a cube; the volume is 1/6. -/
example : ∃ v, tetrahedronVolume binaryRoot 0 ⟨1, 0, 0⟩ ⟨0, 1, 0⟩ ⟨0, 0, 1⟩ = some v ∧ |v ^ 2 - (1 / 6) ^ 2| ≤ 1 / 10 ^ 11 := by
  have n1 : ∀ a : Vec3 ℝ, Vec3.normSq a ≤ 4 → Vec3.norm a ≤ 2 := by
    intro a ha
    apply le_of_sq_le_sq _ (by norm_num)
    rw [Vec3.norm_sq]
    linarith
  obtain ⟨h1, h2⟩ := C120_tetrahedron_partial (R := 2) binaryRoot (p0 := 0) (p1 := ⟨1, 0, 0⟩) (p2 := ⟨0, 1, 0⟩) (p3 := ⟨0, 0, 1⟩)
    (n1 _ (by norm_num [Vec3.normSq_def])) (n1 _ (by norm_num [Vec3.normSq_def])) (n1 _ (by norm_num [Vec3.normSq_def]))
    (n1 _ (by norm_num [Vec3.normSq_def])) (n1 _ (by norm_num [Vec3.normSq_def])) (n1 _ (by norm_num [Vec3.normSq_def]))
  have e : |Vec3.dot ((⟨1, 0, 0⟩ : Vec3 ℝ) - 0) (Vec3.cross ((⟨0, 1, 0⟩ : Vec3 ℝ) - 0) (⟨0, 0, 1⟩ - 0))| / 6 = 1 / 6 := by
    norm_num [Vec3.dot, Vec3.cross]
  rw [e] at h1 h2
  obtain ⟨v, hv⟩ := h1 (by norm_num)
  refine ⟨v, hv, (h2 v hv).2.trans ?_⟩
  norm_num

end

/-- **C120, the full claim is false.**  With 53 binary digits, the volume of a box on the origin with a floor of 4 m by 4 m is
NaN, whatever its height between 1 m and 50 m.  (The box is made without complaint; its volume is `16 * z`.) -/
theorem C120_nan {z : ℝ} (h1 : 1 ≤ z) (h2 : z ≤ 50) :
    ∃ S, box binary 4 4 z 0 = .ok S ∧ solidVolume binaryRoot S = .ok none := by
  have z1 : 1 ≤ fl z := by have := fl_mono h1; rwa [NanVolume.f1] at this
  have z2 : fl z ≤ 50 := by have := fl_mono h2; rwa [NanVolume.f50] at this
  have q0 : ∀ s : ℝ, binary.add (binary.mul 0 s) 0 = 0 := by
    intro s
    change fl (fl (0 * s) + 0) = 0
    rw [zero_mul, fl_zero, add_zero, fl_zero]
  have q1 : ∀ s : ℝ, binary.add (binary.mul 1 s) 0 = fl s := by
    intro s
    change fl (fl (1 * s) + 0) = fl s
    rw [one_mul, add_zero, fl_fl]
  have hb := boxFaces_outlines binary 4 4 z 0
  simp only [Vec3.zero_x, Vec3.zero_y, Vec3.zero_z, q0, q1, NanVolume.f4] at hb
  set Z := fl z
  have reach : ∀ a : Vec3 ℝ, |a.x| ≤ 10000 → |a.y| ≤ 10000 → |a.z| ≤ 10000 → Reach 1 a := fun a ha hb hc =>
    ⟨by norm_num; exact ha, by norm_num; exact hb, by norm_num; exact hc⟩
  have hZ : |Z| ≤ 10000 := by rw [abs_of_nonneg (by linarith)]; linarith
  have face : ∀ {o u w : Vec3 ℝ} {p q : ℝ}, Axes u w → AxisPlane u w → 1 ≤ p → p ≤ 50 → 1 ≤ q → q ≤ 50 →
      (∀ a ∈ rect o u w p q, Reach 1 a) →
      ∃ v, polygonNew binary (rect o u w p q) = .ok (rect o u w p q, v, [(3, 0, 1), (3, 1, 2)]) := by
    intro o u w p q hx hf hp hp' hq hq' hr
    obtain ⟨v, -, hv⟩ := C109_rectangle (m := 1) (o := o) binary hx hf (by norm_num) (by norm_num) hp (by linarith) hq (by linarith)
      ⟨hr _ (by simp [rect]), hr _ (by simp [rect]), hr _ (by simp [rect]), hr _ (by simp [rect])⟩
    exact ⟨v, hv⟩
  have four : |(4 : ℝ)| ≤ 10000 := by norm_num [abs_of_pos]
  have zero : |(0 : ℝ)| ≤ 10000 := by norm_num
  have rc : ∀ {o u w : Vec3 ℝ} {p q : ℝ}, Corner 0 4 0 4 0 Z o → Corner 0 4 0 4 0 Z (o + p • u) →
      Corner 0 4 0 4 0 Z (o + p • u + q • w) → Corner 0 4 0 4 0 Z (o + q • w) →
      ∀ a ∈ rect o u w p q, Reach 1 a := by
    intro o u w p q g1 g2 g3 g4 a ha
    have key : Corner 0 4 0 4 0 Z a := by
      simp only [rect, List.mem_cons, List.not_mem_nil, or_false] at ha
      rcases ha with rfl | rfl | rfl | rfl
      · exact g1
      · exact g2
      · exact g3
      · exact g4
    refine reach a ?_ ?_ ?_
    · rcases key.1 with e | e <;> rw [e] <;> assumption
    · rcases key.2.1 with e | e <;> rw [e] <;> assumption
    · rcases key.2.2 with e | e <;> rw [e] <;> assumption
  obtain ⟨v0, a0⟩ := face (o := ⟨0, 0, 0⟩) (p := 4 - 0) (q := 4 - 0) axes_yx (by simp [AxisPlane]) (by norm_num) (by norm_num) (by norm_num)
    (by norm_num) (rc (by simp [Corner]) (by simp [Corner]) (by simp [Corner]) (by simp [Corner]))
  obtain ⟨v1, a1⟩ := face (o := ⟨0, 0, 0⟩) (p := 4 - 0) (q := Z - 0) axes_xz (by simp [AxisPlane]) (by norm_num) (by norm_num) (by linarith)
    (by linarith) (rc (by simp [Corner]) (by simp [Corner]) (by simp [Corner]) (by simp [Corner]))
  obtain ⟨v2, a2⟩ := face (o := ⟨4, 0, 0⟩) (p := 4 - 0) (q := Z - 0) axes_yz (by simp [AxisPlane]) (by norm_num) (by norm_num) (by linarith)
    (by linarith) (rc (by simp [Corner]) (by simp [Corner]) (by simp [Corner]) (by simp [Corner]))
  obtain ⟨v3, a3⟩ := face (o := ⟨0, 4, 0⟩) (p := Z - 0) (q := 4 - 0) axes_zx (by simp [AxisPlane]) (by linarith) (by linarith) (by norm_num)
    (by norm_num) (rc (by simp [Corner]) (by simp [Corner]) (by simp [Corner]) (by simp [Corner]))
  obtain ⟨v4, a4⟩ := face (o := ⟨0, 0, 0⟩) (p := Z - 0) (q := 4 - 0) axes_zy (by simp [AxisPlane]) (by linarith) (by linarith) (by norm_num)
    (by norm_num) (rc (by simp [Corner]) (by simp [Corner]) (by simp [Corner]) (by simp [Corner]))
  obtain ⟨v5, a5⟩ := face (o := ⟨0, 0, Z⟩) (p := 4 - 0) (q := 4 - 0) axes_xy (by simp [AxisPlane]) (by norm_num) (by norm_num) (by norm_num)
    (by norm_num) (rc (by simp [Corner]) (by simp [Corner]) (by simp [Corner]) (by simp [Corner]))
  refine ⟨_, box_of binary hb a0 a1 a2 a3 a4 a5, ?_⟩
  have floor : ∀ total, addTriangles binaryRoot (rect ⟨0, 0, 0⟩ ⟨0, 1, 0⟩ ⟨1, 0, 0⟩ (4 - 0) (4 - 0)) v0 [(3, 0, 1), (3, 1, 2)] total =
      .ok none := by
    intro total
    have e : rect (⟨0, 0, 0⟩ : Vec3 ℝ) ⟨0, 1, 0⟩ ⟨1, 0, 0⟩ (4 - 0) (4 - 0) = [0, ⟨0, 4, 0⟩, ⟨4, 4, 0⟩, ⟨4, 0, 0⟩] := by
      have e : ∀ a b c d e f : ℝ, (⟨a, b, c⟩ : Vec3 ℝ) + ⟨d, e, f⟩ = ⟨a + d, b + e, c + f⟩ := fun _ _ _ _ _ _ => rfl
      have s : ∀ k d e f : ℝ, k • (⟨d, e, f⟩ : Vec3 ℝ) = ⟨k * d, k * e, k * f⟩ := fun _ _ _ _ => rfl
      simp only [rect, e, s]
      norm_num
      rfl
    rw [e]
    simp [addTriangles, NanVolume.volume_none]
  have rest : ∀ {o u w : Vec3 ℝ} {p q : ℝ} {v : Vec3 ℝ} (i j k : Nat), (i, j, k) ∈ [(3, 0, 1), (3, 1, 2)] →
      i < (rect o u w p q).length ∧ j < (rect o u w p q).length ∧ k < (rect o u w p q).length := by
    intro o u w p q v i j k hm
    simp only [List.mem_cons, List.not_mem_nil, or_false, Prod.mk.injEq] at hm
    rcases hm with ⟨rfl, rfl, rfl⟩ | ⟨rfl, rfl, rfl⟩ <;> simp [rect]
  unfold solidVolume
  rw [addPolygons, floor]
  simp only []
  rw [addPolygons_none]
  · rfl
  · intro f hf
    simp only [List.mem_cons, List.not_mem_nil, or_false] at hf
    rcases hf with rfl | rfl | rfl | rfl | rfl <;> exact rest (v := 0)

/-- Such heights exist. -/
example : ∃ S, box binary 4 4 3 0 = .ok S ∧ solidVolume binaryRoot S = .ok none := C120_nan (by norm_num) (by norm_num)

end B3d.Rounded
