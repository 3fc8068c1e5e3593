import Verif.Proofs.RoundedNanArea
import Verif.Props.Rounded

/-!
# C121: areas of triangles and centroids in rounded arithmetic

`triangle_area` and `polygon_centroid` with every operation rounded (`Verif/Model/RoundedArea.lean`).  The value `none` is
NaN.
-/

namespace B3d.Rounded

open Spec Planar Polygon Triangles

variable {R t : ℝ}

/-- **C121, one triangle.**  No side is longer than `R`.  If the square of the area is at least `2.1e-12 * R ^ 4`, then the
rounded area is a number.  Whenever it is a number, it is not negative and the squares differ by at most
`2.1e-12 * R ^ 4 + 1.1e-12`. -/
theorem C121_area_partial (A : RootArith) {p1 p2 p3 : Vec3 ℝ} (h12 : Vec3.norm (p2 - p1) ≤ R)
    (h23 : Vec3.norm (p3 - p2) ≤ R) (h13 : Vec3.norm (p3 - p1) ≤ R) :
    let S := Vec3.norm (Vec3.cross (p2 - p1) (p3 - p1)) / 2
    (21 / 10 ^ 13 * R ^ 4 ≤ S ^ 2 → ∃ v, triangleArea A p1 p2 p3 = some v) ∧
    ∀ v, triangleArea A p1 p2 p3 = some v → 0 ≤ v ∧ |v ^ 2 - S ^ 2| ≤ 21 / 10 ^ 13 * R ^ 4 + 11 / 10 ^ 13 :=
  area_err A h12 h23 h13

/-- **C121, triangles that are not thin.**  If the area is at least `t * R ^ 2` with `t` at least `2e-6`, the rounded area is
a number, off by at most `4e-12 * R ^ 2 / t`. -/
theorem C121_plump_partial (A : RootArith) (hR : 1 ≤ R) (ht : 2 / 10 ^ 6 ≤ t) {p1 p2 p3 : Vec3 ℝ} (h : Plump R t p1 p2 p3) :
    ∃ v, triangleArea A p1 p2 p3 = some v ∧ |v - areaOf p1 p2 p3| ≤ 4 / 10 ^ 12 * (R ^ 2 / t) := by
  obtain ⟨v, h1, h2, -, -⟩ := plump_area A hR ht h
  exact ⟨v, h1, h2⟩

/-- **C121, centroids.**  What `polygon_centroid` returns for up to 1000 triangles, none of which is thin, is the sum of the
centres of the triangles times their areas, off by at most `5e-12 * R ^ 3 / t` for each triangle.  (It is not divided by the
area of the polygon, see C24.) -/
theorem C121_centroid_partial (A : RootArith) (hR : 1 ≤ R) (ht : 2 / 10 ^ 6 ≤ t) {pts : List (Vec3 ℝ)} {tri : List Tri}
    (hn : tri ≠ []) (hn' : tri.length ≤ 1000)
    (hf : ∀ i j k, (i, j, k) ∈ tri → ∃ p1 p2 p3, pts[i]? = some p1 ∧ pts[j]? = some p2 ∧ pts[k]? = some p3 ∧
      Plump R t p1 p2 p3) :
    ∃ c, polygonCentroid A pts tri = .ok (some c) ∧
      WithinBy (tri.length * (5 / 10 ^ 12 * (R ^ 3 / t))) c (weightedCentres pts tri) := by
  obtain ⟨terms, h1, h2⟩ := terms_sum A hR ht pts tri hf
  have h0 : Sum1 R t 0 0 0 := ⟨by simp, by simp⟩
  obtain ⟨c, h3, h4, h5, h6⟩ := h2 0 0 0 ⟨h0, h0, h0⟩ (by omega)
  refine ⟨c, ?_, ?_⟩
  · unfold polygonCentroid
    rw [if_neg (by simpa using hn), h1]
    simp only [h3]
  · rw [zero_add, zero_add] at h4 h5 h6
    exact ⟨h4.2, h5.2, h6.2⟩

/-- The two triangles of a rectangle. -/
theorem rect_area {o u w : Vec3 ℝ} (hx : Axes u w) {p q : ℝ} (hp : 0 < p) (hq : 0 < q) :
    areaOf (o + q • w) o (o + p • u) = p * q / 2 ∧ areaOf (o + q • w) (o + p • u) (o + p • u + q • w) = p * q / 2 := by
  have hn : Vec3.norm (Vec3.cross u w) = 1 := by
    have := Vec3.norm_sq (Vec3.cross u w)
    have h2 : Vec3.normSq (Vec3.cross u w) = Vec3.normSq u * Vec3.normSq w - Vec3.dot u w ^ 2 := by
      simp only [Vec3.normSq_def, Vec3.dot, Vec3.cross_x, Vec3.cross_y, Vec3.cross_z]; ring
    have e1 : Vec3.normSq u = 1 := hx.unitU
    have e2 : Vec3.normSq w = 1 := hx.unitW
    rw [h2, e1, e2, hx.perp] at this
    have h0 := Vec3.norm_nonneg (Vec3.cross u w)
    nlinarith
  have c1 : Vec3.cross (o - (o + q • w)) (o + p • u - (o + q • w)) = (p * q) • Vec3.cross u w := by
    ext <;> simp [Vec3.cross] <;> ring
  have c2 : Vec3.cross (o + p • u - (o + q • w)) (o + p • u + q • w - (o + q • w)) = (p * q) • Vec3.cross u w := by
    ext <;> simp [Vec3.cross] <;> ring
  unfold areaOf
  rw [c1, c2, Vec3.norm_smul, hn, abs_of_pos (by positivity), mul_one]
  exact ⟨rfl, rfl⟩

/-- **C121, rectangles** in a plane parallel to two coordinate axes, with the polygon made with rounded numbers.  All corners
are within `R` of the origin, the diagonal is at most `R`, and the area is at least `2 t R ^ 2`.  The stored centroid is the
centre times the area, off by at most `1e-11 * R ^ 3 / t`. -/
theorem C121_rectangle_partial {o u w : Vec3 ℝ} {m p q : ℝ} (A : RootArith) (hx : Axes u w) (hf : AxisPlane u w)
    (hs : 1 / 10 ^ 3 ≤ m) (hm : m ≤ 10 ^ 6) (hp : m ≤ p) (hp' : p ≤ 50 * m) (hq : m ≤ q) (hq' : q ≤ 50 * m)
    (hr : ∀ c ∈ [o, o + p • u, o + p • u + q • w, o + q • w], Reach m c ∧ Vec3.norm c ≤ R) (hR : 1 ≤ R)
    (hdiag : p ^ 2 + q ^ 2 ≤ R ^ 2) (ht : 2 / 10 ^ 6 ≤ t) (harea : 2 * t * R ^ 2 ≤ p * q) :
    ∃ v tri c, polygonNew A.toArith [o, o + p • u, o + p • u + q • w, o + q • w] =
        .ok ([o, o + p • u, o + p • u + q • w, o + q • w], v, tri) ∧
      polygonCentroid A [o, o + p • u, o + p • u + q • w, o + q • w] tri = .ok (some c) ∧
      WithinBy (1 / 10 ^ 11 * (R ^ 3 / t)) c ((p * q) • (o + (p / 2) • u + (q / 2) • w)) := by
  have hp0 : 0 < p := by linarith
  have hq0 : 0 < q := by linarith
  have hR0 : 0 < R := by linarith
  obtain ⟨r0, n0⟩ := hr o (by simp)
  obtain ⟨r1, n1⟩ := hr (o + p • u) (by simp)
  obtain ⟨r2, n2⟩ := hr (o + p • u + q • w) (by simp)
  obtain ⟨r3, n3⟩ := hr (o + q • w) (by simp)
  obtain ⟨v, -, h1⟩ := C109_rectangle (o := o) A.toArith hx hf hs hm hp hp' hq hq' ⟨r0, r1, r2, r3⟩
  obtain ⟨a1, a2⟩ := rect_area (o := o) hx hp0 hq0
  have sq_le : ∀ a : Vec3 ℝ, Vec3.normSq a ≤ R ^ 2 → Vec3.norm a ≤ R := by
    intro a ha
    rw [← Vec3.norm_sq] at ha
    exact le_of_sq_le_sq ha hR0.le
  have uu : u.x * u.x + u.y * u.y + u.z * u.z = 1 := hx.unitU
  have ww : w.x * w.x + w.y * w.y + w.z * w.z = 1 := hx.unitW
  have uw : u.x * w.x + u.y * w.y + u.z * w.z = 0 := hx.perp
  have d30 : Vec3.norm (o - (o + q • w)) ≤ R := by
    apply sq_le
    have : Vec3.normSq (o - (o + q • w)) = q ^ 2 := by
      simp only [Vec3.normSq_def, Vec3.sub_x, Vec3.sub_y, Vec3.sub_z, Vec3.add_x, Vec3.add_y, Vec3.add_z, Vec3.smul_x, Vec3.smul_y,
        Vec3.smul_z]
      linear_combination q ^ 2 * ww
    rw [this]; nlinarith
  have d01 : Vec3.norm (o + p • u - o) ≤ R := by
    apply sq_le
    have : Vec3.normSq (o + p • u - o) = p ^ 2 := by
      simp only [Vec3.normSq_def, Vec3.sub_x, Vec3.sub_y, Vec3.sub_z, Vec3.add_x, Vec3.add_y, Vec3.add_z, Vec3.smul_x, Vec3.smul_y,
        Vec3.smul_z]
      linear_combination p ^ 2 * uu
    rw [this]; nlinarith
  have d31 : Vec3.norm (o + p • u - (o + q • w)) ≤ R := by
    apply sq_le
    have : Vec3.normSq (o + p • u - (o + q • w)) = p ^ 2 + q ^ 2 := by
      simp only [Vec3.normSq_def, Vec3.sub_x, Vec3.sub_y, Vec3.sub_z, Vec3.add_x, Vec3.add_y, Vec3.add_z, Vec3.smul_x, Vec3.smul_y,
        Vec3.smul_z]
      linear_combination p ^ 2 * uu + q ^ 2 * ww - 2 * p * q * uw
    rw [this]; exact hdiag
  have d12 : Vec3.norm (o + p • u + q • w - (o + p • u)) ≤ R := by
    apply sq_le
    have : Vec3.normSq (o + p • u + q • w - (o + p • u)) = q ^ 2 := by
      simp only [Vec3.normSq_def, Vec3.sub_x, Vec3.sub_y, Vec3.sub_z, Vec3.add_x, Vec3.add_y, Vec3.add_z, Vec3.smul_x, Vec3.smul_y,
        Vec3.smul_z]
      linear_combination q ^ 2 * ww
    rw [this]; nlinarith
  have d32 : Vec3.norm (o + p • u + q • w - (o + q • w)) ≤ R := by
    apply sq_le
    have : Vec3.normSq (o + p • u + q • w - (o + q • w)) = p ^ 2 := by
      simp only [Vec3.normSq_def, Vec3.sub_x, Vec3.sub_y, Vec3.sub_z, Vec3.add_x, Vec3.add_y, Vec3.add_z, Vec3.smul_x, Vec3.smul_y,
        Vec3.smul_z]
      linear_combination p ^ 2 * uu
    rw [this]; nlinarith
  obtain ⟨c, h2, h3⟩ := C121_centroid_partial A hR ht (pts := [o, o + p • u, o + p • u + q • w, o + q • w])
    (tri := [(3, 0, 1), (3, 1, 2)]) (by simp) (by simp) (by
      intro i j k hm
      simp only [List.mem_cons, List.not_mem_nil, or_false, Prod.mk.injEq] at hm
      rcases hm with ⟨rfl, rfl, rfl⟩ | ⟨rfl, rfl, rfl⟩
      · exact ⟨_, _, _, rfl, rfl, rfl, n3, n0, n1, d30, d01, d31, by rw [a1]; linarith⟩
      · exact ⟨_, _, _, rfl, rfl, rfl, n3, n1, n2, d31, d12, d32, by rw [a2]; linarith⟩)
  refine ⟨v, _, c, h1, h2, ?_⟩
  have e : weightedCentres [o, o + p • u, o + p • u + q • w, o + q • w] [(3, 0, 1), (3, 1, 2)] =
      (p * q) • (o + (p / 2) • u + (q / 2) • w) := by
    simp only [weightedCentres, List.map_cons, List.map_nil, List.sum_cons, List.sum_nil, List.getD_cons_zero, List.getD_cons_succ,
      a1, a2]
    ext <;> simp <;> ring
  rw [e] at h3
  have e2 : (([(3, 0, 1), (3, 1, 2)] : List Tri).length : ℝ) * (5 / 10 ^ 12 * (R ^ 3 / t)) = 1 / 10 ^ 11 * (R ^ 3 / t) := by
    simp only [List.length_cons, List.length_nil]
    push_cast
    ring
  rwa [e2] at h3

/-- **C121 is false of thin triangles.**  The triangle with the corners `(0, 0, 0)`, `(48, 72, 0)` and
`(24, 36 + 1 / 2 ^ 22, 0)` has an area of more than `5e-6`.  With 53 binary digits its area is NaN, and so is the centroid
of a polygon with this triangle. -/
theorem C121_nan : ∃ p1 p2 p3 : Vec3 ℝ, 5 / 10 ^ 6 ≤ areaOf p1 p2 p3 ∧ triangleArea binaryRoot p1 p2 p3 = none ∧
    polygonCentroid binaryRoot [p1, p2, p3] [(0, 1, 2)] = .ok none := by
  refine ⟨0, ⟨48, 72, 0⟩, ⟨24, 150994945 / 2 ^ 22, 0⟩, ?_, NanArea.area_none, ?_⟩
  · have e : Vec3.cross ((⟨48, 72, 0⟩ : Vec3 ℝ) - 0) (⟨24, 150994945 / 2 ^ 22, 0⟩ - 0) = ⟨0, 0, 48 / 2 ^ 22⟩ := by
      ext <;> norm_num [Vec3.cross]
    unfold areaOf
    rw [e]
    have : Vec3.norm (⟨0, 0, 48 / 2 ^ 22⟩ : Vec3 ℝ) = 48 / 2 ^ 22 := by
      unfold Vec3.norm
      rw [show Vec3.normSq (⟨0, 0, 48 / 2 ^ 22⟩ : Vec3 ℝ) = (48 / 2 ^ 22) ^ 2 by norm_num [Vec3.normSq, Vec3.dot]]
      exact Real.sqrt_sq (by norm_num)
    rw [this]
    norm_num
  · simp [polygonCentroid, centroidTerms, NanArea.area_none, addTerm]

/-- The theorems about triangles apply: the triangle `(0, 0, 0)`, `(3, 0, 0)`, `(0, 4, 0)`. -/
example (A : RootArith) : ∃ v, triangleArea A 0 ⟨3, 0, 0⟩ ⟨0, 4, 0⟩ = some v ∧ |v - 6| ≤ 1 / 10 ^ 9 := by
  have n : ∀ a b c : ℝ, a ^ 2 + b ^ 2 + c ^ 2 ≤ 25 → Vec3.norm (⟨a, b, c⟩ : Vec3 ℝ) ≤ 5 := by
    intro a b c h
    have h1 : Vec3.norm (⟨a, b, c⟩ : Vec3 ℝ) ^ 2 ≤ 5 ^ 2 := by
      rw [Vec3.norm_sq]; simp only [Vec3.normSq_def]; nlinarith
    exact le_of_sq_le_sq h1 (by norm_num)
  have e : areaOf 0 (⟨3, 0, 0⟩ : Vec3 ℝ) ⟨0, 4, 0⟩ = 6 := by
    unfold areaOf
    rw [show Vec3.cross ((⟨3, 0, 0⟩ : Vec3 ℝ) - 0) (⟨0, 4, 0⟩ - 0) = ⟨0, 0, 12⟩ by ext <;> norm_num [Vec3.cross]]
    unfold Vec3.norm
    rw [show Vec3.normSq (⟨0, 0, 12⟩ : Vec3 ℝ) = 12 ^ 2 by norm_num [Vec3.normSq, Vec3.dot], Real.sqrt_sq (by norm_num)]
    norm_num
  have h : Plump 5 (1 / 5) 0 (⟨3, 0, 0⟩ : Vec3 ℝ) ⟨0, 4, 0⟩ := by
    refine ⟨n 0 0 0 (by norm_num), n _ _ _ (by norm_num), n _ _ _ (by norm_num), n _ _ _ (by norm_num), n _ _ _ (by norm_num),
      n _ _ _ (by norm_num), ?_⟩
    rw [e]
    norm_num
  obtain ⟨v, h1, h2⟩ := C121_plump_partial A (by norm_num) (by norm_num) h
  rw [e] at h2
  exact ⟨v, h1, h2.trans (by norm_num)⟩

/-- The theorem about rectangles applies: a wall of 4 m by 3 m. -/
example (A : RootArith) : ∃ v tri c, polygonNew A.toArith [⟨1, 2, 0⟩, (⟨1, 2, 0⟩ : Vec3 ℝ) + (4 : ℝ) • ⟨1, 0, 0⟩,
      (⟨1, 2, 0⟩ : Vec3 ℝ) + (4 : ℝ) • ⟨1, 0, 0⟩ + (3 : ℝ) • ⟨0, 0, 1⟩, (⟨1, 2, 0⟩ : Vec3 ℝ) + (3 : ℝ) • ⟨0, 0, 1⟩] =
        .ok ([⟨1, 2, 0⟩, (⟨1, 2, 0⟩ : Vec3 ℝ) + (4 : ℝ) • ⟨1, 0, 0⟩,
      (⟨1, 2, 0⟩ : Vec3 ℝ) + (4 : ℝ) • ⟨1, 0, 0⟩ + (3 : ℝ) • ⟨0, 0, 1⟩, (⟨1, 2, 0⟩ : Vec3 ℝ) + (3 : ℝ) • ⟨0, 0, 1⟩], v, tri) ∧
      polygonCentroid A [⟨1, 2, 0⟩, (⟨1, 2, 0⟩ : Vec3 ℝ) + (4 : ℝ) • ⟨1, 0, 0⟩,
      (⟨1, 2, 0⟩ : Vec3 ℝ) + (4 : ℝ) • ⟨1, 0, 0⟩ + (3 : ℝ) • ⟨0, 0, 1⟩, (⟨1, 2, 0⟩ : Vec3 ℝ) + (3 : ℝ) • ⟨0, 0, 1⟩] tri =
        .ok (some c) ∧
      WithinBy (1 / 10 ^ 11 * (10 ^ 3 / (3 / 50))) c
        ((4 * 3 : ℝ) • ((⟨1, 2, 0⟩ : Vec3 ℝ) + ((4 : ℝ) / 2) • ⟨1, 0, 0⟩ + ((3 : ℝ) / 2) • ⟨0, 0, 1⟩)) := by
  have n : ∀ a b c : ℝ, a ^ 2 + b ^ 2 + c ^ 2 ≤ 100 → Vec3.norm (⟨a, b, c⟩ : Vec3 ℝ) ≤ 10 := by
    intro a b c h
    have h1 : Vec3.norm (⟨a, b, c⟩ : Vec3 ℝ) ^ 2 ≤ 10 ^ 2 := by
      rw [Vec3.norm_sq]; simp only [Vec3.normSq_def]; nlinarith
    exact le_of_sq_le_sq h1 (by norm_num)
  refine C121_rectangle_partial (m := 1) A ⟨by norm_num [Vec3.dot], by norm_num [Vec3.dot], by norm_num [Vec3.dot]⟩
    (.inr (.inl ⟨rfl, rfl⟩)) (by norm_num) (by norm_num) (by norm_num) (by norm_num) (by norm_num) (by norm_num) ?_ (by norm_num)
    (by norm_num) (by norm_num) (by norm_num)
  intro c hc
  simp only [List.mem_cons, List.not_mem_nil, or_false] at hc
  rcases hc with rfl | rfl | rfl | rfl
  · exact ⟨⟨by norm_num, by norm_num, by norm_num⟩, n _ _ _ (by norm_num)⟩
  · exact ⟨⟨by norm_num, by norm_num, by norm_num⟩, n _ _ _ (by norm_num)⟩
  · exact ⟨⟨by norm_num, by norm_num, by norm_num⟩, n _ _ _ (by norm_num)⟩
  · exact ⟨⟨by norm_num, by norm_num, by norm_num⟩, n _ _ _ (by norm_num)⟩

end B3d.Rounded
