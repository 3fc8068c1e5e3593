import Verif.Props.SliceCases
import Verif.Proofs.Crossing

/-!
# Rectangles along the axes, for examples
-/

namespace B3d.Polygon

open Spec Points Triangles

/-- The corners of the rectangle from `(x0, y0)` to `(x1, y1)` in the plane `z = 0`, counter-clockwise. -/
def rectPts (x0 x1 y0 y1 : ℝ) : List (Vec3 ℝ) := [⟨x0, y0, 0⟩, ⟨x1, y0, 0⟩, ⟨x1, y1, 0⟩, ⟨x0, y1, 0⟩]

/-- A rectangle of 1 to 100 m, at most 100 m from the origin along the axes. -/
structure GoodBox (x0 x1 y0 y1 : ℝ) : Prop where
  wx : 1 ≤ x1 - x0
  wy : 1 ≤ y1 - y0
  lx : x1 - x0 ≤ 100
  ly : y1 - y0 ≤ 100
  ax0 : |x0| ≤ 100
  ax1 : |x1| ≤ 100
  ay0 : |y0| ≤ 100
  ay1 : |y1| ≤ 100

variable {x0 x1 y0 y1 : ℝ}

theorem rect_polygon (h : GoodBox x0 x1 y0 y1) : ∃ P, polygonNew (rectPts x0 x1 y0 y1) none none = .ok P ∧
    P.pts = rectPts x0 x1 y0 y1 ∧ P.vn = some ⟨0, 0, 1⟩ ∧ P.tri = [(3, 0, 1), (3, 1, 2)] := by
  have hc : arePointsCoplanar (rectPts x0 x1 y0 y1) = true := by
    have := coplanar_z [(x0, y0), (x1, y0), (x1, y1), (x0, y1)]
    simpa [rectPts] using this
  have px : 0 < x1 - x0 := by linarith [h.wx]
  have py : 0 < y1 - y0 := by linarith [h.wy]
  refine polygonNew_intro hc (by simp [rectPts]) ?_ (Slice.rect_triangulate (x1 := x1 - x0) (y1 := 0) (x2 := 0)
    (y2 := y1 - y0) (p := x1 - x0) (q := y1 - y0) (by ext <;> simp) (by ext <;> simp) (by ext <;> simp) (by ring)
    (by nlinarith) (by ring) (by ring) h.wx h.lx h.wy h.ly (Slice.notEqual_x ?_ h.ax0)
    (Slice.notEqual_x ?_ h.ax0) (Slice.notEqual_y ?_ h.ay0))
  · simp only [chooseNormal, rectPts, List.getLast?_cons_cons, List.getLast?_singleton, List.getElem?_cons_zero,
      List.getElem?_cons_succ, Except.ok.injEq]
    exact normal_z (.inl rfl) (by nlinarith [mul_le_mul h.wx h.wy (by norm_num) px.le])
  · rw [abs_of_pos px]; exact h.wx
  · rw [abs_of_pos px]; exact h.wx
  · rw [abs_of_pos py]; exact h.wy

theorem rect_plane : ∀ p ∈ rectPts x0 x1 y0 y1, Vec3.dot ⟨0, 0, 1⟩ p = 0 := by simp [rectPts, Vec3.dot]

theorem rect_spans (h : GoodBox x0 x1 y0 y1) : SpansPlane (rectPts x0 x1 y0 y1) := by
  obtain ⟨wx, wy, lx, ly, -⟩ := h
  have h1 : 1 ≤ (x1 - x0) * (y1 - y0) := by nlinarith
  refine ⟨⟨0, _, _, _, rfl, rfl, rfl, ?_⟩, 0, _, _, _, rfl, rfl, rfl, ?_, ?_, ?_⟩
  · refine lt_of_lt_of_le ?_ (Vec3.abs_z_le _)
    simp
    rw [abs_of_pos (by linarith), abs_of_pos (by linarith)]
    norm_num
    linarith
  · refine le_trans ?_ (Vec3.abs_x_le _)
    simp
    rw [abs_of_pos (by linarith)]
    norm_num
    linarith
  · refine le_trans ?_ (Vec3.abs_x_le _)
    simp
    rw [abs_of_pos (by linarith)]
    norm_num
    linarith
  · simp [Vec3.dot, Vec3.normSq]
    generalize x1 - x0 = a at *
    generalize y1 - y0 = b at *
    have ha : 1 ≤ a ^ 2 := by nlinarith
    have hb : 1 ≤ b ^ 2 := by nlinarith
    have ha' : a ^ 2 ≤ 10000 := by nlinarith
    have hb' : b ^ 2 ≤ 10000 := by nlinarith
    generalize hA : a ^ 2 = A at *
    generalize hB : b ^ 2 = B at *
    have e1 : (a * a) ^ 2 = A ^ 2 := by rw [← hA]; ring
    have e2 : a * a * (a * a + b * b) = A * (A + B) := by rw [← hA, ← hB]; ring
    rw [e1, e2]
    nlinarith [mul_le_mul ha' hb' (by linarith) (by linarith), mul_nonneg (by linarith : (0 : ℝ) ≤ A) (by linarith : (0 : ℝ) ≤ B)]

theorem rect_norm (h : GoodBox x0 x1 y0 y1) : ∀ p ∈ rectPts x0 x1 y0 y1, Vec3.norm p ≤ 150 := by
  have sq : ∀ r : ℝ, |r| ≤ 100 → r * r ≤ 10000 := fun r h => by
    have := abs_le.1 h
    nlinarith
  have a1 := sq _ h.ax0
  have a2 := sq _ h.ax1
  have a3 := sq _ h.ay0
  have a4 := sq _ h.ay1
  intro p hp
  apply Vec3.norm_le_of_sq (by norm_num)
  simp only [rectPts, List.mem_cons, List.not_mem_nil, or_false] at hp
  rcases hp with rfl | rfl | rfl | rfl <;> simp [Vec3.normSq, Vec3.dot] <;> linarith

theorem rect_edges : cycEdges (rectPts x0 x1 y0 y1) = [(⟨x0, y0, 0⟩, ⟨x1, y0, 0⟩), (⟨x1, y0, 0⟩, ⟨x1, y1, 0⟩),
    (⟨x1, y1, 0⟩, ⟨x0, y1, 0⟩), (⟨x0, y1, 0⟩, ⟨x0, y0, 0⟩)] := rfl

theorem rect_edge_length (h : GoodBox x0 x1 y0 y1) :
    ∀ ed ∈ cycEdges (rectPts x0 x1 y0 y1), 1 ≤ Vec3.norm (ed.2 - ed.1) := by
  obtain ⟨wx, wy, -⟩ := h
  intro ed he
  rw [rect_edges] at he
  simp only [List.mem_cons, List.not_mem_nil, or_false] at he
  rcases he with rfl | rfl | rfl | rfl
  · exact le_trans (by simpa using wx.trans (le_abs_self _)) (Vec3.abs_x_le _)
  · exact le_trans (by simpa using wy.trans (le_abs_self _)) (Vec3.abs_y_le _)
  · refine le_trans ?_ (Vec3.abs_x_le _)
    simp only [Vec3.sub_x]
    rw [abs_sub_comm]
    exact wx.trans (le_abs_self _)
  · refine le_trans ?_ (Vec3.abs_y_le _)
    simp only [Vec3.sub_y]
    rw [abs_sub_comm]
    exact wy.trans (le_abs_self _)

/-- The region covered by the rectangle. -/
theorem rect_region (h : GoodBox x0 x1 y0 y1) (p : Vec3 ℝ) :
    Region (rectPts x0 x1 y0 y1) [(3, 0, 1), (3, 1, 2)] p ↔
      x0 ≤ p.x ∧ p.x ≤ x1 ∧ y0 ≤ p.y ∧ p.y ≤ y1 ∧ p.z = 0 := by
  obtain ⟨wx, wy, -⟩ := h
  have px : 0 < x1 - x0 := by linarith
  have py : 0 < y1 - y0 := by linarith
  constructor
  · rintro ⟨t, ht, a, b, c, ha, hb, hc, r, s, q, hr, hs, hq, h1, rfl⟩
    simp only [List.mem_cons, List.not_mem_nil, or_false] at ht
    have er : r = 1 - s - q := by linarith
    rcases ht with rfl | rfl
    all_goals
      simp only [rectPts, List.getElem?_cons_zero, List.getElem?_cons_succ, Option.some.injEq] at ha hb hc
      subst ha hb hc
      simp
      subst er
      refine ⟨?_, ?_, ?_, ?_⟩ <;> nlinarith
  · rintro ⟨h1, h2, h3, h4, h5⟩
    obtain ⟨u, hu⟩ : ∃ u, u = (p.x - x0) / (x1 - x0) := ⟨_, rfl⟩
    obtain ⟨v, hv⟩ : ∃ v, v = (p.y - y0) / (y1 - y0) := ⟨_, rfl⟩
    have u0 : 0 ≤ u := by rw [hu]; exact div_nonneg (by linarith) px.le
    have v0 : 0 ≤ v := by rw [hv]; exact div_nonneg (by linarith) py.le
    have u1 : u ≤ 1 := by rw [hu, div_le_one px]; linarith
    have v1 : v ≤ 1 := by rw [hv, div_le_one py]; linarith
    have ex : p.x = x0 + u * (x1 - x0) := by rw [hu, div_mul_cancel₀ _ px.ne']; ring
    have ey : p.y = y0 + v * (y1 - y0) := by rw [hv, div_mul_cancel₀ _ py.ne']; ring
    by_cases huv : u + v ≤ 1
    · refine ⟨(3, 0, 1), by simp, _, _, _, rfl, rfl, rfl, v, 1 - u - v, u, v0, by linarith, u0, by ring, ?_⟩
      ext
      · simp [ex]; ring
      · simp [ey]; ring
      · simp [h5]
    · refine ⟨(3, 1, 2), by simp, _, _, _, rfl, rfl, rfl, 1 - u, 1 - v, u + v - 1, by linarith, by linarith, by linarith,
        by ring, ?_⟩
      ext
      · simp [ex]; ring
      · simp [ey]; ring
      · simp [h5]

/-- The outline of the rectangle. -/
theorem rect_outline (h : GoodBox x0 x1 y0 y1) {p : Vec3 ℝ} (hp : OnOutline (rectPts x0 x1 y0 y1) p) :
    x0 ≤ p.x ∧ p.x ≤ x1 ∧ y0 ≤ p.y ∧ p.y ≤ y1 ∧ p.z = 0 ∧ (p.x = x0 ∨ p.x = x1 ∨ p.y = y0 ∨ p.y = y1) := by
  obtain ⟨wx, wy, -⟩ := h
  obtain ⟨ed, he, t, t0, t1, rfl⟩ := hp
  rw [rect_edges] at he
  simp only [List.mem_cons, List.not_mem_nil, or_false] at he
  rcases he with rfl | rfl | rfl | rfl <;> simp only [Vec3.add_x, Vec3.add_y, Vec3.add_z,
    Vec3.smul_x, Vec3.smul_y, Vec3.smul_z, Vec3.sub_x, Vec3.sub_y, Vec3.sub_z]
  · exact ⟨by nlinarith, by nlinarith, by nlinarith, by nlinarith, by ring, .inr (.inr (.inl (by ring)))⟩
  · exact ⟨by nlinarith, by nlinarith, by nlinarith, by nlinarith, by ring, .inr (.inl (by ring))⟩
  · exact ⟨by nlinarith, by nlinarith, by nlinarith, by nlinarith, by ring, .inr (.inr (.inr (by ring)))⟩
  · exact ⟨by nlinarith, by nlinarith, by nlinarith, by nlinarith, by ring, .inl (by ring)⟩

end B3d.Polygon
