import Verif.Proofs.Star
import Verif.Proofs.GridSimple
import Verif.Props.Plan

/-! # C84: which outlines are accepted by the polygon constructor -/

namespace B3d.Polygon

open Spec Triangles Points ConvexEars

/-- **C84 (partial: convex outlines).**  A convex outline without thin corners, in any plane, becomes a polygon: the
corners stay in the given order, the normal is the one around which they run counter-clockwise, and the triangles are
the fan from the last corner.

Missing: simple outlines which are not convex, see `C84_simple_fails`. -/
theorem C84_convex_partial {v : Vec3 ℝ} {pts : List (Vec3 ℝ)} (h : ConvexOutline v pts) :
    ∃ P, polygonNew pts none none = .ok P ∧ P.pts = pts ∧ P.vn = some v ∧
      P.tri = (List.range (pts.length - 2)).map fun i => (pts.length - 1, i, i + 1) :=
  polygonNew_intro (convex_coplanar h) h.corners (convex_normal h) (convex_triangulate h)

theorem convexOutline_swap {v : Vec3 ℝ} {l1 l2 : List (Vec3 ℝ)} (h : ConvexOutline v (l1 ++ l2)) :
    ConvexOutline v (l2 ++ l1) := by
  have key : ∀ l : List (Vec3 ℝ), List.Sublist l (l2 ++ l1) → ∃ x y, l = x ++ y ∧ List.Sublist (y ++ x) (l1 ++ l2) := by
    intro l hl
    obtain ⟨x, y, e, hx, hy⟩ := List.sublist_append_iff.1 hl
    exact ⟨x, y, e, hy.append hx⟩
  refine ⟨h.unit, by have := h.corners; simp at this ⊢; omega, ?_, ?_⟩
  · intro p q hpq
    obtain ⟨x, y, e, hs⟩ := key _ hpq
    match x, y, e with
    | [], _, rfl => exact h.apart _ _ (by simpa using hs)
    | [_], [_], e =>
      simp only [List.cons_append, List.nil_append, List.cons.injEq, and_true] at e
      obtain ⟨rfl, rfl⟩ := e
      exact (h.apart _ _ hs).symm
    | [_, _], [], e =>
      simp only [List.cons_append, List.nil_append, List.cons.injEq, and_true] at e
      obtain ⟨rfl, rfl⟩ := e
      exact h.apart _ _ hs
  · intro a b c habc
    obtain ⟨x, y, e, hs⟩ := key _ habc
    match x, y, e with
    | [], _, rfl => exact h.turns _ _ _ (by simpa using hs)
    | [_], [_, _], e =>
      simp only [List.cons_append, List.nil_append, List.cons.injEq, and_true] at e
      obtain ⟨rfl, rfl, rfl⟩ := e
      exact (h.turns _ _ _ hs).rot.rot
    | [_, _], [_], e =>
      simp only [List.cons_append, List.nil_append, List.cons.injEq, and_true] at e
      obtain ⟨rfl, rfl, rfl⟩ := e
      exact (h.turns _ _ _ hs).rot
    | [_, _, _], [], e =>
      simp only [List.cons_append, List.nil_append, List.cons.injEq, and_true] at e
      obtain ⟨rfl, rfl, rfl⟩ := e
      exact h.turns _ _ _ hs

/-- **C84, any first corner.**  A convex outline may start at any of its corners. -/
theorem C84_convex_any_start {v : Vec3 ℝ} {pts : List (Vec3 ℝ)} (h : ConvexOutline v pts) (k : Nat) :
    ConvexOutline v (pts.rotate k) ∧
    ∃ P, polygonNew (pts.rotate k) none none = .ok P ∧ P.pts = pts.rotate k ∧ P.vn = some v := by
  have hr : ConvexOutline v (pts.rotate k) := by
    rw [List.rotate_eq_drop_append_take_mod]
    apply convexOutline_swap
    rw [List.take_append_drop]
    exact h
  obtain ⟨P, h1, h2, h3, -⟩ := C84_convex_partial hr
  exact ⟨hr, P, h1, h2, h3⟩

theorem normSq_sub_comm (a b : Vec3 ℝ) : Vec3.normSq (a - b) = Vec3.normSq (b - a) := by
  simp only [Vec3.normSq_def, Vec3.sub_x, Vec3.sub_y, Vec3.sub_z]; ring

theorem _root_.B3d.Spec.Thick.rev {v a b c : Vec3 ℝ} (h : Thick v c b a) : Thick (-v) a b c := by
  obtain ⟨D, h1, h2, h3, h4, h5⟩ := h
  refine ⟨D, h1, ?_, ?_, ?_, ?_⟩
  · have : Vec3.cross (b - a) (c - a) = -(Vec3.cross (b - c) (a - c)) := by ext <;> simp <;> ring
    rw [this, h2]
    ext <;> simp
  · rw [mul_comm (Vec3.normSq _)]; exact h5
  · rw [mul_comm (Vec3.normSq _)]; exact h4
  · rw [mul_comm (Vec3.normSq _)]; exact h3

theorem convexOutline_reverse {v : Vec3 ℝ} {pts : List (Vec3 ℝ)} (h : ConvexOutline v pts) :
    ConvexOutline (-v) pts.reverse := by
  refine ⟨by rw [Vec3.norm_neg, h.unit], by rw [List.length_reverse]; exact h.corners, ?_, ?_⟩
  · intro p q hs
    rw [← List.reverse_sublist, List.reverse_reverse] at hs
    exact (h.apart q p (by simpa using hs)).symm
  · intro a b c hs
    rw [← List.reverse_sublist, List.reverse_reverse] at hs
    exact (h.turns c b a (by simpa using hs)).rev

/-- **C84, flipping.**  The polygon of a convex outline can be flipped, which reverses its corners and its normal; and
flipping twice gives it back. -/
theorem C84_convex_flip {v : Vec3 ℝ} {pts : List (Vec3 ℝ)} (h : ConvexOutline v pts) :
    ∃ P Q R, polygonNew pts none none = .ok P ∧ flip P = .ok Q ∧ Q.pts = pts.reverse ∧ Q.vn = some (-v) ∧
      flip Q = .ok R ∧ R.pts = P.pts ∧ R.vn = P.vn := by
  obtain ⟨P, h1, h2, h3, -⟩ := C84_convex_partial h
  obtain ⟨Q, g1, g2, g3, -⟩ := C84_convex_partial (convexOutline_reverse h)
  refine ⟨P, Q, P, h1, ?_, g2, g3, ?_, rfl, rfl⟩
  · rw [flip, h2]; exact g1
  · rw [flip, g2, List.reverse_reverse]; exact h1

/-- Non-vacuity: an irregular octagon is a convex outline. -/
theorem octagon_convex : ConvexOutline ⟨0, 0, 1⟩
    [⟨2, 0, 0⟩, ⟨5, 0, 0⟩, ⟨7, 2, 0⟩, ⟨7, 6, 0⟩, ⟨5, 8, 0⟩, ⟨2, 8, 0⟩, ⟨0, 6, 0⟩, ⟨0, 2, 0⟩] := by
  have : ([⟨2, 0, 0⟩, ⟨5, 0, 0⟩, ⟨7, 2, 0⟩, ⟨7, 6, 0⟩, ⟨5, 8, 0⟩, ⟨2, 8, 0⟩, ⟨0, 6, 0⟩, ⟨0, 2, 0⟩] : List (Vec3 ℝ)) =
      [(2, 0), (5, 0), (7, 2), (7, 6), (5, 8), (2, 8), (0, 6), (0, 2)].map Grid.emb := by
    simp [Grid.emb]
  rw [this]
  exact Grid.convex_emb (by decide) (by decide) (by decide) (by decide)

/-- Non-vacuity of `C84_convex_partial`, `C84_convex_any_start` and `C84_convex_flip`: the octagon, started at its
fourth corner. -/
example : ∃ P, polygonNew (([⟨2, 0, 0⟩, ⟨5, 0, 0⟩, ⟨7, 2, 0⟩, ⟨7, 6, 0⟩, ⟨5, 8, 0⟩, ⟨2, 8, 0⟩, ⟨0, 6, 0⟩, ⟨0, 2, 0⟩] :
    List (Vec3 ℝ)).rotate 3) none none = .ok P ∧ P.vn = some ⟨0, 0, 1⟩ := by
  obtain ⟨-, P, h, -, hv⟩ := C84_convex_any_start octagon_convex 3
  exact ⟨P, h, hv⟩

/-! ### Outlines with reflex corners -/

/-- **C84 (partial: outlines seen from their last corner).**  An outline all of which is seen from its last corner, with
any number of reflex corners and in any plane, becomes a polygon: the corners stay in the given order, the normal is the
one around which they run counter-clockwise, and the triangles are the fan from the last corner.

Missing: simple outlines which are not seen from their last corner, see `C84_simple_fails`. -/
theorem C84_star_partial {v : Vec3 ℝ} {pts : List (Vec3 ℝ)} (h : StarOutline v pts) :
    ∃ P, polygonNew pts none none = .ok P ∧ P.pts = pts ∧ P.vn = some v ∧
      P.tri = (List.range (pts.length - 2)).map fun i => (pts.length - 1, i, i + 1) :=
  polygonNew_intro (star_coplanar h) h.corners (star_normal h) (star_triangulate h)

/-- Convex outlines are among them. -/
theorem C84_convex_is_star {v : Vec3 ℝ} {pts : List (Vec3 ℝ)} (h : ConvexOutline v pts) : StarOutline v pts :=
  star_of_convex h

/-- Non-vacuity of `C84_star_partial`: a terraced plan with three reflex corners, and an outline in which a corner is
on the line of an earlier side. -/
example : StarOutline ⟨0, 0, 1⟩
      [⟨8, 0, 0⟩, ⟨8, 1, 0⟩, ⟨6, 1, 0⟩, ⟨6, 3, 0⟩, ⟨3, 3, 0⟩, ⟨3, 6, 0⟩, ⟨1, 6, 0⟩, ⟨1, 9, 0⟩, ⟨0, 9, 0⟩, ⟨0, 0, 0⟩] ∧
    StarOutline ⟨0, 0, 1⟩ [⟨6, 1, 0⟩, ⟨4, 2, 0⟩, ⟨5, 5, 0⟩, ⟨2, 3, 0⟩, ⟨0, 7, 0⟩, ⟨0, 0, 0⟩] := by
  have e1 : ([⟨8, 0, 0⟩, ⟨8, 1, 0⟩, ⟨6, 1, 0⟩, ⟨6, 3, 0⟩, ⟨3, 3, 0⟩, ⟨3, 6, 0⟩, ⟨1, 6, 0⟩, ⟨1, 9, 0⟩, ⟨0, 9, 0⟩,
      ⟨0, 0, 0⟩] : List (Vec3 ℝ)) =
      [(8, 0), (8, 1), (6, 1), (6, 3), (3, 3), (3, 6), (1, 6), (1, 9), (0, 9), (0, 0)].map Grid.emb := by
    simp [Grid.emb]
  have e2 : ([⟨6, 1, 0⟩, ⟨4, 2, 0⟩, ⟨5, 5, 0⟩, ⟨2, 3, 0⟩, ⟨0, 7, 0⟩, ⟨0, 0, 0⟩] : List (Vec3 ℝ)) =
      [(6, 1), (4, 2), (5, 5), (2, 3), (0, 7), (0, 0)].map Grid.emb := by
    simp [Grid.emb]
  rw [e1, e2]
  exact ⟨Grid.star_emb (by decide) (by decide) (by decide) (by decide) (by decide),
    Grid.star_emb (by decide) (by decide) (by decide) (by decide) (by decide)⟩

/-! ### Simple outlines which are rejected -/

/-- A simple outline with eight corners. -/
noncomputable def claw : List (Vec3 ℝ) :=
  [⟨6, 4, 0⟩, ⟨3, 3, 0⟩, ⟨2, 3, 0⟩, ⟨2, 6, 0⟩, ⟨0, 1, 0⟩, ⟨1, 2, 0⟩, ⟨5, 3, 0⟩, ⟨4, 0, 0⟩]

/-- The plan of a building with sixteen corners, all of them right angles. -/
noncomputable def corridor : List (Vec3 ℝ) :=
  [⟨2, 4, 0⟩, ⟨3, 4, 0⟩, ⟨3, 3, 0⟩, ⟨0, 3, 0⟩, ⟨0, 1, 0⟩, ⟨1, 1, 0⟩, ⟨1, 0, 0⟩, ⟨3, 0, 0⟩, ⟨3, 1, 0⟩, ⟨2, 1, 0⟩,
    ⟨2, 2, 0⟩, ⟨4, 2, 0⟩, ⟨4, 6, 0⟩, ⟨3, 6, 0⟩, ⟨3, 5, 0⟩, ⟨2, 5, 0⟩]

def clawGrid : List (ℤ × ℤ) := [(6, 4), (3, 3), (2, 3), (2, 6), (0, 1), (1, 2), (5, 3), (4, 0)]

def corridorGrid : List (ℤ × ℤ) :=
  [(2, 4), (3, 4), (3, 3), (0, 3), (0, 1), (1, 1), (1, 0), (3, 0), (3, 1), (2, 1), (2, 2), (4, 2), (4, 6), (3, 6),
    (3, 5), (2, 5)]

theorem claw_eq : claw = clawGrid.map Grid.emb := by
  simp [claw, clawGrid, Grid.emb]

theorem corridor_eq : corridor = corridorGrid.map Grid.emb := by
  simp [corridor, corridorGrid, Grid.emb]

/-- **C84 is false for simple outlines.**  Two simple outlines, with whole-number coordinates and a convex first corner,
for which the constructor raises a TriangulationError: the counter of failed corners is never reset, so that the search
for the next corner to cut off ends too early. -/
theorem C84_simple_fails : SimplePolygon claw ∧ polygonNew claw none none = .error .triangulationError ∧
    SimplePolygon corridor ∧ polygonNew corridor none none = .error .triangulationError := by
  rw [claw_eq, corridor_eq]
  refine ⟨Grid.simple_emb (by decide +kernel), ?_, Grid.simple_emb (by decide +kernel), ?_⟩
  · exact Grid.polygonNew_emb_error (l := (4, 0)) (p0 := (6, 4)) (p1 := (3, 3)) (by decide +kernel) (by decide) rfl rfl rfl
      (by decide) (by decide +kernel)
  · exact Grid.polygonNew_emb_error (l := (2, 5)) (p0 := (2, 4)) (p1 := (3, 4)) (by decide +kernel) (by decide) rfl rfl rfl
      (by decide) (by decide +kernel)

/-- **C84, the first corner matters.**  The same outlines are accepted if they start at another corner. -/
theorem C84_depends_on_start :
    (∃ P, polygonNew (claw.rotate 4) none none = .ok P) ∧ (∃ P, polygonNew (corridor.rotate 4) none none = .ok P) := by
  rw [claw_eq, corridor_eq, ← List.map_rotate, ← List.map_rotate]
  constructor
  · obtain ⟨P, h, -⟩ := Grid.polygonNew_emb_ok (pts := clawGrid.rotate 4) (l := (2, 6)) (p0 := (0, 1)) (p1 := (1, 2))
      (pts' := clawGrid.rotate 4)
      (by decide +kernel) (by decide) rfl rfl rfl (by decide)
      (tri := [(7, 0, 1), (2, 3, 4), (2, 4, 5), (6, 7, 1), (1, 2, 5), (1, 5, 6)]) (by decide +kernel)
    exact ⟨P, h⟩
  · obtain ⟨P, h, -⟩ := Grid.polygonNew_emb_ok (pts := corridorGrid.rotate 4) (l := (0, 3)) (p0 := (0, 1)) (p1 := (1, 1))
      (pts' := corridorGrid.rotate 4)
      (by decide +kernel) (by decide) rfl rfl rfl (by decide)
      (tri := [(15, 0, 1), (1, 2, 3), (3, 4, 5), (7, 8, 9), (7, 9, 10), (10, 11, 12), (10, 12, 13), (1, 3, 5), (1, 5, 6),
        (7, 10, 13), (7, 13, 14), (7, 14, 15), (15, 1, 6), (15, 6, 7)]) (by decide +kernel)
    exact ⟨P, h⟩

end B3d.Polygon
