import Verif.Props.CrossingCases
import Verif.Model.Crossing

/-!
# C80: comparing polygons with `==`

The full property: `P == Q` is a boolean for all polygons, `True` exactly if the polygons have the same corners in the
same cyclic order (up to the tolerance of the comparison), and `==` is an equivalence.

* polygons with the same number of corners: `True` exactly if the corners are pairwise close, in the order in which they
  are stored (`C80_same_length`); a polygon equals itself (`C80_refl`), exactly equal outlines make equal polygons
  (`C80_congruent`) and the comparison in the other direction can only fail within the tolerance
  (`C80_symmetric_partial`);
* polygons with different numbers of corners: `ValueError` instead of `False` (`C80_lengths_raise`);
* the same square starting at another corner is different (`C80_rotated`).
-/

namespace B3d.Polygon

open Spec Points Triangles

/-- **C80.**  Polygons with the same number of corners are compared corner by corner. -/
theorem C80_same_length {P Q : Poly} (h : P.pts.length = Q.pts.length) : ∃ r, polygonEq P Q = .ok r ∧
    (r = true ↔ ∀ (k : Nat) (p q : Vec3 ℝ), P.pts[k]? = some p → Q.pts[k]? = some q → allClose p q NP_RTOL NP_ATOL) := by
  refine ⟨_, by unfold polygonEq; rw [if_pos h], ?_⟩
  rw [List.all_eq_true]
  constructor
  · intro hall k p q hp hq
    have := hall (p, q) (List.mem_of_getElem? (i := k) (by rw [List.getElem?_zip_eq_some]; exact ⟨hp, hq⟩))
    simpa using this
  · rintro hall ⟨p, q⟩ hm
    obtain ⟨k, hk⟩ := List.getElem?_of_mem hm
    rw [List.getElem?_zip_eq_some] at hk
    simpa using hall k p q hk.1 hk.2

/-- **C80 is false for different numbers of corners**: the comparison raises `ValueError`. -/
theorem C80_lengths_raise {P Q : Poly} (h : P.pts.length ≠ Q.pts.length) : polygonEq P Q = .error .valueError := by
  unfold polygonEq
  rw [if_neg h]

theorem NP_ATOL_nonneg : (0 : ℝ) ≤ NP_ATOL := by unfold NP_ATOL; positivity

/-- **C80.**  Polygons with the same outline are equal, whatever their names and normals. -/
theorem C80_congruent {P Q : Poly} (h : P.pts = Q.pts) : polygonEq P Q = .ok true := by
  obtain ⟨r, hr, hir⟩ := C80_same_length (congrArg List.length h)
  rw [hr, Except.ok.injEq, hir]
  intro k p q hp hq
  rw [h, hq, Option.some.injEq] at hp
  subst hp
  exact allClose_self NP_RTOL_nonneg NP_ATOL_nonneg

/-- **C80.**  Every polygon equals itself. -/
theorem C80_refl (P : Poly) : polygonEq P P = .ok true := C80_congruent rfl

/-- **C80.**  If `P == Q`, the corners of `Q` are within the tolerance, slightly enlarged, from those of `P`.  Missing:
`Q == P`, as the tolerance is relative to the second polygon. -/
theorem C80_symmetric_partial {P Q : Poly} (h : polygonEq P Q = .ok true) :
    P.pts.length = Q.pts.length ∧ ∀ (k : Nat) (p q : Vec3 ℝ), P.pts[k]? = some p → Q.pts[k]? = some q →
      allClose q p (1001 / 1000 * NP_RTOL) (1001 / 1000 * NP_ATOL) := by
  have hl : P.pts.length = Q.pts.length := by
    by_contra hl
    rw [C80_lengths_raise hl] at h
    cases h
  refine ⟨hl, fun k p q hp hq => ?_⟩
  obtain ⟨r, hr, hir⟩ := C80_same_length hl
  rw [h, Except.ok.injEq] at hr
  obtain ⟨h1, h2, h3⟩ := hir.1 hr.symm k p q hp hq
  have key : ∀ {a b : ℝ}, isClose a b NP_RTOL NP_ATOL → isClose b a (1001 / 1000 * NP_RTOL) (1001 / 1000 * NP_ATOL) := by
    intro a b h
    unfold isClose at h ⊢
    rw [abs_sub_comm]
    have hb : |b| ≤ |a| + |a - b| := by
      have := abs_sub_abs_le_abs_sub b a
      rw [abs_sub_comm] at this
      linarith
    norm_num [NP_RTOL, NP_ATOL] at h ⊢
    linarith [abs_nonneg a]
  exact ⟨key h1, key h2, key h3⟩

/-- **C80 is false for outlines starting at another corner**: the square from `(0, 0)` to `(4, 4)` is not equal to the
same square starting at `(4, 0)`, and comparing it with a triangle raises an exception. -/
theorem C80_rotated : ∃ P Q R : Poly, polygonNew (rectPts 0 4 0 4) none none = .ok P ∧
    polygonNew [⟨4, 0, 0⟩, ⟨4, 4, 0⟩, ⟨0, 4, 0⟩, ⟨0, 0, 0⟩] none none = .ok Q ∧
    polygonNew [⟨0, 0, 0⟩, ⟨4, 0, 0⟩, ⟨4, 4, 0⟩] none none = .ok R ∧
    Q.pts = P.pts.rotate 1 ∧ P.vn = Q.vn ∧ polygonEq P Q = .ok false ∧ polygonEq P R = .error .valueError := by
  obtain ⟨P, h1, hp1, hv1, ht1⟩ := rect_polygon (box_of 0 4 0 4 (by norm_num))
  have hc : arePointsCoplanar ([⟨4, 0, 0⟩, ⟨4, 4, 0⟩, ⟨0, 4, 0⟩, ⟨0, 0, 0⟩] : List (Vec3 ℝ)) = true := by
    have := coplanar_z [(4, 0), (4, 4), (0, 4), (0, 0)]
    simpa using this
  obtain ⟨Q, h2, hp2, hv2⟩ := polygonNew_quad (vn := none) (v := ⟨0, 0, 1⟩) hc
    (by simp only [chooseNormal, List.getLast?_cons_cons, List.getLast?_singleton, List.getElem?_cons_zero,
          List.getElem?_cons_succ]
        rw [normal_z (s := 1) (.inl rfl) (by norm_num)])
    (Slice.rect_triangulate (x1 := 0) (y1 := 4) (x2 := -4) (y2 := 0) (p := 4) (q := 4) (by ext <;> simp) (by ext <;> simp)
      (by ext <;> simp) (by ring) (by norm_num) (by ring) (by ring) (by norm_num) (by norm_num) (by norm_num)
      (by norm_num) (Slice.notEqual_y (by norm_num) (by norm_num)) (Slice.notEqual_x (by norm_num) (by norm_num))
      (Slice.notEqual_x (by norm_num) (by norm_num)))
  obtain ⟨R, h3, hp3, hv3, ht3⟩ := triangle_z (x1 := 0) (y1 := 0) (x2 := 4) (y2 := 0) (x3 := 4) (y3 := 4) 0 (by norm_num)
  refine ⟨P, Q, R, h1, h2, h3, by rw [hp1, hp2]; rfl, by rw [hv1, hv2], ?_,
    C80_lengths_raise (by rw [hp1, hp3]; simp [rectPts])⟩
  obtain ⟨r, hr, hir⟩ := C80_same_length (P := P) (Q := Q) (by rw [hp1, hp2]; simp [rectPts])
  cases r with
  | false => exact hr
  | true =>
    have := (hir.1 rfl 0 ⟨0, 0, 0⟩ ⟨4, 0, 0⟩ (by rw [hp1]; rfl) (by rw [hp2]; rfl)).1
    norm_num [isClose, NP_RTOL, NP_ATOL] at this

end B3d.Polygon
