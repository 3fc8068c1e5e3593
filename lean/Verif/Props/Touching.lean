import Verif.Proofs.Touching
import Verif.Props.Crossing

/-!
# C77: polygons that touch

`are_polygons_touching`.  The full property: the answer is `True` exactly if the polygons have a point in common, but no
point of one is inside the other.  The code looks at the corners, and at the points which divide the edges into quarters:

* an answer is always given (`C77_total`);
* `True` means that a corner of one is on the outline of the other, up to the tolerances, and that none of these points
  is well inside the other polygon (`C77_sound_partial`);
* if a corner of one is on the outline of the other, none of these points is inside the other, and the first polygon has
  a corner of its own, the answer is `True` (`C77_complete_partial`);
* `False` if the polygons are apart (`C77_apart`) and if one is the same as the other (`C77_same`).

`TouchingCases` shows overlapping polygons which are reported touching, touching polygons which are not, and that the
answer depends on which polygon is asked.
-/

namespace B3d.Polygon

open Spec Points Triangles

/-- **C77, no errors.**  For polygons from the constructor the test does not raise. -/
theorem C77_total {pts1 pts2 : List (Vec3 ℝ)} {vn1 vn2 : Option (Vec3 ℝ)} {P Q : Poly}
    (h1 : polygonNew pts1 none vn1 = .ok P) (h2 : polygonNew pts2 none vn2 = .ok Q) :
    ∃ r, arePolygonsTouching P.pts P.tri Q.pts Q.tri = .ok r := by
  obtain ⟨r, -, -, hr, -⟩ := touching_iff (polygonNew_sturdy h1) (polygonNew_sturdy h2)
  exact ⟨r, hr⟩

/-- A corner which is found on the boundary is close to the outline. -/
theorem boundary_near {pts : List (Vec3 ℝ)} {x : Vec3 ℝ} {M L : ℝ} (hne : pts ≠ []) (hM : ∀ p ∈ pts, Vec3.norm p ≤ M)
    (hL : 0 < L) (hedge : ∀ ed ∈ cycEdges pts, L ≤ Vec3.norm (ed.2 - ed.1)) (h : isPointAtBoundary x pts = .ok true) :
    Near (OnOutline pts) x (1 / 10 ^ 4 * M + 1 / 10 ^ 7 + 2 / 10 ^ 13 / L) := by
  rw [atBoundary_eq hne, Except.ok.injEq, boundaryLoop_iff] at h
  obtain ⟨ed, he, h⟩ := h
  have m := mem_of_edge he
  obtain ⟨y, hy, hd⟩ := onSegment_near (hM _ m.1) (hM _ m.2) hL (hedge ed he) h
  exact ⟨y, ⟨ed, he, hy⟩, hd⟩

/-- The points that are looked at: those that divide the edges into quarters, and the corners. -/
def QuarterPoint (pts : List (Vec3 ℝ)) (x : Vec3 ℝ) : Prop :=
  ∃ e ∈ cycEdges pts, ∃ j : Nat, j ≤ 4 ∧ x = e.1 + ((j : ℝ) / 4) • (e.2 - e.1)

/-- **C77, soundness.**  If the polygons are reported touching, a corner of one is on the outline of the other one,
within the tolerance, and no corner of one, and no point which divides an edge of it into quarters, is well inside the
other. -/
theorem C77_sound_partial {pts1 pts2 : List (Vec3 ℝ)} {vn1 vn2 : Option (Vec3 ℝ)} {P Q : Poly} {v w : Vec3 ℝ}
    {e f M L : ℝ} (h1 : polygonNew pts1 none vn1 = .ok P) (h2 : polygonNew pts2 none vn2 = .ok Q)
    (hv : P.vn = some v) (hw : Q.vn = some w) (hpl1 : ∀ p ∈ P.pts, Vec3.dot v p = e)
    (hpl2 : ∀ p ∈ Q.pts, Vec3.dot w p = f) (hM : ∀ p ∈ P.pts ++ Q.pts, Vec3.norm p ≤ M) (hL : 0 < L)
    (hedge : ∀ ed ∈ cycEdges P.pts ++ cycEdges Q.pts, L ≤ Vec3.norm (ed.2 - ed.1))
    (h : arePolygonsTouching P.pts P.tri Q.pts Q.tri = .ok true) :
    ((∃ p ∈ Q.pts, Near (OnOutline P.pts) p (1 / 10 ^ 4 * M + 1 / 10 ^ 7 + 2 / 10 ^ 13 / L)) ∨
      ∃ p ∈ P.pts, Near (OnOutline Q.pts) p (1 / 10 ^ 4 * M + 1 / 10 ^ 7 + 2 / 10 ^ 13 / L)) ∧
    (∀ x, QuarterPoint P.pts x → ¬ DeepInside Q x) ∧ ∀ x, QuarterPoint Q.pts x → ¬ DeepInside P x := by
  have hs1 := polygonNew_sturdy h1
  have hs2 := polygonNew_sturdy h2
  obtain ⟨r, b1, b2, hr, -, -, hir⟩ := touching_iff hs1 hs2
  rw [h, Except.ok.injEq] at hr
  obtain ⟨-, -, hi2, hi1, hb⟩ := hir.1 hr.symm
  refine ⟨?_, ?_, ?_⟩
  · rcases hb with ⟨p, hp, hb⟩ | ⟨p, hp, hb⟩
    · exact .inl ⟨p, hp, boundary_near hs1.1 (fun q hq => hM q (List.mem_append_left _ hq)) hL
        (fun ed he => hedge ed (List.mem_append_left _ he)) hb⟩
    · exact .inr ⟨p, hp, boundary_near hs2.1 (fun q hq => hM q (List.mem_append_right _ hq)) hL
        (fun ed he => hedge ed (List.mem_append_right _ he)) hb⟩
  · rintro x ⟨ed, he, j, hj, rfl⟩ hx
    exact hi1 ⟨ed, he, j, hj, deepInside_accepted h2 hw hpl2 hx⟩
  · rintro x ⟨ed, he, j, hj, rfl⟩ hx
    exact hi2 ⟨ed, he, j, hj, deepInside_accepted h1 hv hpl1 hx⟩

/-- **C77, completeness.**  If a corner of one polygon is on the outline of the other, every corner and every point
which divides an edge into quarters is on the outline of the other polygon or clearly outside, and the first polygon has
a corner which is no corner of the second, the polygons are reported touching. -/
theorem C77_complete_partial {pts1 pts2 : List (Vec3 ℝ)} {vn1 vn2 : Option (Vec3 ℝ)} {P Q : Poly} {v w : Vec3 ℝ}
    {e f M : ℝ} (h1 : polygonNew pts1 none vn1 = .ok P) (h2 : polygonNew pts2 none vn2 = .ok Q)
    (hv : P.vn = some v) (hw : Q.vn = some w) (hpl1 : ∀ p ∈ P.pts, Vec3.dot v p = e)
    (hpl2 : ∀ p ∈ Q.pts, Vec3.dot w p = f) (hs1 : SpansPlane P.pts) (hs2 : SpansPlane Q.pts)
    (hM1 : ∀ p ∈ P.pts, Vec3.norm p ≤ M) (hM2 : ∀ p ∈ Q.pts, Vec3.norm p ≤ M)
    (hown : ∃ p ∈ P.pts, ∀ q ∈ Q.pts, pointsEqual p q = false)
    (hq1 : ∀ x, QuarterPoint P.pts x → OnOutline Q.pts x ∨ ¬ Near (Region Q.pts Q.tri) x (1 / 10 ^ 4 * M + 2 / 10 ^ 7))
    (hq2 : ∀ x, QuarterPoint Q.pts x → OnOutline P.pts x ∨ ¬ Near (Region P.pts P.tri) x (1 / 10 ^ 4 * M + 2 / 10 ^ 7))
    (hb : (∃ p ∈ Q.pts, OnOutline P.pts p) ∨ ∃ p ∈ P.pts, OnOutline Q.pts p) :
    arePolygonsTouching P.pts P.tri Q.pts Q.tri = .ok true := by
  have st1 := polygonNew_sturdy h1
  have st2 := polygonNew_sturdy h2
  obtain ⟨r, b1, b2, hr, hb1, hb2, hir⟩ := touching_iff st1 st2
  rw [hr, Except.ok.injEq, hir]
  have seg : ∀ (a b : Vec3 ℝ) (t : ℝ), 0 ≤ t → t ≤ 1 → InTriangle a b a (a + t • (b - a)) := fun a b t h0 h1 =>
    ⟨1 - t, t, 0, by linarith, h0, le_refl _, by ring, by ext <;> simp <;> ring⟩
  have self : ∀ a : Vec3 ℝ, InTriangle a a a a := fun a => ⟨1, 0, 0, zero_le_one, le_refl _, le_refl _, by ring, by simp⟩
  have hat : ∀ {pts : List (Vec3 ℝ)} {x : Vec3 ℝ}, pts ≠ [] → OnOutline pts x → isPointAtBoundary x pts = .ok true := by
    rintro pts x hne ⟨ed, he, t, h0, h1, rfl⟩
    rw [atBoundary_eq hne, (boundaryLoop_iff _).2 ⟨ed, he, C38_point_on_segment_complete ed.1 ed.2 t GEOM_ATOL h0 h1
      GEOM_ATOL_pos.le⟩]
  refine ⟨?_, ?_, ?_, ?_, ?_⟩
  · rcases hb with ⟨p, hp, ed, he, t, h0, h1, rfl⟩ | ⟨p, hp, ed, he, t, h0, h1, rfl⟩
    · have m := mem_of_edge he
      exact Bboxes.C26_no_false_negative P.pts Q.pts b1 b2 hb1 hb2 _ ed.1 ed.2 ed.1 _ _ _ m.1 m.2 m.1 hp hp hp
        (seg _ _ _ h0 h1) (self _)
    · have m := mem_of_edge he
      exact Bboxes.C26_no_false_negative P.pts Q.pts b1 b2 hb1 hb2 _ _ _ _ ed.1 ed.2 ed.1 hp hp hp m.1 m.2 m.1
        (self _) (seg _ _ _ h0 h1)
  · obtain ⟨p, hp, h⟩ := hown
    exact allSame_false hp h
  · rintro ⟨ed, he, j, hj, hin⟩
    rcases hq2 _ ⟨ed, he, j, hj, rfl⟩ with ho | ho
    · rw [(C71_boundary h1 _).1 ho] at hin
      cases hin
    · exact ho (C71_sound_partial h1 hv hpl1 hs1 hM1 hin)
  · rintro ⟨ed, he, j, hj, hin⟩
    rcases hq1 _ ⟨ed, he, j, hj, rfl⟩ with ho | ho
    · rw [(C71_boundary h2 _).1 ho] at hin
      cases hin
    · exact ho (C71_sound_partial h2 hw hpl2 hs2 hM2 hin)
  · rcases hb with ⟨p, hp, ho⟩ | ⟨p, hp, ho⟩
    · exact .inl ⟨p, hp, hat st1.1 ho⟩
    · exact .inr ⟨p, hp, hat st2.1 ho⟩

/-- **C77, polygons apart.**  If the corners of each polygon are further than the tolerance from the outline of the
other, the polygons are not reported touching. -/
theorem C77_apart {pts1 pts2 : List (Vec3 ℝ)} {vn1 vn2 : Option (Vec3 ℝ)} {P Q : Poly} {M L : ℝ}
    (h1 : polygonNew pts1 none vn1 = .ok P) (h2 : polygonNew pts2 none vn2 = .ok Q)
    (hM : ∀ p ∈ P.pts ++ Q.pts, Vec3.norm p ≤ M) (hL : 0 < L)
    (hedge : ∀ ed ∈ cycEdges P.pts ++ cycEdges Q.pts, L ≤ Vec3.norm (ed.2 - ed.1))
    (hq : ∀ p ∈ Q.pts, ∀ y, OnOutline P.pts y → 1 / 10 ^ 4 * M + 1 / 10 ^ 7 + 2 / 10 ^ 13 / L < Vec3.norm (p - y))
    (hp : ∀ p ∈ P.pts, ∀ y, OnOutline Q.pts y → 1 / 10 ^ 4 * M + 1 / 10 ^ 7 + 2 / 10 ^ 13 / L < Vec3.norm (p - y)) :
    arePolygonsTouching P.pts P.tri Q.pts Q.tri = .ok false := by
  have hs1 := polygonNew_sturdy h1
  have hs2 := polygonNew_sturdy h2
  obtain ⟨r, b1, b2, hr, -, -, hir⟩ := touching_iff hs1 hs2
  cases r with
  | false => exact hr
  | true =>
    exfalso
    obtain ⟨-, -, -, -, hb⟩ := hir.1 rfl
    rcases hb with ⟨p, hp', hb⟩ | ⟨p, hp', hb⟩
    · obtain ⟨y, hy, hd⟩ := boundary_near hs1.1 (fun q hq => hM q (List.mem_append_left _ hq)) hL
        (fun ed he => hedge ed (List.mem_append_left _ he)) hb
      exact absurd hd (not_le.2 (hq p hp' y hy))
    · obtain ⟨y, hy, hd⟩ := boundary_near hs2.1 (fun q hq => hM q (List.mem_append_right _ hq)) hL
        (fun ed he => hedge ed (List.mem_append_right _ he)) hb
      exact absurd hd (not_le.2 (hp p hp' y hy))

/-- **C77, the same polygon.**  If the corners of the first polygon are among the corners of the second (which are told
apart clearly), the polygons are not reported touching; in particular a polygon and itself. -/
theorem C77_same {pts1 pts2 : List (Vec3 ℝ)} {vn1 vn2 : Option (Vec3 ℝ)} {P Q : Poly}
    (h1 : polygonNew pts1 none vn1 = .ok P) (h2 : polygonNew pts2 none vn2 = .ok Q)
    (hap : ∀ p ∈ P.pts, ∀ q ∈ Q.pts, pointsEqual p q = true → p = q) (h : P.pts.Subperm Q.pts) :
    arePolygonsTouching P.pts P.tri Q.pts Q.tri = .ok false := by
  obtain ⟨r, b1, b2, hr, -, -, hir⟩ := touching_iff (polygonNew_sturdy h1) (polygonNew_sturdy h2)
  cases r with
  | false => exact hr
  | true =>
    exfalso
    have := (hir.1 rfl).2.1
    rw [(allSame_iff hap).2 h] at this
    cases this

end B3d.Polygon
