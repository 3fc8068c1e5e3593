import Verif.Proofs.SliceRun

/-!
# C111: slicing a convex polygon along a chord
-/

namespace B3d.SliceConvex

open Spec Planar Points Slice Polygon Triangles ConvexEars

variable {o u w : Vec3 ℝ} {m : ℝ} {pts : List (ℝ × ℝ)} {x y : ℝ × ℝ}

/-- **C111.**  A convex outline in any plane, and a straight line from one point of it to another one which is not on the
same side; the corners of the outline and the ends of the line together are without doubtful cases.  Then slicing the
polygon along the line always gives two polygons, named as asked for.  Both are convex and face like the polygon.  With
the ends of the line as additional corners, one part follows the outline from the start of the line to its end and the
other one follows the rest, both closed by the line.  The areas of the parts add up to the area of the polygon, and a point
of the plane which is on no edge of a triangle is in as many triangles of the polygon as of the two parts together. -/
theorem C111_chord {N : Type} [DecidableEq N] (hx : Axes u w) (hp : ConvexCorners pts) (h : Chord pts x y)
    (hc : Crisp m (x :: y :: pts)) (hr : ∀ p ∈ x :: y :: pts, Reach m (inPlane o u w p)) (name1 name2 : Option N)
    (rand1 rand2 : N) :
    ∃ (P Q1 Q2 : Poly) (A B : List (ℝ × ℝ)) (outline : List (Vec3 ℝ)) (a a1 a2 : ℝ),
      polygonNew (pts.map (inPlane o u w)) none none = .ok P ∧ P.pts = pts.map (inPlane o u w) ∧
      slicePolygon P [inPlane o u w x, inPlane o u w y] none name1 none name2 rand1 rand2 =
        .ok ((name1.getD rand1, Q1), (name2.getD rand2, Q2)) ∧
      P.vn = some (Vec3.cross u w) ∧ Q1.vn = P.vn ∧ Q2.vn = P.vn ∧
      Q1.pts = A.map (inPlane o u w) ∧ Q2.pts = B.map (inPlane o u w) ∧ ConvexCorners A ∧ ConvexCorners B ∧
      Subdivides P.pts outline ∧ (CutAlong outline [inPlane o u w x, inPlane o u w y] Q1.pts Q2.pts ∨
        CutAlong outline [inPlane o u w x, inPlane o u w y] Q2.pts Q1.pts) ∧
      P.area = some a ∧ Q1.area = some a1 ∧ Q2.area = some a2 ∧ 0 < a1 ∧ 0 < a2 ∧ a1 + a2 = a ∧
      ∀ z, Vec3.dot (Vec3.cross u w) z = Vec3.dot (Vec3.cross u w) o → OffEdges P z → OffEdges Q1 z → OffEdges Q2 z →
        cover Q1 z + cover Q2 z = cover P z := by
  obtain ⟨hn, hpos⟩ := hp
  have hS : ∀ p ∈ pts, p ∈ x :: y :: pts := fun p hp => List.mem_cons_of_mem _ (List.mem_cons_of_mem _ hp)
  obtain ⟨P, hf⟩ := fan_exists hx (crisp_swap hc hS) (fun p hp => hr p (hS p hp)) hn hpos
  obtain ⟨hkeep, q1, q2, A, B, outline, hpa, harr⟩ := chord_parts hx hc hr hn hpos h hf
  obtain ⟨q, hadd⟩ := no_points_added hx hc hr hn hpos h
  obtain ⟨Q1, g1, p1, v1, -⟩ := poly_either (o := o) hx (crisp_swap hc hpa.memA) hpa.lenA hpa.posA
    (fun p hp => hr p (hpa.memA p hp)) hpa.first
  obtain ⟨Q2, g2, p2, v2, -⟩ := poly_either (o := o) hx (crisp_swap hc hpa.memB) hpa.lenB hpa.posB
    (fun p hp => hr p (hpa.memB p hp)) hpa.second
  have hcut : CutAlong (outline.map (inPlane o u w)) [inPlane o u w x, inPlane o u w y] Q1.pts Q2.pts ∨
      CutAlong (outline.map (inPlane o u w)) [inPlane o u w x, inPlane o u w y] Q2.pts Q1.pts := by
    rw [p1, p2]
    exact hpa.cut.imp (cutAlong_map _) (cutAlong_map _)
  have hsub : Subdivides P.pts (outline.map (inPlane o u w)) := by rw [hf.points]; exact hpa.divides
  obtain ⟨v, hv, -, -, -, -, ⟨a, ha, apos, ha2⟩, -⟩ := C70_orientation hf.made
  obtain ⟨v1', hv1', -, d1, -, -, ⟨a1, ha1, a1pos, ha12⟩, -⟩ := C70_orientation g1
  obtain ⟨v2', hv2', -, d2, -, -, ⟨a2, ha2', a2pos, ha22⟩, -⟩ := C70_orientation g2
  rw [hf.normal, Option.some.injEq] at hv
  rw [v1, Option.some.injEq] at hv1'
  rw [v2, Option.some.injEq] at hv2'
  subst hv hv1' hv2'
  have hsum : cycSum Vec3.cross Q1.pts + cycSum Vec3.cross Q2.pts = cycSum Vec3.cross P.pts := by
    rw [← Subdivides.cycSum (f := Vec3.cross) (fun a b x hx => cross_segment hx) hsub]
    rcases hcut with k | k
    · exact cutAlong_cycSum cross_antisymm k
    · rw [add_comm]
      exact cutAlong_cycSum cross_antisymm k
  have harea : a1 + a2 = a := by
    rw [ha2, ha12, ha22, ← hsum, Vec3.dot_add_left]
    ring
  refine ⟨P, Q1, Q2, A, B, outline.map (inPlane o u w), a, a1, a2, hf.made, hf.points, ?_, hf.normal, v1.trans hf.normal.symm,
    v2.trans hf.normal.symm, p1, p2, ⟨hpa.lenA, hpa.posA⟩, ⟨hpa.lenB, hpa.posB⟩, hsub, hcut, ha, ha1, ha2', a1pos, a2pos,
    harea, ?_⟩
  · have hcop : arePointsCoplanar (P.pts ++ [inPlane o u w x, inPlane o u w y]) = true := by
      refine Points.C36_coplanar_complete _ (Vec3.cross u w) (Vec3.dot (Vec3.cross u w) o) _ ?_ Points.GEOM_ATOL_pos ?_
      · intro he
        have := norm_cross hx
        rw [he, Vec3.norm_eq_zero.2 rfl] at this
        norm_num at this
      · intro p hp
        rw [hf.points] at hp
        have e : pts.map (inPlane o u w) ++ [inPlane o u w x, inPlane o u w y] = (pts ++ [x, y]).map (inPlane o u w) := by simp
        rw [e] at hp
        exact plane_inPlane o _ p hp
    have hmake : makePolygons P.vn (q1.map (inPlane o u w)) (q2.map (inPlane o u w)) none name1 none name2 rand1 rand2 =
        .ok ((name1.getD rand1, Q1), (name2.getD rand2, Q2)) := by
      unfold makePolygons
      rw [hf.normal, g1]
      simp only
      rw [g2]
      simp [nameParts, chooseNames]
    unfold slicePolygon
    rw [if_neg (by rw [hcop]; simp)]
    rw [← hf.points] at hadd
    simp only [hadd, hkeep]
    rw [if_neg (by simp), harr]
    simp only [hmake]
    rw [hf.normal, checkNormal_ok v1]
    simp only
    rw [checkNormal_ok v2]
  · intro z hz z0 z1 z2
    have rev : ∀ {l : List (Vec3 ℝ)} {Q : Poly}, (Q.pts = l ∨ Q.pts = l.reverse) → ∀ C, Q.pts ~r C → SameOutline l C := by
      intro l Q hl C hC
      rcases hl with e | e
      · exact .inl (by rw [← e]; exact hC)
      · exact .inr (by rw [← e]; exact hC)
    have hcuts : Cuts P.pts [inPlane o u w x, inPlane o u w y] (q1.map (inPlane o u w)) (q2.map (inPlane o u w)) := by
      rcases hcut with k | k
      · exact ⟨_, _, _, hsub, k, .inl ⟨rev d1 _ (List.IsRotated.refl _), rev d2 _ (List.IsRotated.refl _)⟩⟩
      · exact ⟨_, _, _, hsub, k, .inr ⟨rev d1 _ (List.IsRotated.refl _), rev d2 _ (List.IsRotated.refl _)⟩⟩
    rw [← hf.normal] at g1 g2
    refine C41_cover_partial hf.made g1 g2 hcuts ha ha1 ha2' (by linarith) (by linarith) hf.normal
      (e := Vec3.dot (Vec3.cross u w) o) ?_ hz z0 z1 z2
    intro p hp
    rw [hf.points, ← List.map_append, ← List.map_append] at hp
    exact plane_inPlane o _ p hp

/-! ### Non-vacuity -/

/-- Corners given by whole numbers. -/
theorem convex_int {L : List (ℤ × ℤ)} (hn : 3 ≤ L.length)
    (h : ∀ t ∈ L.sublistsLen 3, ∀ a ∈ t[0]?, ∀ b ∈ t[1]?, ∀ c ∈ t[2]?, 0 < Grid.orient a b c) :
    ConvexCorners (L.map fun p => ((p.1 : ℝ), (p.2 : ℝ))) := by
  refine ⟨by simpa using hn, ?_⟩
  intro a b c hs
  obtain ⟨t, ht, e⟩ := List.sublist_map_iff.1 hs
  match t, e with
  | [a', b', c'], e =>
    simp only [List.map_cons, List.map_nil, List.cons.injEq, and_true] at e
    obtain ⟨rfl, rfl, rfl⟩ := e
    have := h [a', b', c'] (List.mem_sublistsLen.2 ⟨ht, rfl⟩) a' rfl b' rfl c' rfl
    have e2 : signedArea ((a'.1 : ℝ), (a'.2 : ℝ)) ((b'.1 : ℝ), (b'.2 : ℝ)) ((c'.1 : ℝ), (c'.2 : ℝ)) =
        (Grid.orient a' b' c' : ℤ) := by
      rw [Grid.orient_cast]; rfl
    rw [e2]
    exact_mod_cast this

/-- Non-vacuity of `C111_chord`: an octagon in an inclined plane away from the origin, sliced between points of two opposite
sides. -/
example : ∃ (pts : List (ℝ × ℝ)) (x y : ℝ × ℝ), pts.length = 8 ∧ ConvexCorners pts ∧ Chord pts x y ∧
    Crisp 1 (x :: y :: pts) ∧ Axes ⟨3 / 5, 4 / 5, 0⟩ ⟨0, 0, 1⟩ ∧
    ∀ p ∈ x :: y :: pts, Reach 1 (inPlane ⟨100, -70, 1000⟩ ⟨3 / 5, 4 / 5, 0⟩ ⟨0, 0, 1⟩ p) := by
  refine ⟨[(2, 0), (5, 0), (7, 2), (7, 6), (5, 8), (2, 8), (0, 6), (0, 2)], (3, 0), (4, 8), rfl, ?_, ?_, ?_,
    ⟨by norm_num [Vec3.dot], by norm_num [Vec3.dot], by norm_num [Vec3.dot]⟩, ?_⟩
  · have := convex_int (L := [(2, 0), (5, 0), (7, 2), (7, 6), (5, 8), (2, 8), (0, 6), (0, 2)]) (by decide) (by decide +kernel)
    simpa using this
  · refine ⟨⟨0, (2, 0), (5, 0), 1 / 3, ⟨rfl, rfl⟩, by norm_num, by norm_num, by norm_num [lerp]⟩,
      ⟨4, (5, 8), (2, 8), 1 / 3, ⟨rfl, rfl⟩, by norm_num, by norm_num, by norm_num [lerp]⟩, ?_⟩
    rintro i a b ⟨h1, h2⟩
    have hi := (List.getElem?_eq_some_iff.1 h1).1
    simp only [List.length_cons, List.length_nil] at hi
    interval_cases i <;> simp at h1 h2 <;> subst h1 h2 <;> norm_num [signedArea]
  · have := crisp_int (pts := [(3, 0), (4, 8), (2, 0), (5, 0), (7, 2), (7, 6), (5, 8), (2, 8), (0, 6), (0, 2)]) (by decide)
    simpa using this
  · simp only [List.mem_cons, List.not_mem_nil, or_false, forall_eq_or_imp, forall_eq, Reach, inPlane]
    norm_num [abs_le]

end B3d.SliceConvex
