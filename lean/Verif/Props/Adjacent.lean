import Verif.Props.PointInSolidBox
import Verif.Props.CrossingCases

/-!
# C79: adjacent solids

`Solid.is_adjacent_to_solid` and `Solid.has_correct_interface`.  The full property: solids are adjacent exactly if a polygon
of one and a polygon of the other overlap; the interface is correct exactly if moreover every two polygons which overlap
are facing each other.

* an answer is always given (`C79_total`); a correct interface implies that the solids are adjacent
  (`C79_interface_adjacent`);
* `True` means that polygons of the solids meet up to the tolerance (`C79_adjacent_sound_partial`), or have the same
  corners and area and opposite normals (`C79_interface_sound_partial`);
* solids away from each other are not adjacent (`C79_apart`), boxes side by side are and have a correct interface
  (`C79_boxes`).

False in general: one facing pair is enough for a correct interface, whatever the other polygons do
(`C79_interface_one_pair`), and solids whose polygons overlap are not always adjacent (`C79_overlap_missed`).
-/

namespace B3d.Solids

open Spec Polygon Triangles Points Enclose

/-- All polygons are made by the constructor. -/
def Built (S : SolidG) : Prop := ∀ P ∈ facesOf S, ∃ pts vn, polygonNew pts none vn = .ok P

/-- The polygons have the same corners and area and opposite normals, up to the tolerance of the comparisons. -/
def FaceEachOther (P Q : Poly) : Prop :=
  ∃ v w, P.vn = some v ∧ Q.vn = some w ∧ allClose v (-w) GEOM_RTOL NP_ATOL ∧
    isClose (specArea P.pts v) (specArea Q.pts w) NP_RTOL NP_ATOL ∧
    ∃ js : List Nat, js.length = P.pts.length ∧ js.Nodup ∧ ∀ (k : Nat) (p : Vec3 ℝ), P.pts[k]? = some p →
      ∃ (j : Nat) (q : Vec3 ℝ), js[k]? = some j ∧ Q.pts[j]? = some q ∧ allClose p q NP_RTOL GEOM_ATOL

theorem facing_total {P Q : Poly} (hP : P.pts ≠ []) (hQ : Q.pts ≠ []) : ∃ r, facing P Q = .ok r := by
  unfold facing
  split
  · unfold arePolygonsFacing
    obtain ⟨b1, b2, e1, e2, -⟩ := Bboxes.C26_overlap_iff_common_point P.pts Q.pts hP hQ
    rw [e1, e2]
    simp only
    split_ifs <;> exact ⟨_, rfl⟩
  · exact ⟨_, rfl⟩

theorem facing_sound {P Q : Poly} (h : facing P Q = .ok true) : FaceEachOther P Q := by
  unfold facing at h
  split at h
  · rename_i v w hv hw
    obtain ⟨h1, h2, h3⟩ := C34_sound_partial h
    exact ⟨v, w, hv, hw, h1, h2, h3⟩
  · cases h

theorem facing_same {P Q : Poly} (hv : P.vn = some ⟨0, 0, 1⟩) (hw : Q.vn = some ⟨0, 0, 1⟩) : facing P Q = .ok false := by
  unfold facing arePolygonsFacing
  rw [hv, hw]
  simp only
  rw [if_pos]
  rintro ⟨-, -, h⟩
  norm_num [isClose, GEOM_RTOL, NP_ATOL] at h

theorem vertex_on_outline {pts : List (Vec3 ℝ)} {p : Vec3 ℝ} (hp : p ∈ pts) : OnOutline pts p := by
  obtain ⟨k, hk, rfl⟩ := List.mem_iff_getElem.1 hp
  exact ⟨_, mem_cycEdges_iff.2 ⟨k, hk, rfl⟩, 0, le_refl _, zero_le_one, by simp⟩

theorem built_ne {P : Poly} (h : ∃ pts vn, polygonNew pts none vn = .ok P) : P.pts ≠ [] := by
  obtain ⟨pts, vn, h⟩ := h
  exact (polygonNew_sturdy h).1

theorem interface_iff {S T : SolidG} (hS : Built S) (hT : Built T) : ∃ r, hasCorrectInterface S T = .ok r ∧
    (r = true ↔ ∃ P ∈ facesOf S, ∃ Q ∈ facesOf T, facing P Q = .ok true) := by
  have h1 : ∀ P ∈ allPolys S, ∃ r, anyOk (fun Q => facing P Q) (allPolys T) = .ok r ∧
      (r = true ↔ ∃ Q ∈ allPolys T, facing P Q = .ok true) := fun P hP => anyOk_iff _ fun Q hQ =>
    facing_total (built_ne (hS P hP)) (built_ne (hT Q hQ))
  obtain ⟨r, hr, hir⟩ := anyOk_iff (f := fun P => anyOk (fun Q => facing P Q) (allPolys T)) (allPolys S)
    fun P hP => (h1 P hP).imp fun r hr => hr.1
  refine ⟨r, hr, hir.trans ⟨?_, ?_⟩⟩
  · rintro ⟨P, hP, h⟩
    obtain ⟨r, hr, hir⟩ := h1 P hP
    rw [h, Except.ok.injEq] at hr
    exact ⟨P, hP, hir.1 hr.symm⟩
  · rintro ⟨P, hP, h⟩
    obtain ⟨r, hr, hir⟩ := h1 P hP
    refine ⟨P, hP, ?_⟩
    rw [hr, Except.ok.injEq, hir]
    exact h

theorem adjacent_iff {S T : SolidG} (hS : Built S) (hT : Built T) : ∃ r, isAdjacentToSolid S T = .ok r ∧
    (r = true ↔ ∃ P ∈ facesOf S, ∃ Q ∈ facesOf T,
      arePolygonsCrossing P.pts P.tri Q.pts Q.tri = .ok true ∨ facing P Q = .ok true) := by
  obtain ⟨g, hg⟩ : ∃ g : Poly → Poly → Except PyErr Bool, g = fun P Q =>
    match arePolygonsCrossing P.pts P.tri Q.pts Q.tri with
    | .error e => .error e
    | .ok true => .ok true
    | .ok false => facing P Q := ⟨_, rfl⟩
  have hu : isAdjacentToSolid S T = anyOk (fun P => anyOk (fun Q => g P Q) (allPolys T)) (allPolys S) := by
    rw [hg]; rfl
  have h0 : ∀ P ∈ allPolys S, ∀ Q ∈ allPolys T, ∃ r, g P Q = .ok r ∧
      (r = true ↔ arePolygonsCrossing P.pts P.tri Q.pts Q.tri = .ok true ∨ facing P Q = .ok true) := by
    intro P hP Q hQ
    obtain ⟨_, _, h1⟩ := hS P hP
    obtain ⟨_, _, h2⟩ := hT Q hQ
    obtain ⟨r, hr⟩ := C76_total h1 h2
    obtain ⟨f, hf⟩ := facing_total (built_ne (hS P hP)) (built_ne (hT Q hQ))
    rw [hg]
    simp only [hr, hf]
    cases r
    · exact ⟨f, rfl, by simp⟩
    · exact ⟨true, rfl, by simp⟩
  have h1 : ∀ P ∈ allPolys S, ∃ r, anyOk (fun Q => g P Q) (allPolys T) = .ok r ∧
      (r = true ↔ ∃ Q ∈ allPolys T, g P Q = .ok true) := fun P hP => anyOk_iff _ fun Q hQ =>
    (h0 P hP Q hQ).imp fun r hr => hr.1
  obtain ⟨r, hr, hir⟩ := anyOk_iff (f := fun P => anyOk (fun Q => g P Q) (allPolys T)) (allPolys S)
    fun P hP => (h1 P hP).imp fun r hr => hr.1
  rw [hu]
  have h0' : ∀ P ∈ allPolys S, ∀ Q ∈ allPolys T, (g P Q = .ok true ↔
      arePolygonsCrossing P.pts P.tri Q.pts Q.tri = .ok true ∨ facing P Q = .ok true) := by
    intro P hP Q hQ
    obtain ⟨r, hr, hir⟩ := h0 P hP Q hQ
    rw [hr, Except.ok.injEq, hir]
  refine ⟨r, hr, hir.trans ⟨?_, ?_⟩⟩
  · rintro ⟨P, hP, h⟩
    obtain ⟨r, hr, hir⟩ := h1 P hP
    rw [h, Except.ok.injEq] at hr
    obtain ⟨Q, hQ, h⟩ := hir.1 hr.symm
    exact ⟨P, hP, Q, hQ, (h0' P hP Q hQ).1 h⟩
  · rintro ⟨P, hP, Q, hQ, h⟩
    obtain ⟨r, hr, hir⟩ := h1 P hP
    refine ⟨P, hP, ?_⟩
    rw [hr, Except.ok.injEq, hir]
    exact ⟨Q, hQ, (h0' P hP Q hQ).2 h⟩

/-- **C79, no errors.**  For solids made of polygons from the constructor neither question raises. -/
theorem C79_total {S T : SolidG} (hS : Built S) (hT : Built T) :
    (∃ r, isAdjacentToSolid S T = .ok r) ∧ ∃ r, hasCorrectInterface S T = .ok r :=
  ⟨(adjacent_iff hS hT).imp fun _ h => h.1, (interface_iff hS hT).imp fun _ h => h.1⟩

/-- **C79.**  Solids with a correct interface are adjacent. -/
theorem C79_interface_adjacent {S T : SolidG} (hS : Built S) (hT : Built T) (h : hasCorrectInterface S T = .ok true) :
    isAdjacentToSolid S T = .ok true := by
  obtain ⟨r, hr, hir⟩ := interface_iff hS hT
  rw [h, Except.ok.injEq] at hr
  obtain ⟨P, hP, Q, hQ, hf⟩ := hir.1 hr.symm
  obtain ⟨r', hr', hir'⟩ := adjacent_iff hS hT
  rw [hr', Except.ok.injEq, hir']
  exact ⟨P, hP, Q, hQ, .inr hf⟩

/-- **C79, soundness of the interface.**  If the interface is reported to be correct, a polygon of one solid faces one of
the other.  Missing: all polygons which overlap face each other, see `C79_interface_one_pair`. -/
theorem C79_interface_sound_partial {S T : SolidG} (hS : Built S) (hT : Built T) (h : hasCorrectInterface S T = .ok true) :
    ∃ P ∈ facesOf S, ∃ Q ∈ facesOf T, FaceEachOther P Q := by
  obtain ⟨r, hr, hir⟩ := interface_iff hS hT
  rw [h, Except.ok.injEq] at hr
  obtain ⟨P, hP, Q, hQ, hf⟩ := hir.1 hr.symm
  exact ⟨P, hP, Q, hQ, facing_sound hf⟩

theorem allClose_norm {p q : Vec3 ℝ} {M : ℝ} (hq : Vec3.norm q ≤ M) (h : allClose p q NP_RTOL GEOM_ATOL) :
    Vec3.norm (p - q) ≤ 2 / 10 ^ 4 * M + 5 / 10 ^ 5 := by
  have hM0 := (Vec3.norm_nonneg q).trans hq
  obtain ⟨h1, h2, h3⟩ := h
  have key : ∀ {a b : ℝ}, isClose a b NP_RTOL GEOM_ATOL → |b| ≤ M → (a - b) ^ 2 ≤ (1 / 10 ^ 4 * M + 1 / 10 ^ 5) ^ 2 := by
    intro a b h hb
    unfold isClose at h
    refine sq_le_sq' ?_ ?_ <;> norm_num [NP_RTOL, GEOM_ATOL] at h ⊢ <;> linarith [abs_le.1 h]
  have k1 := key h1 ((Vec3.abs_x_le q).trans hq)
  have k2 := key h2 ((Vec3.abs_y_le q).trans hq)
  have k3 := key h3 ((Vec3.abs_z_le q).trans hq)
  apply Vec3.norm_le_of_sq (by positivity)
  simp only [Vec3.normSq, Vec3.dot, Vec3.sub_x, Vec3.sub_y, Vec3.sub_z]
  generalize p.x - q.x = a at *
  generalize p.y - q.y = b at *
  generalize p.z - q.z = c at *
  norm_num at k1 k2 k3 ⊢
  nlinarith

/-- **C79, soundness.**  Solids reported as adjacent have polygons which meet: a point of the outline of one is in the
other, up to the tolerance.  Missing: they overlap, that is, meet in inner points. -/
theorem C79_adjacent_sound_partial {S T : SolidG} (hS : Built S) (hT : Built T) {M : ℝ}
    (hflat : ∀ P ∈ facesOf S ++ facesOf T, SpansPlane P.pts ∧ (∀ p ∈ P.pts, Vec3.norm p ≤ M) ∧
      ∃ v e, P.vn = some v ∧ ∀ p ∈ P.pts, Vec3.dot v p = e)
    (h : isAdjacentToSolid S T = .ok true) :
    ∃ P ∈ facesOf S, ∃ Q ∈ facesOf T,
      (∃ x, OnOutline P.pts x ∧ Near (Region Q.pts Q.tri) x (2 / 10 ^ 4 * M + 5 / 10 ^ 5)) ∨
      ∃ x, OnOutline Q.pts x ∧ Near (Region P.pts P.tri) x (2 / 10 ^ 4 * M + 5 / 10 ^ 5) := by
  obtain ⟨r, hr, hir⟩ := adjacent_iff hS hT
  rw [h, Except.ok.injEq] at hr
  obtain ⟨P, hP, Q, hQ, hc⟩ := hir.1 hr.symm
  obtain ⟨_, _, h1⟩ := hS P hP
  obtain ⟨_, _, h2⟩ := hT Q hQ
  obtain ⟨s1, m1, v, e, v1, p1⟩ := hflat P (List.mem_append_left _ hP)
  obtain ⟨s2, m2, w, f, v2, p2⟩ := hflat Q (List.mem_append_right _ hQ)
  refine ⟨P, hP, Q, hQ, ?_⟩
  rcases hc with hc | hc
  · exact C76_sound_partial h1 h2 v1 v2 p1 p2 s1 s2 m1 m2 hc
  · left
    obtain ⟨-, -, -, -, -, -, js, hl, -, hjs⟩ := facing_sound hc
    obtain ⟨p, hp⟩ := List.exists_mem_of_ne_nil _ (built_ne (hS P hP))
    obtain ⟨k, hk⟩ := List.getElem?_of_mem hp
    obtain ⟨j, q, -, hq, hpq⟩ := hjs k p hk
    have hq := List.mem_of_getElem? hq
    obtain ⟨t, ht, a, b, c, ha, hb, hc, habc⟩ := polygonNew_vertex h2 hq
    refine ⟨p, vertex_on_outline hp, q, ⟨t, ht, a, b, c, ha, hb, hc, ?_⟩, allClose_norm (m2 q hq) hpq⟩
    rcases habc with rfl | rfl | rfl
    · exact ⟨1, 0, 0, zero_le_one, le_refl _, le_refl _, by ring, by simp⟩
    · exact ⟨0, 1, 0, le_refl _, zero_le_one, le_refl _, by ring, by simp⟩
    · exact ⟨0, 0, 1, le_refl _, le_refl _, zero_le_one, by ring, by simp⟩

/-- **C79, no false alarm.**  Solids whose outlines are away from each other are not adjacent. -/
theorem C79_apart {S T : SolidG} (hS : Built S) (hT : Built T) {M : ℝ}
    (hM : ∀ P ∈ facesOf S ++ facesOf T, ∀ p ∈ P.pts, Vec3.norm p ≤ M)
    (hap : ∀ P ∈ facesOf S, ∀ Q ∈ facesOf T, ∀ x y, OnOutline P.pts x → OnOutline Q.pts y →
      2 / 10 ^ 4 * M + 5 / 10 ^ 5 < Vec3.norm (x - y)) :
    isAdjacentToSolid S T = .ok false ∧ hasCorrectInterface S T = .ok false := by
  have h1 : isAdjacentToSolid S T = .ok false := by
    obtain ⟨r, hr, hir⟩ := adjacent_iff hS hT
    cases r with
    | false => exact hr
    | true =>
      exfalso
      obtain ⟨P, hP, Q, hQ, hc⟩ := hir.1 rfl
      obtain ⟨_, _, h1⟩ := hS P hP
      obtain ⟨_, _, h2⟩ := hT Q hQ
      have m1 := hM P (List.mem_append_left _ hP)
      have m2 := hM Q (List.mem_append_right _ hQ)
      rcases hc with hc | hc
      · rw [C76_outlines_apart h1 h2 m1 m2 (hap P hP Q hQ)] at hc
        cases hc
      · obtain ⟨-, -, -, -, -, -, js, hl, -, hjs⟩ := facing_sound hc
        obtain ⟨p, hp⟩ := List.exists_mem_of_ne_nil _ (built_ne (hS P hP))
        obtain ⟨k, hk⟩ := List.getElem?_of_mem hp
        obtain ⟨j, q, -, hq, hpq⟩ := hjs k p hk
        have hq := List.mem_of_getElem? hq
        exact absurd (allClose_norm (m2 q hq) hpq)
          (not_le.2 (hap P hP Q hQ p q (vertex_on_outline hp) (vertex_on_outline hq)))
  refine ⟨h1, ?_⟩
  obtain ⟨r, hr, -⟩ := interface_iff hS hT
  cases r with
  | false => exact hr
  | true =>
    rw [C79_interface_adjacent hS hT hr] at h1
    cases h1

/-! ### Boxes -/

theorem far_not_close {a b M s : ℝ} (hs : 1 / 1000 ≤ s) (hM : M ≤ 10000 * s) (hb : |b| ≤ M) (hab : s ≤ |a - b|) :
    ¬ isClose a b NP_RTOL GEOM_ATOL := by
  intro h
  unfold isClose at h
  norm_num [NP_RTOL, GEOM_ATOL] at h
  linarith

/-- Two rectangles with the same corners, one turned over. -/
theorem facing_swap {P Q : Poly} {a u w e : Vec3 ℝ} (hP : RectFace P a u w e) (hQ : RectFace Q a w u (-e))
    (hd : ∀ p ∈ P.pts, ∀ q ∈ P.pts, allClose p q NP_RTOL GEOM_ATOL → p = q) : facing P Q = .ok true := by
  unfold facing
  rw [hP.vn, hQ.vn]
  simp only
  have hperm : P.pts.Perm Q.pts := by
    rw [hP.pts, hQ.pts, show a + w + u = a + u + w by abel]
    refine .cons _ ?_
    exact ((List.Perm.swap _ _ _).trans (.cons _ (.swap _ _ _))).trans (.swap _ _ _)
  have harea : specArea P.pts e = specArea Q.pts (-e) := by
    unfold specArea
    rw [hP.pts, hQ.pts]
    congr 2
    simp [cycSum, pathSum, Vec3.dot]
    ring
  obtain ⟨b, hb, hib⟩ := C34_exact_partial (pts1 := P.pts) (pts2 := Q.pts) (vn1 := e) (vn2 := -e) hperm.length_eq
    (by rw [hP.pts]; simp) ⟨fun p hp q hq => hd p hp q (hperm.symm.subset hq), fun _ => (neg_neg e).symm, fun _ => harea⟩
  rw [hb, Except.ok.injEq, hib]
  exact ⟨(neg_neg e).symm, hperm, harea⟩

theorem corner_apart {x y z : ℝ} {mv : Vec3 ℝ} (h : BoxSize x y z mv) {i j k i' j' k' : Bool}
    (hc : allClose (corner x y z mv i j k) (corner x y z mv i' j' k') NP_RTOL GEOM_ATOL) :
    corner x y z mv i j k = corner x y z mv i' j' k' := by
  obtain ⟨hx, hy, hz, M, hMx, hMy, hMz, hxM, hyM, hzM⟩ := h
  have key : ∀ {m s : ℝ} (i i' : Bool), 1 / 1000 ≤ s → |m| + s ≤ M → M ≤ 10000 * s →
      isClose (if i then m + s else m) (if i' then m + s else m) NP_RTOL GEOM_ATOL → i = i' := by
    intro m s i i' h1 h2 h3 hcl
    have h4 : |m + s| ≤ M := (abs_add_le m s).trans (by rw [abs_of_pos (by linarith : 0 < s)]; exact h2)
    have h5 : |m| ≤ M := by linarith
    cases i <;> cases i'
    · rfl
    · exact absurd hcl (far_not_close h1 h3 (by simpa using h4) (by
        simp only [Bool.false_eq_true, if_false, if_true]
        rw [show m - (m + s) = -s by ring, abs_neg, abs_of_pos (by linarith)]))
    · exact absurd hcl (far_not_close h1 h3 (by simpa using h5) (by
        simp only [Bool.false_eq_true, if_false, if_true]
        rw [show m + s - m = s by ring, abs_of_pos (by linarith)]))
    · rfl
  obtain ⟨c1, c2, c3⟩ := hc
  rw [key i i' hx hMx hxM c1, key j j' hy hMy hyM c2, key k k' hz hMz hzM c3]

/-- **C79 for boxes.**  A box and the same box next to it along an axis are adjacent, and their interface is correct. -/
theorem C79_boxes {x y z : ℝ} {mv t : Vec3 ℝ} (ht : t = ⟨x, 0, 0⟩ ∨ t = ⟨0, y, 0⟩ ∨ t = ⟨0, 0, z⟩)
    (h1 : BoxSize x y z mv) (h2 : BoxSize x y z (mv + t)) : ∃ S T, box x y z mv = .ok S ∧ box x y z (mv + t) = .ok T ∧
    Built S ∧ Built T ∧ hasCorrectInterface S T = .ok true ∧ isAdjacentToSolid S T = .ok true := by
  obtain ⟨S, hS, -⟩ := C31_box_partial h1
  obtain ⟨T, hT, -⟩ := C31_box_partial h2
  obtain ⟨⟨P0, P1, P2, P3, P4, P5, b1⟩, -⟩ := box_faces h1 hS
  obtain ⟨⟨Q0, Q1, Q2, Q3, Q4, Q5, b2⟩, -⟩ := box_faces h2 hT
  have hbS : Built S := by
    intro P hP
    rw [b1.faces] at hP
    simp only [List.mem_cons, List.not_mem_nil, or_false] at hP
    rcases hP with rfl | rfl | rfl | rfl | rfl | rfl
    exacts [b1.floor.new, b1.front.new, b1.right.new, b1.back.new, b1.left.new, b1.ceiling.new]
  have hbT : Built T := by
    intro P hP
    rw [b2.faces] at hP
    simp only [List.mem_cons, List.not_mem_nil, or_false] at hP
    rcases hP with rfl | rfl | rfl | rfl | rfl | rfl
    exacts [b2.floor.new, b2.front.new, b2.right.new, b2.back.new, b2.left.new, b2.ceiling.new]
  have hd : ∀ P ∈ facesOf S, ∀ p ∈ P.pts, ∀ q ∈ P.pts, allClose p q NP_RTOL GEOM_ATOL → p = q := by
    intro P hP p hp q hq hpq
    obtain ⟨-, i, j, k, rfl⟩ := b1.corners P hP p hp
    obtain ⟨-, i', j', k', rfl⟩ := b1.corners P hP q hq
    exact corner_apart h1 hpq
  have hf : ∃ P ∈ facesOf S, ∃ Q ∈ facesOf T, facing P Q = .ok true := by
    rcases ht with rfl | rfl | rfl
    · refine ⟨P2, by rw [b1.faces]; simp, Q4, by rw [b2.faces]; simp, facing_swap b1.right ?_ (hd P2 (by rw [b1.faces]; simp))⟩
      have e1 : corner x y z (mv + ⟨x, 0, 0⟩) false false false = corner x y z mv true false false := by
        ext <;> simp [corner]
      have e2 : (⟨-1, 0, 0⟩ : Vec3 ℝ) = -⟨1, 0, 0⟩ := by ext <;> simp
      rw [← e1, ← e2]
      exact b2.left
    · refine ⟨P3, by rw [b1.faces]; simp, Q1, by rw [b2.faces]; simp, facing_swap b1.back ?_ (hd P3 (by rw [b1.faces]; simp))⟩
      have e1 : corner x y z (mv + ⟨0, y, 0⟩) false false false = corner x y z mv false true false := by
        ext <;> simp [corner]
      have e2 : (⟨0, -1, 0⟩ : Vec3 ℝ) = -⟨0, 1, 0⟩ := by ext <;> simp
      rw [← e1, ← e2]
      exact b2.front
    · refine ⟨P5, by rw [b1.faces]; simp, Q0, by rw [b2.faces]; simp,
        facing_swap b1.ceiling ?_ (hd P5 (by rw [b1.faces]; simp))⟩
      have e1 : corner x y z (mv + ⟨0, 0, z⟩) false false false = corner x y z mv false false true := by
        ext <;> simp [corner]
      have e2 : (⟨0, 0, -1⟩ : Vec3 ℝ) = -⟨0, 0, 1⟩ := by ext <;> simp
      rw [← e1, ← e2]
      exact b2.floor
  have hi : hasCorrectInterface S T = .ok true := by
    obtain ⟨r, hr, hir⟩ := interface_iff hbS hbT
    rw [hr, Except.ok.injEq, hir]
    exact hf
  exact ⟨S, T, hS, hT, hbS, hbT, hi, C79_interface_adjacent hbS hbT hi⟩

/-- The sizes of `C79_boxes`: rooms of 4 m by 5 m by 3 m. -/
example : BoxSize 4 5 3 ⟨1, 2, 0⟩ ∧ BoxSize 4 5 3 ((⟨1, 2, 0⟩ : Vec3 ℝ) + ⟨4, 0, 0⟩) :=
  ⟨⟨by norm_num, by norm_num, by norm_num, 10, by norm_num⟩, ⟨by norm_num, by norm_num, by norm_num, 10, by norm_num⟩⟩

/-- Boxes with a gap of 1 m meet the hypotheses of `C79_apart`. -/
example : ∃ S T, box 4 5 3 0 = .ok S ∧ box 4 5 3 ⟨5, 0, 0⟩ = .ok T ∧ isAdjacentToSolid S T = .ok false ∧
    hasCorrectInterface S T = .ok false := by
  have h1 : BoxSize 4 5 3 0 := ⟨by norm_num, by norm_num, by norm_num, 10, by norm_num⟩
  have h2 : BoxSize 4 5 3 ⟨5, 0, 0⟩ := ⟨by norm_num, by norm_num, by norm_num, 10, by norm_num⟩
  obtain ⟨S, hS, -⟩ := C31_box_partial h1
  obtain ⟨T, hT, -⟩ := C31_box_partial h2
  obtain ⟨⟨P0, P1, P2, P3, P4, P5, b1⟩, -⟩ := box_faces h1 hS
  obtain ⟨⟨Q0, Q1, Q2, Q3, Q4, Q5, b2⟩, -⟩ := box_faces h2 hT
  have hbS : Built S := by
    intro P hP
    rw [b1.faces] at hP
    simp only [List.mem_cons, List.not_mem_nil, or_false] at hP
    rcases hP with rfl | rfl | rfl | rfl | rfl | rfl
    exacts [b1.floor.new, b1.front.new, b1.right.new, b1.back.new, b1.left.new, b1.ceiling.new]
  have hbT : Built T := by
    intro P hP
    rw [b2.faces] at hP
    simp only [List.mem_cons, List.not_mem_nil, or_false] at hP
    rcases hP with rfl | rfl | rfl | rfl | rfl | rfl
    exacts [b2.floor.new, b2.front.new, b2.right.new, b2.back.new, b2.left.new, b2.ceiling.new]
  refine ⟨S, T, hS, hT, C79_apart hbS hbT (M := 100) ?_ ?_⟩
  · intro P hP p hp
    have hb : (0 ≤ p.x ∧ p.x ≤ 9) ∧ (0 ≤ p.y ∧ p.y ≤ 5) ∧ (0 ≤ p.z ∧ p.z ≤ 3) := by
      rcases List.mem_append.1 hP with hP | hP
      · obtain ⟨⟨⟨a1, a2⟩, ⟨a3, a4⟩, a5, a6⟩, -⟩ := b1.corners P hP p hp
        norm_num at a1 a2 a3 a4 a5 a6
        exact ⟨⟨a1, by linarith⟩, ⟨a3, a4⟩, a5, a6⟩
      · obtain ⟨⟨⟨a1, a2⟩, ⟨a3, a4⟩, a5, a6⟩, -⟩ := b2.corners P hP p hp
        norm_num at a1 a2 a3 a4 a5 a6
        exact ⟨⟨by linarith, a2⟩, ⟨a3, a4⟩, a5, a6⟩
    obtain ⟨⟨a1, a2⟩, ⟨a3, a4⟩, a5, a6⟩ := hb
    apply Vec3.norm_le_of_sq (by norm_num)
    simp only [Vec3.normSq, Vec3.dot]
    nlinarith
  · intro P hP Q hQ a b ha hb
    obtain ⟨e1, he1, s, s0, s1, rfl⟩ := ha
    obtain ⟨e2, he2, t, t0, t1, rfl⟩ := hb
    have m1 := mem_of_edge he1
    have m2 := mem_of_edge he2
    obtain ⟨⟨⟨-, a2⟩, -⟩, -⟩ := b1.corners P hP _ m1.1
    obtain ⟨⟨⟨-, c2⟩, -⟩, -⟩ := b1.corners P hP _ m1.2
    obtain ⟨⟨⟨d1, -⟩, -⟩, -⟩ := b2.corners Q hQ _ m2.1
    obtain ⟨⟨⟨f1, -⟩, -⟩, -⟩ := b2.corners Q hQ _ m2.2
    norm_num at a2 c2
    simp only at d1 f1
    refine lt_of_lt_of_le ?_ (Vec3.abs_x_le _)
    refine lt_of_lt_of_le ?_ (neg_le_abs _)
    simp only [Vec3.sub_x, Vec3.add_x, Vec3.smul_x]
    norm_num
    nlinarith

/-! ### Where the property is false -/

/-- **C79 is false for interfaces**: one facing pair is enough.  Two solids (a box each and one more wall) with a correct
interface, although a polygon of one crosses a polygon of the other. -/
theorem C79_interface_one_pair : ∃ S T, Built S ∧ Built T ∧ hasCorrectInterface S T = .ok true ∧
    ∃ P ∈ facesOf S, ∃ Q ∈ facesOf T, arePolygonsCrossing P.pts P.tri Q.pts Q.tri = .ok true ∧ facing P Q = .ok false := by
  obtain ⟨P, Q, hP, hQ, -, -, -, -, hc⟩ := squares_cross
  have h1 : BoxSize 4 4 4 ⟨20, 0, 0⟩ := ⟨by norm_num, by norm_num, by norm_num, 30, by norm_num⟩
  have h2 : BoxSize 4 4 4 ((⟨20, 0, 0⟩ : Vec3 ℝ) + ⟨4, 0, 0⟩) := ⟨by norm_num, by norm_num, by norm_num, 30, by norm_num⟩
  obtain ⟨S, T, -, -, bS, bT, hi, -⟩ := C79_boxes (.inl rfl) h1 h2
  have fS : facesOf (S ++ [⟨"extra".toList, [("extra".toList, P)]⟩]) = facesOf S ++ [P] := by simp [facesOf]
  have fT : facesOf (T ++ [⟨"extra".toList, [("extra".toList, Q)]⟩]) = facesOf T ++ [Q] := by simp [facesOf]
  have bS' : Built (S ++ [⟨"extra".toList, [("extra".toList, P)]⟩]) := by
    intro R hR
    rw [fS] at hR
    rcases List.mem_append.1 hR with hR | hR
    · exact bS R hR
    · rw [List.mem_singleton.1 hR]; exact ⟨_, _, hP⟩
  have bT' : Built (T ++ [⟨"extra".toList, [("extra".toList, Q)]⟩]) := by
    intro R hR
    rw [fT] at hR
    rcases List.mem_append.1 hR with hR | hR
    · exact bT R hR
    · rw [List.mem_singleton.1 hR]; exact ⟨_, _, hQ⟩
  refine ⟨_, _, bS', bT', ?_, P, by rw [fS]; simp, Q, by rw [fT]; simp, hc, ?_⟩
  · obtain ⟨r, hr, hir⟩ := interface_iff bS bT
    rw [hi, Except.ok.injEq] at hr
    obtain ⟨P', hP', Q', hQ', hf⟩ := hir.1 hr.symm
    obtain ⟨r, hr, hir⟩ := interface_iff bS' bT'
    rw [hr, Except.ok.injEq, hir, fS, fT]
    exact ⟨P', List.mem_append_left _ hP', Q', List.mem_append_left _ hQ', hf⟩
  · obtain ⟨P', hP', -, hv, -⟩ := rect_polygon (box_of 0 4 0 4 (by norm_num))
    obtain ⟨Q', hQ', -, hw, -⟩ := rect_polygon (box_of 3 7 1 5 (by norm_num [abs_le]))
    rw [hP, Except.ok.injEq] at hP'
    rw [hQ, Except.ok.injEq] at hQ'
    subst hP' hQ'
    exact facing_same hv hw

/-- **C79 is false for adjacent solids**: solids with walls which overlap in a square metre are not found. -/
theorem C79_overlap_missed : ∃ S T, Built S ∧ Built T ∧ isAdjacentToSolid S T = .ok false ∧
    ∃ P ∈ facesOf S, ∃ Q ∈ facesOf T, ∀ x y : ℝ, 41 ≤ x → x ≤ 42 → 41 ≤ y → y ≤ 42 →
      Region P.pts P.tri ⟨x, y, 0⟩ ∧ Region Q.pts Q.tri ⟨x, y, 0⟩ := by
  obtain ⟨P, Q, hP, hQ, hreg, -, -, -, -, hc⟩ := C76_overlap_missed
  have bS : Built [⟨"wall".toList, [("poly".toList, P)]⟩] := by
    intro R hR
    rw [List.mem_singleton.1 (show R ∈ [P] from hR)]
    exact ⟨_, _, hP⟩
  have bT : Built [⟨"wall".toList, [("poly".toList, Q)]⟩] := by
    intro R hR
    rw [List.mem_singleton.1 (show R ∈ [Q] from hR)]
    exact ⟨_, _, hQ⟩
  refine ⟨_, _, bS, bT, ?_, P, List.mem_singleton_self P, Q, List.mem_singleton_self Q, hreg⟩
  obtain ⟨P', hP', -, hv, -⟩ := rect_polygon (box_of 0 90 41 42 (by norm_num))
  obtain ⟨Q', hQ', -, hw, -⟩ := rect_polygon (box_of 41 42 0 90 (by norm_num))
  rw [hP, Except.ok.injEq] at hP'
  rw [hQ, Except.ok.injEq] at hQ'
  subst hP' hQ'
  obtain ⟨r, hr, hir⟩ := adjacent_iff bS bT
  cases r with
  | false => exact hr
  | true =>
    obtain ⟨P', hP', Q', hQ', h⟩ := hir.1 rfl
    rw [List.mem_singleton.1 (show P' ∈ [P] from hP'), List.mem_singleton.1 (show Q' ∈ [Q] from hQ')] at h
    rw [hc, facing_same hv hw] at h
    simp at h

end B3d.Solids
