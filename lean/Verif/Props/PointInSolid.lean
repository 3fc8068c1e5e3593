import Verif.Proofs.Enclosed
import Verif.Props.Distance
import Verif.Props.Solids
import Verif.Props.Bboxes

/-!
# C74: points inside solids

`Enclosed` (Spec/Enclosed) is the meaning of "inside": every ray from the point that meets no edge of the surface
crosses it an odd number of times.  The code looks at one ray.
-/

namespace B3d.Solids

open Spec Polygon Triangles Points Enclose

/-- The triangles of all polygons. -/
def facets (S : SolidG) : List (Vec3 ℝ × Vec3 ℝ × Vec3 ℝ) := (facesOf S).flatMap fun P => trianglesOf P.pts P.tri

/-- A polygon made by the constructor, exactly flat; `v` is its normal, `w` the normal of its first corner. -/
structure Face (P : Poly) (v w : Vec3 ℝ) (e : ℝ) : Prop where
  new : ∃ pts vn, polygonNew pts none vn = .ok P
  vn : P.vn = some v
  plane : ∀ p ∈ P.pts, Vec3.dot v p = e
  corner : CornerNormal P.pts w

/-- The ray comes to a point well inside one of the triangles, and in none of the others. -/
def RayHits (P : Poly) (x u : Vec3 ℝ) : Prop :=
  ∃ s : ℝ, 0 ≤ s ∧ ∃ l t r, P.tri = l ++ t :: r ∧ (TriangleWith P.pts t fun a b c => WellInside a b c (x + s • u)) ∧
    ∀ t' ∈ l ++ r, ¬ TriangleWith P.pts t' fun a b c => InTriangle a b c (x + s • u)

/-- Where the ray comes to the plane of the polygon, it is more than `d` away from the polygon. -/
def RayMisses (P : Poly) (v : Vec3 ℝ) (e : ℝ) (x u : Vec3 ℝ) (d : ℝ) : Prop :=
  ∀ s : ℝ, 0 ≤ s → Vec3.dot v (x + s • u) = e → ¬ Near (Region P.pts P.tri) (x + s • u) d

theorem Face.flat {P : Poly} {v w : Vec3 ℝ} {e : ℝ} (h : Face P v w e) : Flat P.pts P.tri v e := by
  obtain ⟨pts, vn, hn⟩ := h.new
  exact polygonNew_flat hn h.vn h.plane

/-! ## The surface -/

theorem mem_trianglesOf {pts : List (Vec3 ℝ)} {tri : List Tri} {a b c : Vec3 ℝ} :
    (a, b, c) ∈ trianglesOf pts tri ↔ ∃ t ∈ tri, pts[t.1]? = some a ∧ pts[t.2.1]? = some b ∧ pts[t.2.2]? = some c := by
  unfold trianglesOf
  rw [List.mem_filterMap]
  refine exists_congr fun t => and_congr_right fun _ => ?_
  rcases pts[t.1]? with - | a' <;> rcases pts[t.2.1]? with - | b' <;> rcases pts[t.2.2]? with - | c' <;> simp

theorem edgesSum_trianglesOf {pts : List (Vec3 ℝ)} (g : Vec3 ℝ → Vec3 ℝ → ℤ) : ∀ tri : List Tri,
    edgesSum (trianglesOf pts tri) g = (tri.map (edgeSum pts g)).sum
  | [] => rfl
  | t :: tri => by
    have ih := edgesSum_trianglesOf g tri (pts := pts)
    simp only [trianglesOf, edgesSum, List.filterMap_cons, List.map_cons, List.sum_cons] at ih ⊢
    rw [← ih, edgeSum]
    rcases pts[t.1]? with - | a <;> rcases pts[t.2.1]? with - | b <;> rcases pts[t.2.2]? with - | c <;> simp

theorem edgesSum_append (A B : List (Vec3 ℝ × Vec3 ℝ × Vec3 ℝ)) (g : Vec3 ℝ → Vec3 ℝ → ℤ) :
    edgesSum (A ++ B) g = edgesSum A g + edgesSum B g := by
  simp [edgesSum]

theorem closed_sum {faces : List (List (Vec3 ℝ))} (h : Closed faces) {g : Vec3 ℝ → Vec3 ℝ → ℤ}
    (hg : ∀ p q, g p q = -g q p) : (faces.map (cycSum g)).sum = 0 := by
  have e : ∀ fs : List (List (Vec3 ℝ)), (fs.map (cycSum g)).sum = ((allEdges fs).map fun e => g e.1 e.2).sum := by
    intro fs
    induction fs with
    | nil => rfl
    | cons f fs ih =>
      rw [List.map_cons, List.sum_cons, ih, allEdges, allEdges, List.flatMap_cons, List.map_append,
        List.sum_append, cycSum_eq_edges]
  have h2 := (h.map fun e => g e.1 e.2).sum_eq
  rw [List.map_map] at h2
  have h3 : ∀ l : List (Vec3 ℝ × Vec3 ℝ), (l.map ((fun e => g e.1 e.2) ∘ Prod.swap)).sum =
      -(l.map fun e => g e.1 e.2).sum := by
    intro l
    induction l with
    | nil => simp
    | cons a l ih =>
      simp only [List.map_cons, List.sum_cons, ih, Function.comp_apply, Prod.fst_swap, Prod.snd_swap]
      rw [hg, neg_add]
  rw [h3] at h2
  rw [e]
  linarith

theorem facets_closed {S : SolidG} (hf : ∀ P ∈ facesOf S, ∃ pts vn, polygonNew pts none vn = .ok P)
    (hc : Closed ((facesOf S).map Poly.pts)) : ClosedSum (facets S) := by
  intro g hg
  rw [← closed_sum hc hg]
  unfold facets
  clear hc
  generalize facesOf S = Fs at hf ⊢
  induction Fs with
  | nil => rfl
  | cons P Ps ih =>
    rw [List.forall_mem_cons] at hf
    rw [List.flatMap_cons, edgesSum_append, ih hf.2, List.map_cons, List.map_cons, List.sum_cons,
      edgesSum_trianglesOf]
    congr 1
    obtain ⟨⟨pts, vn, h⟩, -⟩ := hf
    obtain ⟨hn, v', hv', hc', ht, -⟩ := polygonNew_ok h
    obtain ⟨-, hgood⟩ := triangulateTries_good _ _ _ _ _ pts hn _ _ ht
    exact sum_edgeSum hgood g hg

theorem facets_ne {S : SolidG} (hf : ∀ P ∈ facesOf S, ∃ v w e, Face P v w e) :
    ∀ t ∈ facets S, Vec3.cross (t.2.1 - t.1) (t.2.2 - t.1) ≠ 0 := by
  rintro ⟨a, b, c⟩ ht
  obtain ⟨P, hP, ht⟩ := List.mem_flatMap.1 ht
  obtain ⟨v, w, e, h⟩ := hf P hP
  obtain ⟨t, htm, ha, hb, hc⟩ := mem_trianglesOf.1 ht
  have := (triangleWith_eq ha hb hc).1 (h.flat.pos t htm)
  intro h0
  simp only at h0
  rw [h0, Vec3.dot_zero_right] at this
  exact lt_irrefl _ this

theorem mem_region {S : SolidG} {t : Vec3 ℝ × Vec3 ℝ × Vec3 ℝ} (ht : t ∈ facets S) {y : Vec3 ℝ}
    (hy : InTriangle t.1 t.2.1 t.2.2 y) : ∃ P ∈ facesOf S, Region P.pts P.tri y := by
  obtain ⟨P, hP, ht⟩ := List.mem_flatMap.1 ht
  obtain ⟨t', htm, ha, hb, hc⟩ := mem_trianglesOf.1 (show (t.1, t.2.1, t.2.2) ∈ _ from ht)
  exact ⟨P, hP, t', htm, _, _, _, ha, hb, hc, hy⟩

/-! ## The loops -/

open Classical in
theorem countCrossings_eq {x : Vec3 ℝ} : ∀ (Ps : List Poly) (n : Nat),
    (∀ P ∈ Ps, ∃ r, isPointInsideProjection x rayDir P.pts P.tri = .ok r) →
    countCrossings x Ps n = .ok (n + Ps.countP fun P => isPointInsideProjection x rayDir P.pts P.tri = .ok true)
  | [], n, _ => rfl
  | P :: Ps, n, h => by
    rw [List.forall_mem_cons] at h
    obtain ⟨⟨r, hr⟩, h2⟩ := h
    rw [countCrossings, hr, List.countP_cons, hr]
    cases r with
    | true => simp only [countCrossings_eq Ps _ h2]; simp; ring
    | false => simp only [countCrossings_eq Ps _ h2]; simp

theorem boundaryPolys_iff {x : Vec3 ℝ} : ∀ Ps : List Poly,
    (∀ P ∈ Ps, ∃ r, Polygon.isPointInside x P.pts P.tri = .ok r) →
    ∃ r, boundaryPolys x Ps = .ok r ∧ (r = true ↔ ∃ P ∈ Ps, Polygon.isPointInside x P.pts P.tri = .ok true)
  | [], _ => ⟨false, rfl, by simp⟩
  | P :: Ps, h => by
    rw [List.forall_mem_cons] at h
    obtain ⟨⟨r, hr⟩, h2⟩ := h
    rw [boundaryPolys, hr]
    cases r with
    | true => exact ⟨true, rfl, by simp [hr]⟩
    | false =>
      obtain ⟨r', hr', hi⟩ := boundaryPolys_iff Ps h2
      refine ⟨r', hr', ?_⟩
      rw [hi]
      simp [hr]

/-- The polygons the ray is reported to cross. -/
noncomputable def numHits (S : SolidG) (x : Vec3 ℝ) : Nat := by
  classical
  exact (facesOf S).countP fun P => isPointInsideProjection x rayDir P.pts P.tri = .ok true

/-- The result in all cases. -/
theorem inside_spec {S : SolidG} {x : Vec3 ℝ} (hne : facesOf S ≠ [])
    (hf : ∀ P ∈ facesOf S, ∃ pts vn, polygonNew pts none vn = .ok P) :
    ∃ lo hi, solidBbox S = .ok (lo, hi) ∧ (∀ P ∈ facesOf S, ∀ p ∈ P.pts,
        lo.x ≤ p.x ∧ p.x ≤ hi.x ∧ lo.y ≤ p.y ∧ p.y ≤ hi.y ∧ lo.z ≤ p.z ∧ p.z ≤ hi.z) ∧
      ∃ r, isPointInside S x = .ok r ∧ (r = true ↔
        (lo.x ≤ x.x ∧ x.x ≤ hi.x ∧ lo.y ≤ x.y ∧ x.y ≤ hi.y ∧ lo.z ≤ x.z ∧ x.z ≤ hi.z) ∧
        (Odd (numHits S x) ∨ ∃ P ∈ facesOf S, Polygon.isPointInside x P.pts P.tri = .ok true)) := by
  have hpts : (allPolys S).flatMap Poly.pts ≠ [] := by
    rw [allPolys_eq]
    obtain ⟨P, Ps, hP⟩ := List.exists_cons_of_ne_nil hne
    obtain ⟨pts, vn, h⟩ := hf P (by rw [hP]; exact List.mem_cons_self)
    have := (polygonNew_sturdy h).1
    rw [hP, List.flatMap_cons]
    intro h0
    rw [List.append_eq_nil_iff] at h0
    rw [h0.1] at this
    simp at this
  obtain ⟨lo, hi, hb, hin, -⟩ := Bboxes.C25_bounding_box_tight _ hpts
  have h1 : ∀ P ∈ facesOf S, ∃ r, isPointInsideProjection x rayDir P.pts P.tri = .ok r := fun P hP => by
    obtain ⟨pts, vn, h⟩ := hf P hP
    exact C73_total h _ _ _ _
  have h2 : ∀ P ∈ facesOf S, ∃ r, Polygon.isPointInside x P.pts P.tri = .ok r := fun P hP => by
    obtain ⟨pts, vn, h⟩ := hf P hP
    exact C71_total h _ _ _
  refine ⟨lo, hi, hb, fun P hP p hp => ?_, ?_⟩
  · have := hin p (List.mem_flatMap.2 ⟨P, hP, hp⟩)
    exact ⟨this.1.1, this.1.2, this.2.1.1, this.2.1.2, this.2.2.1, this.2.2.2⟩
  obtain ⟨r, hr, hi'⟩ := boundaryPolys_iff _ h2
  unfold isPointInside
  rw [show solidBbox S = .ok (lo, hi) from hb]
  simp only []
  by_cases c1 : x.x > hi.x ∨ x.y > hi.y ∨ x.z > hi.z
  · simp only [if_pos c1]
    refine ⟨false, rfl, iff_of_false (by simp) ?_⟩
    rintro ⟨⟨-, a, -, b, -, c⟩, -⟩
    rcases c1 with h | h | h <;> linarith
  by_cases c2 : x.x < lo.x ∨ x.y < lo.y ∨ x.z < lo.z
  · simp only [if_neg c1, if_pos c2]
    refine ⟨false, rfl, iff_of_false (by simp) ?_⟩
    rintro ⟨⟨a, -, b, -, c, -⟩, -⟩
    rcases c2 with h | h | h <;> linarith
  simp only [if_neg c1, if_neg c2, allPolys_eq, countCrossings_eq _ _ h1, Nat.zero_add]
  push Not at c1 c2
  have hbox : lo.x ≤ x.x ∧ x.x ≤ hi.x ∧ lo.y ≤ x.y ∧ x.y ≤ hi.y ∧ lo.z ≤ x.z ∧ x.z ≤ hi.z :=
    ⟨c2.1, c1.1, c2.2.1, c1.2.1, c2.2.2, c1.2.2⟩
  by_cases c3 : Odd (numHits S x)
  · have : (numHits S x) % 2 = 1 := Nat.odd_iff.1 c3
    unfold numHits at this
    refine ⟨true, ?_, by simp only [true_iff]; exact ⟨hbox, .inl c3⟩⟩
    rw [if_pos this]
  · have : ¬ (numHits S x) % 2 = 1 := fun h => c3 (Nat.odd_iff.2 h)
    unfold numHits at this
    refine ⟨r, ?_, ?_⟩
    · rw [if_neg this]
      exact hr
    · rw [hi']
      exact ⟨fun h => ⟨hbox, .inr h⟩, fun h => h.2.resolve_left c3⟩

/-- **C74, no exceptions**, and points outside the bounding box are not inside. -/
theorem C74_total {S : SolidG} (hne : facesOf S ≠ []) (hf : ∀ P ∈ facesOf S, ∃ pts vn, polygonNew pts none vn = .ok P)
    (x : Vec3 ℝ) : ∃ lo hi, solidBbox S = .ok (lo, hi) ∧ ∃ r, isPointInside S x = .ok r ∧
      (r = true → lo.x ≤ x.x ∧ x.x ≤ hi.x ∧ lo.y ≤ x.y ∧ x.y ≤ hi.y ∧ lo.z ≤ x.z ∧ x.z ≤ hi.z) := by
  obtain ⟨lo, hi, h1, -, r, h2, h3⟩ := inside_spec (x := x) hne hf
  exact ⟨lo, hi, h1, r, h2, fun h => (h3.1 h).1⟩

/-! ## The boundary -/

theorem region_box {P : Poly} {lo hi : Vec3 ℝ} (h : ∀ p ∈ P.pts,
      lo.x ≤ p.x ∧ p.x ≤ hi.x ∧ lo.y ≤ p.y ∧ p.y ≤ hi.y ∧ lo.z ≤ p.z ∧ p.z ≤ hi.z) {y : Vec3 ℝ}
    (hy : Region P.pts P.tri y) : lo.x ≤ y.x ∧ y.x ≤ hi.x ∧ lo.y ≤ y.y ∧ y.y ≤ hi.y ∧ lo.z ≤ y.z ∧ y.z ≤ hi.z := by
  obtain ⟨t, -, a, b, c, ha, hb, hc, r, s, q, hr, hs, hq, hsum, rfl⟩ := hy
  obtain ⟨a1, a2, a3, a4, a5, a6⟩ := h a (List.mem_of_getElem? ha)
  obtain ⟨b1, b2, b3, b4, b5, b6⟩ := h b (List.mem_of_getElem? hb)
  obtain ⟨c1, c2, c3, c4, c5, c6⟩ := h c (List.mem_of_getElem? hc)
  have key : ∀ l m a b c : ℝ, l ≤ a → a ≤ m → l ≤ b → b ≤ m → l ≤ c → c ≤ m →
      l ≤ r * a + s * b + q * c ∧ r * a + s * b + q * c ≤ m := by
    intro l m a b c p1 p2 p3 p4 p5 p6
    have el : l = r * l + s * l + q * l := by linear_combination (-l) * hsum
    have em : m = r * m + s * m + q * m := by linear_combination (-m) * hsum
    constructor
    · rw [el]
      exact add_le_add (add_le_add (mul_le_mul_of_nonneg_left p1 hr) (mul_le_mul_of_nonneg_left p3 hs))
        (mul_le_mul_of_nonneg_left p5 hq)
    · rw [em]
      exact add_le_add (add_le_add (mul_le_mul_of_nonneg_left p2 hr) (mul_le_mul_of_nonneg_left p4 hs))
        (mul_le_mul_of_nonneg_left p6 hq)
  simp only [Vec3.add_x, Vec3.add_y, Vec3.add_z, Vec3.smul_x, Vec3.smul_y, Vec3.smul_z]
  have k1 := key _ _ _ _ _ a1 a2 b1 b2 c1 c2
  have k2 := key _ _ _ _ _ a3 a4 b3 b4 c3 c4
  have k3 := key _ _ _ _ _ a5 a6 b5 b6 c5 c6
  exact ⟨k1.1, k1.2, k2.1, k2.2, k3.1, k3.2⟩

/-- **C74, the boundary.**  Points well inside a triangle of a face, and the corners, count as inside. -/
theorem C74_boundary_partial {S : SolidG} (hf : ∀ P ∈ facesOf S, ∃ pts vn, polygonNew pts none vn = .ok P)
    {P : Poly} {v : Vec3 ℝ} {e : ℝ} (hP : P ∈ facesOf S) (hv : P.vn = some v) (hpl : ∀ p ∈ P.pts, Vec3.dot v p = e)
    {x : Vec3 ℝ} (hx : (∃ t ∈ P.tri, TriangleWith P.pts t fun a b c =>
      WellInside a b c x ∨ WellOnEdge a b c x ∨ WellOnEdge b c a x ∨ WellOnEdge c a b x) ∨ x ∈ P.pts) :
    isPointInside S x = .ok true := by
  obtain ⟨lo, hi, h1, h2, r, h3, h4⟩ := inside_spec (x := x) (List.ne_nil_of_mem hP) hf
  obtain ⟨pts, vn, h⟩ := hf P hP
  rcases hx with ⟨t, ht, a, b, c, ha, hb, hc, hw | hw⟩ | hx
  · have h5 := C71_accepts_partial h hv hpl (.inl ⟨t, ht, a, b, c, ha, hb, hc, hw⟩)
    rw [h3, h4.2 ⟨region_box (h2 P hP) ⟨t, ht, a, b, c, ha, hb, hc, hw.1⟩, .inr ⟨P, hP, h5⟩⟩]
  · have h5 := C71_accepts_edge_partial h hv hpl ⟨t, ht, a, b, c, ha, hb, hc, hw⟩
    rw [h3, h4.2 ⟨region_box (h2 P hP) ⟨t, ht, a, b, c, ha, hb, hc, (isPointInside_edge hw).1⟩, .inr ⟨P, hP, h5⟩⟩]
  · have h5 := C71_accepts_partial h hv hpl (.inr hx)
    rw [h3, h4.2 ⟨h2 P hP x hx, .inr ⟨P, hP, h5⟩⟩]

/-! ## The interior -/

/-- **C74, the meaning of "inside" does not depend on the ray.**  For a point off a closed surface, all rays that meet
no edge cross it an odd number of times, or all an even number of times; such rays exist. -/
theorem C74_any_ray {S : SolidG} (hf : ∀ P ∈ facesOf S, ∃ v w e, Face P v w e)
    (hc : Closed ((facesOf S).map Poly.pts)) {x : Vec3 ℝ} (hx : OffSurface (facets S) x) :
    (∃ u, ClearRay (facets S) x u) ∧ ∀ u, ClearRay (facets S) x u →
      (Odd (crossings (facets S) x u) ↔ Enclosed (facets S) x) := by
  have hf' : ∀ P ∈ facesOf S, ∃ pts vn, polygonNew pts none vn = .ok P := fun P hP => by
    obtain ⟨v, w, e, h⟩ := hf P hP
    exact h.new
  refine ⟨?_, fun u hu => ⟨fun h u' hu' => ?_, fun h => h u hu⟩⟩
  · obtain ⟨d, hd⟩ := exists_clear (facets_ne hf) hx 0
    obtain ⟨δ, -, -, h⟩ := hd 1 one_pos
    exact ⟨_, h⟩
  · exact (crossings_parity (facets_closed hf' hc) (facets_ne hf) hx hu hu').1 h

theorem crossings_append (A B : List (Vec3 ℝ × Vec3 ℝ × Vec3 ℝ)) (x u : Vec3 ℝ) :
    crossings (A ++ B) x u = crossings A x u + crossings B x u := by
  simp only [crossings, List.countP_append]

/-- Nothing outside the bounding box is enclosed. -/
theorem not_enclosed {S : SolidG} (hf : ∀ P ∈ facesOf S, ∃ v w e, Face P v w e) {x : Vec3 ℝ} {lo hi : Vec3 ℝ}
    (hx : OffSurface (facets S) x)
    (hb : ∀ P ∈ facesOf S, ∀ p ∈ P.pts, lo.x ≤ p.x ∧ p.x ≤ hi.x ∧ lo.y ≤ p.y ∧ p.y ≤ hi.y ∧ lo.z ≤ p.z ∧ p.z ≤ hi.z)
    (hout : ¬ (lo.x ≤ x.x ∧ x.x ≤ hi.x ∧ lo.y ≤ x.y ∧ x.y ≤ hi.y ∧ lo.z ≤ x.z ∧ x.z ≤ hi.z)) :
    ¬ Enclosed (facets S) x := by
  -- a linear function that is larger at `x` than everywhere on the surface
  have hsep : ∃ n : Vec3 ℝ, n ≠ 0 ∧ ∀ P ∈ facesOf S, ∀ y, Region P.pts P.tri y → Vec3.dot n y < Vec3.dot n x := by
    have hr : ∀ P ∈ facesOf S, ∀ y, Region P.pts P.tri y →
        lo.x ≤ y.x ∧ y.x ≤ hi.x ∧ lo.y ≤ y.y ∧ y.y ≤ hi.y ∧ lo.z ≤ y.z ∧ y.z ≤ hi.z :=
      fun P hP y hy => region_box (hb P hP) hy
    by_contra hcon
    push Not at hcon
    have key : ∀ n : Vec3 ℝ, n ≠ 0 → (∀ y : Vec3 ℝ, (lo.x ≤ y.x ∧ y.x ≤ hi.x ∧ lo.y ≤ y.y ∧ y.y ≤ hi.y ∧ lo.z ≤ y.z ∧
        y.z ≤ hi.z) → Vec3.dot n y < Vec3.dot n x) → False := by
      intro n hn h
      obtain ⟨P, hP, y, hy, hle⟩ := hcon n hn
      have := h y (hr P hP y hy)
      linarith
    apply hout
    refine ⟨?_, ?_, ?_, ?_, ?_, ?_⟩ <;> by_contra hc <;> rw [not_le] at hc
    · exact key ⟨-1, 0, 0⟩ (by simp [Vec3.ext_iff]) fun y hy => by simp [Vec3.dot]; linarith [hy.1]
    · exact key ⟨1, 0, 0⟩ (by simp [Vec3.ext_iff]) fun y hy => by simp [Vec3.dot]; linarith [hy.2.1]
    · exact key ⟨0, -1, 0⟩ (by simp [Vec3.ext_iff]) fun y hy => by simp [Vec3.dot]; linarith [hy.2.2.1]
    · exact key ⟨0, 1, 0⟩ (by simp [Vec3.ext_iff]) fun y hy => by simp [Vec3.dot]; linarith [hy.2.2.2.1]
    · exact key ⟨0, 0, -1⟩ (by simp [Vec3.ext_iff]) fun y hy => by simp [Vec3.dot]; linarith [hy.2.2.2.2.1]
    · exact key ⟨0, 0, 1⟩ (by simp [Vec3.ext_iff]) fun y hy => by simp [Vec3.dot]; linarith [hy.2.2.2.2.2]
  obtain ⟨n, hn, hs⟩ := hsep
  obtain ⟨d, hd⟩ := exists_clear (facets_ne hf) hx n
  have hN : 0 < Vec3.normSq n := lt_of_le_of_ne (Vec3.normSq_nonneg _) fun h => hn (Vec3.normSq_eq_zero.1 h.symm)
  obtain ⟨η, hη, hst⟩ := sign_stable (Vec3.normSq n) (Vec3.dot n d)
  obtain ⟨δ, h1, h2, h3⟩ := hd η hη
  intro henc
  have hzero : crossings (facets S) x (n + δ • d) = 0 := by
    classical
    unfold crossings
    rw [List.countP_eq_zero]
    rintro t ht hcr
    obtain ⟨s, hs0, r, p, q, hr, hp, hq, hsum, he⟩ := of_decide_eq_true hcr
    obtain ⟨P, hP, hreg⟩ := mem_region ht ⟨r, p, q, hr.le, hp.le, hq.le, hsum, he⟩
    have h4 := hs P hP _ hreg
    rw [Vec3.dot_add_right, Vec3.dot_smul_right, Vec3.dot_add_right, Vec3.dot_smul_right] at h4
    have h5 := mul_pos hs0 ((hst δ h1 h2).1 hN)
    rw [Vec3.normSq] at h5
    linarith
  have := henc _ h3
  rw [hzero] at this
  exact absurd this (by decide)

theorem wellInside_inside {a b c x : Vec3 ℝ} (h : WellInside a b c x) : InsideTriangle a b c x := by
  obtain ⟨⟨r, s, t, hr, hs, ht, hsum, rfl⟩, D, -, -, -, ha, hb, hc⟩ := h
  have key : ∀ p q y : Vec3 ℝ, ∀ k : ℝ, AwayFromLine p q y (max (1 / 10 ^ 6) (1 / 10 ^ 4 * D)) →
      y = p + k • (q - p) → False := by
    intro p q y k h h0
    have h1 := (le_max_left _ _).trans (h k)
    rw [h0, sub_self, Vec3.norm_eq_zero.2 rfl] at h1
    norm_num at h1
  refine ⟨r, s, t, lt_of_le_of_ne hr fun h0 => ?_, lt_of_le_of_ne hs fun h0 => ?_, lt_of_le_of_ne ht fun h0 => ?_,
    hsum, rfl⟩
  · subst h0
    refine key _ _ _ t hb ?_
    have : s = 1 - t := by linarith
    rw [this]
    ext <;> simp <;> ring
  · subst h0
    refine key _ _ _ r hc ?_
    have : t = 1 - r := by linarith
    rw [this]
    ext <;> simp <;> ring
  · subst h0
    refine key _ _ _ s ha ?_
    have : r = 1 - s := by linarith
    rw [this]
    ext <;> simp <;> ring

theorem inside_in {a b c x : Vec3 ℝ} (h : InsideTriangle a b c x) : InTriangle a b c x := by
  obtain ⟨r, s, t, hr, hs, ht, h⟩ := h
  exact ⟨r, s, t, hr.le, hs.le, ht.le, h⟩

theorem segment_in {a b c y : Vec3 ℝ} (h : OnSegment a b y) : InTriangle a b c y := by
  obtain ⟨t, h0, h1, rfl⟩ := h
  exact ⟨1 - t, t, 0, by linarith, h0, le_rfl, by ring, by ext <;> simp <;> ring⟩

theorem wellInside_not_edge {a b c x : Vec3 ℝ} (h : WellInside a b c x) :
    ¬ OnSegment a b x ∧ ¬ OnSegment b c x ∧ ¬ OnSegment c a x := by
  obtain ⟨-, D, -, -, -, ha, hb, hc⟩ := h
  have key : ∀ p q : Vec3 ℝ, AwayFromLine p q x (max (1 / 10 ^ 6) (1 / 10 ^ 4 * D)) → ¬ OnSegment p q x := by
    rintro p q h ⟨k, -, -, h0⟩
    have h1 := (le_max_left _ _).trans (h k)
    rw [← h0, sub_self, Vec3.norm_eq_zero.2 rfl] at h1
    norm_num at h1
  exact ⟨key _ _ ha, key _ _ hb, key _ _ hc⟩

/-- One face: whether the ray is reported to hit it, and how often it really crosses it. -/
theorem face_ray {P : Poly} {v w : Vec3 ℝ} {e M : ℝ} (h : Face P v w e) (hM : ∀ p ∈ P.pts, Vec3.norm p ≤ M)
    {x u : Vec3 ℝ} (hu : GEOM_ATOL ≤ |Vec3.dot w u|) (hx : ¬ Region P.pts P.tri x)
    (hr : RayHits P x u ∨ RayMisses P v e x u (1 / 10 ^ 4 * M + 1 / 10 ^ 7)) :
    (∀ t ∈ trianglesOf P.pts P.tri, ∀ s : ℝ, 0 ≤ s → ¬ OnSegment t.1 t.2.1 (x + s • u) ∧
      ¬ OnSegment t.2.1 t.2.2 (x + s • u) ∧ ¬ OnSegment t.2.2 t.1 (x + s • u)) ∧
    ((isPointInsideProjection x u P.pts P.tri = .ok true ∧ crossings (trianglesOf P.pts P.tri) x u = 1) ∨
      (isPointInsideProjection x u P.pts P.tri = .ok false ∧ crossings (trianglesOf P.pts P.tri) x u = 0)) := by
  classical
  obtain ⟨pts, vn, hn⟩ := h.new
  have hfl := h.flat
  have hu0 : Vec3.dot w u ≠ 0 := by
    intro h0
    rw [h0, abs_zero] at hu
    exact absurd hu (not_le.2 GEOM_ATOL_pos)
  -- the ray meets the plane once
  have once : ∀ s s' : ℝ, Vec3.dot v (x + s • u) = e → Vec3.dot v (x + s' • u) = e → s = s' := by
    intro s s' h1 h2
    have := plane_of_corner hfl h.corner h1 h2
    rw [Vec3.dot_add_right, Vec3.dot_add_right, Vec3.dot_smul_right, Vec3.dot_smul_right] at this
    exact mul_right_cancel₀ hu0 (add_left_cancel this)
  have hreg : ∀ t ∈ trianglesOf P.pts P.tri, ∀ y, InTriangle t.1 t.2.1 t.2.2 y → Region P.pts P.tri y := by
    intro t ht y hy
    obtain ⟨t', htm, ha, hb, hc⟩ := mem_trianglesOf.1 (show (t.1, t.2.1, t.2.2) ∈ _ from ht)
    exact ⟨t', htm, _, _, _, ha, hb, hc, hy⟩
  rcases hr with ⟨s, hs, l, t, r, htri, hw, hother⟩ | hmiss
  · obtain ⟨a, b, c, ha, hb, hc, hwell⟩ := hw
    have htm : t ∈ P.tri := by rw [htri]; simp
    have hy : Region P.pts P.tri (x + s • u) := ⟨t, htm, a, b, c, ha, hb, hc, hwell.1⟩
    have hpl := region_plane h.plane hy
    have hs0 : 0 < s := by
      rcases hs.lt_or_eq with h0 | h0
      · exact h0
      · rw [← h0, zero_smul, add_zero] at hy
        exact absurd hy hx
    have hsplit : trianglesOf P.pts P.tri = trianglesOf P.pts l ++ (a, b, c) :: trianglesOf P.pts r := by
      rw [htri]
      simp only [trianglesOf, List.filterMap_append, List.filterMap_cons, ha, hb, hc]
    have hoth : ∀ t' ∈ trianglesOf P.pts l ++ trianglesOf P.pts r, ¬ InTriangle t'.1 t'.2.1 t'.2.2 (x + s • u) := by
      intro t' ht' hin
      have : t' ∈ trianglesOf P.pts (l ++ r) := by
        rw [trianglesOf, List.filterMap_append]; exact ht'
      obtain ⟨t'', hm, ha', hb', hc'⟩ := mem_trianglesOf.1 (show (t'.1, t'.2.1, t'.2.2) ∈ _ from this)
      exact hother t'' hm ⟨_, _, _, ha', hb', hc', hin⟩
    have hsame : ∀ t' ∈ trianglesOf P.pts P.tri, ∀ s' : ℝ, InTriangle t'.1 t'.2.1 t'.2.2 (x + s' • u) →
        s' = s ∧ t' = (a, b, c) := by
      intro t' ht' s' hin
      have e1 := once _ _ (region_plane h.plane (hreg t' ht' _ hin)) hpl
      refine ⟨e1, ?_⟩
      subst e1
      rw [hsplit, List.mem_append, List.mem_cons] at ht'
      rcases ht' with h1 | h1 | h1
      · exact absurd hin (hoth t' (List.mem_append.2 (.inl h1)))
      · exact h1
      · exact absurd hin (hoth t' (List.mem_append.2 (.inr h1)))
    refine ⟨?_, .inl ⟨?_, ?_⟩⟩
    · intro t' ht' s' _
      have hne := wellInside_not_edge hwell
      refine ⟨fun hon => ?_, fun hon => ?_, fun hon => ?_⟩
      · obtain ⟨rfl, rfl⟩ := hsame t' ht' s' (segment_in hon)
        exact hne.1 hon
      · obtain ⟨rfl, rfl⟩ := hsame t' ht' s' (inTriangle_rot (inTriangle_rot (segment_in hon)))
        exact hne.2.1 hon
      · obtain ⟨rfl, rfl⟩ := hsame t' ht' s' (inTriangle_rot (segment_in hon))
        exact hne.2.2 hon
    · exact C73_hit_partial hn h.vn h.plane h.corner GEOM_ATOL_pos hu true (fun _ => hs)
        (.inl ⟨t, htm, a, b, c, ha, hb, hc, hwell⟩)
    · have hz : ∀ A : List (Vec3 ℝ × Vec3 ℝ × Vec3 ℝ), (∀ t' ∈ A, t' ∈ trianglesOf P.pts P.tri ∧
          ¬ InTriangle t'.1 t'.2.1 t'.2.2 (x + s • u)) → crossings A x u = 0 := by
        intro A hA
        unfold crossings
        rw [List.countP_eq_zero]
        intro t' ht' hcr
        obtain ⟨s', -, hin⟩ := of_decide_eq_true hcr
        obtain ⟨h1, h2⟩ := hA t' ht'
        obtain ⟨rfl, -⟩ := hsame t' h1 s' (inside_in hin)
        exact h2 (inside_in hin)
      have hl : crossings (trianglesOf P.pts l) x u = 0 :=
        hz _ fun t' h1 => ⟨by rw [hsplit]; simp [h1], hoth t' (by simp [h1])⟩
      have hr : crossings (trianglesOf P.pts r) x u = 0 :=
        hz _ fun t' h1 => ⟨by rw [hsplit]; simp [h1], hoth t' (by simp [h1])⟩
      rw [hsplit, crossings_append, hl, zero_add, show (a, b, c) :: trianglesOf P.pts r = [(a, b, c)] ++
        trianglesOf P.pts r from rfl, crossings_append, hr, add_zero, crossings, List.countP_cons, List.countP_nil,
        if_pos]
      simp only [decide_eq_true_eq]
      exact ⟨s, hs0, wellInside_inside hwell⟩
  · have hno : ∀ t ∈ trianglesOf P.pts P.tri, ∀ s : ℝ, 0 ≤ s → ¬ InTriangle t.1 t.2.1 t.2.2 (x + s • u) := by
      intro t ht s hs hin
      have hy := hreg t ht _ hin
      refine hmiss s hs (region_plane h.plane hy) ⟨_, hy, ?_⟩
      rw [sub_self, Vec3.norm_eq_zero.2 rfl]
      have : 0 ≤ M := by
        obtain ⟨t', -, a, -, -, ha, -⟩ := hy
        exact (Vec3.norm_nonneg a).trans (hM a (List.mem_of_getElem? ha))
      positivity
    refine ⟨fun t ht s hs => ⟨fun hon => hno t ht s hs (segment_in hon),
      fun hon => hno t ht s hs (inTriangle_rot (inTriangle_rot (segment_in hon))),
      fun hon => hno t ht s hs (inTriangle_rot (segment_in hon))⟩, .inr ⟨?_, ?_⟩⟩
    · obtain ⟨b, hb⟩ := C73_total hn x u true GEOM_ATOL
      cases b with
      | false => exact hb
      | true =>
        obtain ⟨s, hs, hp, hnear⟩ := C73_sound_partial hn h.vn h.plane h.corner hM GEOM_ATOL_pos hu hb
        exact absurd hnear (hmiss s (hs rfl) hp)
    · unfold crossings
      rw [List.countP_eq_zero]
      intro t ht hcr
      obtain ⟨s, hs, hin⟩ := of_decide_eq_true hcr
      exact hno t ht s hs.le (inside_in hin)

/-- **C74, the interior.**  For a solid with a closed surface and a point not too close to it: if the ray used by the
code crosses every face well inside one of its triangles or misses it clearly, and is not almost parallel to any,
then the answer is whether the point is enclosed by the surface. -/
theorem C74_enclosed_partial {S : SolidG} {x : Vec3 ℝ} {M : ℝ} (hne : facesOf S ≠ [])
    (hc : Closed ((facesOf S).map Poly.pts)) (hM : ∀ P ∈ facesOf S, ∀ p ∈ P.pts, Vec3.norm p ≤ M)
    (hf : ∀ P ∈ facesOf S, SpansPlane P.pts ∧ ∃ v w e, Face P v w e ∧ GEOM_ATOL ≤ |Vec3.dot w rayDir| ∧
      (RayHits P x rayDir ∨ RayMisses P v e x rayDir (1 / 10 ^ 4 * M + 1 / 10 ^ 7)))
    (hx : ∀ P ∈ facesOf S, ¬ Near (Region P.pts P.tri) x (1 / 10 ^ 4 * M + 2 / 10 ^ 7)) :
    ∃ r, isPointInside S x = .ok r ∧ (r = true ↔ Enclosed (facets S) x) := by
  classical
  have hface : ∀ P ∈ facesOf S, ∃ v w e, Face P v w e := fun P hP => by
    obtain ⟨-, v, w, e, h, -⟩ := hf P hP
    exact ⟨v, w, e, h⟩
  have hnew : ∀ P ∈ facesOf S, ∃ pts vn, polygonNew pts none vn = .ok P := fun P hP => by
    obtain ⟨v, w, e, h⟩ := hface P hP
    exact h.new
  have hreg : ∀ P ∈ facesOf S, ¬ Region P.pts P.tri x := by
    intro P hP hr
    refine hx P hP ⟨x, hr, ?_⟩
    rw [sub_self, Vec3.norm_eq_zero.2 rfl]
    obtain ⟨t', -, a, -, -, ha, -⟩ := hr
    have : 0 ≤ M := (Vec3.norm_nonneg a).trans (hM P hP a (List.mem_of_getElem? ha))
    positivity
  have hoff : OffSurface (facets S) x := by
    intro t ht hin
    obtain ⟨P, hP, hr⟩ := mem_region ht hin
    exact hreg P hP hr
  obtain ⟨lo, hi, -, hb, r, hr, hi'⟩ := inside_spec (x := x) hne hnew
  refine ⟨r, hr, hi'.trans ?_⟩
  by_cases hbox : lo.x ≤ x.x ∧ x.x ≤ hi.x ∧ lo.y ≤ x.y ∧ x.y ≤ hi.y ∧ lo.z ≤ x.z ∧ x.z ≤ hi.z
  swap
  · exact iff_of_false (fun h => hbox h.1) (not_enclosed hface hoff hb hbox)
  have hbd : ¬ ∃ P ∈ facesOf S, Polygon.isPointInside x P.pts P.tri = .ok true := by
    rintro ⟨P, hP, hin⟩
    obtain ⟨hsp, v, w, e, h, -⟩ := hf P hP
    obtain ⟨pts, vn, hn⟩ := h.new
    exact hx P hP (C71_sound_partial hn h.vn h.plane hsp (hM P hP) hin)
  have hray : ClearRay (facets S) x rayDir := by
    constructor
    · intro h0
      obtain ⟨P, Ps, hP⟩ := List.exists_cons_of_ne_nil hne
      obtain ⟨-, v, w, e, -, hu, -⟩ := hf P (by rw [hP]; exact List.mem_cons_self)
      rw [h0, Vec3.dot_zero_right, abs_zero] at hu
      exact absurd hu (not_le.2 GEOM_ATOL_pos)
    · intro t ht
      obtain ⟨P, hP, ht⟩ := List.mem_flatMap.1 ht
      obtain ⟨-, v, w, e, h, hu, hr⟩ := hf P hP
      exact (face_ray h (hM P hP) hu (hreg P hP) hr).1 t ht
  have hcount : numHits S x = crossings (facets S) x rayDir := by
    unfold numHits facets
    have hall : ∀ P ∈ facesOf S, (isPointInsideProjection x rayDir P.pts P.tri = .ok true ∧
        crossings (trianglesOf P.pts P.tri) x rayDir = 1) ∨
        (isPointInsideProjection x rayDir P.pts P.tri = .ok false ∧
          crossings (trianglesOf P.pts P.tri) x rayDir = 0) := by
      intro P hP
      obtain ⟨-, v, w, e, h, hu, hr⟩ := hf P hP
      exact (face_ray h (hM P hP) hu (hreg P hP) hr).2
    generalize facesOf S = Fs at hall ⊢
    induction Fs with
    | nil => rfl
    | cons P Ps ih =>
      rw [List.forall_mem_cons] at hall
      rw [List.countP_cons, List.flatMap_cons, crossings_append, ih hall.2]
      rcases hall.1 with ⟨h1, h2⟩ | ⟨h1, h2⟩
      · rw [h2, h1]; simp; ring
      · rw [h2, h1]; simp
  rw [← (C74_any_ray hface hc hoff).2 rayDir hray, ← hcount]
  exact ⟨fun h => h.2.resolve_right hbd, fun h => ⟨hbox, .inl h⟩⟩

end B3d.Solids
