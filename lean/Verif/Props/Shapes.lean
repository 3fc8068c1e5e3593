import Verif.Spec.Shapes
import Verif.Props.RoomsLocate
import Verif.Proofs.EarTiling
import Verif.Proofs.Prism

/-!
# C104: buildings with rooms of any shape

The polygons found to be transparent, and the room a point is in.
-/

namespace B3d.Polygon

open Spec

/-- The polygons are the two sides of one. -/
def Poly.TwoSides (P Q : Poly) : Prop := ∃ v w, P.vn = some v ∧ Q.vn = some w ∧ Spec.TwoSides P.pts v Q.pts w

/-- The polygons are clearly not the two sides of one. -/
def Poly.Unlike (P Q : Poly) : Prop := ∀ v w, P.vn = some v → Q.vn = some w → Spec.Unlike P.pts v Q.pts w

/-- The corners of the polygon are told apart. -/
def Poly.Crisp (P : Poly) : Prop := ∀ a ∈ P.pts, ∀ b ∈ P.pts, CloseCorners a b → a = b

end B3d.Polygon

namespace B3d.Solids

open Polygon Spec

theorem closeCorners_iff {a b : Vec3 ℝ} : allClose a b NP_RTOL GEOM_ATOL ↔ CloseCorners a b := Iff.rfl

theorem closeNormals_iff {a b : Vec3 ℝ} : allClose a b GEOM_RTOL NP_ATOL ↔ CloseNormals a b := Iff.rfl

theorem _root_.B3d.Polygon.Poly.TwoSides.symm {P Q : Poly} (h : Poly.TwoSides P Q) : Poly.TwoSides Q P := by
  obtain ⟨v, w, hv, hw, h1, h2⟩ := h
  refine ⟨w, v, hw, hv, ?_, by rw [h2, neg_neg]⟩
  have := h1.reverse
  rw [List.reverse_reverse] at this
  exact this.symm

theorem _root_.B3d.Polygon.Poly.TwoSides.perm {P Q : Poly} (h : Poly.TwoSides P Q) : P.pts.Perm Q.pts := by
  obtain ⟨v, w, hv, hw, h1, h2⟩ := h
  exact (h1.perm.trans (List.reverse_perm _)).symm

theorem twoSides_area {p q : List (Vec3 ℝ)} {v w : Vec3 ℝ} (h : Spec.TwoSides p v q w) : specArea p v = specArea q w := by
  obtain ⟨h1, rfl⟩ := h
  have e : cycSum Vec3.cross q = -cycSum Vec3.cross p := by
    have h2 := (Tiling.cycEdges_rotated h1).trans (cycEdges_reverse_perm p)
    rw [cycSum_eq_edges, cycSum_eq_edges, (h2.map _).sum_eq, List.map_map]
    generalize cycEdges p = L
    induction L with
    | nil => simp
    | cons a L ih =>
      simp only [List.map_cons, List.sum_cons, ih, Function.comp_apply, Prod.fst_swap, Prod.snd_swap, neg_add]
      congr 1
      ext <;> simp [Vec3.cross] <;> ring
  unfold specArea
  rw [e]
  congr 2
  simp [Vec3.dot]

/-- **C104, facing polygons.**  The two sides of one polygon face each other; polygons which are clearly not the two sides
of one do not. -/
theorem C104_facing_partial {P Q : Poly} (hP : P.pts ≠ []) (hQ : Q.pts ≠ []) (hc : P.Crisp) :
    (P.TwoSides Q → facing P Q = .ok true) ∧ (P.Unlike Q → facing P Q = .ok false) := by
  constructor
  · intro h
    have hp := h.perm
    obtain ⟨v, w, hv, hw, h1⟩ := h
    obtain ⟨r, hr, hi⟩ := C34_exact_partial (pts1 := P.pts) (pts2 := Q.pts) (vn1 := v) (vn2 := w) hp.length_eq hP
      ⟨fun a ha b hb => hc a ha b (hp.mem_iff.2 hb), fun _ => by rw [h1.2, neg_neg], fun _ => twoSides_area h1⟩
    unfold facing
    rw [hv, hw]
    simp only
    rw [hr, hi.2 ⟨by rw [h1.2, neg_neg], hp, twoSides_area h1⟩]
  · intro h
    obtain ⟨r, hr⟩ := facing_total hP hQ
    cases r with
    | false => exact hr
    | true =>
      exfalso
      obtain ⟨v, w, hv, hw, h1, -, js, -, -, h2⟩ := facing_sound hr
      rcases h v w hv hw with ⟨a, ha, hb⟩ | hn
      · obtain ⟨k, hk⟩ := List.getElem?_of_mem ha
        obtain ⟨j, q, -, hq, hcl⟩ := h2 k a hk
        exact hb q (List.mem_of_getElem? hq) hcl
      · exact hn h1

end B3d.Solids

namespace B3d.Hier

open Polygon Spec Solids

variable {P : Type}

/-- The polygons of a building are made by the constructor and flat; two of them are the two sides of one, or clearly not;
no polygon is the other side of two. -/
structure Shapes (h : Heap P) (b : Nat) (poly : Polys) : Prop where
  face : ∀ i, IsPolygonOf h b i → ∃ v w e, Face (poly i) v w e
  crisp : ∀ i, IsPolygonOf h b i → (poly i).Crisp
  clear : ∀ i j, IsPolygonOf h b i → IsPolygonOf h b j → i ≠ j → (poly i).TwoSides (poly j) ∨ (poly i).Unlike (poly j)
  once : ∀ i j k, IsPolygonOf h b i → IsPolygonOf h b j → IsPolygonOf h b k → j ≠ i → k ≠ i →
    (poly i).TwoSides (poly j) → (poly i).TwoSides (poly k) → j = k

section
variable {h : Heap P} {b : Nat} {B : Obj P} {poly : Polys}

theorem Shapes.ne (R : Shapes h b poly) {i : Nat} (hi : IsPolygonOf h b i) : (poly i).pts ≠ [] := by
  obtain ⟨v, w, e, hf⟩ := R.face i hi
  obtain ⟨-, l, o, q, -, ho, -⟩ := hf.corner
  exact List.ne_nil_of_mem (List.mem_of_getElem? ho)

theorem Shapes.facing_iff (R : Shapes h b poly) {i j : Nat} (hi : IsPolygonOf h b i) (hj : IsPolygonOf h b j)
    (hne : i ≠ j) : facing (poly i) (poly j) = .ok true ↔ (poly i).TwoSides (poly j) := by
  obtain ⟨h1, h2⟩ := C104_facing_partial (R.ne hi) (R.ne hj) (R.crisp i hi)
  refine ⟨fun hf => ?_, h1⟩
  rcases R.clear i j hi hj hne with h | h
  · exact h
  · rw [h2 h] at hf
    cases hf

theorem Shapes.adjacent_iff (R : Shapes h b poly) {i j : Nat} (hi : IsPolygonOf h b i) (hj : IsPolygonOf h b j) :
    Adjacent (geoRels poly) ⟨true, false, false⟩ i j ↔ i ≠ j ∧ (poly i).TwoSides (poly j) := by
  unfold Adjacent Asked
  simp only [geoRels, decide_eq_true_eq, Bool.false_eq_true, false_and, or_false, true_and]
  refine and_congr_right fun hij => ?_
  rw [R.facing_iff hi hj hij, R.facing_iff hj hi hij.symm]
  constructor
  · rintro (h1 | h1)
    exacts [h1.2, h1.2.symm]
  · intro he
    exact .inl ⟨boxesMeet_same (R.ne hi) fun p => he.perm.mem_iff, he⟩

end

/-- **C104.**  In a building of rooms of any shape, the polygons found to be transparent are exactly the ones whose other side
is a polygon of the same zone.
Missing: polygons which differ by less than the tolerance, see `C34_not_symmetric`; polygons with several other sides; later
calls after an edit (`C56_cached_result_is_stale`). -/
theorem C104_transparent_partial (ops : List (Op P)) (hl : LinearFrom [] ops) (b : Nat) (B : Obj P)
    (hb : (exec ops)[b]? = some B) (hk : B.kind = .building) (poly : Polys) (R : Shapes (exec ops) b poly)
    (cache : List (Nat × List Str)) (hcache : cache.lookup b = none) :
    let h := exec ops
    ∃ l, (findTransparent h (geoRels poly) cache b).2 = .ok l ∧
      ∀ s, s ∈ l ↔ ∃ i j z, IsPolygonOf h b i ∧ path h i = s ∧ IsPolygonOf h b j ∧ j ≠ i ∧ (poly i).TwoSides (poly j) ∧
        (∃ o : Obj P, h[z]? = some o ∧ o.kind = .zone) ∧ Within h b z ∧ Within h z i ∧ Within h z j := by
  intro h
  by_cases htwo : ∃ i j, i ≠ j ∧ IsPolygonOf h b i ∧ IsPolygonOf h b j
  case neg =>
    have hone : ∀ i j, IsPolygonOf h b i → IsPolygonOf h b j → i = j := by
      intro i j hi hj
      by_contra hne
      exact htwo ⟨i, j, hne, hi, hj⟩
    refine ⟨[], ?_, fun s => ⟨fun hs => by simp at hs, ?_⟩⟩
    · unfold findTransparent
      rw [hcache, C10_graph_of_one_polygon ops hl b B hb hk (geoRels poly) _ hone]
      rfl
    · rintro ⟨i, j, -, hi, -, hj, hne, -⟩
      exact absurd (hone j i hj hi) hne
  obtain ⟨l, h1, h2, -⟩ := C56_find_transparent_partial ops hl b B hb hk (geoRels poly) cache hcache htwo (by
    intro i j j' hi hj hj' a1 a2
    obtain ⟨n1, e1⟩ := (R.adjacent_iff hi hj).1 a1
    obtain ⟨n2, e2⟩ := (R.adjacent_iff hi hj').1 a2
    exact R.once i j j' hi hj hj' n1.symm n2.symm e1 e2)
  refine ⟨l, h1, fun s => (h2 s).trans ⟨?_, ?_⟩⟩
  · rintro ⟨i, j, z, hi, hp, hj, ha, hz⟩
    obtain ⟨n1, e1⟩ := (R.adjacent_iff hi hj).1 ha
    exact ⟨i, j, z, hi, hp, hj, n1.symm, e1, hz⟩
  · rintro ⟨i, j, z, hi, hp, hj, n1, e1, hz⟩
    exact ⟨i, j, z, hi, hp, hj, (R.adjacent_iff hi hj).2 ⟨n1.symm, e1⟩, hz⟩

/-- The ray used by the code meets the faces of the solid well or misses them clearly, and the point is not too close to
the surface: the hypotheses of `C74_enclosed_partial`. -/
structure GoodPoint (S : SolidG) (x : Vec3 ℝ) (M : ℝ) : Prop where
  size : ∀ F ∈ facesOf S, ∀ p ∈ F.pts, Vec3.norm p ≤ M
  rays : ∀ F ∈ facesOf S, SpansPlane F.pts ∧ ∃ v w e, Face F v w e ∧ GEOM_ATOL ≤ |Vec3.dot w rayDir| ∧
    (RayHits F x rayDir ∨ RayMisses F v e x rayDir (1 / 10 ^ 4 * M + 1 / 10 ^ 7))
  off : ∀ F ∈ facesOf S, ¬ Spec.Near (Region F.pts F.tri) x (1 / 10 ^ 4 * M + 2 / 10 ^ 7)

/-- **C104, locations.**  In a building of rooms of any shape with closed surfaces, for a point such that the ray used by the code
meets all faces well: the location found is the path of a solid which encloses the point, and `RuntimeError` is raised exactly
if no solid does.  If only one solid encloses the point, it is the answer whichever solids are looked at first.
Missing: the other points, see `C92_not_found`. -/
theorem C104_locate_partial (parseInt : Str → Option Int) (ops : List (Op P)) (hl : LinearFrom [] ops) (b : Nat) (B : Obj P)
    (hb : (exec ops)[b]? = some B) (hk : B.kind = .building) (hname : B.name ≠ []) (poly : Polys)
    (hclosed : ∀ s, IsSolidOf (exec ops) b s → Closed ((facesOf (solidAt (exec ops) poly s)).map Poly.pts) ∧
      facesOf (solidAt (exec ops) poly s) ≠ [])
    (p : Vec3 ℝ) (hgood : ∀ s, IsSolidOf (exec ops) b s → ∃ M, GoodPoint (solidAt (exec ops) poly s) p M)
    (hints : List Nat) (hh : ∀ i ∈ hints, IsSolidOf (exec ops) b i) :
    let h := exec ops
    let In := fun i => IsSolidOf h b i ∧ Enclosed (facets (solidAt h poly i)) p
    let res := findLocation parseInt h (geoInside h poly p) b (hints.map (path h))
    (∀ s, res = .ok s → ∃ i, In i ∧ path h i = s) ∧
    ((∃ e, res = .error e) ↔ ∀ i, ¬ In i) ∧ (∀ e, res = .error e → e = .runtimeError) ∧
    ∀ i, In i → (∀ j, In j → j = i) → res = .ok (path h i) := by
  intro h In res
  obtain ⟨c1, c2, -⟩ := C62_find_location parseInt ops hl b B hb hk hname (geoInside h poly p) hints hh
  have hin : ∀ i, IsSolidOf h b i → (geoInside h poly p i = true ↔ Enclosed (facets (solidAt h poly i)) p) := by
    intro i hi
    obtain ⟨M, hg⟩ := hgood i hi
    obtain ⟨r, hr, he⟩ := C74_enclosed_partial (hclosed i hi).2 (hclosed i hi).1 hg.size hg.rays hg.off
    unfold geoInside
    rw [decide_eq_true_eq, ← he]
    have hr : Solids.isPointInside (solidAt h poly i) p = .ok r := hr
    rw [hr, Except.ok.injEq]
  have k1 : ∀ s, res = .ok s → ∃ i, In i ∧ path h i = s := by
    intro s hs
    obtain ⟨i, hi, hg, hp⟩ := c1 s hs
    exact ⟨i, ⟨hi, (hin i hi).1 hg⟩, hp⟩
  have k2 : ∀ e, res = .error e → ∀ i, ¬ In i := by
    rintro e he i ⟨hi, henc⟩
    have := (c2 e he).2 i hi
    rw [(hin i hi).2 henc] at this
    cases this
  refine ⟨k1, ⟨fun ⟨e, he⟩ => k2 e he, fun hno => ?_⟩, fun e he => (c2 e he).1, fun i hi huniq => ?_⟩
  · cases hr : res with
    | error e => exact ⟨e, rfl⟩
    | ok s =>
      obtain ⟨i, hi, -⟩ := k1 s hr
      exact absurd hi (hno i)
  · cases hr : res with
    | error e => exact absurd hi (k2 e hr i)
    | ok s =>
      obtain ⟨j, hj, rfl⟩ := k1 s hr
      rw [huniq j hj]

end B3d.Hier
