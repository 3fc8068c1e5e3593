import Verif.Props.Shapes
import Verif.Props.RoomsSim
import Verif.Proofs.EnclosedSegment
import Mathlib.Algebra.BigOperators.Group.Finset.Basic
import Mathlib.Data.ZMod.Basic
import Mathlib.Data.Set.Card

/-!
# C105: the surface of a zone

The polygons of a zone whose other side is not in the zone form a closed surface.
-/

namespace B3d.Solids

open Polygon Spec Enclose Triangles

/-- The triangles of a list of polygons. -/
def facetsOf (Fs : List Poly) : List (Vec3 ℝ × Vec3 ℝ × Vec3 ℝ) := Fs.flatMap fun P => trianglesOf P.pts P.tri

/-- On the surface, or enclosed by it. -/
def InOrOn (ts : List (Vec3 ℝ × Vec3 ℝ × Vec3 ℝ)) (x : Vec3 ℝ) : Prop := ¬ OffSurface ts x ∨ Enclosed ts x

theorem edgesSum_facetsOf {Fs : List Poly} (hf : ∀ P ∈ Fs, ∃ pts vn, polygonNew pts none vn = .ok P)
    {g : Vec3 ℝ → Vec3 ℝ → ℤ} (hg : ∀ p q, g p q = -g q p) :
    edgesSum (facetsOf Fs) g = (Fs.map fun P => cycSum g P.pts).sum := by
  unfold facetsOf
  induction Fs with
  | nil => rfl
  | cons P Ps ih =>
    rw [List.forall_mem_cons] at hf
    rw [List.flatMap_cons, edgesSum_append, ih hf.2, List.map_cons, List.sum_cons, edgesSum_trianglesOf]
    congr 1
    obtain ⟨⟨pts, vn, h⟩, -⟩ := hf
    obtain ⟨hn, v', hv', hc', ht, -⟩ := polygonNew_ok h
    obtain ⟨-, hgood⟩ := triangulateTries_good _ _ _ _ _ pts hn _ _ ht
    exact sum_edgeSum hgood g hg

theorem facetsOf_ne {Fs : List Poly} (hf : ∀ P ∈ Fs, ∃ v w e, Face P v w e) :
    ∀ t ∈ facetsOf Fs, Vec3.cross (t.2.1 - t.1) (t.2.2 - t.1) ≠ 0 := by
  rintro ⟨a, b, c⟩ ht
  obtain ⟨P, hP, ht⟩ := List.mem_flatMap.1 ht
  obtain ⟨v, w, e, h⟩ := hf P hP
  obtain ⟨t, htm, ha, hb, hc⟩ := mem_trianglesOf.1 ht
  have := (triangleWith_eq ha hb hc).1 (h.flat.pos t htm)
  intro h0
  simp only at h0
  rw [h0, Vec3.dot_zero_right] at this
  exact lt_irrefl _ this

theorem facetsOf_region {Fs : List Poly} {t : Vec3 ℝ × Vec3 ℝ × Vec3 ℝ} (ht : t ∈ facetsOf Fs) {y : Vec3 ℝ}
    (hy : InTriangle t.1 t.2.1 t.2.2 y) : ∃ P ∈ Fs, Region P.pts P.tri y := by
  obtain ⟨P, hP, ht⟩ := List.mem_flatMap.1 ht
  obtain ⟨t', htm, ha, hb, hc⟩ := mem_trianglesOf.1 (show (t.1, t.2.1, t.2.2) ∈ _ from ht)
  exact ⟨P, hP, t', htm, _, _, _, ha, hb, hc, hy⟩

theorem off_facetsOf {Fs : List Poly} {x : Vec3 ℝ} :
    OffSurface (facetsOf Fs) x ↔ ∀ P ∈ Fs, ¬ Region P.pts P.tri x := by
  constructor
  · rintro h P hP ⟨t, ht, a, b, c, ha, hb, hc, hy⟩
    exact h (a, b, c) (List.mem_flatMap.2 ⟨P, hP, mem_trianglesOf.2 ⟨t, ht, ha, hb, hc⟩⟩) hy
  · intro h t ht hy
    obtain ⟨P, hP, hr⟩ := facetsOf_region ht hy
    exact h P hP hr

theorem crossings_facetsOf (Fs : List Poly) (x u : Vec3 ℝ) :
    crossings (facetsOf Fs) x u = (Fs.map fun P => crossings (trianglesOf P.pts P.tri) x u).sum := by
  unfold facetsOf
  induction Fs with
  | nil => rfl
  | cons P Ps ih => rw [List.flatMap_cons, crossings_append, ih, List.map_cons, List.sum_cons]

theorem twoSides_sum {P Q : Poly} (h : P.TwoSides Q) {g : Vec3 ℝ → Vec3 ℝ → ℤ} (hg : ∀ p q, g p q = -g q p) :
    cycSum g P.pts + cycSum g Q.pts = 0 := by
  obtain ⟨v, w, -, -, h1, -⟩ := h
  have h2 := (Tiling.cycEdges_rotated h1).trans (cycEdges_reverse_perm P.pts)
  rw [cycSum_eq_edges, cycSum_eq_edges, (h2.map _).sum_eq, List.map_map]
  generalize cycEdges P.pts = L
  induction L with
  | nil => simp
  | cons a L ih =>
    simp only [List.map_cons, List.sum_cons, Function.comp_apply, Prod.fst_swap, Prod.snd_swap] at ih ⊢
    rw [hg a.2 a.1]
    linarith

/-- A ray passes both sides of a polygon or neither, up to an even number. -/
theorem twoSides_even {P Q : Poly} {v w e v' w' e'} (hP : Face P v w e) (hQ : Face Q v' w' e') (h : P.TwoSides Q) {x u : Vec3 ℝ}
    (hx : OffSurface (facetsOf [P, Q]) x) (hu : ClearRay (facetsOf [P, Q]) x u) :
    ¬ Odd (crossings (facetsOf [P, Q]) x u) := by
  have hcl : ClosedSum (facetsOf [P, Q]) := by
    intro g hg
    rw [edgesSum_facetsOf (by
      intro F hF
      rcases List.mem_pair.1 hF with rfl | rfl
      exacts [hP.new, hQ.new]) hg]
    simpa using twoSides_sum h hg
  have hfc : ∀ F ∈ [P, Q], ∃ v w e, Face F v w e := by
    intro F hF
    rcases List.mem_pair.1 hF with rfl | rfl
    exacts [⟨_, _, _, hP⟩, ⟨_, _, _, hQ⟩]
  have hpl : ∀ F ∈ [P, Q], ∀ y, Region F.pts F.tri y → Vec3.dot v y = e := by
    intro F hF y hy
    obtain ⟨t, -, a, b, c, ha, hb, hc, r, s, q, hr, hs, hq, hsum, rfl⟩ := hy
    have hmem : ∀ p ∈ F.pts, Vec3.dot v p = e := by
      intro p hp
      rcases List.mem_pair.1 hF with rfl | rfl
      · exact hP.plane p hp
      · exact hP.plane p (h.perm.mem_iff.2 hp)
    rw [Vec3.dot_add_right, Vec3.dot_add_right, Vec3.dot_smul_right, Vec3.dot_smul_right, Vec3.dot_smul_right,
      hmem a (List.mem_of_getElem? ha), hmem b (List.mem_of_getElem? hb), hmem c (List.mem_of_getElem? hc)]
    linear_combination e * hsum
  have hv : v ≠ 0 := by
    obtain ⟨pts, vn, hn⟩ := hP.new
    exact hP.flat.ne
  have hN : 0 < Vec3.normSq v := lt_of_le_of_ne (Vec3.normSq_nonneg _) fun h => hv (Vec3.normSq_eq_zero.1 h.symm)
  obtain ⟨σ, hσ⟩ : ∃ σ : ℝ, (e ≤ Vec3.dot v x ∧ σ = 1) ∨ (Vec3.dot v x < e ∧ σ = -1) := by
    rcases le_or_gt e (Vec3.dot v x) with h | h
    exacts [⟨1, .inl ⟨h, rfl⟩⟩, ⟨-1, .inr ⟨h, rfl⟩⟩]
  obtain ⟨d, hd⟩ := exists_clear (facetsOf_ne hfc) hx (σ • v)
  obtain ⟨η, hη, hst⟩ := sign_stable (σ * Vec3.normSq v) (Vec3.dot v d)
  obtain ⟨δ, h1, h2, h3⟩ := hd η hη
  rw [crossings_parity hcl (facetsOf_ne hfc) hx hu h3]
  have hzero : crossings (facetsOf [P, Q]) x (σ • v + δ • d) = 0 := by
    classical
    unfold crossings
    rw [List.countP_eq_zero]
    rintro t ht hcr
    obtain ⟨s, hs0, r, p, q, hr, hp, hq, hsum, he⟩ := of_decide_eq_true hcr
    obtain ⟨F, hF, hreg⟩ := facetsOf_region ht ⟨r, p, q, hr.le, hp.le, hq.le, hsum, he⟩
    have h4 := hpl F hF _ hreg
    rw [Vec3.dot_add_right, Vec3.dot_smul_right, Vec3.dot_add_right, Vec3.dot_smul_right, Vec3.dot_smul_right] at h4
    have h5 := hst δ h1 h2
    rw [Vec3.normSq] at hN h5
    rcases hσ with ⟨h6, rfl⟩ | ⟨h6, rfl⟩
    · have := mul_pos hs0 (h5.1 (by linarith))
      linarith
    · have := mul_neg_of_pos_of_neg hs0 (h5.2 (by linarith))
      linarith
  rw [hzero]
  decide

end B3d.Solids

namespace B3d.Hier

open Polygon Spec Solids Enclose

variable {P : Type}

/-- The other side of the polygon `i` is a polygon of the same zone. -/
def OtherSide (h : Heap P) (b : Nat) (poly : Polys) (i : Nat) : Prop :=
  ∃ j z, IsPolygonOf h b j ∧ j ≠ i ∧ (poly i).TwoSides (poly j) ∧ IsZoneOf h b z ∧ Within h z i ∧ Within h z j

open Classical in
/-- The polygons of a zone whose other side is not in the zone. -/
noncomputable def outerIds (h : Heap P) (b : Nat) (poly : Polys) (z : Nat) : List Nat :=
  (leafIds h 3 z).filter fun i => ¬ OtherSide h b poly i

/-- The surface of a zone: the triangles of the polygons whose other side is not in the zone. -/
noncomputable def zoneSurface (h : Heap P) (b : Nat) (poly : Polys) (z : Nat) : List (Vec3 ℝ × Vec3 ℝ × Vec3 ℝ) :=
  facetsOf ((outerIds h b poly z).map poly)

theorem mem_leaf {h : Heap P} (w : WF h) {A i d : Nat} {oA : Obj P} (hA : h[A]? = some oA) :
    i ∈ leafIds h d A ↔ Within h A i ∧ ∃ o : Obj P, h[i]? = some o ∧ o.kind.rank + d = oA.kind.rank := by
  rw [leafIds_eq w, List.mem_filterMap]
  constructor
  · rintro ⟨ks, hk, hi⟩
    obtain ⟨hlen, j, hj⟩ := (mem_leafKeys w d A ks).1 hk
    rw [hj] at hi
    cases hi
    have ch := (chain_iff w).2 hj
    obtain ⟨o, ho, hr⟩ := ch.rank w hA
    exact ⟨ch.within, o, ho, by omega⟩
  · rintro ⟨hw, o, ho, hr⟩
    obtain ⟨keys, ch⟩ := hw.chain
    obtain ⟨o', ho', hr'⟩ := ch.rank w hA
    rw [ho] at ho'; cases ho'
    have hit := ch.items w
    exact ⟨keys, (mem_leafKeys w d A keys).2 ⟨by omega, i, hit⟩, by rw [hit]; rfl⟩

theorem leaf_nodup {h : Heap P} {b : Nat} {B : Obj P} (c : BCtx h b B) {A : Nat} (hA : Within h b A) (d : Nat) :
    (leafIds h d A).Nodup := by
  rw [leafIds_eq c.w]
  apply List.Nodup.filterMap _ (leafKeys_nodup c.w d A)
  intro k1 k2 i h1 h2
  have get : ∀ ks, i ∈ (items h A ks).toOption → items h A ks = .ok i := by
    intro ks hks
    cases he : items h A ks with
    | error e => rw [he] at hks; cases hks
    | ok j => rw [he] at hks; cases hks; rfl
  obtain ⟨k0, c0⟩ := hA.chain
  have := c.keys_inj (c0.append ((chain_iff c.w).2 (get k1 h1))) (c0.append ((chain_iff c.w).2 (get k2 h2))) rfl
  exact List.append_cancel_left this

section
variable {h : Heap P} {b : Nat} {B : Obj P} {poly : Polys}

theorem mem_zone_polys (c : BCtx h b B) {z : Nat} (hz : IsZoneOf h b z) {i : Nat} :
    i ∈ leafIds h 3 z ↔ IsPolygonOf h b i ∧ Within h z i := by
  obtain ⟨hw, o, ho, hk⟩ := hz
  rw [mem_leaf c.w ho, hk]
  constructor
  · rintro ⟨h1, o', ho', hr⟩
    refine ⟨⟨hw.trans h1, o', ho', ?_⟩, h1⟩
    cases hkk : o'.kind <;> rw [hkk] at hr <;> simp [Kind.rank] at hr ⊢
  · rintro ⟨⟨-, o', ho', hk'⟩, h1⟩
    exact ⟨h1, o', ho', by rw [hk']; rfl⟩

theorem mem_zone_solids (c : BCtx h b B) {z : Nat} (hz : IsZoneOf h b z) {s : Nat} :
    s ∈ leafIds h 1 z ↔ IsSolidOf h b s ∧ Within h z s := by
  obtain ⟨hw, o, ho, hk⟩ := hz
  rw [mem_leaf c.w ho, hk]
  constructor
  · rintro ⟨h1, o', ho', hr⟩
    refine ⟨⟨hw.trans h1, o', ho', ?_⟩, h1⟩
    cases hkk : o'.kind <;> rw [hkk] at hr <;> simp [Kind.rank] at hr ⊢
  · rintro ⟨⟨-, o', ho', hk'⟩, h1⟩
    exact ⟨h1, o', ho', by rw [hk']; rfl⟩

theorem zone_polys_eq (z : Nat) : leafIds h 3 z = (leafIds h 1 z).flatMap (leafIds h 2) := by
  rw [leafIds]
  conv_rhs => rw [leafIds]
  cases h[z]? with
  | none => rfl
  | some o =>
    simp only [List.flatMap_assoc]
    congr 1
    funext kv
    simp [leafIds]

/-- Sums over the polygons with their other side in the zone vanish, if the two sides cancel. -/
theorem sum_outer (R : Shapes h b poly) (c : BCtx h b B) {z : Nat} (hz : IsZoneOf h b z) {G : Type} [AddCommGroup G] (f : Nat → G)
    (hf : ∀ i j, i ∈ leafIds h 3 z → j ∈ leafIds h 3 z → (poly i).TwoSides (poly j) → f i + f j = 0) :
    ((leafIds h 3 z).map f).sum = ((outerIds h b poly z).map f).sum := by
  classical
  have hperm := (List.filter_append_perm (fun i => decide (OtherSide h b poly i)) (leafIds h 3 z)).symm
  rw [(hperm.map f).sum_eq, List.map_append, List.sum_append]
  have e2 : (leafIds h 3 z).filter (fun i => !decide (OtherSide h b poly i)) = outerIds h b poly z := by
    unfold outerIds
    congr 1
    funext i
    simp
  rw [e2]
  have hzero : (((leafIds h 3 z).filter fun i => decide (OtherSide h b poly i)).map f).sum = 0 := by
    have hnd : ((leafIds h 3 z).filter fun i => decide (OtherSide h b poly i)).Nodup := (leaf_nodup c hz.1 3).filter _
    rw [← List.sum_toFinset f hnd]
    have hpart : ∀ i ∈ ((leafIds h 3 z).filter fun i => decide (OtherSide h b poly i)).toFinset, ∃ j,
        j ∈ ((leafIds h 3 z).filter fun i => decide (OtherSide h b poly i)).toFinset ∧ j ≠ i ∧ (poly i).TwoSides (poly j) := by
      intro i hi
      rw [List.mem_toFinset, List.mem_filter, decide_eq_true_eq, mem_zone_polys c hz] at hi
      obtain ⟨⟨hi, hzi⟩, j, z', hj, hne, ht, hz', hzi', hzj⟩ := hi
      have := zone_unique c hz hz' hzi hzi'
      subst this
      refine ⟨j, ?_, hne, ht⟩
      rw [List.mem_toFinset, List.mem_filter, decide_eq_true_eq, mem_zone_polys c hz]
      exact ⟨⟨hj, hzj⟩, i, z, hi, hne.symm, ht.symm, hz, hzj, hzi⟩
    have hmem : ∀ i ∈ ((leafIds h 3 z).filter fun i => decide (OtherSide h b poly i)).toFinset, i ∈ leafIds h 3 z := by
      intro i hi
      rw [List.mem_toFinset] at hi
      exact (List.mem_filter.1 hi).1
    refine Finset.sum_involution (fun i hi => (hpart i hi).choose) ?_ ?_ ?_ ?_
    · intro i hi
      have := (hpart i hi).choose_spec
      exact hf i _ (hmem i hi) (hmem _ this.1) this.2.2
    · intro i hi _
      exact (hpart i hi).choose_spec.2.1
    · intro i hi
      exact (hpart i hi).choose_spec.1
    · intro i hi
      have h1 := (hpart i hi).choose_spec
      have h2 := (hpart _ h1.1).choose_spec
      have m : ∀ k ∈ leafIds h 3 z, IsPolygonOf h b k := fun k hk => ((mem_zone_polys c hz).1 hk).1
      exact R.once _ _ _ (m _ (hmem _ h1.1)) (m _ (hmem _ h2.1)) (m _ (hmem i hi)) h2.2.1 h1.2.1.symm h2.2.2 h1.2.2.symm
  rw [hzero, zero_add]

theorem outer_face (R : Shapes h b poly) (c : BCtx h b B) {z : Nat} (hz : IsZoneOf h b z) :
    ∀ F ∈ (outerIds h b poly z).map poly, ∃ v w e, Face F v w e := by
  intro F hF
  obtain ⟨i, hi, rfl⟩ := List.mem_map.1 hF
  exact R.face i ((mem_zone_polys c hz).1 (List.mem_filter.1 hi).1).1

/-- The faces of a solid of the heap. -/
theorem facesOf_solidAt (s : Nat) : facesOf (solidAt h poly s) = (leafIds h 2 s).map poly := by
  rw [leafIds_solidAt, allPolys_eq]

/-- The surface of a zone is closed. -/
theorem zone_closed (R : Shapes h b poly) (c : BCtx h b B)
    (hcl : ∀ s, IsSolidOf h b s → Closed ((facesOf (solidAt h poly s)).map Poly.pts)) {z : Nat} (hz : IsZoneOf h b z) :
    ClosedSum (zoneSurface h b poly z) := by
  intro g hg
  unfold zoneSurface
  rw [edgesSum_facetsOf (fun F hF => by obtain ⟨v, w, e, hf⟩ := outer_face R c hz F hF; exact hf.new) hg, List.map_map]
  have := sum_outer R c hz (fun i => cycSum g (poly i).pts) fun i j _ _ ht => twoSides_sum ht hg
  rw [show ((fun F : Poly => cycSum g F.pts) ∘ poly) = fun i => cycSum g (poly i).pts from rfl, ← this, zone_polys_eq]
  have hs : ∀ s ∈ leafIds h 1 z, ((leafIds h 2 s).map fun i => cycSum g (poly i).pts).sum = 0 := by
    intro s hs
    have := closed_sum (hcl s ((mem_zone_solids c hz).1 hs).1) hg
    rw [facesOf_solidAt, List.map_map, List.map_map] at this
    exact this
  generalize leafIds h 1 z = L at hs
  induction L with
  | nil => rfl
  | cons s L ih =>
    rw [List.forall_mem_cons] at hs
    rw [List.flatMap_cons, List.map_append, List.sum_append, hs.1, ih hs.2, zero_add]

/-- Points off the polygons of a zone: the surface of the zone encloses them exactly if an odd number of its solids do. -/
theorem zone_parity (R : Shapes h b poly) (c : BCtx h b B)
    (hcl : ∀ s, IsSolidOf h b s → Closed ((facesOf (solidAt h poly s)).map Poly.pts)) {z : Nat} (hz : IsZoneOf h b z) {x : Vec3 ℝ}
    (hx : ∀ i, IsPolygonOf h b i → Within h z i → ¬ Region (poly i).pts (poly i).tri x) :
    Enclosed (zoneSurface h b poly z) x ↔
      Odd {s | IsSolidOf h b s ∧ Within h z s ∧ Enclosed (facets (solidAt h poly s)) x}.ncard := by
  classical
  have hpoly : ∀ i ∈ leafIds h 3 z, IsPolygonOf h b i ∧ Within h z i := fun i => (mem_zone_polys c hz).1
  have hfaces : ∀ F ∈ (leafIds h 3 z).map poly, ∃ v w e, Face F v w e := by
    intro F hF
    obtain ⟨i, hi, rfl⟩ := List.mem_map.1 hF
    exact R.face i (hpoly i hi).1
  have hoff : OffSurface (facetsOf ((leafIds h 3 z).map poly)) x := by
    rw [off_facetsOf]
    intro F hF
    obtain ⟨i, hi, rfl⟩ := List.mem_map.1 hF
    exact hx i (hpoly i hi).1 (hpoly i hi).2
  obtain ⟨u, hu⟩ : ∃ u, ClearRay (facetsOf ((leafIds h 3 z).map poly)) x u := by
    obtain ⟨d, hd⟩ := exists_clear (facetsOf_ne hfaces) hoff 0
    obtain ⟨δ, -, -, h⟩ := hd 1 one_pos
    exact ⟨_, h⟩
  -- parts of the surface
  have part : ∀ L : List Nat, (∀ i ∈ L, i ∈ leafIds h 3 z) → OffSurface (facetsOf (L.map poly)) x ∧ ClearRay (facetsOf (L.map poly)) x u := by
    intro L hL
    have hsub : ∀ t ∈ facetsOf (L.map poly), t ∈ facetsOf ((leafIds h 3 z).map poly) := by
      intro t ht
      obtain ⟨F, hF, ht⟩ := List.mem_flatMap.1 ht
      obtain ⟨i, hi, rfl⟩ := List.mem_map.1 hF
      exact List.mem_flatMap.2 ⟨_, List.mem_map_of_mem (hL i hi), ht⟩
    exact ⟨fun t ht => hoff t (hsub t ht), hu.1, fun t ht => hu.2 t (hsub t ht)⟩
  obtain ⟨o1, o2⟩ := part (outerIds h b poly z) fun i hi => (List.mem_filter.1 hi).1
  rw [enclosed_iff (zone_closed R c hcl hz) (facetsOf_ne (outer_face R c hz)) o1 o2]
  have hs2 : ∀ s ∈ leafIds h 1 z, (Enclosed (facets (solidAt h poly s)) x ↔
      Odd (crossings (facetsOf ((leafIds h 2 s).map poly)) x u)) := by
    intro s hs
    have e : facets (solidAt h poly s) = facetsOf ((leafIds h 2 s).map poly) := by
      unfold facets facetsOf
      rw [facesOf_solidAt]
    have hsub : ∀ i ∈ leafIds h 2 s, i ∈ leafIds h 3 z := by
      intro i hi
      rw [zone_polys_eq]
      exact List.mem_flatMap.2 ⟨s, hs, hi⟩
    obtain ⟨p1, p2⟩ := part (leafIds h 2 s) hsub
    have hfc : ∀ F ∈ facesOf (solidAt h poly s), ∃ v w e, Face F v w e := by
      intro F hF
      rw [facesOf_solidAt] at hF
      obtain ⟨i, hi, rfl⟩ := List.mem_map.1 hF
      exact R.face i (hpoly i (hsub i hi)).1
    have hcs := facets_closed (fun F hF => by obtain ⟨v, w, e, hf⟩ := hfc F hF; exact hf.new)
      (hcl s ((mem_zone_solids c hz).1 hs).1)
    rw [e] at hcs
    rw [e]
    refine enclosed_iff hcs (facetsOf_ne ?_) p1 p2
    rw [← facesOf_solidAt]
    exact hfc
  -- parities
  have key := sum_outer R c hz (fun i => ((crossings (trianglesOf (poly i).pts (poly i).tri) x u : ℕ) : ZMod 2)) (by
    intro i j hi hj ht
    obtain ⟨v, w, e, f1⟩ := R.face i (hpoly i hi).1
    obtain ⟨v', w', e', f2⟩ := R.face j (hpoly j hj).1
    obtain ⟨q1, q2⟩ := part [i, j] (by
      intro k hk
      rcases List.mem_pair.1 hk with rfl | rfl
      exacts [hi, hj])
    have := twoSides_even f1 f2 ht q1 q2
    rw [crossings_facetsOf] at this
    simp only [List.map_cons, List.map_nil, List.sum_cons, List.sum_nil, add_zero] at this
    rw [← Nat.cast_add]
    rw [Nat.not_odd_iff_even] at this
    exact (ZMod.natCast_eq_zero_iff_even).2 this)
  have cast : ∀ L : List Nat, ((crossings (facetsOf (L.map poly)) x u : ℕ) : ZMod 2) =
      (L.map fun i => ((crossings (trianglesOf (poly i).pts (poly i).tri) x u : ℕ) : ZMod 2)).sum := by
    intro L
    rw [crossings_facetsOf]
    induction L with
    | nil => simp
    | cons i L ih =>
      simp only [List.map_cons, List.sum_cons, Nat.cast_add] at ih ⊢
      rw [ih]
  rw [← ZMod.natCast_eq_one_iff_odd, zoneSurface, cast, ← key, ← ZMod.natCast_eq_one_iff_odd]
  have hset : {s | IsSolidOf h b s ∧ Within h z s ∧ Enclosed (facets (solidAt h poly s)) x} =
      (((leafIds h 1 z).toFinset.filter fun s => Enclosed (facets (solidAt h poly s)) x : Finset Nat) : Set Nat) := by
    ext s
    simp only [Set.mem_ofPred_eq, Finset.coe_filter, List.mem_toFinset, mem_zone_solids c hz, and_assoc]
  rw [hset, Set.ncard_coe_finset, Finset.card_filter, Nat.cast_sum, List.sum_toFinset _ (leaf_nodup c hz.1 1), zone_polys_eq]
  have : ((((leafIds h 1 z).flatMap (leafIds h 2)).map fun i => ((crossings (trianglesOf (poly i).pts (poly i).tri) x u : ℕ) : ZMod 2)).sum) =
      ((leafIds h 1 z).map fun s => (((if Enclosed (facets (solidAt h poly s)) x then 1 else 0 : ℕ)) : ZMod 2)).sum := by
    generalize leafIds h 1 z = L at hs2
    induction L with
    | nil => rfl
    | cons s L ih =>
      rw [List.forall_mem_cons] at hs2
      rw [List.flatMap_cons, List.map_append, List.sum_append, ih hs2.2, List.map_cons, List.sum_cons, ← cast]
      congr 1
      split_ifs with he
      · rw [Nat.cast_one]
        exact ZMod.natCast_eq_one_iff_odd.2 (hs2.1.1 he)
      · rw [Nat.cast_zero]
        exact ZMod.natCast_eq_zero_iff_even.2 (Nat.not_odd_iff_even.1 fun ho => he (hs2.1.2 ho))
  rw [this]

/-- Who leaves the inside of a closed surface crosses it. -/
theorem closes_of_closed {Fs : List Poly} (hcl : ClosedSum (facetsOf Fs)) (hf : ∀ F ∈ Fs, ∃ v w e, Face F v w e) {p q : Vec3 ℝ}
    (hp : InOrOn (facetsOf Fs) p) (hq : ¬ InOrOn (facetsOf Fs) q) :
    ∃ F ∈ Fs, ∃ y, OnSegment p q y ∧ Region F.pts F.tri y := by
  by_contra hno
  push Not at hno
  have hoff : ∀ y, OnSegment p q y → OffSurface (facetsOf Fs) y := by
    intro y hy
    rw [off_facetsOf]
    exact fun F hF => hno F hF y hy
  have hoffp : OffSurface (facetsOf Fs) p := hoff p ⟨0, le_rfl, zero_le_one, by rw [zero_smul, add_zero]⟩
  rcases hp with hp | hp
  · exact hp hoffp
  · exact hq (.inr ((enclosed_segment hcl (facetsOf_ne hf) hoff).1 hp))

end

end B3d.Hier
