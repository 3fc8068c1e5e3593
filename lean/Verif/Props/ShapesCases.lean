import Verif.Proofs.Grid3
import Verif.Props.ShapesSim
import Verif.Props.PlanRooms

/-!
# C104 and C105 for two wedge-shaped rooms

A box of 4 × 3 × 2 metres is cut by its vertical diagonal plane: the two rooms are prisms over triangles, and the diagonal wall
is common to both.
-/

namespace B3d.Grid3

open Spec Polygon Solids Hier

variable {P : Type}

/-- A building whose polygons pass the checks with integers. -/
theorem shapes_of_grid {h : Heap P} {b : Nat} {B : Obj P} (c : BCtx h b B) (gp : Nat → GPoly)
    (hok : ∀ i ∈ leafIds h 4 b, (gp i).Ok)
    (hclear : ∀ i ∈ leafIds h 4 b, ∀ j ∈ leafIds h 4 b, i ≠ j → gTwo (gp i) (gp j) ∨ gUnlike (gp i) (gp j))
    (honce : ∀ i ∈ leafIds h 4 b, ∀ j ∈ leafIds h 4 b, ∀ k ∈ leafIds h 4 b, j ≠ i → k ≠ i → gTwo (gp i) (gp j) →
      gTwo (gp i) (gp k) → j = k) : Shapes h b fun i => (gp i).poly := by
  have hface : ∀ i, IsPolygonOf h b i → ∃ v w e, Face (gp i).poly v w e := fun i hi => by
    obtain ⟨e, he⟩ := face_poly (hok i ((isPolygonOf_iff c i).2 hi))
    exact ⟨_, _, e, he⟩
  have hne : ∀ i, IsPolygonOf h b i → (gp i).poly.pts ≠ [] := fun i hi => by
    obtain ⟨v, w, e, hf⟩ := hface i hi
    obtain ⟨-, l, o, q, -, ho, -⟩ := hf.corner
    exact List.ne_nil_of_mem (List.mem_of_getElem? ho)
  have back : ∀ i j, IsPolygonOf h b i → IsPolygonOf h b j → j ≠ i → (gp i).poly.TwoSides (gp j).poly →
      gTwo (gp i) (gp j) := by
    intro i j hi hj hij htwo
    have hi' := (isPolygonOf_iff c i).2 hi
    have hj' := (isPolygonOf_iff c j).2 hj
    rcases hclear i hi' j hj' hij.symm with h | h
    · exact h
    · obtain ⟨h1, h2⟩ := C104_facing_partial (hne i hi) (hne j hj) (crisp_poly (hok i hi'))
      have e1 := h1 htwo
      rw [h2 (unlike_poly (hok i hi') (hok j hj') h)] at e1
      cases e1
  refine ⟨hface, fun i hi => crisp_poly (hok i ((isPolygonOf_iff c i).2 hi)), fun i j hi hj hij => ?_,
    fun i j k hi hj hk hji hki h1 h2 => ?_⟩
  · have hi' := (isPolygonOf_iff c i).2 hi
    have hj' := (isPolygonOf_iff c j).2 hj
    rcases hclear i hi' j hj' hij with h | h
    · exact .inl (two_poly (hok i hi') (hok j hj') h)
    · exact .inr (unlike_poly (hok i hi') (hok j hj') h)
  · exact honce i ((isPolygonOf_iff c i).2 hi) j ((isPolygonOf_iff c j).2 hj) k ((isPolygonOf_iff c k).2 hk) hji hki
      (back i j hi hj hji h1) (back i k hi hk hki h2)

theorem closed_of_grid {h : Heap P} {s : Nat} (gp : Nat → GPoly) (hok : ∀ i ∈ leafIds h 2 s, (gp i).Ok)
    (hc : Closed ((leafIds h 2 s).map fun i => (gp i).pts)) :
    Closed ((facesOf (solidAt h (fun i => (gp i).poly) s)).map Poly.pts) := by
  rw [facesOf_solidAt, List.map_map]
  have e : (leafIds h 2 s).map (Poly.pts ∘ fun i => (gp i).poly) =
      ((leafIds h 2 s).map fun i => (gp i).pts).map (List.map c3) := by
    rw [List.map_map]
    exact List.map_congr_left fun i hi => (poly_spec (hok i hi)).2.1
  rw [e]
  unfold Closed allEdges at hc ⊢
  have e2 : ∀ L : List (List G3), (L.map (List.map c3)).flatMap cycEdges = (L.flatMap cycEdges).map (Prod.map c3 c3) := by
    intro L
    rw [List.flatMap_map, List.map_flatMap]
    congr 1
    funext l
    exact cycEdges_map c3 l
  rw [e2, List.map_map]
  refine (hc.map _).trans (List.Perm.of_eq ?_)
  rw [List.map_map]
  rfl

/-- All corners are in the plane through the first one. -/
def gFlat (g : GPoly) (E : ℤ) : Prop := ∀ p ∈ g.pts, gdot g.n p = E

instance (g : GPoly) (E : ℤ) : Decidable (gFlat g E) := by unfold gFlat; infer_instance

theorem dot_c3 (a b : G3) : Vec3.dot (c3 a) (c3 b) = (gdot a b : ℤ) := by
  simp only [Vec3.dot, c3, gdot]
  push_cast
  ring

theorem v_smul {g : GPoly} (h : g.Ok) : c3 g.n = (g.m : ℝ) • g.v := by
  have hm : (g.m : ℝ) ≠ 0 := by exact_mod_cast h.1.ne'
  ext <;> simp only [c3, GPoly.v, Vec3.smul_x, Vec3.smul_y, Vec3.smul_z] <;> field_simp

theorem region_n {g : GPoly} (h : g.Ok) {E : ℤ} (hE : gFlat g E) {y : Vec3 ℝ} (hy : Region g.poly.pts g.poly.tri y) :
    Vec3.dot (c3 g.n) y = E := by
  refine region_plane (pts := g.poly.pts) (tri := g.poly.tri) ?_ hy
  rw [(poly_spec h).2.1]
  intro p hp
  obtain ⟨q, hq, rfl⟩ := List.mem_map.1 hp
  rw [dot_c3, hE q hq]

theorem face_n {g : GPoly} (h : g.Ok) {E : ℤ} (hE : gFlat g E) : Face g.poly g.v g.v (E / g.m) := by
  obtain ⟨e, hf⟩ := face_poly h
  refine ⟨hf.new, hf.vn, fun p hp => ?_, hf.corner⟩
  have hm : (g.m : ℝ) ≠ 0 := by exact_mod_cast h.1.ne'
  rw [(poly_spec h).2.1] at hp
  obtain ⟨q, hq, rfl⟩ := List.mem_map.1 hp
  have := dot_c3 g.n q
  rw [hE q hq, v_smul h, Vec3.dot_smul_left] at this
  field_simp
  linarith

/-- The ray leads away from the plane. -/
theorem ray_away {a b s : ℝ} (hs : 0 ≤ s) (h : b * a < 0 ∨ (a = 0 ∧ b ≠ 0)) : s * a ≠ b := by
  rintro rfl
  rcases h with h | ⟨rfl, h⟩
  · nlinarith [mul_nonneg hs (mul_self_nonneg a)]
  · simp at h

theorem region_x {g : GPoly} (h : g.Ok) {X : ℤ} (hX : ∀ p ∈ g.pts, p.1 ≤ X) {y : Vec3 ℝ}
    (hy : Region g.poly.pts g.poly.tri y) : y.x ≤ X := by
  obtain ⟨t, -, a, b, c, ha, hb, hc, r, s, q, hr, hs, hq, hsum, rfl⟩ := hy
  have key : ∀ p ∈ g.poly.pts, p.x ≤ X := by
    rw [(poly_spec h).2.1]
    intro p hp
    obtain ⟨p', hp', rfl⟩ := List.mem_map.1 hp
    have := hX p' hp'
    simp only [c3]
    exact_mod_cast this
  have h1 := mul_le_mul_of_nonneg_left (key a (List.mem_of_getElem? ha)) hr
  have h2 := mul_le_mul_of_nonneg_left (key b (List.mem_of_getElem? hb)) hs
  have h3 := mul_le_mul_of_nonneg_left (key c (List.mem_of_getElem? hc)) hq
  simp only [Vec3.add_x, Vec3.smul_x]
  calc _ ≤ r * X + s * X + q * X := by linarith
    _ = X := by linear_combination (X : ℝ) * hsum

end B3d.Grid3

namespace B3d.Hier

open Polygon Spec Solids Sim ArrayFormat Enclose Grid3

/-- The rooms below (in the drawing) and above the diagonal. -/
def wedge (i : Nat) : GPoly :=
  [ ⟨[(0, 0, 0), (4, 3, 0), (4, 0, 0)], (0, 0, -5), 5⟩, ⟨[(0, 0, 2), (4, 0, 2), (4, 3, 2)], (0, 0, 5), 5⟩,
    ⟨[(0, 0, 0), (4, 0, 0), (4, 0, 2), (0, 0, 2)], (0, -5, 0), 5⟩,
    ⟨[(4, 0, 0), (4, 3, 0), (4, 3, 2), (4, 0, 2)], (5, 0, 0), 5⟩,
    ⟨[(4, 3, 0), (0, 0, 0), (0, 0, 2), (4, 3, 2)], (-3, 4, 0), 5⟩, ⟨[], 0, 0⟩, ⟨[], 0, 0⟩, ⟨[], 0, 0⟩, ⟨[], 0, 0⟩, ⟨[], 0, 0⟩,
    ⟨[], 0, 0⟩,
    ⟨[(0, 0, 0), (0, 3, 0), (4, 3, 0)], (0, 0, -5), 5⟩, ⟨[(0, 0, 2), (4, 3, 2), (0, 3, 2)], (0, 0, 5), 5⟩,
    ⟨[(0, 0, 0), (4, 3, 0), (4, 3, 2), (0, 0, 2)], (3, -4, 0), 5⟩,
    ⟨[(4, 3, 0), (0, 3, 0), (0, 3, 2), (4, 3, 2)], (0, 5, 0), 5⟩,
    ⟨[(0, 3, 0), (0, 0, 0), (0, 0, 2), (0, 3, 2)], (-5, 0, 0), 5⟩ ].getD i ⟨[], 0, 0⟩

/-- The building of the two rooms. -/
def wedgeOps : List (Op Nat) :=
  [ .construct .polygon "floor".toList [] none [], .construct .polygon "ceiling".toList [] none [],
    .construct .polygon "p0".toList [] none [], .construct .polygon "p1".toList [] none [],
    .construct .polygon "p2".toList [] none [],
    .construct .wall "floor".toList [] none [0], .construct .wall "ceiling".toList [] none [1],
    .construct .wall "w0".toList [] none [2], .construct .wall "w1".toList [] none [3],
    .construct .wall "w2".toList [] none [4], .construct .solid "r0".toList [] none [5, 6, 7, 8, 9],
    .construct .polygon "floor".toList [] none [], .construct .polygon "ceiling".toList [] none [],
    .construct .polygon "p0".toList [] none [], .construct .polygon "p1".toList [] none [],
    .construct .polygon "p2".toList [] none [],
    .construct .wall "floor".toList [] none [11], .construct .wall "ceiling".toList [] none [12],
    .construct .wall "w0".toList [] none [13], .construct .wall "w1".toList [] none [14],
    .construct .wall "w2".toList [] none [15], .construct .solid "r1".toList [] none [16, 17, 18, 19, 20],
    .construct .zone ['z'] [] none [10, 21], .construct .building ['b'] [] none [22] ]

theorem wedgeOps_linear : LinearFrom [] wedgeOps := by
  refine ⟨?_, ?_, ?_, ?_, ?_, ?_, ?_, ?_, ?_, ?_, ?_, ?_, ?_, ?_, ?_, ?_, ?_, ?_, ?_, ?_, ?_, ?_, ?_, ?_,
    trivial⟩ <;> intro x hx <;> apply notElsewhere_of_all <;> revert x <;> decide +kernel

theorem wedge_building : ∃ B, (exec wedgeOps)[23]? = some B ∧ B.kind = .building ∧ B.name ≠ [] := by decide +kernel

/-- The polygons of the rooms. -/
noncomputable def wedgePoly : Polys := fun i => (wedge i).poly

theorem wedge_ids : leafIds (exec wedgeOps) 4 23 = [0, 1, 2, 3, 4, 11, 12, 13, 14, 15] := by decide +kernel
theorem wedge_solids : leafIds (exec wedgeOps) 2 23 = [10, 21] := by decide +kernel
theorem wedge_ids1 : leafIds (exec wedgeOps) 2 10 = [0, 1, 2, 3, 4] := by decide +kernel
theorem wedge_ids2 : leafIds (exec wedgeOps) 2 21 = [11, 12, 13, 14, 15] := by decide +kernel

theorem wedge_ok : ∀ i ∈ [0, 1, 2, 3, 4, 11, 12, 13, 14, 15], (wedge i).Ok := by decide +kernel

theorem wedge_solid (s : Nat) : IsSolidOf (exec wedgeOps) 23 s ↔ s = 10 ∨ s = 21 := by
  obtain ⟨B, hb, hk, -⟩ := wedge_building
  have c : BCtx (exec wedgeOps) 23 B := BCtx.of_ops wedgeOps_linear hb hk
  have : IsSolidOf (exec wedgeOps) 23 s ↔ s ∈ leafIds (exec wedgeOps) 2 23 := by
    rw [c.mem_leafIds]
    unfold IsSolidOf
    constructor
    · rintro ⟨h1, o, h2, h3⟩; exact ⟨h1, o, h2, by rw [h3]; rfl⟩
    · rintro ⟨h1, o, h2, h3⟩
      exact ⟨h1, o, h2, by cases hkk : o.kind <;> rw [hkk] at h3 <;> simp [Kind.rank] at h3 ⊢⟩
  rw [this, wedge_solids]
  simp

/-- The hypotheses of C104 and C105 hold. -/
theorem wedge_shapes : Shapes (exec wedgeOps) 23 wedgePoly ∧ AllClosed (exec wedgeOps) 23 wedgePoly := by
  obtain ⟨B, hb, hk, -⟩ := wedge_building
  have c : BCtx (exec wedgeOps) 23 B := BCtx.of_ops wedgeOps_linear hb hk
  refine ⟨shapes_of_grid c wedge ?_ ?_ ?_, fun s hs => ?_⟩
  · rw [wedge_ids]; exact wedge_ok
  · rw [wedge_ids]; decide +kernel
  · rw [wedge_ids]; decide +kernel
  · rcases (wedge_solid s).1 hs with rfl | rfl
    · refine closed_of_grid wedge ?_ ?_
      · rw [wedge_ids1]; exact fun i hi => wedge_ok i (by revert i; decide)
      · rw [wedge_ids1]; unfold Closed; decide +kernel
    · refine closed_of_grid wedge ?_ ?_
      · rw [wedge_ids2]; exact fun i hi => wedge_ok i (by revert i; decide)
      · rw [wedge_ids2]; unfold Closed; decide +kernel

theorem wedge_zone (z : Nat) : IsZoneOf (exec wedgeOps) 23 z ↔ z = 22 := by
  obtain ⟨B, hb, hk, -⟩ := wedge_building
  have c : BCtx (exec wedgeOps) 23 B := BCtx.of_ops wedgeOps_linear hb hk
  have : IsZoneOf (exec wedgeOps) 23 z ↔ z ∈ leafIds (exec wedgeOps) 1 23 := by
    rw [c.mem_leafIds]
    unfold IsZoneOf
    constructor
    · rintro ⟨h1, o, h2, h3⟩; exact ⟨h1, o, h2, by rw [h3]; rfl⟩
    · rintro ⟨h1, o, h2, h3⟩
      exact ⟨h1, o, h2, by cases hkk : o.kind <;> rw [hkk] at h3 <;> simp [Kind.rank] at h3 ⊢⟩
  rw [this, show leafIds (exec wedgeOps) 1 23 = [22] by decide +kernel]
  simp

/-- Exactly the two sides of the diagonal wall have another side in the zone. -/
theorem wedge_otherSide (i : Nat) (hi : IsPolygonOf (exec wedgeOps) 23 i) :
    OtherSide (exec wedgeOps) 23 wedgePoly i ↔ i = 4 ∨ i = 13 := by
  obtain ⟨B, hb, hk, -⟩ := wedge_building
  have c : BCtx (exec wedgeOps) 23 B := BCtx.of_ops wedgeOps_linear hb hk
  have hz : IsZoneOf (exec wedgeOps) 23 22 := (wedge_zone 22).2 rfl
  have hin : ∀ k ∈ [0, 1, 2, 3, 4, 11, 12, 13, 14, 15], IsPolygonOf (exec wedgeOps) 23 k ∧ Within (exec wedgeOps) 22 k := by
    intro k hk
    refine (mem_zone_polys c hz).1 ?_
    rw [show leafIds (exec wedgeOps) 3 22 = [0, 1, 2, 3, 4, 11, 12, 13, 14, 15] by decide +kernel]
    exact hk
  constructor
  · rintro ⟨j, z, hj, hji, htwo, -⟩
    have hi' := (isPolygonOf_iff c i).2 hi
    have hj' := (isPolygonOf_iff c j).2 hj
    rw [wedge_ids] at hi' hj'
    by_contra hno
    have hun : gUnlike (wedge i) (wedge j) := by
      have : ∀ i ∈ [0, 1, 2, 3, 4, 11, 12, 13, 14, 15], ∀ j ∈ [0, 1, 2, 3, 4, 11, 12, 13, 14, 15], j ≠ i →
          ¬ (i = 4 ∨ i = 13) → gUnlike (wedge i) (wedge j) := by decide +kernel
      exact this i hi' j hj' hji hno
    have R := wedge_shapes.1
    obtain ⟨h1, h2⟩ := C104_facing_partial (R.ne hi) (R.ne hj) (R.crisp i hi)
    have e1 := h1 htwo
    rw [h2 (unlike_poly (wedge_ok i hi') (wedge_ok j hj') hun)] at e1
    cases e1
  · have k4 := hin 4 (by decide)
    have k13 := hin 13 (by decide)
    have o4 := wedge_ok 4 (by decide)
    have o13 := wedge_ok 13 (by decide)
    rintro (rfl | rfl)
    · exact ⟨13, 22, k13.1, by decide, two_poly o4 o13 (by decide +kernel), hz, k4.2, k13.2⟩
    · exact ⟨4, 22, k4.1, by decide, two_poly o13 o4 (by decide +kernel), hz, k13.2, k4.2⟩

/-- The two sides of the diagonal wall are found to be transparent, and nothing else. -/
theorem C104_wedges : ∃ l, (findTransparent (exec wedgeOps) (geoRels wedgePoly) [] 23).2 = .ok l ∧
    ∀ s, s ∈ l ↔ s = "b/z/r0/w2/p2".toList ∨ s = "b/z/r1/w0/p0".toList := by
  obtain ⟨B, hb, hk, -⟩ := wedge_building
  have c : BCtx (exec wedgeOps) 23 B := BCtx.of_ops wedgeOps_linear hb hk
  obtain ⟨l, h1, h2⟩ := C104_transparent_partial wedgeOps wedgeOps_linear 23 B hb hk wedgePoly wedge_shapes.1 [] rfl
  refine ⟨l, h1, fun s => (h2 s).trans ⟨?_, ?_⟩⟩
  · rintro ⟨i, j, z, hi, rfl, hj, hji, htwo, ⟨o, ho, hoz⟩, hbz, hzi, hzj⟩
    rcases (wedge_otherSide i hi).1 ⟨j, z, hj, hji, htwo, ⟨hbz, o, ho, hoz⟩, hzi, hzj⟩ with rfl | rfl
    · exact .inl (by decide +kernel)
    · exact .inr (by decide +kernel)
  · have key : ∀ i ∈ [4, 13], ∃ i' j z, IsPolygonOf (exec wedgeOps) 23 i' ∧ path (exec wedgeOps) i' = path (exec wedgeOps) i ∧
        IsPolygonOf (exec wedgeOps) 23 j ∧ j ≠ i' ∧ (wedgePoly i').TwoSides (wedgePoly j) ∧
        (∃ o : Obj Nat, (exec wedgeOps)[z]? = some o ∧ o.kind = .zone) ∧ Within (exec wedgeOps) 23 z ∧
        Within (exec wedgeOps) z i' ∧ Within (exec wedgeOps) z j := by
      intro i hi
      have hi' : IsPolygonOf (exec wedgeOps) 23 i := by
        rw [← isPolygonOf_iff c, wedge_ids]
        revert i; decide
      obtain ⟨j, z, a1, a2, a3, ⟨a4, a5⟩, a6, a7⟩ := (wedge_otherSide i hi').2 (by simpa using hi)
      exact ⟨i, j, z, hi', rfl, a1, a2, a3, a5, a4, a6, a7⟩
    rintro (rfl | rfl)
    · rw [show "b/z/r0/w2/p2".toList = path (exec wedgeOps) 4 by decide +kernel]
      exact key 4 (by decide)
    · rw [show "b/z/r1/w0/p0".toList = path (exec wedgeOps) 13 by decide +kernel]
      exact key 13 (by decide)

/-- The surface of the zone consists of the outer walls, floors and ceilings. -/
theorem wedge_outer : outerIds (exec wedgeOps) 23 wedgePoly 22 = [0, 1, 2, 3, 11, 12, 14, 15] := by
  classical
  obtain ⟨B, hb, hk, -⟩ := wedge_building
  have c : BCtx (exec wedgeOps) 23 B := BCtx.of_ops wedgeOps_linear hb hk
  have hz : IsZoneOf (exec wedgeOps) 23 22 := (wedge_zone 22).2 rfl
  have hids : leafIds (exec wedgeOps) 3 22 = [0, 1, 2, 3, 4, 11, 12, 13, 14, 15] := by decide +kernel
  unfold outerIds
  rw [List.filter_congr (q := fun i => ! (i == 4 || i == 13)), hids]
  · decide
  · intro i hi
    have := wedge_otherSide i ((mem_zone_polys c hz).1 hi).1
    by_cases h : i = 4 ∨ i = 13
    · rw [decide_eq_false (not_not_intro (this.2 h))]
      rcases h with rfl | rfl <;> rfl
    · rw [decide_eq_true (by rw [this]; exact h)]
      push Not at h
      simp [h.1, h.2]

theorem polyN (i : Nat) (hi : i ∈ [0, 1, 2, 3, 4, 11, 12, 13, 14, 15]) : (wedgePoly i).pts = (wedge i).pts.map c3 ∧
    (wedgePoly i).tri = (List.range ((wedge i).pts.length - 2)).map fun k => ((wedge i).pts.length - 1, k, k + 1) :=
  ⟨(poly_spec (wedge_ok i hi)).2.1, (poly_spec (wedge_ok i hi)).2.2.2⟩

/-- The point looked for. -/
noncomputable def wedgePoint : Vec3 ℝ := ⟨3, 1, 1 / 2⟩

/-- The planes of the polygons. -/
def wedgeE (i : Nat) : ℤ := [0, 10, 0, 20, 0, 0, 0, 0, 0, 0, 0, 0, 10, 0, 15, 0].getD i 0

theorem wedge_flat : ∀ i ∈ [0, 1, 2, 3, 4, 11, 12, 13, 14, 15], gFlat (wedge i) (wedgeE i) ∧
    (∀ p ∈ (wedge i).pts, p.1 ≤ 4) ∧ ∀ p ∈ (wedge i).pts, gdot p p ≤ 36 := by decide +kernel

/-- The wall that the rays from the point meet. -/
theorem wedge_wall : (wedgePoly 3).pts = [⟨4, 0, 0⟩, ⟨4, 3, 0⟩, ⟨4, 3, 2⟩, ⟨4, 0, 2⟩] ∧
    (wedgePoly 3).tri = [(3, 0, 1), (3, 1, 2)] := by
  obtain ⟨h1, h2⟩ := polyN 3 (by decide)
  refine ⟨?_, by rw [h2]; rfl⟩
  rw [h1]
  show [c3 (4, 0, 0), c3 (4, 3, 0), c3 (4, 3, 2), c3 (4, 0, 2)] = _
  simp [c3]

/-- The ray of the code comes to no other polygon. -/
theorem wedge_misses (i : Nat) (hi : i ∈ [0, 1, 2, 3, 4, 11, 12, 13, 14, 15]) (h3 : i ≠ 3) :
    RayMisses (wedgePoly i) (wedge i).v (wedgeE i / (wedge i).m) wedgePoint rayDir (1 / 10 ^ 4 * 6 + 1 / 10 ^ 7) := by
  obtain ⟨k, hk, hdir⟩ := rayDir_eq
  have hok := wedge_ok i hi
  have hm : (0 : ℝ) < (wedge i).m := by exact_mod_cast hok.1
  intro s hs hpl ⟨y, hy, hn⟩
  have hpl' : Vec3.dot (c3 (wedge i).n) (wedgePoint + s • rayDir) = wedgeE i := by
    rw [v_smul hok, Vec3.dot_smul_left, hpl]
    field_simp
  have hx := region_x hok (wedge_flat i hi).2.1 hy
  have hxd : (wedgePoint + s • rayDir).x - y.x ≤ 1 / 10 ^ 4 * 6 + 1 / 10 ^ 7 := by
    refine le_trans ?_ hn
    refine le_trans (le_abs_self _) (Vec3.le_norm_of_sq ?_)
    rw [sq_abs]
    simp only [Vec3.normSq, Vec3.dot, Vec3.sub_x, Vec3.sub_y, Vec3.sub_z]
    nlinarith [mul_self_nonneg ((wedgePoint + s • rayDir).y - y.y), mul_self_nonneg ((wedgePoint + s • rayDir).z - y.z)]
  have ht : 0 ≤ s * k := mul_nonneg hs (by linarith)
  rw [hdir] at hpl' hxd
  simp only [Vec3.dot, c3, wedgePoint, Vec3.add_x, Vec3.add_y, Vec3.add_z, Vec3.smul_x, Vec3.smul_y, Vec3.smul_z] at hpl' hxd
  rw [← mul_assoc] at hxd
  rw [← mul_assoc, ← mul_assoc, ← mul_assoc] at hpl'
  generalize s * k = t at *
  simp only [List.mem_cons, List.not_mem_nil, or_false] at hi
  push_cast at hx
  rcases hi with rfl | rfl | rfl | rfl | rfl | rfl | rfl | rfl | rfl | rfl
  case inr.inr.inr.inl => exact h3 rfl
  all_goals
    norm_num [wedge, wedgeE] at hpl'
    linarith

theorem wedge_hits : RayHits (wedgePoly 3) wedgePoint rayDir := by
  obtain ⟨k, hk, hdir⟩ := rayDir_eq
  have hk0 : k ≠ 0 := by linarith
  obtain ⟨hp, ht⟩ := wedge_wall
  have hy : wedgePoint + (1000 / (739 * k)) • rayDir = (⟨4, 978 / 739, 965 / 1478⟩ : Vec3 ℝ) := by
    rw [hdir, wedgePoint]
    ext
    · simp only [Vec3.add_x, Vec3.smul_x]; field_simp; norm_num
    · simp only [Vec3.add_y, Vec3.smul_y]; field_simp; norm_num
    · simp only [Vec3.add_z, Vec3.smul_z]; field_simp; norm_num
  refine ⟨1000 / (739 * k), by positivity, [], (3, 0, 1), [(3, 1, 2)], by rw [ht]; rfl, ?_, ?_⟩
  · rw [hp, hy]
    refine ⟨⟨4, 0, 2⟩, ⟨4, 0, 0⟩, ⟨4, 3, 0⟩, rfl, rfl, rfl, ⟨965 / 2956, 1 - 965 / 2956 - 326 / 739, 326 / 739, by norm_num,
      by norm_num, by norm_num, by norm_num, ?_⟩, 4, ?_, ?_, ?_, ?_, ?_, ?_⟩
    · ext <;> simp <;> norm_num
    · exact Vec3.norm_le_of_sq (by norm_num) (by norm_num [Vec3.normSq, Vec3.dot])
    · exact Vec3.norm_le_of_sq (by norm_num) (by norm_num [Vec3.normSq, Vec3.dot])
    · exact Vec3.norm_le_of_sq (by norm_num) (by norm_num [Vec3.normSq, Vec3.dot])
    all_goals
      intro t
      rw [max_eq_right (by norm_num)]
      apply Vec3.le_norm_of_sq
      simp only [Vec3.normSq, Vec3.dot, Vec3.sub_x, Vec3.sub_y, Vec3.sub_z, Vec3.add_x, Vec3.add_y, Vec3.add_z, Vec3.smul_x,
        Vec3.smul_y, Vec3.smul_z]
    · nlinarith [sq_nonneg (t - 1)]
    · nlinarith [mul_self_nonneg (978 / 739 - t * 3)]
    · nlinarith [sq_nonneg (t - 1 / 2)]
  · intro t' ht' hin
    simp only [List.nil_append, List.mem_singleton] at ht'
    subst ht'
    rw [hp, hy] at hin
    obtain ⟨a, b, c, ha, hb, hc, r, s, q, hr, hs, hq, hsum, he⟩ := hin
    simp only [List.getElem?_cons_succ, List.getElem?_cons_zero, Option.some.injEq] at ha hb hc
    subst ha hb hc
    have e2 := congrArg Vec3.y he
    have e3 := congrArg Vec3.z he
    simp at e2 e3
    linarith

/-- The hypotheses of `C104_locate_partial` hold for the point. -/
theorem wedge_good (s : Nat) (hs : IsSolidOf (exec wedgeOps) 23 s) :
    GoodPoint (solidAt (exec wedgeOps) wedgePoly s) wedgePoint 6 := by
  have hids : ∀ F ∈ facesOf (solidAt (exec wedgeOps) wedgePoly s), ∃ i ∈ [0, 1, 2, 3, 4, 11, 12, 13, 14, 15], F = wedgePoly i := by
    intro F hF
    rw [facesOf_solidAt] at hF
    obtain ⟨i, hi, rfl⟩ := List.mem_map.1 hF
    refine ⟨i, ?_, rfl⟩
    rcases (wedge_solid s).1 hs with rfl | rfl
    · rw [wedge_ids1] at hi; clear hF; revert i; decide
    · rw [wedge_ids2] at hi; clear hF; revert i; decide
  refine ⟨fun F hF p hp => ?_, fun F hF => ?_, fun F hF => ?_⟩ <;> obtain ⟨i, hi, rfl⟩ := hids F hF
  · rw [(polyN i hi).1] at hp
    obtain ⟨q, hq, rfl⟩ := List.mem_map.1 hp
    refine Vec3.norm_le_of_sq (by norm_num) ?_
    have := (wedge_flat i hi).2.2 q hq
    rw [show Vec3.normSq (c3 q) = (gdot q q : ℤ) from dot_c3 q q]
    exact_mod_cast this
  · have hok := wedge_ok i hi
    refine ⟨by rw [(polyN i hi).1]; exact convex_spans (convex_c3 hok), _, _, _, face_n hok (wedge_flat i hi).1, ?_, ?_⟩
    · obtain ⟨k, hk, hdir⟩ := rayDir_eq
      rw [hdir]
      have : Vec3.dot (wedge i).v ⟨k * (739 / 1000), k * (239 / 1000), k * (113 / 1000)⟩ =
          k * Vec3.dot (wedge i).v ⟨739 / 1000, 239 / 1000, 113 / 1000⟩ := by simp only [Vec3.dot]; ring
      rw [this, abs_mul, abs_of_nonneg (by linarith)]
      have h2 : GEOM_ATOL ≤ |Vec3.dot (wedge i).v ⟨739 / 1000, 239 / 1000, 113 / 1000⟩| := by
        simp only [List.mem_cons, List.not_mem_nil, or_false] at hi
        rcases hi with rfl | rfl | rfl | rfl | rfl | rfl | rfl | rfl | rfl | rfl <;>
          norm_num [wedge, GPoly.v, Vec3.dot, GEOM_ATOL, abs_of_neg, abs_of_pos]
      exact h2.trans (le_mul_of_one_le_left (abs_nonneg _) hk)
    · by_cases h3 : i = 3
      · subst h3; exact .inl wedge_hits
      · exact .inr (wedge_misses i hi h3)
  · rintro ⟨y, hy, hn⟩
    have h1 := region_n (wedge_ok i hi) (wedge_flat i hi).1 hy
    have hsq : Vec3.normSq (wedgePoint - y) ≤ (1 / 10 ^ 4 * 6 + 2 / 10 ^ 7) ^ 2 := by
      rw [← Vec3.norm_sq]
      exact pow_le_pow_left₀ (Vec3.norm_nonneg _) hn 2
    simp only [Vec3.normSq, Vec3.dot, Vec3.sub_x, Vec3.sub_y, Vec3.sub_z, wedgePoint] at hsq
    have c1 : |3 - y.x| ≤ 1 / 1000 := abs_le_of_sq_le_sq (by nlinarith [mul_self_nonneg (1 - y.y), mul_self_nonneg (1 / 2 - y.z)]) (by norm_num)
    have c2 : |1 - y.y| ≤ 1 / 1000 := abs_le_of_sq_le_sq (by nlinarith [mul_self_nonneg (3 - y.x), mul_self_nonneg (1 / 2 - y.z)]) (by norm_num)
    have c3 : |1 / 2 - y.z| ≤ 1 / 1000 := abs_le_of_sq_le_sq (by nlinarith [mul_self_nonneg (3 - y.x), mul_self_nonneg (1 - y.y)]) (by norm_num)
    rw [abs_le] at c1 c2 c3
    simp only [List.mem_cons, List.not_mem_nil, or_false] at hi
    rcases hi with rfl | rfl | rfl | rfl | rfl | rfl | rfl | rfl | rfl | rfl <;>
      norm_num [wedge, wedgeE, Vec3.dot, Grid3.c3] at h1 <;> linarith [c1.1, c1.2, c2.1, c2.2, c3.1, c3.2]

/-- The ray along the first axis comes to the wall of the first room only. -/
theorem wedge_ray (i : Nat) (hi : i ∈ [0, 1, 2, 3, 4, 11, 12, 13, 14, 15]) {s : ℝ} (hs : 0 ≤ s)
    (hr : Region (wedgePoly i).pts (wedgePoly i).tri (wedgePoint + s • (⟨1, 0, 0⟩ : Vec3 ℝ))) : i = 3 ∧ s = 1 := by
  have h1 := region_n (wedge_ok i hi) (wedge_flat i hi).1 hr
  simp only [List.mem_cons, List.not_mem_nil, or_false] at hi
  rcases hi with rfl | rfl | rfl | rfl | rfl | rfl | rfl | rfl | rfl | rfl <;>
    norm_num [wedge, wedgeE, Vec3.dot, Grid3.c3, wedgePoint] at h1 <;>
    first | linarith | exact ⟨rfl, by linarith⟩

theorem wedge_triangles : trianglesOf (wedgePoly 3).pts (wedgePoly 3).tri =
    [(⟨4, 0, 2⟩, ⟨4, 0, 0⟩, ⟨4, 3, 0⟩), (⟨4, 0, 2⟩, ⟨4, 3, 0⟩, ⟨4, 3, 2⟩)] := by
  rw [wedge_wall.1, wedge_wall.2]
  rfl

theorem wedge_enclosed (s : Nat) (hs : IsSolidOf (exec wedgeOps) 23 s) :
    Enclosed (facets (solidAt (exec wedgeOps) wedgePoly s)) wedgePoint ↔ s = 10 := by
  classical
  have hids : ∀ i ∈ leafIds (exec wedgeOps) 2 s, i ∈ [0, 1, 2, 3, 4, 11, 12, 13, 14, 15] := by
    rcases (wedge_solid s).1 hs with rfl | rfl
    · rw [wedge_ids1]; decide
    · rw [wedge_ids2]; decide
  have hp : wedgePoint + (1 : ℝ) • (⟨1, 0, 0⟩ : Vec3 ℝ) = (⟨4, 1, 1 / 2⟩ : Vec3 ℝ) := by
    rw [wedgePoint]; ext <;> norm_num
  have hmem : ∀ t ∈ facets (solidAt (exec wedgeOps) wedgePoly s), ∀ σ : ℝ, 0 ≤ σ →
      InTriangle t.1 t.2.1 t.2.2 (wedgePoint + σ • (⟨1, 0, 0⟩ : Vec3 ℝ)) → σ = 1 ∧
      (t = (⟨4, 0, 2⟩, ⟨4, 0, 0⟩, ⟨4, 3, 0⟩) ∨ t = (⟨4, 0, 2⟩, ⟨4, 3, 0⟩, ⟨4, 3, 2⟩)) := by
    intro t ht σ hσ hin
    unfold facets at ht
    rw [facesOf_solidAt] at ht
    obtain ⟨Q, hQ, ht⟩ := List.mem_flatMap.1 ht
    obtain ⟨i, hi, rfl⟩ := List.mem_map.1 hQ
    obtain ⟨t', htm, ha, hb, hc⟩ := mem_trianglesOf.1 (show (t.1, t.2.1, t.2.2) ∈ _ from ht)
    obtain ⟨rfl, h1⟩ := wedge_ray i (hids i hi) hσ ⟨t', htm, _, _, _, ha, hb, hc, hin⟩
    rw [wedge_triangles] at ht
    exact ⟨h1, by simpa using ht⟩
  -- the point of the wall
  have hin1 : InsideTriangle (⟨4, 0, 2⟩ : Vec3 ℝ) ⟨4, 0, 0⟩ ⟨4, 3, 0⟩ ⟨4, 1, 1 / 2⟩ :=
    ⟨1 / 4, 5 / 12, 1 / 3, by norm_num, by norm_num, by norm_num, by norm_num, by ext <;> norm_num⟩
  have hout2 : ¬ InTriangle (⟨4, 0, 2⟩ : Vec3 ℝ) ⟨4, 3, 0⟩ ⟨4, 3, 2⟩ ⟨4, 1, 1 / 2⟩ := by
    rintro ⟨r, q, p, hr, hq, hp, hsum, he⟩
    have e2 := congrArg Vec3.y he
    have e3 := congrArg Vec3.z he
    simp at e2 e3
    linarith
  have hoff : OffSurface (facets (solidAt (exec wedgeOps) wedgePoly s)) wedgePoint := by
    intro t ht hin
    have := (hmem t ht 0 le_rfl (by rw [zero_smul, add_zero]; exact hin)).1
    norm_num at this
  have hclear : ClearRay (facets (solidAt (exec wedgeOps) wedgePoly s)) wedgePoint ⟨1, 0, 0⟩ := by
    refine ⟨fun h => by simpa using congrArg Vec3.x h, fun t ht σ hσ => ?_⟩
    have key : InTriangle t.1 t.2.1 t.2.2 (wedgePoint + σ • (⟨1, 0, 0⟩ : Vec3 ℝ)) →
        ¬ OnSegment t.1 t.2.1 (wedgePoint + σ • (⟨1, 0, 0⟩ : Vec3 ℝ)) ∧
        ¬ OnSegment t.2.1 t.2.2 (wedgePoint + σ • (⟨1, 0, 0⟩ : Vec3 ℝ)) ∧
        ¬ OnSegment t.2.2 t.1 (wedgePoint + σ • (⟨1, 0, 0⟩ : Vec3 ℝ)) := by
      intro hin
      obtain ⟨rfl, rfl | rfl⟩ := hmem t ht σ hσ hin
      · rw [hp]
        refine ⟨?_, ?_, ?_⟩ <;> rintro ⟨q, h0, h1, he⟩ <;>
          (have e2 := congrArg Vec3.y he; have e3 := congrArg Vec3.z he; simp at e2 e3; try linarith)
      · rw [hp] at hin
        exact absurd hin hout2
    refine ⟨fun h => (key ?_).1 h, fun h => (key ?_).2.1 h, fun h => (key ?_).2.2 h⟩
    · exact segment_in h
    · obtain ⟨q, h0, h1, he⟩ := h
      exact ⟨0, 1 - q, q, le_rfl, by linarith, h0, by ring, by rw [he]; ext <;> simp <;> ring⟩
    · obtain ⟨q, h0, h1, he⟩ := h
      exact ⟨q, 0, 1 - q, h0, le_rfl, by linarith, by ring, by rw [he]; ext <;> simp <;> ring⟩
  have hface : ∀ F ∈ facesOf (solidAt (exec wedgeOps) wedgePoly s), FromFlat F := by
    rw [facesOf_solidAt]
    intro F hF
    obtain ⟨i, hi, rfl⟩ := List.mem_map.1 hF
    have hok := wedge_ok i (hids i hi)
    obtain ⟨h1, h2, h3, -⟩ := poly_spec hok
    obtain ⟨e, he⟩ := ConvexEars.convex_flat (convex_c3 hok)
    exact ⟨_, _, _, h1, h3, fun p hp q hq => (he p hp).trans (he q hq).symm⟩
  rw [enclosed_of_ray hface (wedge_shapes.2 s hs) hoff hclear]
  have zero : ∀ i ∈ [0, 1, 2, 3, 4, 11, 12, 13, 14, 15], i ≠ 3 →
      Spec.crossings (trianglesOf (wedgePoly i).pts (wedgePoly i).tri) wedgePoint ⟨1, 0, 0⟩ = 0 := by
    intro i hi h3
    unfold Spec.crossings
    rw [List.countP_eq_zero]
    intro t ht hcr
    obtain ⟨σ, hσ, hin⟩ := of_decide_eq_true hcr
    obtain ⟨t', htm, ha, hb, hc⟩ := mem_trianglesOf.1 (show (t.1, t.2.1, t.2.2) ∈ _ from ht)
    exact h3 (wedge_ray i hi hσ.le ⟨t', htm, _, _, _, ha, hb, hc, inside_in hin⟩).1
  have one : Spec.crossings (trianglesOf (wedgePoly 3).pts (wedgePoly 3).tri) wedgePoint ⟨1, 0, 0⟩ = 1 := by
    rw [wedge_triangles]
    unfold Spec.crossings
    have h1 : Crosses wedgePoint ⟨1, 0, 0⟩ ((⟨4, 0, 2⟩ : Vec3 ℝ), (⟨4, 0, 0⟩ : Vec3 ℝ), (⟨4, 3, 0⟩ : Vec3 ℝ)) :=
      ⟨1, one_pos, by rw [hp]; exact hin1⟩
    rw [List.countP_cons, List.countP_cons, List.countP_nil, if_pos (decide_eq_true h1), if_neg]
    intro hcr
    obtain ⟨σ, hσ, hin⟩ := of_decide_eq_true hcr
    have hσ1 : σ = 1 := by
      obtain ⟨r, q, p, hr, hq, hp, hsum, he⟩ := hin
      have e1 := congrArg Vec3.x he
      simp [wedgePoint] at e1
      linarith
    rw [hσ1, hp] at hin
    exact hout2 (inside_in hin)
  rcases (wedge_solid s).1 hs with rfl | rfl
  · unfold facets
    rw [facesOf_solidAt, wedge_ids1]
    simp only [List.map_cons, List.map_nil, List.flatMap_cons, List.flatMap_nil, crossings_append, one,
      zero 0 (by decide) (by decide), zero 1 (by decide) (by decide), zero 2 (by decide) (by decide), zero 4 (by decide) (by decide)]
    simp [Spec.crossings]
  · unfold facets
    rw [facesOf_solidAt, wedge_ids2]
    simp only [List.map_cons, List.map_nil, List.flatMap_cons, List.flatMap_nil, crossings_append,
      zero 11 (by decide) (by decide), zero 12 (by decide) (by decide), zero 13 (by decide) (by decide),
      zero 14 (by decide) (by decide), zero 15 (by decide) (by decide)]
    simp [Spec.crossings]

/-- The point is found in the first room, whichever room is looked at first. -/
theorem C104_wedge_located (parseInt : Str → Option Int) (hints : List Nat)
    (hh : ∀ i ∈ hints, IsSolidOf (exec wedgeOps) 23 i) :
    findLocation parseInt (exec wedgeOps) (geoInside (exec wedgeOps) wedgePoly wedgePoint) 23
      (hints.map (path (exec wedgeOps))) = .ok "b/z/r0".toList := by
  obtain ⟨B, hb, hk, hn⟩ := wedge_building
  have hs10 : IsSolidOf (exec wedgeOps) 23 10 := (wedge_solid 10).2 (.inl rfl)
  have := (C104_locate_partial parseInt wedgeOps wedgeOps_linear 23 B hb hk hn wedgePoly
    (fun s hs => ⟨wedge_shapes.2 s hs, by
      rw [facesOf_solidAt]
      rcases (wedge_solid s).1 hs with rfl | rfl
      · rw [wedge_ids1]; simp
      · rw [wedge_ids2]; simp⟩) wedgePoint (fun s hs => ⟨6, wedge_good s hs⟩) hints hh).2.2.2 10
    ⟨hs10, (wedge_enclosed 10 hs10).2 rfl⟩ fun j hj => (wedge_enclosed j hj.1).1 hj.2
  rw [this, show path (exec wedgeOps) 10 = "b/z/r0".toList by decide +kernel]

/-- The point is enclosed by the surface of the zone. -/
theorem wedge_zone_enclosed : Enclosed (zoneSurface (exec wedgeOps) 23 wedgePoly 22) wedgePoint := by
  obtain ⟨B, hb, hk, -⟩ := wedge_building
  have c : BCtx (exec wedgeOps) 23 B := BCtx.of_ops wedgeOps_linear hb hk
  have hz : IsZoneOf (exec wedgeOps) 23 22 := (wedge_zone 22).2 rfl
  have hs10 : IsSolidOf (exec wedgeOps) 23 10 ∧ Within (exec wedgeOps) 22 10 := (mem_zone_solids c hz).1 (by decide +kernel)
  refine (C105_rooms wedgeOps wedgeOps_linear 23 B hb hk wedgePoly wedge_shapes.1 wedge_shapes.2 22 hz wedgePoint
    (fun i hi hzi hr => ?_) (fun s t hs ht _ _ h1 h2 => ((wedge_enclosed s hs).1 h1).trans ((wedge_enclosed t ht).1 h2).symm)).2
    ⟨10, hs10.1, hs10.2, (wedge_enclosed 10 hs10.1).2 rfl⟩
  have hi' := (isPolygonOf_iff c i).2 hi
  rw [wedge_ids] at hi'
  have := (wedge_ray i hi' le_rfl (by rw [zero_smul, add_zero]; exact hr)).2
  norm_num at this

/-- The hypotheses of the theorems about the simulation hold. -/
example (parseInt : Str → Option Int) (setIter : List Nat → List Nat) (hset : IteratesSet setIter) (c : SimArgs)
    (hvox : c.voxelSize = 1 / 10) (hspeed : c.raySpeed = 343) (htime : c.timeStep = 1 / 10 ^ 4) :
    ∃ p, simParams parseInt setIter (exec wedgeOps) wedgePoly [] 23 c = .ok p ∧
      (c.searchTransparent = true → (4 : Int) ∈ p.trans ∧ (7 : Int) ∈ p.trans ∧ (3 : Int) ∉ p.trans) := by
  obtain ⟨B, hb, hk, -⟩ := wedge_building
  have cx : BCtx (exec wedgeOps) 23 B := BCtx.of_ops wedgeOps_linear hb hk
  have hin : ∀ i ∈ [0, 1, 2, 3, 4, 11, 12, 13, 14, 15], IsPolygonOf (exec wedgeOps) 23 i := by
    intro i hi
    rw [← isPolygonOf_iff cx, wedge_ids]
    exact hi
  obtain ⟨p, h1, -, -, -, -, -, -, -, -, -, -, -, h2⟩ := C105_prepared parseInt setIter hset wedgeOps wedgeOps_linear 23 B hb hk
    wedgePoly wedge_shapes.1 ⟨0, hin 0 (by decide)⟩ [] rfl c (by rw [hvox]; norm_num) (by rw [hspeed]; norm_num)
    (by rw [htime]; norm_num)
  refine ⟨p, h1, fun hc => ⟨(h2 4).2 ⟨hc, 4, ?_, (wedge_otherSide 4 (hin 4 (by decide))).2 (.inl rfl)⟩,
    (h2 7).2 ⟨hc, 13, ?_, (wedge_otherSide 13 (hin 13 (by decide))).2 (.inr rfl)⟩, fun h => ?_⟩⟩
  · rw [wedge_ids]; rfl
  · rw [wedge_ids]; rfl
  · obtain ⟨-, i, hi, ho⟩ := (h2 3).1 h
    rw [wedge_ids] at hi
    simp only [List.getElem?_cons_succ, List.getElem?_cons_zero, Option.some.injEq] at hi
    subst hi
    have := (wedge_otherSide 3 (hin 3 (by decide))).1 ho
    omega

end B3d.Hier
