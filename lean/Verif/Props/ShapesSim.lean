import Verif.Props.ShapesSurface
import Verif.Props.SavedArrays

/-!
# C105: rays in a building with rooms of any shape
-/

namespace B3d.Hier

open Polygon Spec Solids Sim ArrayFormat Enclose

variable {P : Type}

/-- The surfaces of all solids are closed. -/
def AllClosed (h : Heap P) (b : Nat) (poly : Polys) : Prop :=
  ∀ s, IsSolidOf h b s → Closed ((facesOf (solidAt h poly s)).map Poly.pts)

/-- **C105, the surface of a zone.**  In a building of rooms of any shape with closed surfaces, the polygons of a zone whose
other side is not in the zone form a surface which separates the inside of the zone from the outside: a segment from a point
enclosed by it (or on it) to a point which is not meets one of these polygons.  A point off the polygons of the zone is
enclosed by it exactly if it is enclosed by an odd number of solids of the zone. -/
theorem C105_surface (ops : List (Op P)) (hl : LinearFrom [] ops) (b : Nat) (B : Obj P) (hb : (exec ops)[b]? = some B)
    (hk : B.kind = .building) (poly : Polys) (R : Shapes (exec ops) b poly) (hcl : AllClosed (exec ops) b poly)
    (z : Nat) (hz : IsZoneOf (exec ops) b z) :
    let h := exec ops
    let F := zoneSurface h b poly z
    (∀ x y, InOrOn F x → ¬ InOrOn F y → ∃ i u, IsPolygonOf h b i ∧ Within h z i ∧ ¬ OtherSide h b poly i ∧ OnSegment x y u ∧
      Region (poly i).pts (poly i).tri u) ∧
    ∀ x, (∀ i, IsPolygonOf h b i → Within h z i → ¬ Region (poly i).pts (poly i).tri x) →
      OffSurface F x ∧
      (Enclosed F x ↔ Odd {s | IsSolidOf h b s ∧ Within h z s ∧ Enclosed (facets (solidAt h poly s)) x}.ncard) := by
  intro h F
  have c : BCtx h b B := BCtx.of_ops hl hb hk
  refine ⟨fun x y hx hy => ?_, fun x hx => ⟨?_, zone_parity R c hcl hz hx⟩⟩
  · obtain ⟨Q, hQ, u, hu, hreg⟩ := closes_of_closed (zone_closed R c hcl hz) (outer_face R c hz) hx hy
    obtain ⟨i, hi, rfl⟩ := List.mem_map.1 hQ
    obtain ⟨h1, h2⟩ := List.mem_filter.1 hi
    obtain ⟨h3, h4⟩ := (mem_zone_polys c hz).1 h1
    exact ⟨i, u, h3, h4, by simpa using h2, hu, hreg⟩
  · refine off_facetsOf.2 fun Q hQ => ?_
    obtain ⟨i, hi, rfl⟩ := List.mem_map.1 hQ
    obtain ⟨h3, h4⟩ := (mem_zone_polys c hz).1 (List.mem_filter.1 hi).1
    exact hx i h3 h4

/-- **C105, zones of rooms that do not overlap.**  If no point off the polygons is enclosed by two solids of the zone, the surface
of the zone encloses exactly the points which one of its solids encloses. -/
theorem C105_rooms (ops : List (Op P)) (hl : LinearFrom [] ops) (b : Nat) (B : Obj P) (hb : (exec ops)[b]? = some B)
    (hk : B.kind = .building) (poly : Polys) (R : Shapes (exec ops) b poly) (hcl : AllClosed (exec ops) b poly)
    (z : Nat) (hz : IsZoneOf (exec ops) b z) (x : Vec3 ℝ)
    (hx : ∀ i, IsPolygonOf (exec ops) b i → Within (exec ops) z i → ¬ Region (poly i).pts (poly i).tri x)
    (hdis : ∀ s t, IsSolidOf (exec ops) b s → IsSolidOf (exec ops) b t → Within (exec ops) z s → Within (exec ops) z t →
      Enclosed (facets (solidAt (exec ops) poly s)) x → Enclosed (facets (solidAt (exec ops) poly t)) x → s = t) :
    let h := exec ops
    Enclosed (zoneSurface h b poly z) x ↔
      ∃ s, IsSolidOf h b s ∧ Within h z s ∧ Enclosed (facets (solidAt h poly s)) x := by
  intro h
  rw [((C105_surface ops hl b B hb hk poly R hcl z hz).2 x hx).2]
  by_cases hne : ∃ s, IsSolidOf h b s ∧ Within h z s ∧ Enclosed (facets (solidAt h poly s)) x
  · obtain ⟨s, h1, h2, h3⟩ := hne
    have : {s | IsSolidOf h b s ∧ Within h z s ∧ Enclosed (facets (solidAt h poly s)) x} = {s} := by
      ext t
      simp only [Set.mem_ofPred_eq, Set.mem_singleton_iff]
      constructor
      · rintro ⟨a1, a2, a3⟩
        exact hdis t s a1 h1 a2 h2 a3 h3
      · rintro rfl
        exact ⟨h1, h2, h3⟩
    rw [this, Set.ncard_singleton]
    exact ⟨fun _ => ⟨s, h1, h2, h3⟩, fun _ => odd_one⟩
  · have : {s | IsSolidOf h b s ∧ Within h z s ∧ Enclosed (facets (solidAt h poly s)) x} = ∅ := by
      ext t
      simp only [Set.mem_ofPred_eq, Set.mem_empty_iff_false, iff_false]
      exact fun ht => hne ⟨t, ht⟩
    rw [this, Set.ncard_empty]
    exact ⟨fun h => absurd h (by decide), fun h => absurd h hne⟩

theorem _root_.B3d.Solids.Face.flatPoly {Q : Poly} {v w : Vec3 ℝ} {e : ℝ} (h : Face Q v w e) : FlatPoly Q v e w :=
  ⟨h.new, h.vn, h.plane, h.corner⟩

/-- **C105, the simulation can be prepared**, and its transparent polygons are the ones whose other side is a polygon of the
same zone. -/
theorem C105_prepared (parseInt : Str → Option Int) (setIter : List Nat → List Nat) (hset : IteratesSet setIter)
    (ops : List (Op P)) (hl : LinearFrom [] ops) (b : Nat) (B : Obj P) (hb : (exec ops)[b]? = some B)
    (hk : B.kind = .building) (poly : Polys) (R : Shapes (exec ops) b poly) (hne : ∃ i, IsPolygonOf (exec ops) b i)
    (cache : List (Nat × List Str)) (hcache : cache.lookup b = none) (c : SimArgs) (hvox : 0 < c.voxelSize)
    (hspeed : 0 ≤ c.raySpeed) (htime : 0 < c.timeStep) :
    let h := exec ops
    let ids := leafIds h 4 b
    ∃ p, simParams parseInt setIter h poly cache b c = .ok p ∧
      getPolygonPaths h b = .ok (ids.map (path h)) ∧ (∀ i, i ∈ ids ↔ IsPolygonOf h b i) ∧
      p.geo = geoOf (ids.map poly) ∧ Scene p ((ids.map poly).map Poly.pts) ∧
      p.raySpeed = c.raySpeed ∧ p.timeStep = c.timeStep ∧ p.gridStep = c.voxelSize ∧ p.absorbers = c.absorbers ∧
      p.absorberRadius = c.absorberRadius ∧ (∀ k, p.absorption k = c.defaultAbsorption) ∧ p.eps = 1 / 10 ^ 6 ∧
      ∀ k : Nat, (k : Int) ∈ p.trans ↔ c.searchTransparent = true ∧ ∃ i, ids[k]? = some i ∧ OtherSide h b poly i := by
  intro h ids
  have cx : BCtx h b B := BCtx.of_ops hl hb hk
  obtain ⟨l, hl1, hl2⟩ := C104_transparent_partial ops hl b B hb hk poly R cache hcache
  obtain ⟨p, h1, h2, -, h4, h5, h6, h7, h8, h9, h10, h11, h12, h13, h14, h15, h16, h17⟩ := C93_setup parseInt setIter ops hl b B
    hb hk poly cache c hvox hne (by
      intro i hi
      refine ⟨R.ne hi, ?_⟩
      obtain ⟨v, w, e, hf⟩ := R.face i hi
      obtain ⟨pts, vn, hn⟩ := hf.new
      exact Files.made_uses hn) l fun _ => ⟨hl1, fun s hs => by
        obtain ⟨i, -, -, hi, hp, -⟩ := (hl2 s).1 hs
        exact ⟨i, hi, hp⟩⟩
  refine ⟨p, h1, h4, h2, h5, ⟨⟨1 / 10 ^ 4, by norm_num, by rw [h11]; exact h8⟩, h7, by rw [h16]; exact hset, ?_, by rw [h11]; exact hvox,
    by rw [h9]; exact hspeed, by rw [h10]; exact htime, by rw [h15]; norm_num⟩, h9, h10, h11, h12, h13, h14, h15, fun k => ?_⟩
  · intro k
    rw [h5]
    apply geoOf_normals
    intro Q hQ
    obtain ⟨i, hi, rfl⟩ := List.mem_map.1 hQ
    obtain ⟨v, w, e, hf⟩ := R.face i ((h2 i).1 hi)
    exact ⟨_, hf.corner⟩
  · rw [h17]
    refine and_congr_right fun _ => exists_congr fun i => and_congr_right fun hi => ?_
    have hiP := (h2 i).1 (List.mem_of_getElem? hi)
    rw [hl2]
    constructor
    · rintro ⟨i', j, z, hi', hp, hj, hne, he, ⟨o, ho, hko⟩, hz, hzi, hzj⟩
      have := cx.path_inj hi'.1 hiP.1 hp
      subst this
      exact ⟨j, z, hj, hne, he, ⟨hz, o, ho, hko⟩, hzi, hzj⟩
    · rintro ⟨j, z, hj, hne, he, ⟨hz, o, ho, hko⟩, hzi, hzj⟩
      exact ⟨i, j, z, hiP, rfl, hj, hne, he, ⟨o, ho, hko⟩, hz, hzi, hzj⟩

/-- What is common to `C105_zone_partial` and `C105_room_partial`. -/
theorem stays_in {p : Params ℝ} {h : Heap P} {b : Nat} {B : Obj P} (cx : BCtx h b B) {poly : Polys}
    (R : Shapes h b poly) (hgeo : p.geo = geoOf ((leafIds h 4 b).map poly))
    (hsc : Scene p (((leafIds h 4 b).map poly).map Poly.pts)) (hstep : p.raySpeed * p.timeStep ≤ p.gridStep)
    (In : Vec3 ℝ → Prop) (opq : Nat → Prop)
    (htrans : ∀ k i, (leafIds h 4 b)[k]? = some i → opq i → ((k : Nat) : Int) ∉ p.trans)
    (hcl : ∀ x y, In x → ¬ In y → ∃ i u, IsPolygonOf h b i ∧ opq i ∧ OnSegment x y u ∧ Region (poly i).pts (poly i).tri u)
    (fuel n : Nat) (a : Arrays ℝ) (rows : List (Row ℝ)) (hl : a.hits.length = p.absorbers.length)
    (hv : ∀ r ∈ a.rays, Vec3.norm r.2.1 ≤ p.raySpeed) (hrun : simulationLoop p fuel n a = some rows) (i : Nat)
    (ri rj : Row ℝ) (hi : rows[i]? = some ri) (hj : rows[i + 1]? = some rj) :
    List.Forall₂ (fun x y => In x → ¬ In y →
      ∃ (k : Nat) (w u : Vec3 ℝ), IsPolygonOf h b k ∧ opq k ∧ CornerNormal (poly k).pts w ∧ OnSegment x y u ∧
        Region (poly k).pts (poly k).tri u ∧
        (¬ WellIn (poly k) u ∨ Grazing w ((1 / p.timeStep) • (y - x)) ∨ BeforeSeam (poly k) w x)) ri.pos rj.pos := by
  refine (C82_code_partial hgeo hsc hstep fuel n a rows hl hv hrun i ri rj hi hj).imp ?_
  rintro x y hxy hx hy
  rcases hxy with rfl | hxy
  · exact absurd hx hy
  · obtain ⟨m, u, hmP, ho, hu, hreg⟩ := hcl x y hx hy
    obtain ⟨k, hm⟩ := List.getElem?_of_mem ((isPolygonOf_iff cx m).2 hmP)
    obtain ⟨v, w, e, hf⟩ := R.face m hmP
    exact ⟨m, w, u, hmP, ho, hf.corner, hu, hreg,
      hxy k (poly m) v e w u (by rw [List.getElem?_map, hm]; rfl) (htrans k m hm ho) hf.flatPoly hu hreg⟩

/-- **C105, rays stay in the zone.**  In the simulation of a building of rooms of any shape with closed surfaces, with the
search for transparent polygons, let the step be no longer than a cell.  If the position of a ray is inside the surface of the zone (or on
it) in one row of the buffers and not in the next, then it has passed through a polygon of the zone whose other side is not in
the zone, at a point close to an edge of a triangle, or almost parallel to the polygon, or starting right in front of the edge
between two triangles.  The surface of the zone is described by `C105_surface`.
Missing: in these cases rays can leave (`C82_leak`). -/
theorem C105_zone_partial (parseInt : Str → Option Int) (setIter : List Nat → List Nat) (hset : IteratesSet setIter)
    (ops : List (Op P)) (hl : LinearFrom [] ops) (b : Nat) (B : Obj P) (hb : (exec ops)[b]? = some B)
    (hk : B.kind = .building) (poly : Polys) (R : Shapes (exec ops) b poly) (hcl : AllClosed (exec ops) b poly)
    (hne : ∃ i, IsPolygonOf (exec ops) b i)
    (cache : List (Nat × List Str)) (hcache : cache.lookup b = none) (c : SimArgs) (hvox : 0 < c.voxelSize)
    (hspeed : 0 ≤ c.raySpeed) (htime : 0 < c.timeStep) (hstep : c.raySpeed * c.timeStep ≤ c.voxelSize)
    (z : Nat) (hz : IsZoneOf (exec ops) b z) :
    let h := exec ops
    let In := InOrOn (zoneSurface h b poly z)
    ∃ p, simParams parseInt setIter h poly cache b c = .ok p ∧
      ∀ (fuel n : Nat) (a : Arrays ℝ) (rows : List (Row ℝ)), a.hits.length = c.absorbers.length →
        (∀ r ∈ a.rays, Vec3.norm r.2.1 ≤ c.raySpeed) → simulationLoop p fuel n a = some rows →
        ∀ (i : Nat) (ri rj : Row ℝ), rows[i]? = some ri → rows[i + 1]? = some rj →
        List.Forall₂ (fun x y => In x → ¬ In y → ∃ (k : Nat) (w u : Vec3 ℝ), IsPolygonOf h b k ∧
          (Within h z k ∧ ¬ OtherSide h b poly k) ∧ CornerNormal (poly k).pts w ∧ OnSegment x y u ∧
          Region (poly k).pts (poly k).tri u ∧
          (¬ WellIn (poly k) u ∨ Grazing w ((1 / c.timeStep) • (y - x)) ∨ BeforeSeam (poly k) w x)) ri.pos rj.pos := by
  intro h In
  have cx : BCtx h b B := BCtx.of_ops hl hb hk
  obtain ⟨p, h1, h2, h3, h4, h5, h6, h7, h8, h9, h10, h11, h12, h13⟩ := C105_prepared parseInt setIter hset ops hl b B hb hk poly R
    hne cache hcache c hvox hspeed htime
  refine ⟨p, h1, fun fuel n a rows hla hv hrun i ri rj hi hj => ?_⟩
  have := stays_in cx R h4 h5 (by rw [h6, h7, h8]; exact hstep) In
    (fun k => Within h z k ∧ ¬ OtherSide h b poly k) (by
      rintro k i hki ⟨-, ho⟩
      rw [h13]
      rintro ⟨hs, i', hi', hsh⟩
      rw [hki] at hi'
      cases hi'
      exact ho hsh) (by
      intro x y hx hy
      obtain ⟨i, u, a1, a2, a3, a4, a5⟩ := (C105_surface ops hl b B hb hk poly R hcl z hz).1 x y hx hy
      exact ⟨i, u, a1, ⟨a2, a3⟩, a4, a5⟩)
    fuel n a rows (by rw [h9]; exact hla) (by rw [h6]; exact hv) hrun i ri rj hi hj
  rw [h7] at this
  exact this

/-- **C105 without the search for transparent polygons**: the same for every single room; all polygons are opaque. -/
theorem C105_room_partial (parseInt : Str → Option Int) (setIter : List Nat → List Nat) (hset : IteratesSet setIter)
    (ops : List (Op P)) (hl : LinearFrom [] ops) (b : Nat) (B : Obj P) (hb : (exec ops)[b]? = some B)
    (hk : B.kind = .building) (poly : Polys) (R : Shapes (exec ops) b poly) (hcl : AllClosed (exec ops) b poly)
    (hne : ∃ i, IsPolygonOf (exec ops) b i)
    (cache : List (Nat × List Str)) (hcache : cache.lookup b = none) (c : SimArgs) (hvox : 0 < c.voxelSize)
    (hspeed : 0 ≤ c.raySpeed) (htime : 0 < c.timeStep) (hstep : c.raySpeed * c.timeStep ≤ c.voxelSize)
    (hsearch : c.searchTransparent = false) (s : Nat) (hs : IsSolidOf (exec ops) b s) :
    let h := exec ops
    let In := InOrOn (facets (solidAt h poly s))
    ∃ p, simParams parseInt setIter h poly cache b c = .ok p ∧
      ∀ (fuel n : Nat) (a : Arrays ℝ) (rows : List (Row ℝ)), a.hits.length = c.absorbers.length →
        (∀ r ∈ a.rays, Vec3.norm r.2.1 ≤ c.raySpeed) → simulationLoop p fuel n a = some rows →
        ∀ (i : Nat) (ri rj : Row ℝ), rows[i]? = some ri → rows[i + 1]? = some rj →
        List.Forall₂ (fun x y => In x → ¬ In y → ∃ (k : Nat) (w u : Vec3 ℝ), IsPolygonOf h b k ∧ Within h s k ∧
          CornerNormal (poly k).pts w ∧ OnSegment x y u ∧ Region (poly k).pts (poly k).tri u ∧
          (¬ WellIn (poly k) u ∨ Grazing w ((1 / c.timeStep) • (y - x)) ∨ BeforeSeam (poly k) w x)) ri.pos rj.pos := by
  intro h In
  have cx : BCtx h b B := BCtx.of_ops hl hb hk
  obtain ⟨p, h1, h2, h3, h4, h5, h6, h7, h8, h9, h10, h11, h12, h13⟩ := C105_prepared parseInt setIter hset ops hl b B hb hk poly R
    hne cache hcache c hvox hspeed htime
  refine ⟨p, h1, fun fuel n a rows hla hv hrun i ri rj hi hj => ?_⟩
  have := stays_in cx R h4 h5 (by rw [h6, h7, h8]; exact hstep) In (fun k => Within h s k) (by
      intro k i _ _
      rw [h13, hsearch]
      simp) (by
      intro x y hx hy
      have hfc : ∀ F ∈ facesOf (solidAt h poly s), ∃ v w e, Face F v w e := by
        intro F hF
        rw [facesOf_solidAt] at hF
        obtain ⟨i, hi, rfl⟩ := List.mem_map.1 hF
        exact R.face i (leaf_isPolygonOf cx hs hi)
      obtain ⟨Q, hQ, u, hu, hreg⟩ := closes_of_closed (Fs := facesOf (solidAt h poly s))
        (facets_closed (fun F hF => by obtain ⟨v, w, e, hf⟩ := hfc F hF; exact hf.new) (hcl s hs)) hfc hx hy
      rw [facesOf_solidAt] at hQ
      obtain ⟨i, hi, rfl⟩ := List.mem_map.1 hQ
      obtain ⟨o, ho, hko⟩ := hs.2
      exact ⟨i, u, leaf_isPolygonOf cx hs hi, (within_of_leaf cx.w ho hko hi).1, hu, hreg⟩)
    fuel n a rows (by rw [h9]; exact hla) (by rw [h6]; exact hv) hrun i ri rj hi hj
  rw [h7] at this
  exact this

/-- **C105, rays pass freely between the rooms of a zone.**  In the simulation with the search for transparent polygons, a
ray with energy, within the bounding box of the corners and in no absorber, that is further than the reflection distance
(and the tolerance of the distance) from all polygons whose other side is not in their zone, keeps its velocity and its energy
and moves by one step, whatever other polygons are ahead. -/
theorem C105_passes (parseInt : Str → Option Int) (setIter : List Nat → List Nat) (hset : IteratesSet setIter)
    (ops : List (Op P)) (hl : LinearFrom [] ops) (b : Nat) (B : Obj P) (hb : (exec ops)[b]? = some B)
    (hk : B.kind = .building) (poly : Polys) (R : Shapes (exec ops) b poly) (hne : ∃ i, IsPolygonOf (exec ops) b i)
    (cache : List (Nat × List Str)) (hcache : cache.lookup b = none) (c : SimArgs) (hvox : 0 < c.voxelSize)
    (hspeed : 0 ≤ c.raySpeed) (htime : 0 < c.timeStep) (hsearch : c.searchTransparent = true)
    (M : ℝ) (hM : ∀ i, IsPolygonOf (exec ops) b i → ∀ q ∈ (poly i).pts, Vec3.norm q ≤ M) :
    let h := exec ops
    let corner := fun q => ∃ i, IsPolygonOf h b i ∧ q ∈ (poly i).pts
    ∃ p, simParams parseInt setIter h poly cache b c = .ok p ∧
      ∀ (fuel n : Nat) (a : Arrays ℝ) (l : List (St ℝ)), a.hits.length = c.absorbers.length →
        steps p fuel n (start p a) = some l → ∀ (i : Nat) (s s' : St ℝ), l[i]? = some s → l[i + 1]? = some s' →
        List.Forall₂ (fun r r' => 1 / 10 ^ 6 < r.energy →
          (∀ ax, ∃ q q', corner q ∧ corner q' ∧ coord ax q ≤ coord ax r.pos ∧ coord ax r.pos ≤ coord ax q') →
          Vec3.norm r.pos ≤ M → (∀ q ∈ c.absorbers, c.absorberRadius ^ 2 ≤ Vec3.normSq (r.pos - q)) →
          (∀ k y, IsPolygonOf h b k → ¬ OtherSide h b poly k → Region (poly k).pts (poly k).tri y →
            c.raySpeed * c.timeStep * (101 / 100) + (3 * M / 10 ^ 4 + 1 / 10 ^ 7) < Vec3.norm (r.pos - y)) →
          r'.vel = r.vel ∧ r'.pos = r.pos + c.timeStep • r.vel ∧ r'.energy = r.energy) s.rays s'.rays := by
  intro h corner
  have cx : BCtx h b B := BCtx.of_ops hl hb hk
  obtain ⟨p, h1, h2, h3, h4, h5, h6, h7, h8, h9, h10, h11, h12, h13⟩ := C105_prepared parseInt setIter hset ops hl b B hb hk poly R
    hne cache hcache c hvox hspeed htime
  refine ⟨p, h1, fun fuel n a l hla hst i s s' hs hs' => ?_⟩
  refine (C67_fate fuel n a l h5.eps (by rw [h9]; exact hla) hst i s s' hs hs').imp fun r r' hf he hbox hrM hab hfar => ?_
  rw [← h12] at he
  have far : ∀ k v, OpaqueHit p.geo p.trans r.pos v k → p.reflDist < p.geo.dist r.pos k := by
    rintro k v ⟨ht, hh⟩
    rw [h4] at hh ⊢
    cases hQ : ((leafIds h 4 b).map poly)[k]? with
    | none => exact absurd ((geoOf_hit_none hQ).symm.trans hh) (by decide)
    | some Q =>
      obtain ⟨m, hm, rfl⟩ : ∃ m, (leafIds h 4 b)[k]? = some m ∧ poly m = Q := by
        rw [List.getElem?_map, Option.map_eq_some_iff] at hQ
        exact hQ
      have hmP := (h3 m).1 (List.mem_of_getElem? hm)
      obtain ⟨v', w, e, hface⟩ := R.face m hmP
      obtain ⟨y, hy, hyr⟩ := dist_near hQ hface.flatPoly (hM m hmP) hrM
      have hns : ¬ OtherSide h b poly m := fun hsh => ht ((h13 k).2 ⟨hsearch, m, hm, hsh⟩)
      have := hfar m y hmP hns hy
      unfold Params.reflDist
      rw [h6, h7]
      linarith
  have nochain : ∀ (near : List Nat) (k : Nat) (ks : List Nat), ¬ Sim.Chain p.geo p.trans near p.reflDist r.pos r.vel (k :: ks) := by
    rintro near k ks ⟨hn, hd, -⟩
    exact absurd hd (not_lt.2 (far k _ hn.2.1).le)
  have hnoab : firstAbsorber p.absorberRadius p.absorbers r.pos = none := by
    unfold firstAbsorber
    rw [List.findIdx?_eq_none_iff]
    intro q hq
    rw [h9] at hq
    rw [h10]
    simpa using hab q hq
  have hin : ¬ Outside p.lo p.hi p.eps r.pos := by
    have hc : ∀ v, corner v → p.lo.x ≤ v.x ∧ v.x ≤ p.hi.x ∧ p.lo.y ≤ v.y ∧ v.y ≤ p.hi.y ∧ p.lo.z ≤ v.z ∧ v.z ≤ p.hi.z := by
      rintro v ⟨m, hm, hv⟩
      exact h5.within (poly m).pts (List.mem_map_of_mem (List.mem_map_of_mem ((h3 m).2 hm))) v hv
    have := h5.eps
    obtain ⟨v1, v2, c1, c2, b1, b2⟩ := hbox .x
    obtain ⟨v3, v4, c3, c4, b3, b4⟩ := hbox .y
    obtain ⟨v5, v6, c5, c6, b5, b6⟩ := hbox .z
    have d1 := hc v1 c1; have d2 := hc v2 c2; have d3 := hc v3 c3; have d4 := hc v4 c4
    have d5 := hc v5 c5; have d6 := hc v6 c6
    simp only [coord] at *
    rintro (ho | ho | ho | ho | ho | ho) <;> linarith
  cases hf with
  | rests h0 _ => exact absurd he (not_lt.2 h0)
  | absorbed h0 ha _ _ _ => rw [hnoab] at ha; cases ha
  | lost h0 ha ho _ _ _ => exact absurd ho hin
  | spent ks k h0 ha hi chain _ _ _ _ _ =>
    cases ks with
    | nil => exact absurd chain (nochain _ _ _)
    | cons k' ks => exact absurd chain (nochain _ _ _)
  | moves ks h0 ha hi chain left free hv hp he' =>
    cases ks with
    | nil =>
      have hv : r'.vel = r.vel := hv
      refine ⟨hv, by rw [hp, hv, h7], by simpa using he'⟩
    | cons k ks => exact absurd chain (nochain _ _ _)
  | waits ks k h0 ha hi chain left near dist hv hp he' =>
    cases ks with
    | nil => exact absurd dist (far k _ near.2.1).ne'
    | cons k ks => exact absurd chain (nochain _ _ _)

end B3d.Hier
