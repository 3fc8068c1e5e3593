import Verif.Props.SimSetup
import Verif.Props.RoomsLocate
import Verif.Props.SimFate
import Verif.Proofs.RoomsClosed

/-!
# C94: rays in a building of rooms
-/

namespace B3d.Solids

open Polygon Spec

/-- A box has a face on every side. -/
theorem box_has_face {r : Room} (hr : BoxSize (size r).x (size r).y (size r).z r.lo) {S : SolidG}
    (hS : box (size r).x (size r).y (size r).z r.lo = .ok S) (a : Axis) (f : Bool) : ∃ P ∈ allPolys S, FaceOf r a f P := by
  obtain ⟨⟨P0, P1, P2, P3, P4, P5, b⟩, -⟩ := box_faces hr hS
  have hpos : ∀ b, coord b r.lo < coord b r.hi := by
    have := b.pos
    simp only [size, Vec3.sub_x, Vec3.sub_y, Vec3.sub_z, sub_pos] at this
    intro b
    cases b
    exacts [this.1, this.2.1, this.2.2]
  rw [allPolys_eq, b.faces]
  have h0 := b.floor; have h1 := b.front; have h2 := b.right; have h3 := b.back; have h4 := b.left
  have h5 := b.ceiling
  cases a <;> cases f
  · exact ⟨P4, by simp, hpos, by simpa [base, edge1, edge2, dirVec, Room.side, coord, corner] using h4⟩
  · exact ⟨P2, by simp, hpos, by simpa [base, edge1, edge2, dirVec, Room.side, coord, corner, size] using h2⟩
  · exact ⟨P1, by simp, hpos, by simpa [base, edge1, edge2, dirVec, Room.side, coord, corner] using h1⟩
  · exact ⟨P3, by simp, hpos, by simpa [base, edge1, edge2, dirVec, Room.side, coord, corner, size] using h3⟩
  · exact ⟨P0, by simp, hpos, by simpa [base, edge1, edge2, dirVec, Room.side, coord, corner] using h0⟩
  · exact ⟨P5, by simp, hpos, by simpa [base, edge1, edge2, dirVec, Room.side, coord, corner, size] using h5⟩

/-- A face covers the points of the room on its side. -/
theorem FaceOf.region {r : Room} {a : Axis} {f : Bool} {P : Poly} (h : FaceOf r a f P) {x : Vec3 ℝ} (hx : r.Contains x)
    (ha : coord a x = r.side a f) : Region P.pts P.tri x := by
  rw [h.rect.region_iff]
  have key : ∀ b, ∃ α : ℝ, 0 ≤ α ∧ α ≤ 1 ∧ coord b x = coord b r.lo + α * (coord b r.hi - coord b r.lo) := by
    intro b
    exact (interval_iff (sub_pos.2 (h.pos b))).2 ⟨(hx b).1, by linarith [(hx b).2]⟩
  obtain ⟨α, a0, a1, hα⟩ := key .x
  obtain ⟨β, b0, b1, hβ⟩ := key .y
  obtain ⟨γ, c0, c1, hγ⟩ := key .z
  simp only [coord] at hα hβ hγ
  cases a <;> cases f <;> simp only [coord] at ha
  · exact ⟨γ, β, c0, c1, b0, b1, by ext <;> simp [base, edge1, edge2, size, ha, hβ, hγ]⟩
  · exact ⟨β, γ, b0, b1, c0, c1, by ext <;> simp [base, edge1, edge2, size, ha, hβ, hγ]⟩
  · exact ⟨α, γ, a0, a1, c0, c1, by ext <;> simp [base, edge1, edge2, size, ha, hα, hγ]⟩
  · exact ⟨γ, α, c0, c1, a0, a1, by ext <;> simp [base, edge1, edge2, size, ha, hα, hγ]⟩
  · exact ⟨β, α, b0, b1, a0, a1, by ext <;> simp [base, edge1, edge2, size, ha, hα, hβ]⟩
  · exact ⟨α, β, a0, a1, b0, b1, by ext <;> simp [base, edge1, edge2, size, ha, hα, hβ]⟩

theorem FaceOf.flat {r : Room} {a : Axis} {f : Bool} {P : Poly} (h : FaceOf r a f P) :
    ∃ v e w, Sim.FlatPoly P v e w :=
  ⟨_, _, _, h.rect.face.new, h.rect.face.vn, h.rect.face.plane, h.rect.face.corner⟩

theorem FaceOf.uses {r : Room} {a : Axis} {f : Bool} {P : Poly} (h : FaceOf r a f P) :
    P.pts ≠ [] ∧ ArrayFormat.UsesExactly P.pts P.tri := by
  rw [h.rect.pts, h.rect.tri]
  refine ⟨by simp, fun k => ?_⟩
  simp only [List.length_cons, List.length_nil, List.mem_cons, List.not_mem_nil, or_false]
  constructor
  · intro hk
    have : k = 0 ∨ k = 1 ∨ k = 2 ∨ k = 3 := by omega
    rcases this with rfl | rfl | rfl | rfl
    · exact ⟨_, .inl rfl, by simp⟩
    · exact ⟨_, .inl rfl, by simp⟩
    · exact ⟨_, .inr rfl, by simp⟩
    · exact ⟨_, .inl rfl, by simp⟩
  · rintro ⟨t, rfl | rfl, h | h | h⟩ <;> simp at h <;> omega

end B3d.Solids

namespace B3d.Hier

open Polygon Spec Solids Sim ArrayFormat

variable {P : Type}

/-! ### Ancestors -/

theorem within_comparable {h : Heap P} (q : ParentOK h) {A A' j : Nat} (h1 : Within h A j) (h2 : Within h A' j) :
    Within h A A' ∨ Within h A' A := by
  induction h1 with
  | self => exact .inr h2
  | child hw hi hk ih =>
    cases h2 with
    | self => exact .inl (.child hw hi hk)
    | child hw' hi' hk' =>
      obtain ⟨o, ho, hp⟩ := q _ _ _ _ hi hk
      obtain ⟨o', ho', hp'⟩ := q _ _ _ _ hi' hk'
      rw [ho] at ho'
      cases ho'
      rw [hp, Option.some.injEq] at hp'
      subst hp'
      exact ih hw'

theorem within_rank {h : Heap P} (w : WF h) {A i : Nat} {oA o : Obj P} (hw : Within h A i) (hA : h[A]? = some oA)
    (hi : h[i]? = some o) : o.kind.rank ≤ oA.kind.rank ∧ (o.kind.rank = oA.kind.rank → i = A) := by
  obtain ⟨keys, ch⟩ := hw.chain
  obtain ⟨o', ho', hr⟩ := ch.rank w hA
  rw [hi] at ho'; cases ho'
  refine ⟨by omega, fun e => ?_⟩
  have : keys = [] := List.eq_nil_of_length_eq_zero (by omega)
  subst this
  have := ch.items w
  simp only [items, Except.ok.injEq] at this
  exact this.symm

/-- `z` is a zone of the building. -/
def IsZoneOf (h : Heap P) (b z : Nat) : Prop := Within h b z ∧ ∃ o : Obj P, h[z]? = some o ∧ o.kind = .zone

/-- The polygon `i` belongs to two rooms of its zone: another polygon of the zone has the same corners. -/
def Shared (h : Heap P) (b : Nat) (poly : Polys) (i : Nat) : Prop :=
  ∃ j z, IsPolygonOf h b j ∧ j ≠ i ∧ (∀ p, p ∈ (poly i).pts ↔ p ∈ (poly j).pts) ∧ IsZoneOf h b z ∧ Within h z i ∧ Within h z j

section
variable {h : Heap P} {b : Nat} {B : Obj P} {poly : Polys} {room : Nat → Room}

theorem Rooms.has_face (R : Rooms h b poly room) {s : Nat} (hs : IsSolidOf h b s) (a : Axis) (f : Bool) :
    ∃ i ∈ leafIds h 2 s, FaceOf (room s) a f (poly i) := by
  obtain ⟨Q, hQ, hf⟩ := box_has_face (R.size s hs) (R.made s hs) a f
  rw [← leafIds_solidAt] at hQ
  obtain ⟨i, hi, rfl⟩ := List.mem_map.1 hQ
  exact ⟨i, hi, hf⟩

theorem leaf_isPolygonOf (c : BCtx h b B) {s i : Nat} (hs : IsSolidOf h b s) (hi : i ∈ leafIds h 2 s) :
    IsPolygonOf h b i := by
  obtain ⟨hw, o, ho, hk⟩ := hs
  obtain ⟨h1, h2⟩ := within_of_leaf c.w ho hk hi
  exact ⟨hw.trans h1, h2⟩

/-- A solid with a polygon of the zone belongs to the zone. -/
theorem solid_of_zone (c : BCtx h b B) {s z i : Nat} (hs : IsSolidOf h b s) (hi : i ∈ leafIds h 2 s) (hz : IsZoneOf h b z)
    (hzi : Within h z i) : Within h z s := by
  obtain ⟨hw, o, ho, hk⟩ := hs
  obtain ⟨hzw, oz, hoz, hkz⟩ := hz
  have h1 := (within_of_leaf c.w ho hk hi).1
  rcases within_comparable c.q hzi h1 with h2 | h2
  · exact h2
  · have := (within_rank c.w h2 ho hoz).1
    rw [hk, hkz] at this
    simp [Kind.rank] at this

theorem zone_unique (c : BCtx h b B) {z z' i : Nat} (hz : IsZoneOf h b z) (hz' : IsZoneOf h b z') (h1 : Within h z i)
    (h2 : Within h z' i) : z = z' := by
  obtain ⟨-, o, ho, hk⟩ := hz
  obtain ⟨-, o', ho', hk'⟩ := hz'
  rcases within_comparable c.q h1 h2 with h3 | h3
  · exact ((within_rank c.w h3 ho ho').2 (by rw [hk, hk'])).symm
  · exact (within_rank c.w h3 ho' ho).2 (by rw [hk, hk'])

/-- A set of rooms which contains the other room of every wall that is not opaque is closed by the opaque walls. -/
theorem Rooms.closes (R : Rooms h b poly room) (c : BCtx h b B) (G : Nat → Prop) (hG : ∀ s, G s → IsSolidOf h b s)
    (opq : Nat → Prop)
    (hop : ∀ s i, G s → i ∈ leafIds h 2 s → ¬ opq i → ∃ j t, G t ∧ j ∈ leafIds h 2 t ∧ j ≠ i ∧
      SameCorners (poly i) (poly j)) :
    Closes (fun x => ∃ s, G s ∧ (room s).Contains x) fun k x => ∃ i, (leafIds h 4 b)[k]? = some i ∧ opq i ∧
      Region (poly i).pts (poly i).tri x := by
  classical
  have hmem : ∀ s, IsSolidOf h b s → s ∈ leafIds h 2 b := by
    rintro s ⟨hw, o, ho, hk⟩
    rw [c.mem_leafIds]
    exact ⟨hw, o, ho, by rw [hk]; rfl⟩
  have key := closes_of_rooms (((leafIds h 2 b).filter fun s => G s).map room)
    (fun k x => ∃ i, (leafIds h 4 b)[k]? = some i ∧ opq i ∧ Region (poly i).pts (poly i).tri x) (by
      intro r hr a
      obtain ⟨s, hs, rfl⟩ := List.mem_map.1 hr
      obtain ⟨i, -, hf⟩ := R.has_face (hG s (by simpa using (List.mem_filter.1 hs).2)) a true
      exact hf.pos a) (by
      intro r hr a f x hx ha
      obtain ⟨s, hs, rfl⟩ := List.mem_map.1 hr
      have hGs : G s := by simpa using (List.mem_filter.1 hs).2
      obtain ⟨i, hi, hf⟩ := R.has_face (hG s hGs) a f
      by_cases ho : opq i
      · left
        obtain ⟨k, hk⟩ := List.getElem?_of_mem ((isPolygonOf_iff c i).2 (leaf_isPolygonOf c (hG s hGs) hi))
        exact ⟨k, i, hk, ho, hf.region hx ha⟩
      · right
        obtain ⟨j, t, hGt, hj, hne, hsame⟩ := hop s i hGs hi ho
        have hm : poly j ∈ allPolys (solidAt h poly t) := by
          rw [← leafIds_solidAt]
          exact List.mem_map_of_mem hj
        obtain ⟨a', g, hf'⟩ := box_face (R.size t (hG t hGt)) (R.made t (hG t hGt)) hm
        have hst : s ≠ t := by
          rintro rfl
          exact hne (R.same_solid (hG s hGs) hi hj hsame).symm
        obtain ⟨rfl, rfl⟩ := same_corners_opposite hf hf' (R.separate s t (hG s hGs) (hG t hGt) hst) hsame
        obtain ⟨-, e1, e2⟩ := same_corners hf hf' hsame
        exact ⟨room t, List.mem_map_of_mem (List.mem_filter.2 ⟨hmem t (hG t hGt), by simpa using hGt⟩), e1.symm, e2⟩)
  intro p q hp hq
  have e : ∀ x, (∃ r ∈ ((leafIds h 2 b).filter fun s => G s).map room, r.Contains x) ↔ ∃ s, G s ∧ (room s).Contains x := by
    intro x
    constructor
    · rintro ⟨r, hr, hx⟩
      obtain ⟨s, hs, rfl⟩ := List.mem_map.1 hr
      exact ⟨s, by simpa using (List.mem_filter.1 hs).2, hx⟩
    · rintro ⟨s, hs, hx⟩
      exact ⟨_, List.mem_map_of_mem (List.mem_filter.2 ⟨hmem s (hG s hs), by simpa using hs⟩), hx⟩
  exact key p q ((e p).2 hp) fun h => hq ((e q).1 h)

end

/-! ### The simulation -/

/-- **C94, the simulation of a building of rooms can be prepared**, and its transparent polygons are the ones which belong to
two rooms of their zone. -/
theorem C94_rooms (parseInt : Str → Option Int) (setIter : List Nat → List Nat) (hset : IteratesSet setIter)
    (ops : List (Op P)) (hl : LinearFrom [] ops) (b : Nat) (B : Obj P) (hb : (exec ops)[b]? = some B)
    (hk : B.kind = .building) (poly : Polys) (room : Nat → Room) (R : Rooms (exec ops) b poly room)
    (hne : ∃ s, IsSolidOf (exec ops) b s)
    (cache : List (Nat × List Str)) (hcache : cache.lookup b = none) (c : SimArgs) (hvox : 0 < c.voxelSize)
    (hspeed : 0 ≤ c.raySpeed) (htime : 0 < c.timeStep) :
    let h := exec ops
    let ids := leafIds h 4 b
    ∃ p, simParams parseInt setIter h poly cache b c = .ok p ∧
      getPolygonPaths h b = .ok (ids.map (path h)) ∧ (∀ i, i ∈ ids ↔ IsPolygonOf h b i) ∧
      p.geo = geoOf (ids.map poly) ∧ Scene p ((ids.map poly).map Poly.pts) ∧
      p.raySpeed = c.raySpeed ∧ p.timeStep = c.timeStep ∧ p.gridStep = c.voxelSize ∧ p.absorbers = c.absorbers ∧
      p.absorberRadius = c.absorberRadius ∧ (∀ k, p.absorption k = c.defaultAbsorption) ∧ p.eps = 1 / 10 ^ 6 ∧
      ∀ k : Nat, (k : Int) ∈ p.trans ↔ c.searchTransparent = true ∧ ∃ i, ids[k]? = some i ∧ Shared h b poly i := by
  intro h ids
  have cx : BCtx h b B := BCtx.of_ops hl hb hk
  obtain ⟨l, hl1, hl2⟩ := C91_rooms_partial ops hl b B hb hk poly room R cache hcache
  have hface : ∀ i, IsPolygonOf h b i → ∃ s a f, FaceOf (room s) a f (poly i) := by
    intro i hi
    obtain ⟨s, a, f, -, -, hf⟩ := R.face cx hi
    exact ⟨s, a, f, hf⟩
  obtain ⟨p, h1, h2, -, h4, h5, h6, h7, h8, h9, h10, h11, h12, h13, h14, h15, h16, h17⟩ := C93_setup parseInt setIter ops hl b B
    hb hk poly cache c hvox (by
      obtain ⟨s, hs⟩ := hne
      obtain ⟨i, hi, -⟩ := R.has_face hs .x true
      exact ⟨i, leaf_isPolygonOf cx hs hi⟩) (by
      intro i hi
      obtain ⟨s, a, f, hf⟩ := hface i hi
      exact hf.uses) l fun _ => ⟨hl1, fun s hs => by
        obtain ⟨i, -, -, hi, hp, -⟩ := (hl2 s).1 hs
        exact ⟨i, hi, hp⟩⟩
  refine ⟨p, h1, h4, h2, h5, ⟨⟨1 / 10 ^ 4, by norm_num, by rw [h11]; exact h8⟩, h7, by rw [h16]; exact hset, ?_, by rw [h11]; exact hvox,
    by rw [h9]; exact hspeed, by rw [h10]; exact htime, by rw [h15]; norm_num⟩, h9, h10, h11, h12, h13, h14, h15, fun k => ?_⟩
  · intro k
    rw [h5]
    apply geoOf_normals
    intro Q hQ
    obtain ⟨i, hi, rfl⟩ := List.mem_map.1 hQ
    obtain ⟨s, a, f, hf⟩ := hface i ((h2 i).1 hi)
    exact ⟨_, hf.rect.face.corner⟩
  · rw [h17]
    refine and_congr_right fun _ => exists_congr fun i => and_congr_right fun hi => ?_
    have hiP := (h2 i).1 (List.mem_of_getElem? hi)
    rw [hl2]
    constructor
    · rintro ⟨i', j, z, hi', hp, hj, hne, he, ⟨o, ho, hko⟩, hz, hzi, hzj⟩
      have := cx.path_inj hi'.1 hiP.1 hp
      subst this
      exact ⟨j, z, hj, hne, he, ⟨hz, o, ho, hko⟩, hzi, hzj⟩
    · rintro ⟨j, z, hj, hne, he, ⟨hz, o, ho, hko⟩, hzi, hzj⟩
      exact ⟨i, j, z, hiP, rfl, hj, hne, he, ⟨o, ho, hko⟩, hz, hzi, hzj⟩

/-- What is common to `C94_zone_partial` and `C94_room_partial`. -/
theorem stays {p : Params ℝ} {h : Heap P} {b : Nat} {B : Obj P} (cx : BCtx h b B) {poly : Polys} {room : Nat → Room}
    (R : Rooms h b poly room) (hgeo : p.geo = geoOf ((leafIds h 4 b).map poly))
    (hsc : Scene p (((leafIds h 4 b).map poly).map Poly.pts)) (hstep : p.raySpeed * p.timeStep ≤ p.gridStep)
    (G : Nat → Prop) (hG : ∀ s, G s → IsSolidOf h b s) (opq : Nat → Prop)
    (htrans : ∀ k i, (leafIds h 4 b)[k]? = some i → opq i → ((k : Nat) : Int) ∉ p.trans)
    (hop : ∀ s i, G s → i ∈ leafIds h 2 s → ¬ opq i → ∃ j t, G t ∧ j ∈ leafIds h 2 t ∧ j ≠ i ∧
      SameCorners (poly i) (poly j))
    (fuel n : Nat) (a : Arrays ℝ) (rows : List (Row ℝ)) (hl : a.hits.length = p.absorbers.length)
    (hv : ∀ r ∈ a.rays, Vec3.norm r.2.1 ≤ p.raySpeed) (hrun : simulationLoop p fuel n a = some rows) (i : Nat)
    (ri rj : Row ℝ) (hi : rows[i]? = some ri) (hj : rows[i + 1]? = some rj) :
    List.Forall₂ (fun x y => (∃ s, G s ∧ (room s).Contains x) → ¬ (∃ s, G s ∧ (room s).Contains y) →
      ∃ (k : Nat) (w u : Vec3 ℝ), IsPolygonOf h b k ∧ opq k ∧ CornerNormal (poly k).pts w ∧ OnSegment x y u ∧
        Region (poly k).pts (poly k).tri u ∧
        (¬ WellIn (poly k) u ∨ Grazing w ((1 / p.timeStep) • (y - x)) ∨ BeforeSeam (poly k) w x)) ri.pos rj.pos := by
  have hcl := R.closes cx G hG opq hop
  have hflat : ∀ k, IsPolygonOf h b k → ∃ v e w, FlatPoly (poly k) v e w := by
    intro k hk
    obtain ⟨s, a, f, -, -, hf⟩ := R.face cx hk
    exact hf.flat
  refine (C82_code_partial hgeo hsc hstep fuel n a rows hl hv hrun i ri rj hi hj).imp ?_
  rintro x y hxy hx hy
  rcases hxy with rfl | hxy
  · exact absurd hx hy
  · obtain ⟨u, k, hu, m, hm, ho, hreg⟩ := hcl x y hx hy
    have hmP := (isPolygonOf_iff cx m).1 (List.mem_of_getElem? hm)
    obtain ⟨v, e, w, hQ⟩ := hflat m hmP
    exact ⟨m, w, u, hmP, ho, hQ.corner, hu, hreg,
      hxy k (poly m) v e w u (by rw [List.getElem?_map, hm]; rfl) (htrans k m hm ho) hQ hu hreg⟩

/-- **C94, rays stay in the zone.**  In the simulation of a building of rooms with the search for transparent polygons, let
the step be no longer than a cell.  If the position of a ray is in a room of the zone in one row of the buffers and in none of the
rooms of the zone in the next, then it has passed through a polygon that does not belong to two rooms of its zone, at a point
close to an edge of a triangle, or almost parallel to the polygon, or starting right in front of the diagonal.
Missing: in these cases rays can leave (`C82_leak`). -/
theorem C94_zone_partial (parseInt : Str → Option Int) (setIter : List Nat → List Nat) (hset : IteratesSet setIter)
    (ops : List (Op P)) (hl : LinearFrom [] ops) (b : Nat) (B : Obj P) (hb : (exec ops)[b]? = some B)
    (hk : B.kind = .building) (poly : Polys) (room : Nat → Room) (R : Rooms (exec ops) b poly room)
    (hne : ∃ s, IsSolidOf (exec ops) b s)
    (cache : List (Nat × List Str)) (hcache : cache.lookup b = none) (c : SimArgs) (hvox : 0 < c.voxelSize)
    (hspeed : 0 ≤ c.raySpeed) (htime : 0 < c.timeStep) (hstep : c.raySpeed * c.timeStep ≤ c.voxelSize)
    (z : Nat) (hz : IsZoneOf (exec ops) b z) :
    let h := exec ops
    let InZone := fun x => ∃ s, IsSolidOf h b s ∧ Within h z s ∧ (room s).Contains x
    ∃ p, simParams parseInt setIter h poly cache b c = .ok p ∧
      ∀ (fuel n : Nat) (a : Arrays ℝ) (rows : List (Row ℝ)), a.hits.length = c.absorbers.length →
        (∀ r ∈ a.rays, Vec3.norm r.2.1 ≤ c.raySpeed) → simulationLoop p fuel n a = some rows →
        ∀ (i : Nat) (ri rj : Row ℝ), rows[i]? = some ri → rows[i + 1]? = some rj →
        List.Forall₂ (fun x y => InZone x → ¬ InZone y → ∃ (k : Nat) (w u : Vec3 ℝ), IsPolygonOf h b k ∧
          (c.searchTransparent = true → ¬ Shared h b poly k) ∧ CornerNormal (poly k).pts w ∧ OnSegment x y u ∧
          Region (poly k).pts (poly k).tri u ∧
          (¬ WellIn (poly k) u ∨ Grazing w ((1 / c.timeStep) • (y - x)) ∨ BeforeSeam (poly k) w x)) ri.pos rj.pos := by
  intro h InZone
  have cx : BCtx h b B := BCtx.of_ops hl hb hk
  obtain ⟨p, h1, h2, h3, h4, h5, h6, h7, h8, h9, h10, h11, h12, h13⟩ := C94_rooms parseInt setIter hset ops hl b B hb hk poly room R
    hne cache hcache c hvox hspeed htime
  refine ⟨p, h1, fun fuel n a rows hla hv hrun i ri rj hi hj => ?_⟩
  have := stays cx R h4 h5 (by rw [h6, h7, h8]; exact hstep) (fun s => IsSolidOf h b s ∧ Within h z s) (fun s hs => hs.1)
    (fun k => c.searchTransparent = true → ¬ Shared h b poly k) (by
      intro k i hki ho
      rw [h13]
      rintro ⟨hs, i', hi', hsh⟩
      rw [hki] at hi'
      cases hi'
      exact ho hs hsh) (by
      rintro s i ⟨hs, hzs⟩ hi ho
      rw [Classical.not_imp, not_not] at ho
      obtain ⟨-, j, z', hj, hne, he, hz', hzi, hzj⟩ := ho
      obtain ⟨o, ho, hko⟩ := hs.2
      have hsi := (within_of_leaf cx.w ho hko hi).1
      have hzz := zone_unique cx hz hz' (hzs.trans hsi) hzi
      subst hzz
      obtain ⟨t, -, -, ht, htj, -⟩ := R.face cx hj
      exact ⟨j, t, ⟨ht, solid_of_zone cx ht htj hz hzj⟩, htj, hne, he⟩)
    fuel n a rows (by rw [h9]; exact hla) (by rw [h6]; exact hv) hrun i ri rj hi hj
  rw [h7] at this
  refine this.imp fun x y hxy hx hy => ?_
  obtain ⟨s, hs, hzs, hx⟩ := hx
  exact hxy ⟨s, ⟨hs, hzs⟩, hx⟩ fun ⟨s', ⟨hs', hz'⟩, hy'⟩ => hy ⟨s', hs', hz', hy'⟩

/-- **C94 without the search for transparent polygons**: the same for every single room; all polygons are opaque. -/
theorem C94_room_partial (parseInt : Str → Option Int) (setIter : List Nat → List Nat) (hset : IteratesSet setIter)
    (ops : List (Op P)) (hl : LinearFrom [] ops) (b : Nat) (B : Obj P) (hb : (exec ops)[b]? = some B)
    (hk : B.kind = .building) (poly : Polys) (room : Nat → Room) (R : Rooms (exec ops) b poly room)
    (cache : List (Nat × List Str)) (hcache : cache.lookup b = none) (c : SimArgs) (hvox : 0 < c.voxelSize)
    (hspeed : 0 ≤ c.raySpeed) (htime : 0 < c.timeStep) (hstep : c.raySpeed * c.timeStep ≤ c.voxelSize)
    (hsearch : c.searchTransparent = false) (s : Nat) (hs : IsSolidOf (exec ops) b s) :
    let h := exec ops
    ∃ p, simParams parseInt setIter h poly cache b c = .ok p ∧
      ∀ (fuel n : Nat) (a : Arrays ℝ) (rows : List (Row ℝ)), a.hits.length = c.absorbers.length →
        (∀ r ∈ a.rays, Vec3.norm r.2.1 ≤ c.raySpeed) → simulationLoop p fuel n a = some rows →
        ∀ (i : Nat) (ri rj : Row ℝ), rows[i]? = some ri → rows[i + 1]? = some rj →
        List.Forall₂ (fun x y => (room s).Contains x → ¬ (room s).Contains y → ∃ (k : Nat) (w u : Vec3 ℝ), IsPolygonOf h b k ∧
          CornerNormal (poly k).pts w ∧ OnSegment x y u ∧ Region (poly k).pts (poly k).tri u ∧
          (¬ WellIn (poly k) u ∨ Grazing w ((1 / c.timeStep) • (y - x)) ∨ BeforeSeam (poly k) w x)) ri.pos rj.pos := by
  intro h
  have cx : BCtx h b B := BCtx.of_ops hl hb hk
  obtain ⟨p, h1, h2, h3, h4, h5, h6, h7, h8, h9, h10, h11, h12, h13⟩ := C94_rooms parseInt setIter hset ops hl b B hb hk poly room R
    ⟨s, hs⟩ cache hcache c hvox hspeed htime
  refine ⟨p, h1, fun fuel n a rows hla hv hrun i ri rj hi hj => ?_⟩
  have := stays cx R h4 h5 (by rw [h6, h7, h8]; exact hstep) (fun t => t = s) (fun t ht => by rw [ht]; exact hs)
    (fun _ => True) (by
      intro k i _ _
      rw [h13, hsearch]
      simp) (fun _ _ _ _ ho => absurd trivial ho)
    fuel n a rows (by rw [h9]; exact hla) (by rw [h6]; exact hv) hrun i ri rj hi hj
  rw [h7] at this
  refine this.imp fun x y hxy hx hy => ?_
  obtain ⟨k, w, u, a1, -, a2⟩ := hxy ⟨s, rfl, hx⟩ fun ⟨s', e, hy'⟩ => hy (by rw [← e]; exact hy')
  exact ⟨k, w, u, a1, a2⟩

theorem geoOf_hit_none {Ps : List Poly} {k : Nat} (h : Ps[k]? = none) {p v : Vec3 ℝ} : (geoOf Ps).hit p v k = false := by
  simp [geoOf, h]

/-- The distance of the code is not less than that of some point of the polygon, up to the tolerance. -/
theorem dist_near {Ps : List Poly} {k : Nat} {Q : Poly} {v w : Vec3 ℝ} {e M : ℝ} (hk : Ps[k]? = some Q)
    (hQ : FlatPoly Q v e w) (hM : ∀ p ∈ Q.pts, Vec3.norm p ≤ M) {x : Vec3 ℝ} (hx : Vec3.norm x ≤ M) :
    Spec.Near (Region Q.pts Q.tri) x ((geoOf Ps).dist x k + (3 * M / 10 ^ 4 + 1 / 10 ^ 7)) := by
  obtain ⟨pts, vn, hnew⟩ := hQ.made
  have hne := (polygonNew_flat hnew hQ.normal hQ.plane).ne
  obtain ⟨κ, hκ, hvw⟩ := cornerNormal_plane hQ.corner hne hQ.plane
  have hw2 : Vec3.dot w w = 1 := by
    rw [show Vec3.dot w w = Vec3.normSq w from rfl, ← Vec3.norm_sq, hQ.corner.1]; norm_num
  obtain ⟨o, ho⟩ : ∃ o, o ∈ Q.pts := by
    obtain ⟨-, l, o, q, -, ho, -⟩ := hQ.corner
    exact ⟨o, List.mem_of_getElem? ho⟩
  have hoe := hQ.plane o ho
  rw [hvw, Vec3.dot_smul_left] at hoe
  obtain ⟨t, ht⟩ : ∃ t, t = Vec3.dot w (x - o) := ⟨_, rfl⟩
  have hplane : Vec3.dot v (x - t • w) = e := by
    rw [hvw, Vec3.dot_smul_left, Vec3.dot_sub_right, Vec3.dot_smul_right, hw2, ht, Vec3.dot_sub_right, ← hoe]
    ring
  have htle : |t| ≤ 2 * M := by
    have h1 : |t| ≤ Vec3.norm w * Vec3.norm (x - o) := by rw [ht]; exact Vec3.abs_dot_le _ _
    have h2 : Vec3.norm (x - o) ≤ Vec3.norm x + Vec3.norm o := Vec3.norm_sub_le _ _
    rw [hQ.corner.1, one_mul] at h1
    linarith [hM o ho]
  obtain ⟨r, hr, -, ⟨y, hy, hyr⟩, -⟩ := C72_distance_attained hnew hQ.normal hQ.plane hQ.corner hM (x := x) (x' := x - t • w)
    (k := t) (by abel) hplane
  have hd : (geoOf Ps).dist x k = r := by
    simp only [geoOf, hk]
    rw [polyNormal_eq hQ.corner, hr]
  refine ⟨y, hy, hyr.trans ?_⟩
  rw [hd]
  norm_num
  linarith

/-- **C94, rays pass freely between the rooms of a zone.**  In the simulation with the search for transparent polygons, a
ray with energy, in a room and in no absorber, that is further than the reflection distance (and the tolerance of the distance) from all
polygons that do not belong to two rooms of their zone, keeps its velocity and its energy and moves by one step, whatever
walls between the rooms are ahead. -/
theorem C94_passes (parseInt : Str → Option Int) (setIter : List Nat → List Nat) (hset : IteratesSet setIter)
    (ops : List (Op P)) (hl : LinearFrom [] ops) (b : Nat) (B : Obj P) (hb : (exec ops)[b]? = some B)
    (hk : B.kind = .building) (poly : Polys) (room : Nat → Room) (R : Rooms (exec ops) b poly room)
    (hne : ∃ s, IsSolidOf (exec ops) b s)
    (cache : List (Nat × List Str)) (hcache : cache.lookup b = none) (c : SimArgs) (hvox : 0 < c.voxelSize)
    (hspeed : 0 ≤ c.raySpeed) (htime : 0 < c.timeStep) (hsearch : c.searchTransparent = true)
    (M : ℝ) (hM : ∀ s q, IsSolidOf (exec ops) b s → (room s).IsCorner q → Vec3.norm q ≤ M) :
    let h := exec ops
    ∃ p, simParams parseInt setIter h poly cache b c = .ok p ∧
      ∀ (fuel n : Nat) (a : Arrays ℝ) (l : List (St ℝ)), a.hits.length = c.absorbers.length →
        steps p fuel n (start p a) = some l → ∀ (i : Nat) (s s' : St ℝ), l[i]? = some s → l[i + 1]? = some s' →
        List.Forall₂ (fun r r' => 1 / 10 ^ 6 < r.energy → (∃ t, IsSolidOf h b t ∧ (room t).Contains r.pos) →
          Vec3.norm r.pos ≤ M → (∀ q ∈ c.absorbers, c.absorberRadius ^ 2 ≤ Vec3.normSq (r.pos - q)) →
          (∀ k y, IsPolygonOf h b k → ¬ Shared h b poly k → Region (poly k).pts (poly k).tri y →
            c.raySpeed * c.timeStep * (101 / 100) + (3 * M / 10 ^ 4 + 1 / 10 ^ 7) < Vec3.norm (r.pos - y)) →
          r'.vel = r.vel ∧ r'.pos = r.pos + c.timeStep • r.vel ∧ r'.energy = r.energy) s.rays s'.rays := by
  intro h
  have cx : BCtx h b B := BCtx.of_ops hl hb hk
  obtain ⟨p, h1, h2, h3, h4, h5, h6, h7, h8, h9, h10, h11, h12, h13⟩ := C94_rooms parseInt setIter hset ops hl b B hb hk poly room R
    hne cache hcache c hvox hspeed htime
  refine ⟨p, h1, fun fuel n a l hla hst i s s' hs hs' => ?_⟩
  refine (C67_fate fuel n a l h5.eps (by rw [h9]; exact hla) hst i s s' hs hs').imp fun r r' hf he hroom hrM hab hfar => ?_
  rw [← h12] at he
  -- opaque polygons are far away
  have far : ∀ k v, OpaqueHit p.geo p.trans r.pos v k → p.reflDist < p.geo.dist r.pos k := by
    rintro k v ⟨ht, hh⟩
    rw [h4] at hh ⊢
    cases hQ : ((leafIds h 4 b).map poly)[k]? with
    | none => exact absurd ((geoOf_hit_none hQ).symm.trans hh) (by decide)
    | some Q =>
      obtain ⟨m, hm, rfl⟩ : ∃ m, (leafIds h 4 b)[k]? = some m ∧ poly m = Q := by
        rw [List.getElem?_map, Option.map_eq_some_iff] at hQ
        exact hQ
      have hmP := (h3 m).1 (List.mem_of_getElem? hm)
      obtain ⟨t, ax, f, hts, -, hface⟩ := R.face cx hmP
      obtain ⟨v', e, w, hflat⟩ := hface.flat
      obtain ⟨y, hy, hyr⟩ := dist_near hQ hflat (fun q hq => hM t q hts ((hface.mem q).1 hq).1) hrM
      have hns : ¬ Shared h b poly m := fun hsh => ht ((h13 k).2 ⟨hsearch, m, hm, hsh⟩)
      have := hfar m y hmP hns hy
      unfold Params.reflDist
      rw [h6, h7]
      linarith
  have nochain : ∀ (near : List Nat) (k : Nat) (ks : List Nat), ¬ Sim.Chain p.geo p.trans near p.reflDist r.pos r.vel (k :: ks) := by
    rintro near k ks ⟨hn, hd, -⟩
    exact absurd hd (not_lt.2 (far k _ hn.2.1).le)
  have hnoab : firstAbsorber p.absorberRadius p.absorbers r.pos = none := by
    unfold firstAbsorber
    rw [List.findIdx?_eq_none_iff]
    intro q hq
    rw [h9] at hq
    rw [h10]
    simpa using hab q hq
  have hin : ¬ Outside p.lo p.hi p.eps r.pos := by
    obtain ⟨t, ht, hx⟩ := hroom
    have hc : ∀ a f, ∃ v : Vec3 ℝ, coord a v = (room t).side a f ∧ (p.lo.x ≤ v.x ∧ v.x ≤ p.hi.x ∧ p.lo.y ≤ v.y ∧ v.y ≤ p.hi.y ∧
        p.lo.z ≤ v.z ∧ v.z ≤ p.hi.z) := by
      intro a f
      obtain ⟨m, hm, hface⟩ := R.has_face ht a f
      obtain ⟨v, hv⟩ := List.exists_mem_of_ne_nil _ hface.uses.1
      refine ⟨v, ((hface.mem v).1 hv).2, h5.within (poly m).pts ?_ v hv⟩
      exact List.mem_map_of_mem (List.mem_map_of_mem ((h3 m).2 (leaf_isPolygonOf cx ht hm)))
    have := h5.eps
    have hx1 := hx .x; have hx2 := hx .y; have hx3 := hx .z
    obtain ⟨v1, e1, b1⟩ := hc .x false
    obtain ⟨v2, e2, b2⟩ := hc .x true
    obtain ⟨v3, e3, b3⟩ := hc .y false
    obtain ⟨v4, e4, b4⟩ := hc .y true
    obtain ⟨v5, e5, b5⟩ := hc .z false
    obtain ⟨v6, e6, b6⟩ := hc .z true
    simp only [coord, Room.side, Bool.false_eq_true, if_false, if_true] at *
    rintro (ho | ho | ho | ho | ho | ho) <;> linarith
  cases hf with
  | rests h0 _ => exact absurd he (not_lt.2 h0)
  | absorbed h0 ha _ _ _ => rw [hnoab] at ha; cases ha
  | lost h0 ha ho _ _ _ => exact absurd ho hin
  | spent ks k h0 ha hi chain _ _ _ _ _ =>
    cases ks with
    | nil => exact absurd chain (nochain _ _ _)
    | cons k' ks => exact absurd chain (nochain _ _ _)
  | moves ks h0 ha hi chain left free hv hp he' =>
    cases ks with
    | nil =>
      have hv : r'.vel = r.vel := hv
      refine ⟨hv, by rw [hp, hv, h7], by simpa using he'⟩
    | cons k ks => exact absurd chain (nochain _ _ _)
  | waits ks k h0 ha hi chain left near dist hv hp he' =>
    cases ks with
    | nil => exact absurd dist (far k _ near.2.1).ne'
    | cons k ks => exact absurd chain (nochain _ _ _)

/-! ### Two rooms of 1 m x 1 m x 1 m -/

/-- Room of the solid in the building of two rooms. -/
def unitRoom (s : Nat) : Room := if s = 12 then ⟨⟨0, 0, 0⟩, ⟨1, 1, 1⟩⟩ else ⟨⟨1, 0, 0⟩, ⟨2, 1, 1⟩⟩

theorem solids27 (s : Nat) : IsSolidOf (exec roomOps) 27 s ↔ s = 12 ∨ s = 25 := by
  obtain ⟨B, hb, hk, -⟩ := building27
  have c : BCtx (exec roomOps) 27 B := BCtx.of_ops roomOps_linear hb hk
  have : IsSolidOf (exec roomOps) 27 s ↔ s ∈ leafIds (exec roomOps) 2 27 := by
    rw [c.mem_leafIds]
    unfold IsSolidOf
    constructor
    · rintro ⟨h1, o, h2, h3⟩; exact ⟨h1, o, h2, by rw [h3]; rfl⟩
    · rintro ⟨h1, o, h2, h3⟩
      exact ⟨h1, o, h2, by cases hkk : o.kind <;> rw [hkk] at h3 <;> simp [Kind.rank] at h3 ⊢⟩
  rw [this, show leafIds (exec roomOps) 2 27 = [12, 25] by decide +kernel]
  simp

/-- The face between the rooms is shared. -/
theorem unit_shared {poly : Polys} (R : Rooms (exec roomOps) 27 poly unitRoom) {s i : Nat} {f : Bool}
    (hs : IsSolidOf (exec roomOps) 27 s) (hi : i ∈ leafIds (exec roomOps) 2 s) (hf : FaceOf (unitRoom s) .x f (poly i))
    (h1 : (unitRoom s).side .x f = 1) : Shared (exec roomOps) 27 poly i := by
  obtain ⟨B, hb, hk, -⟩ := building27
  have c : BCtx (exec roomOps) 27 B := BCtx.of_ops roomOps_linear hb hk
  have z26 : IsZoneOf (exec roomOps) 27 26 :=
    ⟨((chain_iff c.w).2 (show items (exec roomOps) 27 [['z']] = .ok 26 by decide +kernel)).within, by decide +kernel⟩
  have w12 : Within (exec roomOps) 26 12 :=
    ((chain_iff c.w).2 (show items (exec roomOps) 26 ["r0".toList] = .ok 12 by decide +kernel)).within
  have w25 : Within (exec roomOps) 26 25 :=
    ((chain_iff c.w).2 (show items (exec roomOps) 26 ["r1".toList] = .ok 25 by decide +kernel)).within
  have wit : ∀ {s i}, IsSolidOf (exec roomOps) 27 s → i ∈ leafIds (exec roomOps) 2 s → Within (exec roomOps) 26 i := by
    intro s i hs hi
    have h26 : Within (exec roomOps) 26 s := by
      rcases (solids27 s).1 hs with rfl | rfl
      exacts [w12, w25]
    obtain ⟨-, o, ho, hko⟩ := hs
    exact h26.trans (within_of_leaf c.w ho hko hi).1
  -- the room on the other side
  have key : ∀ t, IsSolidOf (exec roomOps) 27 t → t ≠ s → (unitRoom t).side .x (!f) = 1 →
      Shared (exec roomOps) 27 poly i := by
    intro t ht hts h2
    obtain ⟨j, hj, hf'⟩ := R.has_face ht .x (!f)
    have hside : ∀ a g, a ≠ .x → (unitRoom s).side a g = (unitRoom t).side a g := by
      intro a g ha
      rcases (solids27 s).1 hs with rfl | rfl <;> rcases (solids27 t).1 ht with rfl | rfl <;> cases a <;> cases g <;>
        simp [unitRoom, Room.side, coord] at ha ⊢
    have hsame : SameCorners (poly i) (poly j) := by
      intro q
      rw [hf.mem, hf'.mem]
      constructor
      · rintro ⟨hc, hx⟩
        refine ⟨fun a => ?_, by rw [hx, h1, h2]⟩
        by_cases ha : a = .x
        · subst ha; exact ⟨!f, by rw [hx, h1, h2]⟩
        · obtain ⟨g, hg⟩ := hc a; exact ⟨g, by rw [hg, hside a g ha]⟩
      · rintro ⟨hc, hx⟩
        refine ⟨fun a => ?_, by rw [hx, h1, h2]⟩
        by_cases ha : a = .x
        · subst ha; exact ⟨f, by rw [hx, h1, h2]⟩
        · obtain ⟨g, hg⟩ := hc a; exact ⟨g, by rw [hg, hside a g ha]⟩
    refine ⟨j, 26, leaf_isPolygonOf c ht hj, ?_, hsame, z26, wit hs hi, wit ht hj⟩
    rintro rfl
    obtain ⟨-, e⟩ := dirVec_inj (Option.some.inj (hf.rect.vn.symm.trans hf'.rect.vn))
    cases f <;> cases e
  rcases (solids27 s).1 hs with rfl | rfl
  · refine key 25 ((solids27 25).2 (.inr rfl)) (by decide) ?_
    cases f <;> simp [unitRoom, Room.side, coord] at h1 ⊢
  · refine key 12 ((solids27 12).2 (.inl rfl)) (by decide) ?_
    cases f <;> simp [unitRoom, Room.side, coord] at h1 ⊢

/-- Everything opaque is half a metre away from the line through the centres of the rooms. -/
theorem unit_far {poly : Polys} (R : Rooms (exec roomOps) 27 poly unitRoom) {x : ℝ} (h1 : 1 / 2 ≤ x) (h2 : x ≤ 3 / 2)
    {k : Nat} {y : Vec3 ℝ} (hk : IsPolygonOf (exec roomOps) 27 k) (hns : ¬ Shared (exec roomOps) 27 poly k)
    (hy : Region (poly k).pts (poly k).tri y) : 1 / 2 ≤ Vec3.norm ((⟨x, 1 / 2, 1 / 2⟩ : Vec3 ℝ) - y) := by
  obtain ⟨B, hb, hkB, -⟩ := building27
  have c : BCtx (exec roomOps) 27 B := BCtx.of_ops roomOps_linear hb hkB
  obtain ⟨s, a, f, hs, hi, hf⟩ := R.face c hk
  have hya : coord a y = (unitRoom s).side a f := by
    obtain ⟨α, β, -, -, -, -, rfl⟩ := hf.rect.region_iff.1 hy
    cases a <;> cases f <;> simp [base, edge1, edge2, coord, Room.side]
  have hax : a = .x → (unitRoom s).side a f ≠ 1 := by
    rintro rfl e
    exact hns (unit_shared R hs hi hf e)
  apply Vec3.le_norm_of_sq
  simp only [Vec3.normSq, Vec3.dot, Vec3.sub_x, Vec3.sub_y, Vec3.sub_z]
  rcases (solids27 s).1 hs with rfl | rfl <;> cases a <;> cases f <;>
    simp [unitRoom, Room.side, coord] at hya hax <;> rw [hya] <;> nlinarith [sq_nonneg (x - y.x), sq_nonneg (1 / 2 - y.y), sq_nonneg (1 / 2 - y.z)]

/-- **C94 in a concrete case**, which meets the hypotheses of `C94_passes`: two rooms of 1 m x 1 m x 1 m in one zone, the speed
of sound, steps of a millisecond.  A ray that starts in the centre of the first room towards the second is in the second room after two steps,
and has lost no energy. -/
theorem C94_two_rooms : ∃ poly, Rooms (exec roomOps) 27 poly unitRoom ∧ ∀ (parseInt : Str → Option Int)
    (setIter : List Nat → List Nat), IteratesSet setIter →
    ∃ p, simParams parseInt setIter (exec roomOps) poly [] 27 ⟨343, 1 / 1000, 1, [], 0, 1 / 5, true⟩ = .ok p ∧
      ∃ rows, simulationLoop p 6 2 ⟨[(⟨1 / 2, 1 / 2, 1 / 2⟩, ⟨343, 0, 0⟩, 1)], []⟩ = some rows ∧
        ∃ row, rows[2]? = some row ∧ row.pos = [⟨1 / 2 + 686 / 1000, 1 / 2, 1 / 2⟩] ∧ row.energy = [1] ∧
          (unitRoom 25).Contains ⟨1 / 2 + 686 / 1000, 1 / 2, 1 / 2⟩ := by
  obtain ⟨poly, R, -⟩ := C91_two_rooms unit_rooms
  have R : Rooms (exec roomOps) 27 poly unitRoom := R
  refine ⟨poly, R, fun parseInt setIter hset => ?_⟩
  obtain ⟨B, hb, hk, -⟩ := building27
  have hM : ∀ s q, IsSolidOf (exec roomOps) 27 s → (unitRoom s).IsCorner q → Vec3.norm q ≤ 3 := by
    intro s q hs hq
    apply Vec3.norm_le_of_sq (by norm_num)
    obtain ⟨f, hf⟩ := hq .x
    obtain ⟨g, hg⟩ := hq .y
    obtain ⟨m, hm⟩ := hq .z
    simp only [coord] at hf hg hm
    simp only [Vec3.normSq, Vec3.dot, hf, hg, hm]
    rcases (solids27 s).1 hs with rfl | rfl <;> cases f <;> cases g <;> cases m <;> norm_num [unitRoom, Room.side, coord]
  obtain ⟨p, hp, hpass⟩ := C94_passes parseInt setIter hset roomOps roomOps_linear 27 B hb hk poly unitRoom R
    ⟨12, (solids27 12).2 (.inl rfl)⟩ [] rfl ⟨343, 1 / 1000, 1, [], 0, 1 / 5, true⟩ (by norm_num) (by norm_num) (by norm_num) rfl 3 hM
  obtain ⟨p', hp', -, -, -, hsc, -, htime, -, habs, -, hab, heps, -⟩ := C94_rooms parseInt setIter hset roomOps roomOps_linear 27 B hb hk poly unitRoom R
    ⟨12, (solids27 12).2 (.inl rfl)⟩ [] rfl ⟨343, 1 / 1000, 1, [], 0, 1 / 5, true⟩ (by norm_num) (by norm_num) (by norm_num)
  rw [hp, Except.ok.injEq] at hp'
  subst hp'
  refine ⟨p, hp, ?_⟩
  obtain ⟨a, ha⟩ : ∃ a : Arrays ℝ, a = ⟨[(⟨1 / 2, 1 / 2, 1 / 2⟩, ⟨343, 0, 0⟩, 1)], []⟩ := ⟨_, rfl⟩
  rw [← ha]
  obtain ⟨rows, hrows⟩ := C51_terminates (P := p) (1 / 5) 1 (by norm_num) (fun k => by rw [hab]) (by rw [heps]; norm_num) 2 a
    (by rw [ha, habs]; rfl) (by rw [ha]; simp)
  have hfuel : (⌈(1 : ℝ) / (1 / 5)⌉.toNat + 1) = 6 := by
    have : (1 : ℝ) / (1 / 5) = ((5 : ℤ) : ℝ) := by norm_num
    rw [this, Int.ceil_intCast]
    rfl
  rw [hfuel] at hrows
  refine ⟨rows, hrows, ?_⟩
  obtain ⟨l, hl, hlr⟩ := simulationLoop_states hrows
  have hlen := steps_length hl
  obtain ⟨s0, s1, s2, hl3⟩ : ∃ s0 s1 s2, l = [s0, s1, s2] := by
    match l, hlen with
    | [s0, s1, s2], _ => exact ⟨_, _, _, rfl⟩
  subst hl3
  have h0 : s0 = start p a := by
    have := steps_head hl
    simpa using this
  have hr0 : s0.rays = [⟨⟨1 / 2, 1 / 2, 1 / 2⟩, ⟨343, 0, 0⟩, p.timeStep • ⟨343, 0, 0⟩, 1⟩] := by rw [h0, ha]; rfl
  have one : ∀ (r : Ray ℝ) (x : ℝ), 1 / 2 ≤ x → x ≤ 1 → r.pos = ⟨x, 1 / 2, 1 / 2⟩ → r.vel = ⟨343, 0, 0⟩ → r.energy = 1 →
      ∀ (s s' : St ℝ) (i : Nat), ([s0, s1, s2])[i]? = some s → ([s0, s1, s2])[i + 1]? = some s' → s.rays = [r] →
      ∃ r', s'.rays = [r'] ∧ r'.pos = ⟨x + 343 / 1000, 1 / 2, 1 / 2⟩ ∧ r'.vel = ⟨343, 0, 0⟩ ∧ r'.energy = 1 := by
    intro r x hx1 hx2 hpos hvel hen s s' i hi hi' hr
    have hf := hpass 6 2 a _ (by rw [ha]; rfl) hl i s s' hi hi'
    rw [hr] at hf
    match hs' : s'.rays, hf with
    | [r'], .cons hf .nil =>
      obtain ⟨f1, f2, f3⟩ := hf (by rw [hen]; norm_num)
        ⟨12, (solids27 12).2 (.inl rfl), by
          rw [hpos]; intro ax; cases ax <;> simp only [unitRoom, coord, if_true] <;> constructor <;> linarith⟩
        (by
          rw [hpos]
          apply Vec3.norm_le_of_sq (by norm_num)
          simp only [Vec3.normSq, Vec3.dot]
          nlinarith) (by simp)
        (by
          intro k y hk hns hy
          rw [hpos]
          refine lt_of_lt_of_le ?_ (unit_far R hx1 (by linarith) hk hns hy)
          norm_num)
      refine ⟨r', rfl, ?_, by rw [f1, hvel], by rw [f3, hen]⟩
      rw [f2, hpos, hvel]
      ext <;> simp; norm_num
  obtain ⟨r1, e1, p1, v1, n1⟩ := one _ (1 / 2) (by norm_num) (by norm_num) rfl rfl rfl s0 s1 0 rfl rfl hr0
  obtain ⟨r2, e2, p2, v2, n2⟩ := one r1 (1 / 2 + 343 / 1000) (by norm_num) (by norm_num) p1 v1 n1 s1 s2 1 rfl rfl e1
  refine ⟨rowOf s2, by rw [hlr]; rfl, ?_, ?_, ?_⟩
  · simp only [rowOf, e2, List.map_cons, List.map_nil, p2]
    norm_num
  · simp only [rowOf, e2, List.map_cons, List.map_nil, n2]
  · intro ax
    cases ax <;> norm_num [unitRoom, coord]

end B3d.Hier
