import Verif.Props.WholeRun
import Verif.Props.WallsReal
import Verif.Props.WallsLeak
import Verif.Props.ShapesCases

/-!
# C82 with the tests of the code, for the files of a whole run
-/

namespace B3d.Sim
open Spec Polygon Triangles

/-- What is common to `C82_files_partial`, `C94_run_partial` and `C105_run_partial`. -/
theorem left_through {P : Params ℝ} {Ps : List Poly} (hgeo : P.geo = geoOf Ps) (hsc : Scene P (Ps.map Poly.pts))
    (hvox : P.raySpeed * P.timeStep ≤ P.gridStep) (hflat : ∀ Q ∈ Ps, ∃ v e w, FlatPoly Q v e w) (room : Vec3 ℝ → Prop)
    (opq : Nat → Prop) (hopq : ∀ k : Nat, opq k → (k : Int) ∉ P.trans)
    (hroom : Closes room fun k x => opq k ∧ ∃ Q, Ps[k]? = some Q ∧ Region Q.pts Q.tri x)
    (ha : ∀ k, 0 ≤ P.absorption k) {fuel B b : Nat} (hB : 0 < B) (hb : 0 < b) {source : Vec3 ℝ} (hin : room source)
    {dirs : List (Vec3 ℝ)} (hd : ∀ d ∈ dirs, Vec3.normSq d = 1) {ws : List (Nat × Row ℝ)}
    (h : simulationRun P fuel B b source dirs = some ws) {n m : Nat} {row : Row ℝ} {p : Vec3 ℝ} (hn : fileOf ws n = some row)
    (hp : row.pos[m]? = some p) (hout : ¬ room p) :
    ∃ (i : Nat) (r r' : Row ℝ) (q q' : Vec3 ℝ), i < n ∧ fileOf ws i = some r ∧ fileOf ws (i + 1) = some r' ∧
      r.pos[m]? = some q ∧ r'.pos[m]? = some q' ∧ room q ∧ ¬ room q' ∧
      ∃ (k : Nat) (Q : Poly) (w x : Vec3 ℝ), Ps[k]? = some Q ∧ opq k ∧ CornerNormal Q.pts w ∧
        OnSegment q q' x ∧ Region Q.pts Q.tri x ∧
        (¬ WellIn Q x ∨ Grazing w ((1 / P.timeStep) • (q' - q)) ∨ BeforeSeam Q w q) := by
  obtain ⟨f0, f1, f2⟩ := C129_files hsc.normals hsc.eps ha hsc.timeStep.ne' hB hb hd h
  obtain ⟨-, g1, -⟩ := files_of_run hsc.normals hsc.eps ha hsc.timeStep.ne' hB hd h
  induction n generalizing row p with
  | zero =>
    rw [f0, Option.some.injEq] at hn
    subst hn
    simp only [List.getElem?_map, Option.map_eq_some_iff] at hp
    obtain ⟨-, -, rfl⟩ := hp
    exact absurd hin hout
  | succ n ih =>
    have hnb : n + 1 ≤ b * B := by
      by_contra hc
      rw [f2 _ (by omega)] at hn
      cases hn
    obtain ⟨r, hr, l1, -⟩ := f1 n (by omega)
    obtain ⟨r', hr', l2, -⟩ := f1 (n + 1) hnb
    rw [hn, Option.some.injEq] at hr'
    subst hr'
    obtain ⟨hm, -⟩ := List.getElem?_eq_some_iff.1 hp
    have hq : r.pos[m]? = some (r.pos[m]'(by omega)) := List.getElem?_eq_getElem _
    by_cases hqr : room (r.pos[m]'(by omega))
    · obtain ⟨a0, rows, j, hg, hl, hj, e1, e2⟩ := g1 n (by omega)
      rw [hr] at e1
      rw [hn] at e2
      have hex := C82_code_partial hgeo hsc hvox fuel B a0 rows hg.hits (by
        intro x hx
        rcases hg.speed x hx with hs | hs
        · refine le_of_eq ?_
          rw [Vec3.norm, hs, Real.sqrt_sq hsc.raySpeed]
        · rw [hs, Vec3.norm_eq_zero.2 rfl]
          exact hsc.raySpeed) hl j r row e1.symm e2.symm
      obtain ⟨x, k, hx, hok, Q, hQ, hreg⟩ := hroom _ _ hqr hout
      obtain ⟨v, e, w, hf⟩ := hflat Q (List.mem_of_getElem? hQ)
      refine ⟨n, r, row, _, p, Nat.lt_succ_self n, hr, hn, hq, hp, hqr, hout, k, Q, w, x, hQ, hok, hf.corner, hx, hreg, ?_⟩
      rcases forall₂_getElem? hex hq hp with he | he
      · rw [he] at hout
        exact absurd hqr hout
      · exact he k Q v e w x hQ (hopq k hok) hf hx hreg
    · obtain ⟨i, x1, x2, q, q', hi, hrest⟩ := ih hr hq hqr
      exact ⟨i, x1, x2, q, q', by omega, hrest⟩

/-- **C82, the files of a run.**  Let flat opaque polygons close a room, with the source inside.  If a position in the files of
a step of a run, in any batch, is not in the room, then there is an earlier step in which the same ray was in the room and after
which it was not any more, and between the two it has passed through an opaque polygon, at a point close to an edge of a
triangle, or almost parallel to the polygon, or starting right in front of an edge between two triangles.

What is missing: in these cases a ray can leave, see `C82_leak`. -/
theorem C82_files_partial {P : Params ℝ} {Ps : List Poly} (hgeo : P.geo = geoOf Ps) (hsc : Scene P (Ps.map Poly.pts))
    (hvox : P.raySpeed * P.timeStep ≤ P.gridStep) (hflat : ∀ Q ∈ Ps, ∃ v e w, FlatPoly Q v e w) (room : Vec3 ℝ → Prop)
    (hroom : Closes room fun k x => (k : Int) ∉ P.trans ∧ ∃ Q, Ps[k]? = some Q ∧ Region Q.pts Q.tri x)
    (ha : ∀ k, 0 ≤ P.absorption k) {fuel B b : Nat} (hB : 0 < B) (hb : 0 < b) {source : Vec3 ℝ} (hin : room source)
    {dirs : List (Vec3 ℝ)} (hd : ∀ d ∈ dirs, Vec3.normSq d = 1) {ws : List (Nat × Row ℝ)}
    (h : simulationRun P fuel B b source dirs = some ws) {n m : Nat} {row : Row ℝ} {p : Vec3 ℝ} (hn : fileOf ws n = some row)
    (hp : row.pos[m]? = some p) (hout : ¬ room p) :
    ∃ (i : Nat) (r r' : Row ℝ) (q q' : Vec3 ℝ), i < n ∧ fileOf ws i = some r ∧ fileOf ws (i + 1) = some r' ∧
      r.pos[m]? = some q ∧ r'.pos[m]? = some q' ∧ room q ∧ ¬ room q' ∧
      ∃ (k : Nat) (Q : Poly) (w x : Vec3 ℝ), Ps[k]? = some Q ∧ (k : Int) ∉ P.trans ∧ CornerNormal Q.pts w ∧
        OnSegment q q' x ∧ Region Q.pts Q.tri x ∧
        (¬ WellIn Q x ∨ Grazing w ((1 / P.timeStep) • (q' - q)) ∨ BeforeSeam Q w q) :=
  left_through hgeo hsc hvox hflat room (fun k => (k : Int) ∉ P.trans) (fun _ hk => hk) hroom ha hB hb hin hd h hn hp hout

end B3d.Sim

namespace B3d.Hier
open Spec Polygon Triangles Sim Solids

/-- **C94, a whole run.**  In a building of rooms, let the step be no longer than a cell, the default absorption positive, and
the source in a room of the zone.  The simulation runs to its end with any number of batches, and leaves files with the
positions of all rays for every step.  If a position in these files is in no room of the zone, then in an earlier step the ray
has left the zone through a polygon that does not belong to two rooms of its zone, at a point close to an edge of a triangle,
or almost parallel to the polygon, or starting right in front of the diagonal.
Missing: in these cases rays can leave (`C82_leak`). -/
theorem C94_run_partial (parseInt : Str → Option Int) (setIter : List Nat → List Nat) (hset : IteratesSet setIter)
    (ops : List (Op P)) (hl : LinearFrom [] ops) (b : Nat) (B : Obj P) (hb : (exec ops)[b]? = some B)
    (hk : B.kind = .building) (poly : Polys) (room : Nat → Room) (R : Rooms (exec ops) b poly room)
    (cache : List (Nat × List Str)) (hcache : cache.lookup b = none) (c : SimArgs) (hvox : 0 < c.voxelSize)
    (hspeed : 0 ≤ c.raySpeed) (htime : 0 < c.timeStep) (hstep : c.raySpeed * c.timeStep ≤ c.voxelSize)
    (habs : 0 < c.defaultAbsorption)
    (z : Nat) (hz : IsZoneOf (exec ops) b z) :
    let h := exec ops
    let InZone := fun x => ∃ s, IsSolidOf h b s ∧ Within h z s ∧ (room s).Contains x
    ∀ (source : Vec3 ℝ) (dirs : List (Vec3 ℝ)), InZone source → (∀ d ∈ dirs, Vec3.norm d = 1) →
      ∀ (batchSize batches : Nat), 0 < batchSize → 0 < batches →
      ∃ p ws, simParams parseInt setIter h poly cache b c = .ok p ∧
        simulationRun p (⌈1 / c.defaultAbsorption⌉.toNat + 1) batchSize batches source dirs = some ws ∧
        (∀ n ≤ batches * batchSize, ∃ row, fileOf ws n = some row ∧ row.pos.length = dirs.length) ∧
        ∀ (n m : Nat) (row : Row ℝ) (x : Vec3 ℝ), fileOf ws n = some row → row.pos[m]? = some x → ¬ InZone x →
          ∃ (i : Nat) (r r' : Row ℝ) (q q' : Vec3 ℝ), i < n ∧ fileOf ws i = some r ∧ fileOf ws (i + 1) = some r' ∧
            r.pos[m]? = some q ∧ r'.pos[m]? = some q' ∧ InZone q ∧ ¬ InZone q' ∧
            ∃ (k : Nat) (w u : Vec3 ℝ), IsPolygonOf h b k ∧
              (c.searchTransparent = true → ¬ Shared h b poly k) ∧ CornerNormal (poly k).pts w ∧ OnSegment q q' u ∧
              Region (poly k).pts (poly k).tri u ∧
              (¬ WellIn (poly k) u ∨ Grazing w ((1 / c.timeStep) • (q' - q)) ∨ BeforeSeam (poly k) w q) := by
  intro h InZone source dirs hin hdirs batchSize batches hB hbat
  have cx : BCtx h b B := BCtx.of_ops hl hb hk
  obtain ⟨s0, hs0, -, -⟩ := id hin
  obtain ⟨p, h1, h2, h3, h4, h5, h6, h7, h8, h9, h10, h11, h12, h13⟩ := C94_rooms parseInt setIter hset ops hl b B hb hk poly room R
    ⟨s0, hs0⟩ cache hcache c hvox hspeed htime
  have hd : ∀ d ∈ dirs, Vec3.normSq d = 1 := by
    intro d hd
    rw [← Vec3.norm_sq, hdirs d hd]; norm_num
  have ha : ∀ k, 0 ≤ p.absorption k := fun k => by rw [h11]; exact habs.le
  obtain ⟨ws, hws⟩ := C129_finishes (P := p) c.defaultAbsorption habs (fun k => by rw [h11]) h5.eps hB batches source dirs
  refine ⟨p, ws, h1, hws, ?_, ?_⟩
  · intro n hn
    obtain ⟨-, f1, -⟩ := C129_files h5.normals h5.eps ha h5.timeStep.ne' hB hbat hd hws
    obtain ⟨row, g1, g2, -⟩ := f1 n hn
    exact ⟨row, g1, g2⟩
  · intro n m row x hn hx hout
    have hcl := R.closes cx (fun s => IsSolidOf h b s ∧ Within h z s) (fun s hs => hs.1)
      (fun k => c.searchTransparent = true → ¬ Shared h b poly k) (by
        rintro s i ⟨hs, hzs⟩ hi ho
        rw [Classical.not_imp, not_not] at ho
        obtain ⟨-, j, z', hj, hne, he, hz', hzi, hzj⟩ := ho
        obtain ⟨o, ho, hko⟩ := hs.2
        have hsi := (within_of_leaf cx.w ho hko hi).1
        have hzz := zone_unique cx hz hz' (hzs.trans hsi) hzi
        subst hzz
        obtain ⟨t, -, -, ht, htj, -⟩ := R.face cx hj
        exact ⟨j, t, ⟨ht, solid_of_zone cx ht htj hz hzj⟩, htj, hne, he⟩)
    have hroom : Closes InZone fun k x => (k : Int) ∉ p.trans ∧ ∃ Q, ((leafIds h 4 b).map poly)[k]? = some Q ∧
        Region Q.pts Q.tri x := by
      rintro x y ⟨s, hs, hzs, hx⟩ hy
      obtain ⟨u, k, hu, i, hi, ho, hreg⟩ := hcl x y ⟨s, ⟨hs, hzs⟩, hx⟩ (fun ⟨s', ⟨a1, a2⟩, a3⟩ => hy ⟨s', a1, a2, a3⟩)
      refine ⟨u, k, hu, ?_, poly i, by rw [List.getElem?_map, hi]; rfl, hreg⟩
      rw [h13]
      rintro ⟨hs, i', hi', hsh⟩
      rw [hi] at hi'
      cases hi'
      exact ho hs hsh
    have hflat : ∀ Q ∈ (leafIds h 4 b).map poly, ∃ v e w, FlatPoly Q v e w := by
      intro Q hQ
      obtain ⟨i, hi, rfl⟩ := List.mem_map.1 hQ
      obtain ⟨s, a, f, -, -, hf⟩ := R.face cx ((h3 i).1 hi)
      exact hf.flat
    obtain ⟨i, r, r', q, q', k1, k2, k3, k4, k5, k6, k7, k, Q, w, u, m1, m2, m3, m4, m5, m6⟩ :=
      C82_files_partial h4 h5 (by rw [h6, h7, h8]; exact hstep) hflat InZone hroom ha hB hbat hin hd hws hn hx hout
    rw [List.getElem?_map, Option.map_eq_some_iff] at m1
    obtain ⟨j, hj, rfl⟩ := m1
    refine ⟨i, r, r', q, q', k1, k2, k3, k4, k5, k6, k7, j, w, u, (h3 j).1 (List.mem_of_getElem? hj), ?_, m3, m4, m5, ?_⟩
    · intro hs hsh
      exact m2 ((h13 k).2 ⟨hs, j, hj, hsh⟩)
    · rw [h7] at m6
      exact m6

/-- **C105, a whole run.**  The same for buildings of rooms of any shape with closed surfaces: if a position in the files is
neither inside the surface of the zone nor on it, then in an earlier step the ray has left the zone through a polygon of the
zone whose other side is not in the zone, at a point close to an edge of a triangle, or almost parallel to the polygon, or
starting right in front of an edge between two triangles.
Missing: in these cases rays can leave (`C82_leak`). -/
theorem C105_run_partial (parseInt : Str → Option Int) (setIter : List Nat → List Nat) (hset : IteratesSet setIter)
    (ops : List (Op P)) (hl : LinearFrom [] ops) (b : Nat) (B : Obj P) (hb : (exec ops)[b]? = some B)
    (hk : B.kind = .building) (poly : Polys) (R : Shapes (exec ops) b poly) (hcl : AllClosed (exec ops) b poly)
    (hne : ∃ i, IsPolygonOf (exec ops) b i)
    (cache : List (Nat × List Str)) (hcache : cache.lookup b = none) (c : SimArgs) (hvox : 0 < c.voxelSize)
    (hspeed : 0 ≤ c.raySpeed) (htime : 0 < c.timeStep) (hstep : c.raySpeed * c.timeStep ≤ c.voxelSize)
    (habs : 0 < c.defaultAbsorption)
    (z : Nat) (hz : IsZoneOf (exec ops) b z) :
    let h := exec ops
    let In := InOrOn (zoneSurface h b poly z)
    ∀ (source : Vec3 ℝ) (dirs : List (Vec3 ℝ)), In source → (∀ d ∈ dirs, Vec3.norm d = 1) →
      ∀ (batchSize batches : Nat), 0 < batchSize → 0 < batches →
      ∃ p ws, simParams parseInt setIter h poly cache b c = .ok p ∧
        simulationRun p (⌈1 / c.defaultAbsorption⌉.toNat + 1) batchSize batches source dirs = some ws ∧
        (∀ n ≤ batches * batchSize, ∃ row, fileOf ws n = some row ∧ row.pos.length = dirs.length) ∧
        ∀ (n m : Nat) (row : Row ℝ) (x : Vec3 ℝ), fileOf ws n = some row → row.pos[m]? = some x → ¬ In x →
          ∃ (i : Nat) (r r' : Row ℝ) (q q' : Vec3 ℝ), i < n ∧ fileOf ws i = some r ∧ fileOf ws (i + 1) = some r' ∧
            r.pos[m]? = some q ∧ r'.pos[m]? = some q' ∧ In q ∧ ¬ In q' ∧
            ∃ (k : Nat) (w u : Vec3 ℝ), IsPolygonOf h b k ∧ (Within h z k ∧ ¬ OtherSide h b poly k) ∧
              CornerNormal (poly k).pts w ∧ OnSegment q q' u ∧ Region (poly k).pts (poly k).tri u ∧
              (¬ WellIn (poly k) u ∨ Grazing w ((1 / c.timeStep) • (q' - q)) ∨ BeforeSeam (poly k) w q) := by
  intro h In source dirs hin hdirs batchSize batches hB hbat
  have cx : BCtx h b B := BCtx.of_ops hl hb hk
  obtain ⟨p, h1, h2, h3, h4, h5, h6, h7, h8, h9, h10, h11, h12, h13⟩ := C105_prepared parseInt setIter hset ops hl b B hb hk poly R
    hne cache hcache c hvox hspeed htime
  have hd : ∀ d ∈ dirs, Vec3.normSq d = 1 := by
    intro d hd
    rw [← Vec3.norm_sq, hdirs d hd]; norm_num
  have ha : ∀ k, 0 ≤ p.absorption k := fun k => by rw [h11]; exact habs.le
  obtain ⟨ws, hws⟩ := C129_finishes (P := p) c.defaultAbsorption habs (fun k => by rw [h11]) h5.eps hB batches source dirs
  refine ⟨p, ws, h1, hws, ?_, ?_⟩
  · intro n hn
    obtain ⟨-, f1, -⟩ := C129_files h5.normals h5.eps ha h5.timeStep.ne' hB hbat hd hws
    obtain ⟨row, g1, g2, -⟩ := f1 n hn
    exact ⟨row, g1, g2⟩
  · intro n m row x hn hx hout
    have hflat : ∀ Q ∈ (leafIds h 4 b).map poly, ∃ v e w, FlatPoly Q v e w := by
      intro Q hQ
      obtain ⟨i, hi, rfl⟩ := List.mem_map.1 hQ
      obtain ⟨v, w, e, hf⟩ := R.face i ((h3 i).1 hi)
      exact ⟨v, e, w, hf.flatPoly⟩
    obtain ⟨i, r, r', q, q', k1, k2, k3, k4, k5, k6, k7, k, Q, w, u, m1, ⟨j', hj', m2⟩, m3, m4, m5, m6⟩ :=
      left_through h4 h5 (by rw [h6, h7, h8]; exact hstep) hflat In
        (fun k => ∃ i, (leafIds h 4 b)[k]? = some i ∧ Within h z i ∧ ¬ OtherSide h b poly i) (by
          rintro k ⟨i, hi, -, ho⟩
          rw [h13]
          rintro ⟨-, i', hi', hsh⟩
          rw [hi] at hi'
          cases hi'
          exact ho hsh) (by
          intro x y hx hy
          obtain ⟨i, u, a1, a2, a3, a4, a5⟩ := (C105_surface ops hl b B hb hk poly R hcl z hz).1 x y hx hy
          obtain ⟨k, hk⟩ := List.getElem?_of_mem ((isPolygonOf_iff cx i).2 a1)
          exact ⟨u, k, a4, ⟨i, hk, a2, a3⟩, poly i, by rw [List.getElem?_map, hk]; rfl, a5⟩)
        ha hB hbat hin hd hws hn hx hout
    rw [List.getElem?_map, Option.map_eq_some_iff] at m1
    obtain ⟨j, hj, rfl⟩ := m1
    obtain rfl : j = j' := Option.some.inj (hj.symm.trans hj')
    refine ⟨i, r, r', q, q', k1, k2, k3, k4, k5, k6, k7, j, w, u, (h3 j).1 (List.mem_of_getElem? hj), m2, m3, m4, m5, ?_⟩
    rw [h7] at m6
    exact m6

/-- The hypotheses are met: the building of two rooms, with the source in the first one. -/
example : ∃ (poly : Polys) (z : Nat), Rooms (exec roomOps) 27 poly unitRoom ∧ LinearFrom [] roomOps ∧
    (∃ B, (exec roomOps)[27]? = some B ∧ B.kind = .building) ∧ IsZoneOf (exec roomOps) 27 z ∧
    (∃ s, IsSolidOf (exec roomOps) 27 s ∧ Within (exec roomOps) z s ∧ (unitRoom s).Contains ⟨1 / 2, 1 / 3, 1 / 4⟩) ∧
    Vec3.norm ⟨3 / 5, 4 / 5, 0⟩ = 1 ∧ (343 : ℝ) * (1 / 40000) ≤ 1 / 10 ∧ (0 : ℝ) < 1 / 5 := by
  obtain ⟨poly, R, -⟩ := C91_two_rooms unit_rooms
  obtain ⟨B, hb, hk, -⟩ := building27
  have c : BCtx (exec roomOps) 27 B := BCtx.of_ops roomOps_linear hb hk
  refine ⟨poly, 26, R, roomOps_linear, ⟨B, hb, hk⟩, ?_, ⟨12, (solids27 12).2 (.inl rfl), ?_, ?_⟩, ?_, by norm_num, by norm_num⟩
  · exact ⟨((chain_iff c.w).2 (show items (exec roomOps) 27 [['z']] = .ok 26 by decide +kernel)).within, by decide +kernel⟩
  · exact ((chain_iff c.w).2 (show items (exec roomOps) 26 ["r0".toList] = .ok 12 by decide +kernel)).within
  · intro ax
    cases ax <;> norm_num [unitRoom, coord]
  · rw [Vec3.norm, Real.sqrt_eq_one]
    norm_num [Vec3.normSq, Vec3.dot]

/-- The hypotheses of `C105_run_partial` are met: two wedge-shaped rooms with a common diagonal wall. -/
example : Shapes (exec wedgeOps) 23 wedgePoly ∧ AllClosed (exec wedgeOps) 23 wedgePoly ∧ LinearFrom [] wedgeOps ∧
    (∃ B, (exec wedgeOps)[23]? = some B ∧ B.kind = .building) ∧ (∃ i, IsPolygonOf (exec wedgeOps) 23 i) ∧
    IsZoneOf (exec wedgeOps) 23 22 ∧ InOrOn (zoneSurface (exec wedgeOps) 23 wedgePoly 22) wedgePoint := by
  obtain ⟨B, hb, hk, -⟩ := wedge_building
  have c : BCtx (exec wedgeOps) 23 B := BCtx.of_ops wedgeOps_linear hb hk
  refine ⟨wedge_shapes.1, wedge_shapes.2, wedgeOps_linear, ⟨B, hb, hk⟩, ⟨0, ?_⟩, (wedge_zone 22).2 rfl, .inr wedge_zone_enclosed⟩
  rw [← isPolygonOf_iff c, wedge_ids]
  decide

end B3d.Hier
