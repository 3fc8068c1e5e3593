import Verif.Model.SimSetup
import Verif.Props.Graph
import Verif.Props.ArrayFormat
import Verif.Props.Bboxes
import Verif.Props.WallsReal

/-!
# C93: what the simulation makes of a building
-/

namespace B3d.Hier

open Polygon Spec Solids Sim ArrayFormat

variable {P : Type}

/-! ### The tree -/

theorem leafIds_succ (h : Heap P) (d i : Nat) : leafIds h (d + 1) i = (childrenOf h i).flatMap fun kv => leafIds h d kv.2 := by
  rw [leafIds]
  unfold childrenOf
  cases h[i]? <;> rfl

/-- The polygons of the tree in the order of the walk. -/
theorem tree_polys (h : Heap P) (poly : Polys) (b : Nat) :
    (wallsPolys (solidsWalls (zonesSolids (treeOf h poly b).zones))).map (fun p => (p.pts, p.tri)) =
      (leafIds h 4 b).map fun i => ((poly i).pts, (poly i).tri) := by
  rw [leafIds_succ, wallsPolys, solidsWalls, zonesSolids, treeOf]
  simp only [List.map_flatMap, List.flatMap_map, List.flatMap_assoc]
  congr 1; funext z
  rw [leafIds_succ, treeZone]
  simp only [List.map_flatMap, List.flatMap_map]
  congr 1; funext s
  rw [leafIds_succ, treeSolid]
  simp only [List.map_flatMap, List.flatMap_map]
  congr 1; funext w
  rw [leafIds_succ, treeWall]
  simp only [List.map_flatMap, List.map_map, leafIds]
  induction childrenOf h w.2 with
  | nil => rfl
  | cons e l ih => simp [ih, treePoly]

theorem geoOf_congr {Ps Qs : List Poly} (h : Ps.map (fun Q => (Q.pts, Q.tri)) = Qs.map fun Q => (Q.pts, Q.tri)) :
    geoOf Ps = geoOf Qs := by
  have hk : ∀ k : Nat, (Ps[k]?).map (fun Q => (Q.pts, Q.tri)) = (Qs[k]?).map fun Q => (Q.pts, Q.tri) := by
    intro k
    rw [← List.getElem?_map, h, List.getElem?_map]
  have hn : ∀ {A B : Poly}, A.pts = B.pts → polyNormal A = polyNormal B := by
    intro A B e
    unfold polyNormal
    rw [e]
  unfold geoOf
  congr 1
  · funext p v k
    have := hk k
    cases h1 : Ps[k]? <;> cases h2 : Qs[k]? <;> rw [h1, h2] at this <;> simp at this
    simp only [this.1, this.2]
    rfl
  · funext p k
    have := hk k
    cases h1 : Ps[k]? <;> cases h2 : Qs[k]? <;> rw [h1, h2] at this <;> simp at this
    simp only [this.1, this.2, hn this.1]
  · funext k
    have := hk k
    cases h1 : Ps[k]? <;> cases h2 : Qs[k]? <;> rw [h1, h2] at this <;> simp at this
    simp only [hn this.1]

/-! ### Numbers of polygons -/

theorem filter_zip_getLast {X : Type} : ∀ (ids : List Nat) (xs : List X), ids.Nodup → ∀ (k i : Nat) (x : X),
    ids[k]? = some i → xs[k]? = some x → ((ids.zip xs).filter fun e => e.1 = i) = [(i, x)]
  | [], _, _, k, i, x, h1, _ => by simp at h1
  | a :: ids, [], _, k, i, x, _, h2 => by simp at h2
  | a :: ids, y :: xs, hn, 0, i, x, h1, h2 => by
    simp only [List.getElem?_cons_zero, Option.some.injEq] at h1 h2
    subst h1 h2
    rw [List.zip_cons_cons, List.filter_cons_of_pos (by simp)]
    congr 1
    rw [List.filter_eq_nil_iff]
    intro e he
    simp only [decide_eq_true_eq]
    rintro rfl
    exact (List.nodup_cons.1 hn).1 (List.of_mem_zip he).1
  | a :: ids, y :: xs, hn, k + 1, i, x, h1, h2 => by
    simp only [List.getElem?_cons_succ] at h1 h2
    rw [List.zip_cons_cons, List.filter_cons_of_neg]
    · exact filter_zip_getLast ids xs (List.nodup_cons.1 hn).2 k i x h1 h2
    · simp only [decide_eq_true_eq]
      rintro rfl
      exact (List.nodup_cons.1 hn).1 (List.mem_of_getElem? h1)

/-- The polygon at position `k` gets the number `k`. -/
theorem polygonNum_eq {h : Heap P} {b : Nat} {B : Obj P} (c : BCtx h b B) (poly : Polys) {k i : Nat}
    (hi : (leafIds h 4 b)[k]? = some i) :
    polygonNum h b { treeOf h poly b with zones := numZones 0 0 0 0 (treeOf h poly b).zones } i = some k := by
  have hS := zonesSolids_num (treeOf h poly b).zones 0 0 0 0
  have hW := solidsWalls_num (zonesSolids (treeOf h poly b).zones) 0 0 0
  have hP := wallsPolys_num (solidsWalls (zonesSolids (treeOf h poly b).zones)) 0 0
  have hA : (((numZones 0 0 0 0 (treeOf h poly b).zones).flatMap (·.solids)).flatMap (·.walls)).flatMap (·.polygons) =
      numPolys 0 (wallsPolys (solidsWalls (zonesSolids (treeOf h poly b).zones))) := by
    rw [← hP, ← hW, ← hS]
    rfl
  have hlen : k < (wallsPolys (solidsWalls (zonesSolids (treeOf h poly b).zones))).length := by
    have := congrArg List.length (tree_polys h poly b)
    rw [List.length_map, List.length_map] at this
    rw [this]
    exact (List.getElem?_eq_some_iff.1 hi).1
  unfold polygonNum
  simp only [hA]
  rw [filter_zip_getLast _ _ (c.leafIds_nodup 4) k i _ hi (numPolys_get _ 0 k hlen)]
  simp

/-- `get_polygon_paths` lists the paths in the order of the walk. -/
theorem paths_leafIds {h : Heap P} {b : Nat} {B : Obj P} (c : BCtx h b B) :
    getPolygonPaths h b = .ok ((leafIds h 4 b).map (path h)) := by
  rw [getPolygonPaths_eq c.q c.w c.hb c.hk .nil c.hb (by rw [c.hk]; decide), leafIds_eq c.w]
  have hr : B.kind.rank = 4 := by rw [c.hk]; rfl
  rw [hr]
  congr 1
  have : ∀ l : List (List Str), (∀ ks ∈ l, ks ∈ leafKeys h 4 b) →
      l.map (fun ks => Str.join PATH_SEP (B.name :: [] ++ ks)) =
        (l.filterMap fun ks => (items h b ks).toOption).map (path h) := by
    intro l
    induction l with
    | nil => intro _; rfl
    | cons ks l ih =>
      intro hks
      obtain ⟨hlen, j, hj⟩ := (mem_leafKeys c.w 4 b ks).1 (hks ks (by simp))
      rw [List.filterMap_cons_some (b := j) (by rw [hj]; rfl), List.map_cons, List.map_cons, ih fun k hk => hks k (by simp [hk])]
      congr 1
      exact (((chain_iff c.w).2 hj).path c.w c.q c.hb (root_of_building c.w c.hb c.hk) 5 (by omega)).symm
  exact this _ fun _ hk => hk

theorem addNumbers_spec (parseInt : Str → Option Int) {h : Heap P} {b : Nat} (num : Nat → Option Nat) :
    ∀ (l : List Str) (acc : List Int), (∀ s ∈ l, ∃ i o n, get parseInt h b s = .ok (.obj i) ∧ h[i]? = some o ∧
      o.kind = .polygon ∧ num i = some n) →
    ∃ r, addNumbers parseInt h b num acc l = .ok r ∧ ∀ x, x ∈ r ↔ x ∈ acc ∨ ∃ s ∈ l, ∃ i n : Nat,
      get parseInt h b s = .ok (.obj i) ∧ num i = some n ∧ x = (n : Int)
  | [], acc, _ => ⟨acc, rfl, fun x => by simp⟩
  | s :: l, acc, hl => by
    obtain ⟨i, o, n, hg, ho, hk, hn⟩ := hl s (by simp)
    unfold addNumbers
    simp only [hg, ho, Option.map_some, hk, hn]
    obtain ⟨r, hr, hx⟩ := addNumbers_spec parseInt num l (if (n : Int) ∈ acc then acc else acc ++ [(n : Int)])
      fun s hs => hl s (by simp [hs])
    refine ⟨r, hr, fun x => (hx x).trans ?_⟩
    have e : x ∈ (if (n : Int) ∈ acc then acc else acc ++ [(n : Int)]) ↔ x ∈ acc ∨ x = (n : Int) := by
      split
      · rename_i hm
        constructor
        · exact .inl
        · rintro (hx | rfl)
          exacts [hx, hm]
      · simp
    rw [e]
    constructor
    · rintro ((hx | hx) | ⟨t, ht, i', n', h1⟩)
      · exact .inl hx
      · exact .inr ⟨s, by simp, i, n, hg, hn, hx⟩
      · exact .inr ⟨t, by simp [ht], i', n', h1⟩
    · rintro (hx | ⟨t, ht, i', n', h1, h2, h3⟩)
      · exact .inl (.inl hx)
      · rcases List.mem_cons.1 ht with rfl | ht
        · rw [hg] at h1
          cases h1
          rw [hn] at h2
          cases h2
          exact .inl (.inr h3)
        · exact .inr ⟨t, ht, i', n', h1, h2, h3⟩

theorem trans_mem {P : Params ℝ} (k : Nat) : (k : Int) ∈ P.trans ↔ (k : Int) ∈ P.transparent := by
  unfold Params.trans
  split
  · rw [List.mem_filter]
    simp only [ne_eq, decide_eq_true_eq, and_iff_left_iff_imp]
    omega
  · rfl

/-- **C93, what the simulation makes of a building.**  For every building with polygons whose triangles use all of their points,
the simulation can be prepared if the transparent polygons can be found.  Polygon number `k` of the loop is the `k`-th polygon
of the building, in the order of `get_polygon_paths`, with the same points and triangles; the voxel grid is made for these
polygons and their bounding box; the transparent numbers are those of the transparent polygons if they are searched for, and
there are none otherwise.  `C94_rooms` and `C94_two_rooms` apply it. -/
theorem C93_setup (parseInt : Str → Option Int) (setIter : List Nat → List Nat) (ops : List (Op P)) (hl : LinearFrom [] ops)
    (b : Nat) (B : Obj P) (hb : (exec ops)[b]? = some B) (hk : B.kind = .building) (poly : Polys)
    (cache : List (Nat × List Str)) (c : SimArgs) (hvox : 0 < c.voxelSize) (hne : ∃ i, IsPolygonOf (exec ops) b i)
    (hpoly : ∀ i, IsPolygonOf (exec ops) b i → (poly i).pts ≠ [] ∧ UsesExactly (poly i).pts (poly i).tri)
    (l : List Str) (htr : c.searchTransparent = true → (findTransparent (exec ops) (geoRels poly) cache b).2 = .ok l ∧
      ∀ s ∈ l, ∃ i, IsPolygonOf (exec ops) b i ∧ path (exec ops) i = s) :
    let h := exec ops
    let ids := leafIds h 4 b
    let Ps := ids.map poly
    ∃ p, simParams parseInt setIter h poly cache b c = .ok p ∧
      (∀ i, i ∈ ids ↔ IsPolygonOf h b i) ∧ ids.Nodup ∧ getPolygonPaths h b = .ok (ids.map (path h)) ∧
      p.geo = geoOf Ps ∧ Bboxes.boundingBox (Ps.flatMap Poly.pts) = .ok (p.lo, p.hi) ∧
      (∀ pts ∈ Ps.map Poly.pts, Sim.Within p.lo p.hi pts) ∧
      makeVoxelGrid p.lo p.hi (Ps.map Poly.pts) c.voxelSize (1 / 10 ^ 4) = .ok p.grid ∧
      p.raySpeed = c.raySpeed ∧ p.timeStep = c.timeStep ∧ p.gridStep = c.voxelSize ∧ p.absorbers = c.absorbers ∧
      p.absorberRadius = c.absorberRadius ∧ (∀ k, p.absorption k = c.defaultAbsorption) ∧ p.eps = 1 / 10 ^ 6 ∧
      p.setIter = setIter ∧
      ∀ k : Nat, (k : Int) ∈ p.trans ↔ c.searchTransparent = true ∧ ∃ i, ids[k]? = some i ∧ path h i ∈ l := by
  intro h ids Ps
  have cx : BCtx h b B := BCtx.of_ops hl hb hk
  have hmem : ∀ i, i ∈ ids ↔ IsPolygonOf h b i := fun i => isPolygonOf_iff cx i
  obtain ⟨st, e0, e1, e2, e3, e4, -, -⟩ := toArrayFormat_eq (0 : Vec3 ℝ) (treeOf h poly b)
  obtain ⟨T, hT⟩ : ∃ T, T = wallsPolys (solidsWalls (zonesSolids (treeOf h poly b).zones)) := ⟨_, rfl⟩
  have hmap := tree_polys h poly b
  rw [← hT] at hmap
  have hlen : T.length = ids.length := by
    have := congrArg List.length hmap
    rwa [List.length_map, List.length_map] at this
  have hget : ∀ (k : Nat) (hk : k < T.length), (T[k].pts, T[k].tri) = ((poly (ids[k]'(by omega))).pts, (poly (ids[k]'(by omega))).tri) := by
    intro k hk
    have := congrArg (·[k]?) hmap
    simp only [List.getElem?_map] at this
    rw [List.getElem?_eq_getElem hk, List.getElem?_eq_getElem (show k < (leafIds h 4 b).length by rw [← hlen]; exact hk)] at this
    simpa using this
  have hwalls : st.walls.length = T.length := by
    rw [e4, own_length, hT, wallsPolys, List.length_flatMap]
  have hpts : st.points = Ps.flatMap Poly.pts := by
    rw [e1, ← hT, polysPts]
    have := congrArg (fun l => l.flatMap Prod.fst) hmap
    simp only [List.flatMap_map] at this
    rw [List.flatMap_map]
    exact this
  have hpolys : (List.range st.walls.length).mapM (getPolygonPointsAndFaces st.points st.faces st.polygons) =
      .ok (Ps.map fun Q => (Q.pts, Q.tri)) := by
    have hll : st.walls.length = (Ps.map fun Q => (Q.pts, Q.tri)).length := by
      rw [hwalls, hlen, List.length_map, List.length_map]
    rw [hll]
    apply mapM_range
    intro i hi
    have hiT : i < T.length := by rw [← hwalls, hll]; exact hi
    have hids : i < ids.length := by omega
    have hg := hget i hiT
    have hu := (hpoly _ ((hmem _).1 (List.getElem_mem hids))).2
    rw [Prod.mk.injEq] at hg
    rw [e1, e2, e3, ← hT, getPolygon_of_list T i hiT (by rw [hg.1, hg.2]; exact hu), hg.1, hg.2]
    simp [Ps]
  have hfst : (Ps.map fun Q => (Q.pts, Q.tri)).map Prod.fst = Ps.map Poly.pts := by
    rw [List.map_map]; rfl
  have hnepts : Ps.flatMap Poly.pts ≠ [] := by
    obtain ⟨i, hi⟩ := hne
    obtain ⟨x, hx⟩ := List.exists_mem_of_ne_nil _ (hpoly i hi).1
    intro e
    have : x ∈ Ps.flatMap Poly.pts := List.mem_flatMap.2 ⟨poly i, List.mem_map_of_mem ((hmem i).2 hi), hx⟩
    rw [e] at this
    simp at this
  obtain ⟨lo, hi, hbb, hbin, -⟩ := Bboxes.boundingBox_spec hnepts
  have hw : ∀ pts ∈ Ps.map Poly.pts, Sim.Within lo hi pts := by
    intro pts hpts v hv
    obtain ⟨Q, hQ, rfl⟩ := List.mem_map.1 hpts
    obtain ⟨b1, b2, b3, b4, b5, b6⟩ := hbin v (List.mem_flatMap.2 ⟨Q, hQ, hv⟩)
    exact ⟨b1, b4, b2, b5, b3, b6⟩
  obtain ⟨g, hg, -⟩ := C44_complete lo hi (Ps.map Poly.pts) c.voxelSize (1 / 10 ^ 4) hvox (by norm_num) (by
    intro pts hpts
    refine ⟨?_, hw pts hpts⟩
    obtain ⟨Q, hQ, rfl⟩ := List.mem_map.1 hpts
    obtain ⟨i, hi, rfl⟩ := List.mem_map.1 hQ
    exact (hpoly i ((hmem i).1 hi)).1)
  have hnum : ∀ (k i : Nat), ids[k]? = some i →
      polygonNum h b { treeOf h poly b with zones := numZones 0 0 0 0 (treeOf h poly b).zones } i = some k :=
    fun k i hi => polygonNum_eq cx poly hi
  have htrans : ∃ r, (if c.searchTransparent then transparentNumbers parseInt h poly cache b (polygonNum h b
        { treeOf h poly b with zones := numZones 0 0 0 0 (treeOf h poly b).zones }) else .ok [-1]) = .ok r ∧
      ∀ k : Nat, (k : Int) ∈ r ↔ c.searchTransparent = true ∧ ∃ i, ids[k]? = some i ∧ path h i ∈ l := by
    cases hs : c.searchTransparent with
    | false => exact ⟨[-1], rfl, fun k => by simp⟩
    | true =>
      obtain ⟨h1, h2⟩ := htr hs
      have hown : ∀ i, IsPolygonOf h b i → get parseInt h b (path h i) = .ok (.obj i) := fun i hi =>
        (C07_get_own_path_partial parseInt ops hl b B hb hk i hi.1).1
      obtain ⟨r, hr, hx⟩ := addNumbers_spec parseInt (h := h) (b := b) (polygonNum h b
        { treeOf h poly b with zones := numZones 0 0 0 0 (treeOf h poly b).zones }) l [-1] (by
          intro s hs
          obtain ⟨i, hi, rfl⟩ := h2 s hs
          obtain ⟨o, ho, hko⟩ := hi.2
          obtain ⟨k, hk⟩ := List.getElem?_of_mem ((hmem i).2 hi)
          exact ⟨i, o, k, hown i hi, ho, hko, hnum k i hk⟩)
      refine ⟨r, ?_, ?_⟩
      · simp only [if_true]
        unfold transparentNumbers
        rw [h1]
        exact hr
      · intro k
        rw [hx]
        constructor
        · rintro (h3 | ⟨s, hs, i, n, h3, h4, h5⟩)
          · simp at h3
          · obtain ⟨j, hj, rfl⟩ := h2 s hs
            rw [hown j hj] at h3
            obtain rfl : j = i := by injection h3 with h3; injection h3
            obtain ⟨m, hm⟩ := List.getElem?_of_mem ((hmem j).2 hj)
            have h6 := hnum m j hm
            rw [h4, Option.some.injEq] at h6
            have h7 : k = m := by omega
            exact ⟨rfl, j, by rw [h7]; exact hm, hs⟩
        · rintro ⟨-, i, hi, hs⟩
          exact .inr ⟨_, hs, i, k, hown i ((hmem i).1 (List.mem_of_getElem? hi)), hnum k i hi, rfl⟩
  obtain ⟨r, hr, hrx⟩ := htrans
  have hpaths : getPolygonPaths h b = .ok (ids.map (path h)) := paths_leafIds cx
  refine ⟨{ raySpeed := c.raySpeed, timeStep := c.timeStep, gridStep := c.voxelSize, grid := g,
            absorbers := c.absorbers, absorberRadius := c.absorberRadius, lo := lo, hi := hi,
            transparent := r, absorption := fun _ => c.defaultAbsorption, eps := 1 / 10 ^ 6,
            geo := geoOf ((Ps.map fun Q => (Q.pts, Q.tri)).map ofArrays), setIter := setIter }, ?_, hmem, cx.leafIds_nodup 4, hpaths, ?_, hbb, hw, hg, rfl, rfl, rfl, rfl, rfl, fun _ => rfl, rfl, rfl, ?_⟩
  · unfold simParams
    rw [e0]
    simp only [hr, hpts, hbb]
    rw [← hpts, hpolys]
    simp only [hfst, hg]
  · apply geoOf_congr
    simp [ofArrays, Function.comp_def]
  · intro k
    rw [trans_mem]
    exact hrx k

end B3d.Hier
