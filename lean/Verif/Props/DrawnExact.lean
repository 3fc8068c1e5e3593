import Verif.Proofs.RoundedPlane
import Verif.Props.PairsExact
import Verif.Props.SegmentPolygonExact
import Verif.Proofs.Ell

/-!
# C113 and C118 for all polygons made without a given normal

The theorems in `PointExact`, `SegmentPolygonExact` and `PairsExact` ask that the normal of the polygon is one of the two
normals of its plane.  This holds for every polygon which was made from its points alone, convex or not and drawn in either
direction (`Rounded.normal_of_new`), so that here only the positions of the points are asked for.
-/

namespace B3d.PairsExact

open Spec Planar Points Slice Polygon Triangles ConvexEars PointExact SliceConvex ConvexPairs

variable {o u w : Vec3 ℝ} {m : ℝ} {pts qs S : List (ℝ × ℝ)} {P Q : Poly} {z : ℝ × ℝ}

/-- What holds for every drawing on the left of whose plane the normal points holds for every drawing. -/
theorem drawn (hx : Axes u w) (hc : Crisp m (z :: pts)) (hr : ∀ p ∈ z :: pts, Reach m (inPlane o u w p)) {k : Vec3 ℝ}
    (hk : ∀ p ∈ z :: pts, Reach m (inPlane o u w p + k)) (hn : ∀ p ∈ pts, Reach m (inPlane o u w p))
    (h : polygonNew (pts.map (inPlane o u w)) none none = .ok P) {C : Vec3 ℝ → Prop}
    (hC : ∀ (u' w' : Vec3 ℝ) (z' : ℝ × ℝ) (pts' : List (ℝ × ℝ)), Axes u' w' → Crisp m (z' :: pts') →
      (∀ p ∈ z' :: pts', Reach m (inPlane o u' w' p)) → (∀ p ∈ z' :: pts', Reach m (inPlane o u' w' p + k)) →
      polygonNew (pts'.map (inPlane o u' w')) none none = .ok P →
      P.vn = some (Vec3.cross u' w') → C (inPlane o u' w' z')) : C (inPlane o u w z) := by
  have hS : ∀ p ∈ pts, p ∈ z :: pts := fun p hp => List.mem_cons_of_mem _ hp
  rcases Rounded.normal_of_new hx (crisp_swap hc hS) hn h with hv | hv
  · exact hC u w z pts hx hc hr hk h hv
  · rw [← map_swap] at h
    rw [← cross_swapped] at hv
    rw [← inPlane_swap z]
    refine hC w u z.swap (pts.map Prod.swap) (axes_swap hx) (crisp_swapped hc) ?_ ?_ h hv
    · change ∀ p ∈ (z :: pts).map Prod.swap, _
      simp only [List.forall_mem_map]
      intro p hp
      rw [inPlane_swap]
      exact hr p hp
    · change ∀ p ∈ (z :: pts).map Prod.swap, _
      simp only [List.forall_mem_map]
      intro p hp
      rw [inPlane_swap]
      exact hk p hp

/-- **C113, points in a polygon made from its points.** -/
theorem C113_inside_drawn (hx : Axes u w) (hc : Crisp m (z :: pts)) (hr : ∀ p ∈ z :: pts, Reach m (inPlane o u w p))
    (h : polygonNew (pts.map (inPlane o u w)) none none = .ok P) :
    ∃ r1 r2 r3 : Bool, Polygon.isPointInside (inPlane o u w z) P.pts P.tri true = .ok r1 ∧
      Polygon.isPointInside (inPlane o u w z) P.pts P.tri false = .ok r2 ∧
      isPointAtBoundary (inPlane o u w z) P.pts = .ok r3 ∧
      (r1 = true ↔ Region P.pts P.tri (inPlane o u w z)) ∧
      (r2 = true ↔ Region P.pts P.tri (inPlane o u w z) ∧ ¬ OnOutline P.pts (inPlane o u w z)) ∧
      (r3 = true ↔ OnOutline P.pts (inPlane o u w z)) :=
  drawn hx hc hr (k := 0) (by simpa using hr) (fun p hp => hr p (List.mem_cons_of_mem _ hp)) h
    (C := fun x => ∃ r1 r2 r3 : Bool, Polygon.isPointInside x P.pts P.tri true = .ok r1 ∧
      Polygon.isPointInside x P.pts P.tri false = .ok r2 ∧ isPointAtBoundary x P.pts = .ok r3 ∧
      (r1 = true ↔ Region P.pts P.tri x) ∧ (r2 = true ↔ Region P.pts P.tri x ∧ ¬ OnOutline P.pts x) ∧
      (r3 = true ↔ OnOutline P.pts x))
    fun _ _ _ _ a b c _ d e => C113_inside a b c d e

/-- **C113, rays and a polygon made from its points.** -/
theorem C113_ray_drawn (hx : Axes u w) (hc : Crisp m (z :: pts)) (hr : ∀ p ∈ z :: pts, Reach m (inPlane o u w p))
    (h : polygonNew (pts.map (inPlane o u w)) none none = .ok P) {n x d : Vec3 ℝ} {s atol : ℝ} (hw : CornerNormal P.pts n)
    (hat : 0 < atol) (hd : atol ≤ |Vec3.dot n d|) (hz : x + s • d = inPlane o u w z) (fwd : Bool) :
    ∃ r, isPointInsideProjection x d P.pts P.tri fwd atol = .ok r ∧
      (r = true ↔ (fwd = true → 0 ≤ s) ∧ Region P.pts P.tri (x + s • d)) :=
  drawn hx hc hr (k := 0) (by simpa using hr) (fun p hp => hr p (List.mem_cons_of_mem _ hp)) h
    (C := fun y => x + s • d = y → ∃ r, isPointInsideProjection x d P.pts P.tri fwd atol = .ok r ∧
      (r = true ↔ (fwd = true → 0 ≤ s) ∧ Region P.pts P.tri (x + s • d)))
    (fun _ _ _ _ a b c _ d e hz => C113_ray a b c d e hw hat hd hz fwd) hz

/-- **C113, segments and a polygon made from its points.** -/
theorem C113_segment_drawn (hx : Axes u w) (hc : Crisp m (z :: pts)) (hr : ∀ p ∈ z :: pts, Reach m (inPlane o u w p))
    (h : polygonNew (pts.map (inPlane o u w)) none none = .ok P) {n p q : Vec3 ℝ} {s eps : ℝ} (hw : CornerNormal P.pts n)
    (heps : 0 < eps) (hd : eps ≤ |Vec3.dot (q - p) n|) (hz : p + s • (q - p) = inPlane o u w z) :
    ∃ r, isSegmentCrossingPolygon p q P.pts P.tri eps = .ok r ∧
      (r = true ↔ ∃ x, OnSegment p q x ∧ Region P.pts P.tri x) :=
  drawn hx hc hr (k := 0) (by simpa using hr) (fun p hp => hr p (List.mem_cons_of_mem _ hp)) h
    (C := fun y => p + s • (q - p) = y → ∃ r, isSegmentCrossingPolygon p q P.pts P.tri eps = .ok r ∧
      (r = true ↔ ∃ x, OnSegment p q x ∧ Region P.pts P.tri x))
    (fun _ _ _ _ a b c _ d e hz => C113_segment a b c d e hw heps hd hz) hz

/-- **C113, distances from a polygon made from its points.** -/
theorem C113_distance_drawn (hx : Axes u w) (hc : Crisp m (z :: pts)) (hn : ∀ p ∈ z :: pts, Reach m (inPlane o u w p))
    (h : polygonNew (pts.map (inPlane o u w)) none none = .ok P) {n x : Vec3 ℝ} {k : ℝ}
    (hw : CornerNormal P.pts n) (hr : ∀ p ∈ z :: pts, Reach m (inPlane o u w p + k • n))
    (hz : x = inPlane o u w z + k • n) :
    ∃ y, Region P.pts P.tri y ∧ distancePointToPolygon x P.pts P.tri n = .ok (some (Vec3.norm (x - y))) ∧
      ∀ y', Region P.pts P.tri y' → Vec3.norm (x - y) ≤ Vec3.norm (x - y') :=
  drawn hx hc hn (k := k • n) hr (fun p hp => hn p (List.mem_cons_of_mem _ hp)) h
    (C := fun t => x = t + k • n → ∃ y, Region P.pts P.tri y ∧
      distancePointToPolygon x P.pts P.tri n = .ok (some (Vec3.norm (x - y))) ∧
      ∀ y', Region P.pts P.tri y' → Vec3.norm (x - y) ≤ Vec3.norm (x - y'))
    (fun _ _ _ _ a b _ c d e hz => C113_distance a b d e hw c hz) hz

/-- **C118, touching, for all polygons made from their points.** -/
theorem C118_touching_drawn (hx : Axes u w) (hc : Crisp m S) (hr : ∀ p ∈ S, Reach m (inPlane o u w p))
    (hS : ∀ z, SidePoint 4 pts z → z ∈ S) (hS' : ∀ z, SidePoint 4 qs z → z ∈ S)
    (h : polygonNew (pts.map (inPlane o u w)) none none = .ok P)
    (h' : polygonNew (qs.map (inPlane o u w)) none none = .ok Q) :
    ∃ r, arePolygonsTouching P.pts P.tri Q.pts Q.tri = .ok r ∧
      (r = true ↔ ¬ P.pts.Subperm Q.pts ∧ (∀ x, EdgePoint 4 Q.pts x → ¬ Inner P.pts P.tri x) ∧
        (∀ x, EdgePoint 4 P.pts x → ¬ Inner Q.pts Q.tri x) ∧
        ((∃ p ∈ Q.pts, OnOutline P.pts p) ∨ ∃ p ∈ P.pts, OnOutline Q.pts p)) :=
  C118_touching hx hc hr hS hS' h
    (Rounded.normal_of_new hx (crisp_swap hc fun p hp => hS p (corner_side hp)) (fun p hp => hr p (hS p (corner_side hp))) h) h'
    (Rounded.normal_of_new hx (crisp_swap hc fun p hp => hS' p (corner_side hp)) (fun p hp => hr p (hS' p (corner_side hp))) h')

/-- **C118, crossing, for all polygons made from their points.** -/
theorem C118_crossing_drawn (hx : Axes u w) (hc : Crisp m S) (hr : ∀ p ∈ S, Reach (m / 100) (inPlane o u w p))
    (hS : ∀ z, SidePoint 9 pts z → z ∈ S) (hS' : ∀ z, SidePoint 9 qs z → z ∈ S)
    (h : polygonNew (pts.map (inPlane o u w)) none none = .ok P)
    (h' : polygonNew (qs.map (inPlane o u w)) none none = .ok Q) :
    ∃ r, arePolygonsCrossing P.pts P.tri Q.pts Q.tri = .ok r ∧
      (r = true ↔ ∃ e ∈ cycEdges P.pts, ∃ f ∈ cycEdges Q.pts, EdgesMeet e f ∧ ∃ k : Nat, k ≤ 9 ∧
        (Inner Q.pts Q.tri (e.1 + ((k : ℝ) / 9) • (e.2 - e.1)) ∨
          Inner P.pts P.tri (f.1 + ((k : ℝ) / 9) • (f.2 - f.1)))) := by
  have hm : 0 < m := hc.pos
  have hr' : ∀ p ∈ S, Reach m (inPlane o u w p) := fun p hp => reach_mono hm (hr p hp)
  exact C118_crossing hx hc hr hS hS' h
    (Rounded.normal_of_new hx (crisp_swap hc fun p hp => hS p (corner_side hp)) (fun p hp => hr' p (hS p (corner_side hp))) h) h'
    (Rounded.normal_of_new hx (crisp_swap hc fun p hp => hS' p (corner_side hp)) (fun p hp => hr' p (hS' p (corner_side hp))) h')

/-! ### Non-vacuity -/

/-- Non-vacuity of `C113_inside_drawn`, `C113_ray_drawn`, `C113_segment_drawn` and `C113_distance_drawn`: an L-shaped outline
which starts with its reflex corner, so that the polygon is turned round and its normal is not the product of the axes.  A
point on its lower edge is found to be on the outline. -/
example : ∃ P, polygonNew (((ellShape 10 2 3 8).rotate 3).map (inPlane ⟨5, 6, 7⟩ ⟨3 / 5, 4 / 5, 0⟩ ⟨0, 0, 1⟩)) none none = .ok P ∧
    P.vn ≠ some (Vec3.cross ⟨3 / 5, 4 / 5, 0⟩ ⟨0, 0, 1⟩) ∧
    isPointAtBoundary (inPlane ⟨5, 6, 7⟩ ⟨3 / 5, 4 / 5, 0⟩ ⟨0, 0, 1⟩ (4, 0)) P.pts = .ok true ∧
    ∃ n, CornerNormal P.pts n := by
  have hx : Axes ⟨3 / 5, 4 / 5, 0⟩ ⟨0, 0, 1⟩ := ⟨by norm_num [Vec3.dot], by norm_num [Vec3.dot], by norm_num [Vec3.dot]⟩
  have hsz : EllSize 1 10 2 3 8 := ⟨by norm_num, by norm_num, by norm_num, by norm_num, by norm_num, by norm_num, by norm_num,
    .inr (by norm_num)⟩
  have hc : Crisp 1 (((4 : ℝ), (0 : ℝ)) :: (ellShape 10 2 3 8).rotate 3) := by
    have := crisp_int (pts := [(4, 0), (3, 2), (3, 8), (0, 8), (0, 0), (10, 0), (10, 2)]) (by decide)
    simpa [ellShape, List.rotate_cons_succ] using this
  have hr : ∀ p ∈ ((4 : ℝ), (0 : ℝ)) :: (ellShape 10 2 3 8).rotate 3,
      Reach 1 (inPlane ⟨5, 6, 7⟩ ⟨3 / 5, 4 / 5, 0⟩ ⟨0, 0, 1⟩ p) := by
    simp only [ellShape, List.rotate_cons_succ, List.rotate_zero, List.cons_append, List.nil_append, List.mem_cons,
      List.not_mem_nil, or_false, forall_eq_or_imp, forall_eq, Reach, inPlane]
    norm_num [abs_le]
  obtain ⟨P, h1, h2, h3⟩ := Ell.ell_polygon_reflex (o := ⟨5, 6, 7⟩) hsz hx fun p hp => hr p (by
    simp only [ellShape, List.rotate_cons_succ, List.rotate_zero, List.cons_append, List.nil_append, List.mem_cons,
      List.not_mem_nil, or_false] at hp ⊢
    tauto)
  obtain ⟨r1, r2, r3, -, -, e3, -, -, k3⟩ := C113_inside_drawn hx hc hr h1
  have hP : P.pts = [(10, 2), (10, 0), (0, 0), (0, 8), (3, 8), (3, 2)].map
      (inPlane ⟨5, 6, 7⟩ ⟨3 / 5, 4 / 5, 0⟩ ⟨0, 0, 1⟩) := by
    rw [h2]
    simp [ellShape, List.rotate_cons_succ]
  refine ⟨P, h1, ?_, ?_, ?_⟩
  · rw [h3]
    norm_num [Vec3.cross, Vec3.ext_iff]
  · rw [e3, k3.2 ?_]
    rw [hP]
    refine ⟨(inPlane ⟨5, 6, 7⟩ ⟨3 / 5, 4 / 5, 0⟩ ⟨0, 0, 1⟩ (10, 0), inPlane ⟨5, 6, 7⟩ ⟨3 / 5, 4 / 5, 0⟩ ⟨0, 0, 1⟩ (0, 0)), ?_,
      3 / 5, by norm_num, by norm_num, ?_⟩
    · simp [cycEdges]
    · ext <;> norm_num [inPlane]
  · have hcr : Vec3.cross ((inPlane ⟨5, 6, 7⟩ ⟨3 / 5, 4 / 5, 0⟩ ⟨0, 0, 1⟩ (10, 2) : Vec3 ℝ) -
        inPlane ⟨5, 6, 7⟩ ⟨3 / 5, 4 / 5, 0⟩ ⟨0, 0, 1⟩ (3, 2))
        (inPlane ⟨5, 6, 7⟩ ⟨3 / 5, 4 / 5, 0⟩ ⟨0, 0, 1⟩ (10, 0) - inPlane ⟨5, 6, 7⟩ ⟨3 / 5, 4 / 5, 0⟩ ⟨0, 0, 1⟩ (3, 2)) =
        (14 : ℝ) • ⟨-4 / 5, 3 / 5, 0⟩ := by
      ext <;> norm_num [inPlane, Vec3.cross]
    have h1 : Vec3.norm (⟨-4 / 5, 3 / 5, 0⟩ : Vec3 ℝ) = 1 := by norm_num [Vec3.norm, Vec3.normSq, Vec3.dot]
    refine ⟨⟨-4 / 5, 3 / 5, 0⟩, h1, inPlane ⟨5, 6, 7⟩ ⟨3 / 5, 4 / 5, 0⟩ ⟨0, 0, 1⟩ (3, 2),
      inPlane ⟨5, 6, 7⟩ ⟨3 / 5, 4 / 5, 0⟩ ⟨0, 0, 1⟩ (10, 2), inPlane ⟨5, 6, 7⟩ ⟨3 / 5, 4 / 5, 0⟩ ⟨0, 0, 1⟩ (10, 0),
      by rw [hP]; rfl, by rw [hP]; rfl, by rw [hP]; rfl, ?_, ?_⟩
    · rw [hcr, Vec3.norm_smul, h1]; norm_num
    · rw [hcr, Vec3.norm_smul, h1]; norm_num

/-- The side points of an L-shaped outline which starts with its reflex corner. -/
theorem ell_points : ∀ z, SidePoint 4 ((ellShape 16 8 8 16).rotate 3) z → z ∈ grid := by
  rintro z ⟨i, a, b, ⟨h1, h2⟩, j, hj, rfl⟩
  have hi := (List.getElem?_eq_some_iff.1 h1).1
  have hl : (ellShape 16 8 8 16).rotate 3 = [(8, 8), (8, 16), (0, 16), (0, 0), (16, 0), (16, 8)] := by
    simp [ellShape, List.rotate_cons_succ]
  rw [hl] at h1 h2 hi
  have c2 : ((8 - 2 * j : Nat) : ℝ) = 8 - 2 * j := by rw [Nat.cast_sub (by omega)]; push_cast; ring
  have c4 : ((16 - 4 * j : Nat) : ℝ) = 16 - 4 * j := by rw [Nat.cast_sub (by omega)]; push_cast; ring
  have c6 : ((16 - 2 * j : Nat) : ℝ) = 16 - 2 * j := by rw [Nat.cast_sub (by omega)]; push_cast; ring
  simp only [List.length_cons, List.length_nil] at hi
  interval_cases i <;> simp at h1 h2 <;> subst h1 h2
  · convert mem_grid (i := 8) (j := 8 + 2 * j) (by omega) (by omega) using 1
    unfold lerp; ext <;> push_cast [c2, c4, c6] <;> ring
  · convert mem_grid (i := 8 - 2 * j) (j := 16) (by omega) (by omega) using 1
    unfold lerp; ext <;> push_cast [c2, c4, c6] <;> ring
  · convert mem_grid (i := 0) (j := 16 - 4 * j) (by omega) (by omega) using 1
    unfold lerp; ext <;> push_cast [c2, c4, c6] <;> ring
  · convert mem_grid (i := 4 * j) (j := 0) (by omega) (by omega) using 1
    unfold lerp; ext <;> push_cast [c2, c4, c6] <;> ring
  · convert mem_grid (i := 16) (j := 2 * j) (by omega) (by omega) using 1
    unfold lerp; ext <;> push_cast [c2, c4, c6] <;> ring
  · convert mem_grid (i := 16 - 2 * j) (j := 8) (by omega) (by omega) using 1
    unfold lerp; ext <;> push_cast [c2, c4, c6] <;> ring

/-- Non-vacuity of `C118_touching_drawn`: an L-shaped wall which starts with its reflex corner, and the square in its notch. -/
example : ∃ P Q, polygonNew (((ellShape 16 8 8 16).rotate 3).map (inPlane 0 ⟨1, 0, 0⟩ ⟨0, 1, 0⟩)) none none = .ok P ∧
    polygonNew ((square 8 8 8).reverse.map (inPlane 0 ⟨1, 0, 0⟩ ⟨0, 1, 0⟩)) none none = .ok Q ∧
    ∃ r, arePolygonsTouching P.pts P.tri Q.pts Q.tri = .ok r := by
  have hsz : EllSize 1 16 8 8 16 := ⟨by norm_num, by norm_num, by norm_num, by norm_num, by norm_num, by norm_num, by norm_num,
    .inl (by norm_num)⟩
  have e2 : square 8 8 8 = square ((8 : Nat) : ℝ) ((8 : Nat) : ℝ) ((4 : Nat) * (2 : Nat)) := by norm_num
  rw [e2]
  obtain ⟨P, h, -⟩ := Ell.ell_polygon_reflex (o := 0) hsz std fun p hp =>
    reach_grid (by norm_num) (ell_points p (corner_side (List.mem_rotate.2 hp)))
  obtain ⟨Q, h'⟩ := (square_made (n := 4) (x := 8) (y := 8) (d := 2) (by norm_num) (by norm_num) (by norm_num) (by norm_num)).2
  have hS' : ∀ z, SidePoint 4 (square ((8 : Nat) : ℝ) ((8 : Nat) : ℝ) ((4 : Nat) * (2 : Nat))).reverse z → z ∈ grid :=
    fun z hz => side_points (by norm_num) (by norm_num) (by norm_num) z (sidePoint_any (by norm_num) (.inr rfl) hz)
  obtain ⟨r, h1, -⟩ := C118_touching_drawn std crisp_grid (fun p hp => reach_grid (by norm_num) hp) ell_points hS' h h'
  exact ⟨P, Q, h, h', r, h1⟩

end B3d.PairsExact
