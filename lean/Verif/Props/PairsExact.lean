import Verif.Proofs.PairsExact
import Verif.Props.Touching
import Verif.Props.Crossing
import Verif.Props.SegmentsExact
import Verif.Props.Placement
import Verif.Props.SliceConvex

/-!
# C118: touching and crossing polygons without doubtful positions

Two polygons in a plane, drawn in either direction.  `S` contains the corners and the points which divide the sides into
quarters (touching) or ninths (crossing), the points at which the library looks, and there are no doubtful cases in `S`
(`Crisp`).
-/

namespace B3d.PairsExact

open Spec Planar Points Slice Polygon Triangles ConvexEars PointExact SliceConvex ConvexPairs

variable {o u w : Vec3 ℝ} {m : ℝ} {pts qs S : List (ℝ × ℝ)} {P Q : Poly} {vn vn' : Option (Vec3 ℝ)}

theorem inner_iff (hx : Axes u w) (hc : Crisp m S) (hr : ∀ p ∈ S, Reach m (inPlane o u w p)) (hS : ∀ p ∈ pts, p ∈ S)
    (h : polygonNew (pts.map (inPlane o u w)) none vn = .ok P) (hv : Normal u w P) {z : ℝ × ℝ} (hz : z ∈ S) :
    Polygon.isPointInside (inPlane o u w z) P.pts P.tri false = .ok true ↔ Inner P.pts P.tri (inPlane o u w z) := by
  obtain ⟨r, h1, k1⟩ := inside_any hx hc hr hS h hv hz false
  rw [h1, Except.ok.injEq, k1]
  simp [Inner]

theorem quarter_iff (hx : Axes u w) (hc : Crisp m S) (hr : ∀ p ∈ S, Reach m (inPlane o u w p))
    (hS : ∀ p ∈ pts, p ∈ S) (hS' : ∀ z, SidePoint 4 qs z → z ∈ S)
    (h : polygonNew (pts.map (inPlane o u w)) none vn = .ok P) (hv : Normal u w P)
    (h' : polygonNew (qs.map (inPlane o u w)) none vn' = .ok Q) :
    (¬ ∃ e ∈ cycEdges Q.pts, QuarterInside P.pts P.tri e) ↔ ∀ x, EdgePoint 4 Q.pts x → ¬ Inner P.pts P.tri x := by
  constructor
  · intro hno x hx' hin
    obtain ⟨z, hz, rfl⟩ := edgePoint_drawn (by norm_num) h' hx'
    obtain ⟨e, he, j, hj, ex⟩ := hx'
    refine hno ⟨e, he, j, hj, ?_⟩
    have := (inner_iff hx hc hr hS h hv (hS' z hz)).2 hin
    rw [ex] at this
    simpa using this
  · rintro hall ⟨e, he, j, hj, hin⟩
    have hE : EdgePoint 4 Q.pts (e.1 + ((j : ℝ) / 4) • (e.2 - e.1)) := ⟨e, he, j, hj, by norm_num⟩
    refine hall _ hE ?_
    obtain ⟨z, hz, ez⟩ := edgePoint_drawn (by norm_num) h' hE
    rw [ez] at hin ⊢
    exact (inner_iff hx hc hr hS h hv (hS' z hz)).1 hin

theorem boundary_iff (hx : Axes u w) (hc : Crisp m S) (hr : ∀ p ∈ S, Reach m (inPlane o u w p))
    (hS : ∀ p ∈ pts, p ∈ S) (hS' : ∀ p ∈ qs, p ∈ S) (h : polygonNew (pts.map (inPlane o u w)) none vn = .ok P)
    (h' : polygonNew (qs.map (inPlane o u w)) none vn' = .ok Q) :
    (∃ p ∈ Q.pts, isPointAtBoundary p P.pts = .ok true) ↔ ∃ p ∈ Q.pts, OnOutline P.pts p := by
  refine exists_congr fun p => and_congr_right fun hp => ?_
  obtain ⟨z, hz, rfl⟩ := (corners_drawn h').1 hp
  obtain ⟨r, h1, k1⟩ := atBoundary_exact hx hc hr hS h (hS' z hz)
  rw [h1, Except.ok.injEq, k1]

theorem overlap_of_common {pts1 pts2 : List (Vec3 ℝ)} {b1 b2 : Vec3 ℝ × Vec3 ℝ} (h1 : Bboxes.boundingBox pts1 = .ok b1)
    (h2 : Bboxes.boundingBox pts2 = .ok b2) {x : Vec3 ℝ} (hp : x ∈ pts2) (ho : OnOutline pts1 x) :
    Bboxes.areBboxesOverlapping b1 b2 = true ∧ Bboxes.areBboxesOverlapping b2 b1 = true := by
  have seg : ∀ (a b : Vec3 ℝ) (t : ℝ), 0 ≤ t → t ≤ 1 → Bboxes.InTriangle a b a (a + t • (b - a)) := fun a b t h0 h1 =>
    ⟨1 - t, t, 0, by linarith, h0, le_refl _, by ring, by ext <;> simp <;> ring⟩
  have self : ∀ a : Vec3 ℝ, Bboxes.InTriangle a a a a := fun a =>
    ⟨1, 0, 0, zero_le_one, le_refl _, le_refl _, by ring, by simp⟩
  obtain ⟨ed, he, t, k0, k1, rfl⟩ := ho
  have m := cycEdges_mem he
  exact ⟨Bboxes.C26_no_false_negative pts1 pts2 b1 b2 h1 h2 _ ed.1 ed.2 ed.1 _ _ _ m.1 m.2 m.1 hp hp hp
      (seg _ _ _ k0 k1) (self _),
    Bboxes.C26_no_false_negative pts2 pts1 b2 b1 h2 h1 _ _ _ _ ed.1 ed.2 ed.1 hp hp hp m.1 m.2 m.1
      (self _) (seg _ _ _ k0 k1)⟩

/-- **C118, touching.**  The answer is True exactly if a corner of one polygon is on the outline of the other, no corner of
one and no point which divides an edge of it into quarters is in the other and off its outline, and not all corners of the
first polygon are corners of the second. -/
theorem C118_touching (hx : Axes u w) (hc : Crisp m S) (hr : ∀ p ∈ S, Reach m (inPlane o u w p))
    (hS : ∀ z, SidePoint 4 pts z → z ∈ S) (hS' : ∀ z, SidePoint 4 qs z → z ∈ S)
    (h : polygonNew (pts.map (inPlane o u w)) none vn = .ok P) (hv : Normal u w P)
    (h' : polygonNew (qs.map (inPlane o u w)) none vn' = .ok Q) (hv' : Normal u w Q) :
    ∃ r, arePolygonsTouching P.pts P.tri Q.pts Q.tri = .ok r ∧
      (r = true ↔ ¬ P.pts.Subperm Q.pts ∧ (∀ x, EdgePoint 4 Q.pts x → ¬ Inner P.pts P.tri x) ∧
        (∀ x, EdgePoint 4 P.pts x → ¬ Inner Q.pts Q.tri x) ∧
        ((∃ p ∈ Q.pts, OnOutline P.pts p) ∨ ∃ p ∈ P.pts, OnOutline Q.pts p)) := by
  have c1 : ∀ p ∈ pts, p ∈ S := fun p hp => hS p (corner_side hp)
  have c2 : ∀ p ∈ qs, p ∈ S := fun p hp => hS' p (corner_side hp)
  obtain ⟨r, b1, b2, hr1, hb1, hb2, hir⟩ := touching_iff (polygonNew_sturdy h) (polygonNew_sturdy h')
  refine ⟨r, hr1, ?_⟩
  have same : areAllPointsSame P.pts Q.pts = false ↔ ¬ P.pts.Subperm Q.pts := by
    rw [← allSame_iff, Bool.not_eq_true]
    intro p hp q hq he
    obtain ⟨p', mp, rfl⟩ := (corners_drawn h).1 hp
    obtain ⟨q', mq, rfl⟩ := (corners_drawn h').1 hq
    by_contra hne
    rw [not_equal hx hc hr (c1 p' mp) (c2 q' mq) fun e => hne (by rw [e])] at he
    cases he
  rw [hir, same, quarter_iff hx hc hr c1 hS' h hv h', quarter_iff hx hc hr c2 hS h' hv' h,
    boundary_iff hx hc hr c1 c2 h h', boundary_iff hx hc hr c2 c1 h' h]
  constructor
  · exact fun hh => hh.2
  · refine fun hh => ⟨?_, hh⟩
    rcases hh.2.2.2 with ⟨p, hp, ho⟩ | ⟨p, hp, ho⟩
    · exact (overlap_of_common hb1 hb2 hp ho).1
    · exact (overlap_of_common hb2 hb1 hp ho).2

/-- The second polygon of a pair: drawn in the same or in the opposite direction. -/
theorem shape_any (hx : Axes u w) (hc : Crisp m qs) (hr : ∀ p ∈ qs, Reach m (inPlane o u w p)) (hp : ConvexCorners qs)
    {L : List (ℝ × ℝ)} (hL : L = qs ∨ L = qs.reverse) (h : polygonNew (L.map (inPlane o u w)) none none = .ok Q) :
    Shape o u w qs Q := by
  rcases hL with rfl | rfl
  · exact shape_left hx hc hr hp h
  · exact shape_right hx hc hr hp h

theorem sidePoint_any {n : Nat} (hn : n ≠ 0) {L : List (ℝ × ℝ)} (hL : L = qs ∨ L = qs.reverse) {z : ℝ × ℝ}
    (h : SidePoint n L z) : SidePoint n qs z := by
  rcases hL with rfl | rfl
  · exact h
  · obtain ⟨i, a, b, hi, j, hj, rfl⟩ := h
    have := (Solids.cycEdges_reverse_perm qs).subset (cycEdges_of_side hi)
    obtain ⟨⟨c, d⟩, hcd, e⟩ := List.mem_map.1 this
    cases e
    obtain ⟨i', hi'⟩ := side_of_cycEdges hcd
    refine ⟨i', c, d, hi', n - j, by omega, ?_⟩
    rw [lerp_back]
    congr 1
    have : (n : ℝ) ≠ 0 := by exact_mod_cast hn
    rw [Nat.cast_sub hj]
    field_simp

theorem inner_strict (hp : ConvexCorners qs) (hs : Shape o u w qs Q) (z : ℝ × ℝ) :
    Inner Q.pts Q.tri (inPlane o u w z) ↔ Strict qs z := by
  unfold Inner
  rw [hs.region, hs.outline]
  exact strict_iff hp.corners hp.turns

/-- A point of one convex polygon is not an inner point of the other, if they have no common inner point. -/
theorem not_inner (hp : ConvexCorners pts) (hq : ConvexCorners qs) (hs : Shape o u w pts P) (hs' : Shape o u w qs Q)
    (hd : ¬ ∃ x, Inner P.pts P.tri x ∧ Inner Q.pts Q.tri x) {z : ℝ × ℝ} (hz : Region Q.pts Q.tri (inPlane o u w z)) :
    ¬ Inner P.pts P.tri (inPlane o u w z) := by
  intro hin
  obtain ⟨s, hs2⟩ := strict_exists hq.corners hq.turns
  obtain ⟨x, a, b⟩ := common_of_strict ((inner_strict hp hs z).1 hin) ((hs'.region z).1 hz) hs2
  exact hd ⟨inPlane o u w x, (inner_strict hp hs x).2 a, (inner_strict hq hs' x).2 b⟩

theorem edge_region (hq : ConvexCorners qs) (hs : Shape o u w qs Q) {L : List (ℝ × ℝ)} (hL : L = qs ∨ L = qs.reverse)
    (h : polygonNew (L.map (inPlane o u w)) none none = .ok Q) {n : Nat} (hn : n ≠ 0) {x : Vec3 ℝ}
    (hE : EdgePoint n Q.pts x) : ∃ z, x = inPlane o u w z ∧ Region Q.pts Q.tri x := by
  obtain ⟨z, hz, rfl⟩ := edgePoint_drawn hn h hE
  refine ⟨z, rfl, (hs.region z).2 ?_⟩
  obtain ⟨i, a, b, hi, j, hj, rfl⟩ := sidePoint_any hn hL hz
  intro i' a' b' hi'
  refine outline_nonneg hq.turns ⟨i, a, b, _, hi, by positivity, ?_, rfl⟩ hi'
  have : (0 : ℝ) < n := by exact_mod_cast Nat.pos_of_ne_zero hn
  rw [div_le_one this]
  exact_mod_cast hj

/-- **C118, touching convex polygons.**  If two convex polygons have no common inner point, they are said to be touching
exactly if they have a common point. -/
theorem C118_touching_convex (hx : Axes u w) (hc : Crisp m S) (hr : ∀ p ∈ S, Reach m (inPlane o u w p))
    (hS : ∀ z, SidePoint 4 pts z → z ∈ S) (hS' : ∀ z, SidePoint 4 qs z → z ∈ S) (hp : ConvexCorners pts)
    (hq : ConvexCorners qs) (h : polygonNew (pts.map (inPlane o u w)) none none = .ok P) {L : List (ℝ × ℝ)}
    (hL : L = qs ∨ L = qs.reverse) (h' : polygonNew (L.map (inPlane o u w)) none none = .ok Q)
    (hd : ¬ ∃ x, Inner P.pts P.tri x ∧ Inner Q.pts Q.tri x) :
    ∃ r, arePolygonsTouching P.pts P.tri Q.pts Q.tri = .ok r ∧
      (r = true ↔ ∃ x, Region P.pts P.tri x ∧ Region Q.pts Q.tri x) := by
  have c1 : ∀ p ∈ pts, p ∈ S := fun p hp => hS p (corner_side hp)
  have c2 : ∀ p ∈ qs, p ∈ S := fun p hp => hS' p (corner_side hp)
  have s1 := shape_left hx (crisp_swap hc c1) (fun p hp => hr p (c1 p hp)) hp h
  have s2 := shape_any hx (crisp_swap hc c2) (fun p hp => hr p (c2 p hp)) hq hL h'
  have hd' : ¬ ∃ x, Inner Q.pts Q.tri x ∧ Inner P.pts P.tri x := fun ⟨x, a, b⟩ => hd ⟨x, b, a⟩
  obtain ⟨r, h1, k1⟩ := C118_touching hx hc hr hS (fun z hz => hS' z (sidePoint_any (by norm_num) hL hz)) h s1.normal h'
    s2.normal
  refine ⟨r, h1, ?_⟩
  have mL : ∀ {z}, z ∈ L ↔ z ∈ qs := by
    intro z
    rcases hL with rfl | rfl <;> simp
  have inP : ∀ z ∈ pts, Region P.pts P.tri (inPlane o u w z) := by
    intro z hz
    rw [s1.region]
    exact fun i a b hi => by
      obtain ⟨k, hk⟩ := List.getElem?_of_mem hz
      exact (hp.turns |> fun t => Pos.side t hi hk).1
  have inQ : ∀ z ∈ qs, Region Q.pts Q.tri (inPlane o u w z) := by
    intro z hz
    rw [s2.region]
    exact fun i a b hi => by
      obtain ⟨k, hk⟩ := List.getElem?_of_mem hz
      exact (hq.turns |> fun t => Pos.side t hi hk).1
  rw [k1]
  constructor
  · rintro ⟨-, -, -, ⟨p, hp', ho⟩ | ⟨p, hp', ho⟩⟩
    · obtain ⟨z, hz, rfl⟩ := (corners_drawn h').1 hp'
      exact ⟨_, (s1.region z).2 fun i a b hi => outline_nonneg hp.turns ((s1.outline z).1 ho) hi, inQ z (mL.1 hz)⟩
    · obtain ⟨z, hz, rfl⟩ := (corners_drawn h).1 hp'
      exact ⟨_, inP z hz, (s2.region z).2 fun i a b hi => outline_nonneg hq.turns ((s2.outline z).1 ho) hi⟩
  · rintro ⟨x, r1, r2⟩
    refine ⟨?_, ?_, ?_, ?_⟩
    · intro hsub
      obtain ⟨s, hs⟩ := strict_exists hp.corners hp.turns
      have hin : Inner P.pts P.tri (inPlane o u w s) := (inner_strict hp s1 s).2 hs
      refine not_inner hp hq s1 s2 hd ?_ hin
      obtain ⟨t, ht, a, b, c, ha, hb, hc', r, s', q, r0, s0, q0, h4, e⟩ := hin.1
      have cor : ∀ p ∈ P.pts, ∃ z, p = inPlane o u w z ∧ In qs z := by
        intro p hp'
        obtain ⟨z, hz, rfl⟩ := (corners_drawn h').1 (hsub.subset hp')
        exact ⟨z, rfl, (s2.region z).1 (inQ z (mL.1 hz))⟩
      obtain ⟨a', rfl, ia⟩ := cor a (List.mem_of_getElem? ha)
      obtain ⟨b', rfl, ib⟩ := cor b (List.mem_of_getElem? hb)
      obtain ⟨c', rfl, ic⟩ := cor c (List.mem_of_getElem? hc')
      rw [e, comb_inPlane _ _ _ h4, s2.region]
      intro i e1 e2 hi
      have e' : signedArea e1 e2 (r * a'.1 + s' * b'.1 + q * c'.1, r * a'.2 + s' * b'.2 + q * c'.2) =
          r * signedArea e1 e2 a' + s' * signedArea e1 e2 b' + q * signedArea e1 e2 c' := by
        obtain rfl : r = 1 - s' - q := by linarith
        unfold signedArea; ring
      rw [e']
      have := ia i e1 e2 hi
      have := ib i e1 e2 hi
      have := ic i e1 e2 hi
      positivity
    · intro x hE
      obtain ⟨z, rfl, hz⟩ := edge_region hq s2 hL h' (by norm_num) hE
      exact not_inner hp hq s1 s2 hd hz
    · intro x hE
      obtain ⟨z, rfl, hz⟩ := edge_region hp s1 (.inl rfl) h (by norm_num) hE
      exact not_inner hq hp s2 s1 hd' hz
    · obtain ⟨z, rfl⟩ := region_drawn h r1
      rcases corner_of_common hp.corners hp.turns hq.corners hq.turns ((s1.region z).1 r1) ((s2.region z).1 r2) (by
        rintro ⟨y, a, b⟩
        exact hd ⟨_, (inner_strict hp s1 y).2 a, (inner_strict hq s2 y).2 b⟩) with ⟨p, m1, ho⟩ | ⟨q, m1, ho⟩
      · exact .inr ⟨_, (corners_drawn h).2 ⟨p, m1, rfl⟩, (s2.outline p).2 ho⟩
      · exact .inl ⟨_, (corners_drawn h').2 ⟨q, mL.2 m1, rfl⟩, (s1.outline q).2 ho⟩

/-! ### Crossing -/

theorem meet_iff (hx : Axes u w) (hc : Crisp m S) (hr : ∀ p ∈ S, Reach (m / 100) (inPlane o u w p)) {a b c d : ℝ × ℝ}
    (ma : a ∈ S) (mb : b ∈ S) (mc : c ∈ S) (md : d ∈ S) :
    (NoSharedEnd (inPlane o u w a, inPlane o u w b) (inPlane o u w c, inPlane o u w d) ∧
      ∃ p, lineSegmentIntersection (inPlane o u w a) (inPlane o u w b) (inPlane o u w c) (inPlane o u w d) = some p) ↔
      EdgesMeet (inPlane o u w a, inPlane o u w b) (inPlane o u w c, inPlane o u w d) := by
  have hr' := fun z hz => reach_mono hc.pos (hr z hz)
  have eq : ∀ {x y : ℝ × ℝ}, x ∈ S → y ∈ S → (pointsEqual (inPlane o u w x) (inPlane o u w y) = false ↔
      inPlane o u w x ≠ inPlane o u w y) := by
    intro x y mx my
    rw [← Bool.not_eq_true, SegmentsExact.equal_iff hx hc hr mx my, (inPlane_injective hx).ne_iff]
  have hpar : Vec3.cross (inPlane o u w b - inPlane o u w a) (inPlane o u w d - inPlane o u w c) = 0 ↔
      signedArea a b d = signedArea a b c := by
    rw [SegmentsExact.cross_inPlane, smul_eq_zero, sub_eq_zero]
    refine or_iff_left fun h => ?_
    have := norm_cross hx
    rw [h, Vec3.norm_eq_zero.2 rfl] at this
    norm_num at this
  obtain ⟨h1, h2⟩ := SegmentsExact.C116_segments hx hc hr ma mb mc md
  unfold NoSharedEnd EdgesMeet
  simp only []
  rw [eq ma mc, eq ma md, eq mb md, eq mb mc]
  constructor
  · rintro ⟨⟨n1, n2, n3, n4⟩, p, hp⟩
    have hno : ¬ ((¬ ∃ z, Common a b c d z) ∨ OneLine a b c d) := by
      intro hh
      rw [h2 hh] at hp
      cases hp
    push Not at hno
    obtain ⟨⟨z, hz⟩, hol⟩ := hno
    refine ⟨n1, n2, n4, n3, ?_, inPlane o u w z, ?_⟩
    · rw [Ne, hpar]
      intro he
      obtain ⟨s, t, -, -, -, -, e1, e2⟩ := hz
      have z0 : signedArea a b z = 0 := by rw [e1, area_between_self]
      rw [e2, area_between, he] at z0
      have : signedArea a b c = 0 := by linarith
      exact hol ⟨this, by rw [he, this]⟩
    · obtain ⟨s, t, s0, s1, t0, t1, e1, e2⟩ := hz
      exact ⟨⟨s, s0, s1, by rw [e1, inPlane_between]⟩, ⟨t, t0, t1, by rw [e2, inPlane_between]⟩⟩
  · rintro ⟨n1, n2, n4, n3, hne, x, ⟨s, s0, s1, e1⟩, ⟨t, t0, t1, e2⟩⟩
    refine ⟨⟨n1, n2, n3, n4⟩, _, h1 (lerp a b s) ⟨s, t, s0, s1, t0, t1, rfl, ?_⟩ ?_⟩
    · refine inPlane_injective (o := o) hx ?_
      rw [inPlane_between, inPlane_between, ← e1, ← e2]
    · intro hol
      exact hne (hpar.2 (by rw [hol.1, hol.2]))

theorem sample_iff (hx : Axes u w) (hc : Crisp m S) (hr : ∀ p ∈ S, Reach m (inPlane o u w p))
    (hS : ∀ z, SidePoint 9 pts z → z ∈ S) (hS' : ∀ z, SidePoint 9 qs z → z ∈ S)
    (h : polygonNew (pts.map (inPlane o u w)) none vn = .ok P) (hv : Normal u w P)
    (h' : polygonNew (qs.map (inPlane o u w)) none vn' = .ok Q) (hv' : Normal u w Q) {e f : Vec3 ℝ × Vec3 ℝ}
    (he : e ∈ cycEdges P.pts) (hf : f ∈ cycEdges Q.pts) :
    SampleInside P.pts P.tri Q.pts Q.tri e f ↔ ∃ k : Nat, k ≤ 9 ∧
      (Inner Q.pts Q.tri (e.1 + ((k : ℝ) / 9) • (e.2 - e.1)) ∨ Inner P.pts P.tri (f.1 + ((k : ℝ) / 9) • (f.2 - f.1))) := by
  have c1 : ∀ p ∈ pts, p ∈ S := fun p hp => hS p (corner_side hp)
  have c2 : ∀ p ∈ qs, p ∈ S := fun p hp => hS' p (corner_side hp)
  unfold SampleInside
  refine exists_congr fun k => and_congr_right fun hk => or_congr ?_ ?_
  · obtain ⟨z, hz, ez⟩ := edgePoint_drawn (n := 9) (by norm_num) h ⟨e, he, k, hk, rfl⟩
    rw [show ((9 : Nat) : ℝ) = 9 by norm_num] at ez
    rw [ez]
    exact inner_iff hx hc hr c2 h' hv' (hS z hz)
  · obtain ⟨z, hz, ez⟩ := edgePoint_drawn (n := 9) (by norm_num) h' ⟨f, hf, k, hk, rfl⟩
    rw [show ((9 : Nat) : ℝ) = 9 by norm_num] at ez
    rw [ez]
    exact inner_iff hx hc hr c1 h hv (hS' z hz)

/-- **C118, crossing.**  The answer is True exactly if there are edges of the two polygons which meet, without a common end
and not in the same direction, such that one of the points which divide one of these edges into ninths, or one of its ends,
is in the other polygon and off its outline. -/
theorem C118_crossing (hx : Axes u w) (hc : Crisp m S) (hr : ∀ p ∈ S, Reach (m / 100) (inPlane o u w p))
    (hS : ∀ z, SidePoint 9 pts z → z ∈ S) (hS' : ∀ z, SidePoint 9 qs z → z ∈ S)
    (h : polygonNew (pts.map (inPlane o u w)) none vn = .ok P) (hv : Normal u w P)
    (h' : polygonNew (qs.map (inPlane o u w)) none vn' = .ok Q) (hv' : Normal u w Q) :
    ∃ r, arePolygonsCrossing P.pts P.tri Q.pts Q.tri = .ok r ∧
      (r = true ↔ ∃ e ∈ cycEdges P.pts, ∃ f ∈ cycEdges Q.pts, EdgesMeet e f ∧ ∃ k : Nat, k ≤ 9 ∧
        (Inner Q.pts Q.tri (e.1 + ((k : ℝ) / 9) • (e.2 - e.1)) ∨
          Inner P.pts P.tri (f.1 + ((k : ℝ) / 9) • (f.2 - f.1)))) := by
  have hr' := fun z hz => reach_mono hc.pos (hr z hz)
  have c1 : ∀ p ∈ pts, p ∈ S := fun p hp => hS p (corner_side hp)
  have c2 : ∀ p ∈ qs, p ∈ S := fun p hp => hS' p (corner_side hp)
  obtain ⟨r, b1, b2, hr1, hb1, hb2, hir⟩ := Polygon.crossing_iff (polygonNew_sturdy h) (polygonNew_sturdy h')
    (fun e he => polygonNew_edges_ne h he) (fun e he => polygonNew_edges_ne h' he)
  refine ⟨r, hr1, ?_⟩
  rw [hir]
  have meets : ∀ {e f : Vec3 ℝ × Vec3 ℝ}, e ∈ cycEdges P.pts → f ∈ cycEdges Q.pts →
      ((NoSharedEnd e f ∧ ∃ p, lineSegmentIntersection e.1 e.2 f.1 f.2 = some p) ↔ EdgesMeet e f) := by
    intro e f he hf
    obtain ⟨a, ma, b, mb, rfl, -⟩ := edges_in h he
    obtain ⟨c, mc, d, md, rfl, -⟩ := edges_in h' hf
    exact meet_iff hx hc hr (c1 a ma) (c1 b mb) (c2 c mc) (c2 d md)
  have onEdge : ∀ {e f : Vec3 ℝ × Vec3 ℝ} {p : Vec3 ℝ}, e ∈ cycEdges P.pts → f ∈ cycEdges Q.pts →
      lineSegmentIntersection e.1 e.2 f.1 f.2 = some p → ¬ OffEdge p e := by
    intro e f p he hf hp hoff
    obtain ⟨a, ma, b, mb, rfl, -⟩ := edges_in h he
    obtain ⟨c, mc, d, md, rfl, -⟩ := edges_in h' hf
    obtain ⟨h1, h2⟩ := SegmentsExact.C116_segments hx hc hr (c1 a ma) (c1 b mb) (c2 c mc) (c2 d md)
    have hno : ¬ ((¬ ∃ z, Common a b c d z) ∨ OneLine a b c d) := by
      intro hh
      rw [h2 hh] at hp
      cases hp
    push Not at hno
    obtain ⟨⟨z, hz⟩, hol⟩ := hno
    have e1 := h1 z hz hol
    rw [hp, Option.some.injEq] at e1
    obtain ⟨s, t, s0, s1, -, -, ez, -⟩ := hz
    have := hoff p ⟨s, s0, s1, by rw [e1, ez, inPlane_between]⟩
    rw [sub_self, Vec3.norm_eq_zero.2 rfl] at this
    norm_num [NP_ATOL] at this
  have cop : arePointsCoplanar (P.pts ++ Q.pts) = true := by
    refine C36_coplanar_complete _ (Vec3.cross u w) (Vec3.dot (Vec3.cross u w) o) _ ?_ GEOM_ATOL_pos ?_
    · intro he
      have := norm_cross hx
      rw [he, Vec3.norm_eq_zero.2 rfl] at this
      norm_num at this
    · intro p hp
      rcases List.mem_append.1 hp with hp | hp
      · exact plane_of h p hp
      · exact plane_of h' p hp
  constructor
  · rintro ⟨-, -, e, he, f, hf, hns, p, hp, hcase⟩
    refine ⟨e, he, f, hf, (meets he hf).1 ⟨hns, p, hp⟩, ?_⟩
    rcases hcase with ⟨hoff, -⟩ | hs
    · exact absurd hoff (onEdge he hf hp)
    · exact (sample_iff hx hc hr' hS hS' h hv h' hv' he hf).1 hs
  · rintro ⟨e, he, f, hf, hm, hs⟩
    obtain ⟨hns, p, hp⟩ := (meets he hf).2 hm
    refine ⟨?_, cop, e, he, f, hf, hns, p, hp, .inr ((sample_iff hx hc hr' hS hS' h hv h' hv' he hf).2 hs)⟩
    obtain ⟨-, -, -, -, -, x, ⟨s, s0, s1, e1⟩, ⟨t, t0, t1, e2⟩⟩ := hm
    have seg : ∀ (a b : Vec3 ℝ) (t : ℝ), 0 ≤ t → t ≤ 1 → Bboxes.InTriangle a b a (a + t • (b - a)) := fun a b t h0 h1 =>
      ⟨1 - t, t, 0, by linarith, h0, le_refl _, by ring, by ext <;> simp <;> ring⟩
    have m1 := cycEdges_mem he
    have m2 := cycEdges_mem hf
    exact Bboxes.C26_no_false_negative P.pts Q.pts b1 b2 hb1 hb2 x e.1 e.2 e.1 f.1 f.2 f.1 m1.1 m1.2 m1.1 m2.1 m2.2 m2.1
      (by rw [e1]; exact seg _ _ _ s0 s1) (by rw [e2]; exact seg _ _ _ t0 t1)

/-- **C118, convex polygons without a common inner point are not crossing.** -/
theorem C118_not_crossing (hx : Axes u w) (hc : Crisp m S) (hr : ∀ p ∈ S, Reach (m / 100) (inPlane o u w p))
    (hS : ∀ z, SidePoint 9 pts z → z ∈ S) (hS' : ∀ z, SidePoint 9 qs z → z ∈ S) (hp : ConvexCorners pts)
    (hq : ConvexCorners qs) (h : polygonNew (pts.map (inPlane o u w)) none none = .ok P) {L : List (ℝ × ℝ)}
    (hL : L = qs ∨ L = qs.reverse) (h' : polygonNew (L.map (inPlane o u w)) none none = .ok Q)
    (hd : ¬ ∃ x, Inner P.pts P.tri x ∧ Inner Q.pts Q.tri x) :
    arePolygonsCrossing P.pts P.tri Q.pts Q.tri = .ok false := by
  have hr' := fun z hz => reach_mono hc.pos (hr z hz)
  have c1 : ∀ p ∈ pts, p ∈ S := fun p hp => hS p (corner_side hp)
  have c2 : ∀ p ∈ qs, p ∈ S := fun p hp => hS' p (corner_side hp)
  have s1 := shape_left hx (crisp_swap hc c1) (fun p hp => hr' p (c1 p hp)) hp h
  have s2 := shape_any hx (crisp_swap hc c2) (fun p hp => hr' p (c2 p hp)) hq hL h'
  have hd' : ¬ ∃ x, Inner Q.pts Q.tri x ∧ Inner P.pts P.tri x := fun ⟨x, a, b⟩ => hd ⟨x, b, a⟩
  obtain ⟨r, h1, k1⟩ := C118_crossing hx hc hr hS (fun z hz => hS' z (sidePoint_any (by norm_num) hL hz)) h s1.normal h'
    s2.normal
  cases r with
  | false => exact h1
  | true =>
    exfalso
    obtain ⟨e, he, f, hf, -, k, hk, hin⟩ := k1.1 rfl
    rcases hin with hin | hin
    · obtain ⟨z, ez, hz⟩ := edge_region hp s1 (.inl rfl) h (n := 9) (by norm_num) ⟨e, he, k, hk, rfl⟩
      rw [show ((9 : Nat) : ℝ) = 9 by norm_num] at ez hz
      rw [ez] at hin hz
      exact not_inner hq hp s2 s1 hd' hz hin
    · obtain ⟨z, ez, hz⟩ := edge_region hq s2 hL h' (n := 9) (by norm_num) ⟨f, hf, k, hk, rfl⟩
      rw [show ((9 : Nat) : ℝ) = 9 by norm_num] at ez hz
      rw [ez] at hin hz
      exact not_inner hp hq s1 s2 hd hz hin

/-! ### Non-vacuity -/

theorem std : Axes ⟨1, 0, 0⟩ ⟨0, 1, 0⟩ := ⟨by norm_num [Vec3.dot], by norm_num [Vec3.dot], by norm_num [Vec3.dot]⟩

/-- Squares from `(x, y)` of the size `d`. -/
def square (x y d : ℝ) : List (ℝ × ℝ) := [(x, y), (x + d, y), (x + d, y + d), (x, y + d)]

theorem square_side {x y d : ℝ} {i : Nat} {a b : ℝ × ℝ} (h : Side (square x y d) i a b) :
    (a, b) ∈ [((x, y), (x + d, y)), ((x + d, y), (x + d, y + d)), ((x + d, y + d), (x, y + d)), ((x, y + d), (x, y))] := by
  obtain ⟨h1, h2⟩ := h
  have hi := (List.getElem?_eq_some_iff.1 h1).1
  simp only [square, List.length_cons, List.length_nil] at hi
  interval_cases i <;> simp [square] at h1 h2 <;> subst h1 h2 <;> simp

theorem square_convex (x y : ℝ) {d : ℝ} (hd : 0 < d) : ConvexCorners (square x y d) := by
  refine ⟨by simp [square], fun a b c h => ?_⟩
  have h1 : [a, b, c] ∈ (square x y d).sublistsLen 3 := List.mem_sublistsLen.2 ⟨h, rfl⟩
  simp [square, List.sublistsLen, List.sublistsLenAux] at h1
  rcases h1 with ⟨rfl, rfl, rfl⟩ | ⟨rfl, rfl, rfl⟩ | ⟨rfl, rfl, rfl⟩ | ⟨rfl, rfl, rfl⟩ <;>
    simp [signedArea] <;> nlinarith

/-- The points with whole coordinates up to 18. -/
def grid : List (ℝ × ℝ) :=
  ((List.range 19).flatMap fun i : Nat => (List.range 19).map fun j : Nat => ((i : ℤ), (j : ℤ))).map fun p => ((p.1 : ℝ), (p.2 : ℝ))

theorem mem_grid {i j : Nat} (hi : i ≤ 18) (hj : j ≤ 18) : ((i : ℝ), (j : ℝ)) ∈ grid := by
  refine List.mem_map.2 ⟨((i : ℤ), (j : ℤ)), ?_, by simp⟩
  simp only [List.mem_flatMap, List.mem_map, List.mem_range, Prod.mk.injEq]
  exact ⟨i, by omega, j, by omega, rfl, rfl⟩

theorem crisp_grid : Crisp 1 grid := crisp_int (by decide +kernel)

theorem reach_grid {k : ℝ} (hk : 1 / 100 ≤ k) {p : ℝ × ℝ} (hp : p ∈ grid) :
    Reach k (inPlane 0 ⟨1, 0, 0⟩ ⟨0, 1, 0⟩ p) := by
  simp only [grid, List.map_flatMap, List.map_map, List.mem_flatMap, List.mem_map, List.mem_range] at hp
  obtain ⟨i, hi, j, hj, rfl⟩ := hp
  have h1 : (i : ℝ) ≤ 18 := by exact_mod_cast Nat.lt_succ_iff.1 hi
  have h2 : (j : ℝ) ≤ 18 := by exact_mod_cast Nat.lt_succ_iff.1 hj
  have h3 : (18 : ℝ) ≤ 10 ^ 4 * k := by norm_num; linarith
  refine ⟨?_, ?_, ?_⟩
  · simp [inPlane]; norm_num at h3; linarith
  · simp [inPlane]; norm_num at h3; linarith
  · simp [inPlane]; linarith

theorem side_points {n x y d : Nat} (hn : n ≠ 0) (hx : x + n * d ≤ 18) (hy : y + n * d ≤ 18) :
    ∀ z, SidePoint n (square x y (n * d)) z → z ∈ grid := by
  rintro z ⟨i, a, b, hi, j, hj, rfl⟩
  have hm := square_side hi
  have hn' : (n : ℝ) ≠ 0 := by exact_mod_cast hn
  have h1 : j * d ≤ n * d := Nat.mul_le_mul_right _ hj
  simp only [List.mem_cons, List.not_mem_nil, or_false, Prod.mk.injEq] at hm
  rcases hm with ⟨rfl, rfl⟩ | ⟨rfl, rfl⟩ | ⟨rfl, rfl⟩ | ⟨rfl, rfl⟩
  · convert mem_grid (i := x + j * d) (j := y) (by omega) (by omega) using 1
    unfold lerp; ext <;> push_cast <;> field_simp <;> ring
  · convert mem_grid (i := x + n * d) (j := y + j * d) (by omega) (by omega) using 1
    unfold lerp; ext <;> push_cast <;> field_simp <;> ring
  · convert mem_grid (i := x + (n * d - j * d)) (j := y + n * d) (by omega) (by omega) using 1
    unfold lerp; ext <;> push_cast [Nat.cast_sub h1] <;> field_simp <;> ring
  · convert mem_grid (i := x) (j := y + (n * d - j * d)) (by omega) (by omega) using 1
    unfold lerp; ext <;> push_cast [Nat.cast_sub h1] <;> field_simp <;> ring

/-- A square can be drawn in both directions. -/
theorem square_made {n x y d : Nat} (hn : n ≠ 0) (hd : d ≠ 0) (hx : x + n * d ≤ 18) (hy : y + n * d ≤ 18) :
    (∃ P, polygonNew ((square x y (n * d)).map (inPlane 0 ⟨1, 0, 0⟩ ⟨0, 1, 0⟩)) none none = .ok P) ∧
      ∃ P, polygonNew ((square x y (n * d)).reverse.map (inPlane 0 ⟨1, 0, 0⟩ ⟨0, 1, 0⟩)) none none = .ok P := by
  have hS := side_points hn hx hy
  have hc : Crisp 1 (square x y (n * d)) := crisp_swap crisp_grid fun p hp => hS p (corner_side hp)
  have hr : ∀ p ∈ square (x : ℝ) y (n * d), Reach 1 (inPlane 0 ⟨1, 0, 0⟩ ⟨0, 1, 0⟩ p) := fun p hp =>
    reach_grid (by norm_num) (hS p (corner_side hp))
  have hp : ConvexCorners (square (x : ℝ) y (n * d)) := square_convex _ _ (by positivity)
  refine ⟨?_, ?_⟩
  · obtain ⟨P, hf⟩ := fan_exists std hc hr hp.corners hp.turns
    exact ⟨P, hf.made⟩
  · have hq := convex_swapped hp
    obtain ⟨P, hf⟩ := fan_exists (o := 0) (axes_swap std) (m := 1) (pts := (square (x : ℝ) y (n * d)).reverse.map Prod.swap)
      (crisp_swap (crisp_swapped hc) (by simp)) (by
        simp only [List.forall_mem_map]
        intro p hp
        rw [inPlane_swap]
        exact hr p (List.mem_reverse.1 hp)) hq.corners hq.turns
    exact ⟨P, by rw [← map_swap]; exact hf.made⟩

theorem strict_square {x y d : ℝ} {z : ℝ × ℝ} (hd : 0 < d) :
    Strict (square x y d) z ↔ x < z.1 ∧ z.1 < x + d ∧ y < z.2 ∧ z.2 < y + d := by
  constructor
  · intro h
    have h0 := h 0 _ _ ⟨rfl, rfl⟩
    have h1 := h 1 _ _ ⟨rfl, rfl⟩
    have h2 := h 2 _ _ ⟨rfl, rfl⟩
    have h3 := h 3 (x, y + d) (x, y) ⟨rfl, by simp [square]⟩
    simp [signedArea] at h0 h1 h2 h3
    refine ⟨?_, ?_, ?_, ?_⟩ <;> nlinarith
  · rintro ⟨h0, h1, h2, h3⟩ i a b hi
    have hm := square_side hi
    simp only [List.mem_cons, List.not_mem_nil, or_false, Prod.mk.injEq] at hm
    rcases hm with ⟨rfl, rfl⟩ | ⟨rfl, rfl⟩ | ⟨rfl, rfl⟩ | ⟨rfl, rfl⟩ <;> simp [signedArea] <;> nlinarith

theorem square_shape {n x y d : Nat} (hn : n ≠ 0) (hd : d ≠ 0) (hx : x + n * d ≤ 18) (hy : y + n * d ≤ 18)
    {L : List (ℝ × ℝ)} (hL : L = square x y (n * d) ∨ L = (square x y (n * d)).reverse) {P : Poly}
    (h : polygonNew (L.map (inPlane 0 ⟨1, 0, 0⟩ ⟨0, 1, 0⟩)) none none = .ok P) :
    Shape 0 ⟨1, 0, 0⟩ ⟨0, 1, 0⟩ (square x y (n * d)) P := by
  have hS := side_points hn hx hy
  exact shape_any std (crisp_swap crisp_grid fun p hp => hS p (corner_side hp))
    (fun p hp => reach_grid (k := 1) (by norm_num) (hS p (corner_side hp))) (square_convex _ _ (by positivity)) hL h

/-- Non-vacuity of `C118_touching_convex`: two square walls which share a part of an edge, drawn in opposite directions, are
found to be touching. -/
example : ∃ P Q, polygonNew ((square 0 0 8).map (inPlane 0 ⟨1, 0, 0⟩ ⟨0, 1, 0⟩)) none none = .ok P ∧
    polygonNew ((square 8 4 8).reverse.map (inPlane 0 ⟨1, 0, 0⟩ ⟨0, 1, 0⟩)) none none = .ok Q ∧
    arePolygonsTouching P.pts P.tri Q.pts Q.tri = .ok true := by
  have e1 : square 0 0 8 = square ((0 : Nat) : ℝ) ((0 : Nat) : ℝ) ((4 : Nat) * (2 : Nat)) := by norm_num
  have e2 : square 8 4 8 = square ((8 : Nat) : ℝ) ((4 : Nat) : ℝ) ((4 : Nat) * (2 : Nat)) := by norm_num
  rw [e1, e2]
  obtain ⟨P, h⟩ := (square_made (n := 4) (x := 0) (y := 0) (d := 2) (by norm_num) (by norm_num) (by norm_num) (by norm_num)).1
  obtain ⟨Q, h'⟩ := (square_made (n := 4) (x := 8) (y := 4) (d := 2) (by norm_num) (by norm_num) (by norm_num) (by norm_num)).2
  have s1 := square_shape (by norm_num) (by norm_num) (by norm_num) (by norm_num) (.inl rfl) h
  have s2 := square_shape (by norm_num) (by norm_num) (by norm_num) (by norm_num) (.inr rfl) h'
  have v1 : ConvexCorners (square ((0 : Nat) : ℝ) ((0 : Nat) : ℝ) ((4 : Nat) * (2 : Nat))) := square_convex _ _ (by norm_num)
  have v2 : ConvexCorners (square ((8 : Nat) : ℝ) ((4 : Nat) : ℝ) ((4 : Nat) * (2 : Nat))) := square_convex _ _ (by norm_num)
  obtain ⟨r, h1, k1⟩ := C118_touching_convex std crisp_grid (fun p hp => reach_grid (by norm_num) hp)
    (side_points (by norm_num) (by norm_num) (by norm_num)) (side_points (by norm_num) (by norm_num) (by norm_num))
    v1 v2 h (.inr rfl) h' (by
      rintro ⟨x, a, b⟩
      obtain ⟨z, rfl⟩ := region_drawn h a.1
      have a' := (strict_square (by norm_num)).1 ((inner_strict v1 s1 z).1 a)
      have b' := (strict_square (by norm_num)).1 ((inner_strict v2 s2 z).1 b)
      norm_num at a' b'
      linarith [a'.2.1, b'.1])
  refine ⟨P, Q, h, h', ?_⟩
  rw [h1, k1.2 ⟨inPlane 0 ⟨1, 0, 0⟩ ⟨0, 1, 0⟩ (8, 6), ?_, ?_⟩]
  · rw [s1.region]
    intro i a b hi
    have hm := square_side hi
    simp only [List.mem_cons, List.not_mem_nil, or_false, Prod.mk.injEq] at hm
    rcases hm with ⟨rfl, rfl⟩ | ⟨rfl, rfl⟩ | ⟨rfl, rfl⟩ | ⟨rfl, rfl⟩ <;> norm_num [signedArea]
  · rw [s2.region]
    intro i a b hi
    have hm := square_side hi
    simp only [List.mem_cons, List.not_mem_nil, or_false, Prod.mk.injEq] at hm
    rcases hm with ⟨rfl, rfl⟩ | ⟨rfl, rfl⟩ | ⟨rfl, rfl⟩ | ⟨rfl, rfl⟩ <;> norm_num [signedArea]

/-- Non-vacuity of `C118_not_crossing`: two square walls which share an edge. -/
example : ∃ P Q, polygonNew ((square 0 0 9).map (inPlane 0 ⟨1, 0, 0⟩ ⟨0, 1, 0⟩)) none none = .ok P ∧
    polygonNew ((square 9 0 9).map (inPlane 0 ⟨1, 0, 0⟩ ⟨0, 1, 0⟩)) none none = .ok Q ∧
    arePolygonsCrossing P.pts P.tri Q.pts Q.tri = .ok false := by
  have e1 : square 0 0 9 = square ((0 : Nat) : ℝ) ((0 : Nat) : ℝ) ((9 : Nat) * (1 : Nat)) := by norm_num
  have e2 : square 9 0 9 = square ((9 : Nat) : ℝ) ((0 : Nat) : ℝ) ((9 : Nat) * (1 : Nat)) := by norm_num
  rw [e1, e2]
  obtain ⟨P, h⟩ := (square_made (n := 9) (x := 0) (y := 0) (d := 1) (by norm_num) (by norm_num) (by norm_num) (by norm_num)).1
  obtain ⟨Q, h'⟩ := (square_made (n := 9) (x := 9) (y := 0) (d := 1) (by norm_num) (by norm_num) (by norm_num) (by norm_num)).1
  have s1 := square_shape (by norm_num) (by norm_num) (by norm_num) (by norm_num) (.inl rfl) h
  have s2 := square_shape (by norm_num) (by norm_num) (by norm_num) (by norm_num) (.inl rfl) h'
  have v1 : ConvexCorners (square ((0 : Nat) : ℝ) ((0 : Nat) : ℝ) ((9 : Nat) * (1 : Nat))) := square_convex _ _ (by norm_num)
  have v2 : ConvexCorners (square ((9 : Nat) : ℝ) ((0 : Nat) : ℝ) ((9 : Nat) * (1 : Nat))) := square_convex _ _ (by norm_num)
  refine ⟨P, Q, h, h', C118_not_crossing std crisp_grid (fun p hp => reach_grid (by norm_num) hp)
    (side_points (by norm_num) (by norm_num) (by norm_num)) (side_points (by norm_num) (by norm_num) (by norm_num))
    v1 v2 h (.inl rfl) h' ?_⟩
  rintro ⟨x, a, b⟩
  obtain ⟨z, rfl⟩ := region_drawn h a.1
  have a' := (strict_square (by norm_num)).1 ((inner_strict v1 s1 z).1 a)
  have b' := (strict_square (by norm_num)).1 ((inner_strict v2 s2 z).1 b)
  norm_num at a' b'
  linarith [a'.2.1, b'.1]

/-- Non-vacuity of `C118_crossing`: two overlapping square walls are found to be crossing. -/
example : ∃ P Q, polygonNew ((square 0 0 9).map (inPlane 0 ⟨1, 0, 0⟩ ⟨0, 1, 0⟩)) none none = .ok P ∧
    polygonNew ((square 5 5 9).map (inPlane 0 ⟨1, 0, 0⟩ ⟨0, 1, 0⟩)) none none = .ok Q ∧
    arePolygonsCrossing P.pts P.tri Q.pts Q.tri = .ok true := by
  have e1 : square 0 0 9 = square ((0 : Nat) : ℝ) ((0 : Nat) : ℝ) ((9 : Nat) * (1 : Nat)) := by norm_num
  have e2 : square 5 5 9 = square ((5 : Nat) : ℝ) ((5 : Nat) : ℝ) ((9 : Nat) * (1 : Nat)) := by norm_num
  rw [e1, e2]
  obtain ⟨P, h⟩ := (square_made (n := 9) (x := 0) (y := 0) (d := 1) (by norm_num) (by norm_num) (by norm_num) (by norm_num)).1
  obtain ⟨Q, h'⟩ := (square_made (n := 9) (x := 5) (y := 5) (d := 1) (by norm_num) (by norm_num) (by norm_num) (by norm_num)).1
  have s1 := square_shape (by norm_num) (by norm_num) (by norm_num) (by norm_num) (.inl rfl) h
  have s2 := square_shape (by norm_num) (by norm_num) (by norm_num) (by norm_num) (.inl rfl) h'
  have v2 : ConvexCorners (square ((5 : Nat) : ℝ) ((5 : Nat) : ℝ) ((9 : Nat) * (1 : Nat))) := square_convex _ _ (by norm_num)
  obtain ⟨r, h1, k1⟩ := C118_crossing std crisp_grid (fun p hp => reach_grid (by norm_num) hp)
    (side_points (by norm_num) (by norm_num) (by norm_num)) (side_points (by norm_num) (by norm_num) (by norm_num))
    h s1.normal h' s2.normal
  have pp : ∀ {x y : Nat} {R : Poly}, x + 9 * 1 ≤ 18 → y + 9 * 1 ≤ 18 →
      polygonNew ((square x y ((9 : Nat) * (1 : Nat))).map (inPlane 0 ⟨1, 0, 0⟩ ⟨0, 1, 0⟩)) none none = .ok R →
      R.pts = (square x y ((9 : Nat) * (1 : Nat))).map (inPlane 0 ⟨1, 0, 0⟩ ⟨0, 1, 0⟩) := by
    intro x y R hx hy hR
    have hS := side_points (n := 9) (d := 1) (by norm_num) hx hy
    obtain ⟨R', hf⟩ := fan_exists (o := 0) std (crisp_swap crisp_grid fun p hp => hS p (corner_side hp))
      (fun p hp => reach_grid (k := 1) (by norm_num) (hS p (corner_side hp)))
      (square_convex (x : ℝ) y (d := (9 : Nat) * (1 : Nat)) (by norm_num)).corners
      (square_convex (x : ℝ) y (d := (9 : Nat) * (1 : Nat)) (by norm_num)).turns
    have e := hf.made
    rw [hR, Except.ok.injEq] at e
    rw [e]
    exact hf.points
  refine ⟨P, Q, h, h', ?_⟩
  rw [h1, k1.2 ⟨(inPlane 0 ⟨1, 0, 0⟩ ⟨0, 1, 0⟩ (9, 0), inPlane 0 ⟨1, 0, 0⟩ ⟨0, 1, 0⟩ (9, 9)), ?_,
    (inPlane 0 ⟨1, 0, 0⟩ ⟨0, 1, 0⟩ (5, 5), inPlane 0 ⟨1, 0, 0⟩ ⟨0, 1, 0⟩ (14, 5)), ?_, ?_, 6, by norm_num, .inl ?_⟩]
  · rw [pp (by norm_num) (by norm_num) h]
    norm_num [square, cycEdges]
  · rw [pp (by norm_num) (by norm_num) h']
    norm_num [square, cycEdges]
  · refine ⟨?_, ?_, ?_, ?_, ?_, inPlane 0 ⟨1, 0, 0⟩ ⟨0, 1, 0⟩ (9, 5), ⟨5 / 9, by norm_num, by norm_num, ?_⟩,
      ⟨4 / 9, by norm_num, by norm_num, ?_⟩⟩
    · intro e; have := congrArg Vec3.x e; norm_num [inPlane] at this
    · intro e; have := congrArg Vec3.x e; norm_num [inPlane] at this
    · intro e; have := congrArg Vec3.x e; norm_num [inPlane] at this
    · intro e; have := congrArg Vec3.x e; norm_num [inPlane] at this
    · intro e; have := congrArg Vec3.z e; norm_num [inPlane, Vec3.cross] at this
    · ext <;> norm_num [inPlane]
    · ext <;> norm_num [inPlane]
  · have e : (inPlane 0 ⟨1, 0, 0⟩ ⟨0, 1, 0⟩ (9, 0) : Vec3 ℝ) + (((6 : Nat) : ℝ) / 9) •
        (inPlane 0 ⟨1, 0, 0⟩ ⟨0, 1, 0⟩ (9, 9) - inPlane 0 ⟨1, 0, 0⟩ ⟨0, 1, 0⟩ (9, 0)) =
        inPlane 0 ⟨1, 0, 0⟩ ⟨0, 1, 0⟩ (9, 6) := by
      ext <;> norm_num [inPlane]
    rw [e, inner_strict v2 s2, strict_square (by norm_num)]
    norm_num

end B3d.PairsExact
