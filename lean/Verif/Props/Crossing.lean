import Verif.Proofs.Crossing

/-!
# C76: polygons that cross

`are_polygons_crossing`.  The full property: for polygons in one plane, the answer is `True` exactly if they overlap and
neither contains the other.  The code looks for two edges which cross, and then asks for ten points of these edges whether
they are inside the other polygon; so

* an answer is always given (`C76_total`);
* `True` means that a point of one outline is in the other polygon, up to the tolerances (`C76_sound_partial`);
* edges that cross are enough if one of the ten points is well inside (`C76_complete_partial`);
* `False` if the outlines stay apart, so also if one polygon contains the other (`C76_outlines_apart`), and for the same
  polygon, whichever way round (`C76_same`).

`CrossingCases` shows overlapping polygons that are not found, and polygons far apart that are reported.
-/

namespace B3d.Polygon

open Spec Points Triangles

/-- **C76, no errors.**  For polygons from the constructor the test does not raise. -/
theorem C76_total {pts1 pts2 : List (Vec3 ℝ)} {vn1 vn2 : Option (Vec3 ℝ)} {P Q : Poly}
    (h1 : polygonNew pts1 none vn1 = .ok P) (h2 : polygonNew pts2 none vn2 = .ok Q) :
    ∃ r, arePolygonsCrossing P.pts P.tri Q.pts Q.tri = .ok r := by
  obtain ⟨r, -, -, hr, -⟩ := crossing_iff (polygonNew_sturdy h1) (polygonNew_sturdy h2)
    (fun e he => polygonNew_edges_ne h1 he) (fun e he => polygonNew_edges_ne h2 he)
  exact ⟨r, hr⟩

theorem intersection_some {a b c d p : Vec3 ℝ} (h : lineSegmentIntersection a b c d = some p) :
    isPointOnSegment p a b = true ∧ isPointOnSegment p c d = true ∧ ¬ TooShort (b - a) ∧ ¬ TooShort (d - c) := by
  unfold lineSegmentIntersection at h
  cases hl : lineIntersection a (b - a) c (d - c) with
  | none => rw [hl] at h; cases h
  | some q =>
    rw [hl] at h
    simp only at h
    split at h
    · rename_i hon
      rw [Option.some.injEq] at h
      subst h
      rw [Bool.and_eq_true] at hon
      refine ⟨hon.1, hon.2, ?_⟩
      unfold lineIntersection at hl
      split at hl
      · cases hl
      · rename_i hs
        exact not_or.1 hs
    · cases h

theorem long_of_not_short {v : Vec3 ℝ} (h : ¬ TooShort v) : 1 / 10 ^ 8 ≤ Vec3.norm v := by
  by_contra hc
  rw [not_le] at hc
  apply h
  refine ⟨?_, ?_, ?_⟩
  · have := (Vec3.abs_x_le v).trans hc.le
    simpa [isClose, NP_ATOL] using this
  · have := (Vec3.abs_y_le v).trans hc.le
    simpa [isClose, NP_ATOL] using this
  · have := (Vec3.abs_z_le v).trans hc.le
    simpa [isClose, NP_ATOL] using this

/-- The point of intersection is close to a point of either segment. -/
theorem intersection_near {a b c d p : Vec3 ℝ} {M : ℝ} (ha : Vec3.norm a ≤ M) (hb : Vec3.norm b ≤ M)
    (hc : Vec3.norm c ≤ M) (hd : Vec3.norm d ≤ M) (h : lineSegmentIntersection a b c d = some p) :
    ∃ y z, OnSegment a b y ∧ OnSegment c d z ∧ Vec3.norm (y - z) ≤ 2 / 10 ^ 4 * M + 5 / 10 ^ 5 := by
  obtain ⟨h1, h2, h3, h4⟩ := intersection_some h
  obtain ⟨y, hy, dy⟩ := onSegment_near ha hb (by norm_num) (long_of_not_short h3) h1
  obtain ⟨z, hz, dz⟩ := onSegment_near hc hd (by norm_num) (long_of_not_short h4) h2
  refine ⟨y, z, hy, hz, ?_⟩
  have e : Vec3.norm (y - p) = Vec3.norm (p - y) := by rw [← Vec3.norm_neg]; simp
  have := Vec3.norm_sub_le_sub y p z
  rw [e] at this
  norm_num at dy dz this ⊢
  linarith

theorem mem_of_edge {α : Type} {l : List α} {e : α × α} (h : e ∈ cycEdges l) : e.1 ∈ l ∧ e.2 ∈ l := by
  obtain ⟨k, hk, rfl⟩ := mem_cycEdges_iff.1 h
  exact ⟨List.getElem_mem _, List.getElem_mem _⟩

/-- **C76, soundness.**  If the polygons are reported crossing, a point of the outline of one of them is in the other
one, within a tolerance relative to the distance `M` of the corners from the origin. -/
theorem C76_sound_partial {pts1 pts2 : List (Vec3 ℝ)} {vn1 vn2 : Option (Vec3 ℝ)} {P Q : Poly} {v w : Vec3 ℝ}
    {e f M : ℝ} (h1 : polygonNew pts1 none vn1 = .ok P) (h2 : polygonNew pts2 none vn2 = .ok Q)
    (hv : P.vn = some v) (hw : Q.vn = some w) (hpl1 : ∀ p ∈ P.pts, Vec3.dot v p = e)
    (hpl2 : ∀ p ∈ Q.pts, Vec3.dot w p = f) (hs1 : SpansPlane P.pts) (hs2 : SpansPlane Q.pts)
    (hM1 : ∀ p ∈ P.pts, Vec3.norm p ≤ M) (hM2 : ∀ p ∈ Q.pts, Vec3.norm p ≤ M)
    (h : arePolygonsCrossing P.pts P.tri Q.pts Q.tri = .ok true) :
    (∃ x, OnOutline P.pts x ∧ Near (Region Q.pts Q.tri) x (2 / 10 ^ 4 * M + 5 / 10 ^ 5)) ∨
    (∃ x, OnOutline Q.pts x ∧ Near (Region P.pts P.tri) x (2 / 10 ^ 4 * M + 5 / 10 ^ 5)) := by
  obtain ⟨r, b1, b2, hr, -, -, hir⟩ := crossing_iff (polygonNew_sturdy h1) (polygonNew_sturdy h2)
    (fun e he => polygonNew_edges_ne h1 he) (fun e he => polygonNew_edges_ne h2 he)
  rw [h, Except.ok.injEq] at hr
  obtain ⟨-, -, e1, he1, e2, he2, -, p, hp, hcase⟩ := hir.1 hr.symm
  have m1 := mem_of_edge he1
  have m2 := mem_of_edge he2
  have hM0 : 0 ≤ M := (Vec3.norm_nonneg _).trans (hM1 _ m1.1)
  rcases hcase with - | ⟨k, hk, hin⟩
  · obtain ⟨y, z, hy, hz, hd⟩ := intersection_near (hM1 _ m1.1) (hM1 _ m1.2) (hM2 _ m2.1) (hM2 _ m2.2) hp
    exact .inl ⟨y, ⟨e1, he1, hy⟩, z, polygonNew_outline_region h2 ⟨e2, he2, hz⟩, hd⟩
  · have hk0 : (0 : ℝ) ≤ (k : ℝ) / 9 := by positivity
    have hk1 : (k : ℝ) / 9 ≤ 1 := by
      rw [div_le_one (by norm_num)]
      exact_mod_cast hk
    have hle : 1 / 10 ^ 4 * M + 2 / 10 ^ 7 ≤ 2 / 10 ^ 4 * M + 5 / 10 ^ 5 := by norm_num; linarith
    rcases hin with hin | hin
    · obtain ⟨y, hy, hd⟩ := C71_sound_partial h2 hw hpl2 hs2 hM2 hin
      exact .inl ⟨_, ⟨e1, he1, _, hk0, hk1, rfl⟩, y, hy, hd.trans hle⟩
    · obtain ⟨y, hy, hd⟩ := C71_sound_partial h1 hv hpl1 hs1 hM1 hin
      exact .inr ⟨_, ⟨e2, he2, _, hk0, hk1, rfl⟩, y, hy, hd.trans hle⟩

/-- `x` is in a triangle of the polygon, well away from its other edges and from the outline. -/
def DeepInside (P : Poly) (x : Vec3 ℝ) : Prop :=
  (∃ t ∈ P.tri, TriangleWith P.pts t fun a b c =>
    WellInside a b c x ∨ WellOnEdge a b c x ∨ WellOnEdge b c a x ∨ WellOnEdge c a b x) ∧
  ∃ M L : ℝ, (∀ p ∈ P.pts, Vec3.norm p ≤ M) ∧ 0 < L ∧ (∀ ed ∈ cycEdges P.pts, L ≤ Vec3.norm (ed.2 - ed.1)) ∧
    ∀ y, OnOutline P.pts y → 1 / 10 ^ 4 * M + 1 / 10 ^ 7 + 2 / 10 ^ 13 / L < Vec3.norm (x - y)

theorem deepInside_accepted {pts : List (Vec3 ℝ)} {vn : Option (Vec3 ℝ)} {P : Poly} {v : Vec3 ℝ} {e : ℝ}
    (h : polygonNew pts none vn = .ok P) (hv : P.vn = some v) (hpl : ∀ p ∈ P.pts, Vec3.dot v p = e) {x : Vec3 ℝ}
    (hx : DeepInside P x) : Polygon.isPointInside x P.pts P.tri false = .ok true := by
  obtain ⟨⟨t, ht, a, b, c, ha, hb, hc, hin⟩, M, L, hM, hL, hedge, hfar⟩ := hx
  rw [(C71_boundary h x).2 M L hM hL hedge hfar]
  rcases hin with hin | hin
  · exact C71_accepts_partial h hv hpl (.inl ⟨t, ht, a, b, c, ha, hb, hc, hin⟩)
  · exact C71_accepts_edge_partial h hv hpl ⟨t, ht, a, b, c, ha, hb, hc, hin⟩

/-- **C76, completeness.**  Two polygons in a plane are reported crossing if two of their edges meet, have no end in
common, are not too short and not nearly parallel, and one of the ten points which divide one of these edges into nine
parts is well inside the other polygon. -/
theorem C76_complete_partial {pts1 pts2 : List (Vec3 ℝ)} {vn1 vn2 : Option (Vec3 ℝ)} {P Q : Poly} {v w n : Vec3 ℝ}
    {e f g : ℝ} (h1 : polygonNew pts1 none vn1 = .ok P) (h2 : polygonNew pts2 none vn2 = .ok Q)
    (hv : P.vn = some v) (hw : Q.vn = some w) (hpl1 : ∀ p ∈ P.pts, Vec3.dot v p = e)
    (hpl2 : ∀ p ∈ Q.pts, Vec3.dot w p = f) (hn : n ≠ 0) (hpl : ∀ p ∈ P.pts ++ Q.pts, Vec3.dot n p = g)
    {e1 e2 : Vec3 ℝ × Vec3 ℝ} (he1 : e1 ∈ cycEdges P.pts) (he2 : e2 ∈ cycEdges Q.pts) (hns : NoSharedEnd e1 e2)
    (hl1 : ¬ TooShort (e1.2 - e1.1)) (hl2 : ¬ TooShort (e2.2 - e2.1)) (hnp : ¬ NearlyParallel (e1.2 - e1.1) (e2.2 - e2.1))
    {x : Vec3 ℝ} (hx1 : OnSegment e1.1 e1.2 x) (hx2 : OnSegment e2.1 e2.2 x)
    (hdeep : ∃ k : Nat, k ≤ 9 ∧ (DeepInside Q (e1.1 + ((k : ℝ) / 9) • (e1.2 - e1.1)) ∨
      DeepInside P (e2.1 + ((k : ℝ) / 9) • (e2.2 - e2.1)))) :
    arePolygonsCrossing P.pts P.tri Q.pts Q.tri = .ok true := by
  obtain ⟨r, b1, b2, hr, hb1, hb2, hir⟩ := crossing_iff (polygonNew_sturdy h1) (polygonNew_sturdy h2)
    (fun e he => polygonNew_edges_ne h1 he) (fun e he => polygonNew_edges_ne h2 he)
  rw [hr, Except.ok.injEq, hir]
  have m1 := mem_of_edge he1
  have m2 := mem_of_edge he2
  obtain ⟨t, t0, t1, ht⟩ := hx1
  obtain ⟨s, s0, s1, hs⟩ := hx2
  have seg : ∀ (a b : Vec3 ℝ) (t : ℝ), 0 ≤ t → t ≤ 1 → InTriangle a b a (a + t • (b - a)) := fun a b t h0 h1 =>
    ⟨1 - t, t, 0, by linarith, h0, le_refl _, by ring, by ext <;> simp <;> ring⟩
  refine ⟨?_, ?_, e1, he1, e2, he2, hns, x, ?_, ?_⟩
  · refine Bboxes.C26_no_false_negative P.pts Q.pts b1 b2 hb1 hb2 x e1.1 e1.2 e1.1 e2.1 e2.2 e2.1 m1.1 m1.2 m1.1 m2.1
      m2.2 m2.1 ?_ ?_
    · rw [ht]; exact seg _ _ _ t0 t1
    · rw [hs]; exact seg _ _ _ s0 s1
  · exact C36_coplanar_complete _ n g GEOM_ATOL hn GEOM_ATOL_pos hpl
  · rw [ht]
    exact C37_complete_partial hl1 hl2 hnp ⟨t0, t1⟩ ⟨s0, s1⟩ (by rw [← ht, hs])
  · obtain ⟨k, hk, hd⟩ := hdeep
    exact .inr ⟨k, hk, hd.imp (deepInside_accepted h2 hw hpl2) (deepInside_accepted h1 hv hpl1)⟩

/-- **C76, outlines apart.**  If every point of one outline is further than the tolerance from every point of the other
outline, the answer is `False`; so also for a polygon inside the other. -/
theorem C76_outlines_apart {pts1 pts2 : List (Vec3 ℝ)} {vn1 vn2 : Option (Vec3 ℝ)} {P Q : Poly} {M : ℝ}
    (h1 : polygonNew pts1 none vn1 = .ok P) (h2 : polygonNew pts2 none vn2 = .ok Q)
    (hM1 : ∀ p ∈ P.pts, Vec3.norm p ≤ M) (hM2 : ∀ p ∈ Q.pts, Vec3.norm p ≤ M)
    (hap : ∀ x y, OnOutline P.pts x → OnOutline Q.pts y → 2 / 10 ^ 4 * M + 5 / 10 ^ 5 < Vec3.norm (x - y)) :
    arePolygonsCrossing P.pts P.tri Q.pts Q.tri = .ok false := by
  obtain ⟨r, b1, b2, hr, hb1, hb2, hir⟩ := crossing_iff (polygonNew_sturdy h1) (polygonNew_sturdy h2)
    (fun e he => polygonNew_edges_ne h1 he) (fun e he => polygonNew_edges_ne h2 he)
  cases r with
  | false => exact hr
  | true =>
    exfalso
    obtain ⟨-, -, e1, he1, e2, he2, -, p, hp, -⟩ := hir.1 rfl
    have m1 := mem_of_edge he1
    have m2 := mem_of_edge he2
    obtain ⟨y, z, hy, hz, hd⟩ := intersection_near (hM1 _ m1.1) (hM1 _ m1.2) (hM2 _ m2.1) (hM2 _ m2.2) hp
    exact absurd hd (not_le.2 (hap y z ⟨e1, he1, hy⟩ ⟨e2, he2, hz⟩))

/-- Two edges of the outline either have an end in common or stay further than `d` apart. -/
def SimpleOutline (pts : List (Vec3 ℝ)) (d : ℝ) : Prop :=
  ∀ e ∈ cycEdges pts, ∀ e' ∈ cycEdges pts, (e.1 = e'.1 ∨ e.1 = e'.2 ∨ e.2 = e'.1 ∨ e.2 = e'.2) ∨
    ∀ x y, OnSegment e.1 e.2 x → OnSegment e'.1 e'.2 y → d < Vec3.norm (x - y)

/-- **C76, the same polygon.**  A polygon whose outline does not come close to itself does not cross itself, nor a
polygon with the same edges, whichever way round. -/
theorem C76_same {pts1 pts2 : List (Vec3 ℝ)} {vn1 vn2 : Option (Vec3 ℝ)} {P Q : Poly} {M : ℝ}
    (h1 : polygonNew pts1 none vn1 = .ok P) (h2 : polygonNew pts2 none vn2 = .ok Q)
    (hM : ∀ p ∈ P.pts, Vec3.norm p ≤ M) (hsim : SimpleOutline P.pts (2 / 10 ^ 4 * M + 5 / 10 ^ 5))
    (hsame : ∀ e ∈ cycEdges Q.pts, e ∈ cycEdges P.pts ∨ e.swap ∈ cycEdges P.pts) :
    arePolygonsCrossing P.pts P.tri Q.pts Q.tri = .ok false := by
  obtain ⟨r, b1, b2, hr, hb1, hb2, hir⟩ := crossing_iff (polygonNew_sturdy h1) (polygonNew_sturdy h2)
    (fun e he => polygonNew_edges_ne h1 he) (fun e he => polygonNew_edges_ne h2 he)
  cases r with
  | false => exact hr
  | true =>
    exfalso
    obtain ⟨-, -, e1, he1, e2, he2, ⟨n1, n2, n3, n4⟩, p, hp, -⟩ := hir.1 rfl
    have m1 := mem_of_edge he1
    have hne : ∀ {a b : Vec3 ℝ}, pointsEqual a b = false → a ≠ b := by
      rintro a b h rfl
      have : pointsEqual a a = true := decide_eq_true (allClose_self NP_RTOL_nonneg GEOM_ATOL_pos.le)
      rw [this] at h
      cases h
    rcases hsame e2 he2 with h | h
    · have m2 := mem_of_edge h
      obtain ⟨y, z, hy, hz, hd⟩ := intersection_near (hM _ m1.1) (hM _ m1.2) (hM _ m2.1) (hM _ m2.2) hp
      rcases hsim e1 he1 e2 h with (h | h | h | h) | h
      · exact hne n1 h
      · exact hne n2 h
      · exact hne n4 h
      · exact hne n3 h
      · exact absurd hd (not_le.2 (h y z hy hz))
    · have m2 := mem_of_edge h
      simp only [Prod.fst_swap, Prod.snd_swap] at m2
      obtain ⟨y, z, hy, hz, hd⟩ := intersection_near (hM _ m1.1) (hM _ m1.2) (hM _ m2.2) (hM _ m2.1) hp
      rcases hsim e1 he1 _ h with (h | h | h | h) | h
      · exact hne n2 h
      · exact hne n1 h
      · exact hne n3 h
      · exact hne n4 h
      · refine absurd hd (not_le.2 (h y z hy ?_))
        obtain ⟨t, h0, h1, rfl⟩ := hz
        exact ⟨1 - t, by linarith, by linarith, by simp only [Prod.fst_swap, Prod.snd_swap]; ext <;> simp <;> ring⟩

end B3d.Polygon
