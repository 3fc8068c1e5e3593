import Verif.Proofs.Region
import Verif.Props.PolygonObj

/-! # C20: the triangles cover what the outline encloses -/

namespace B3d.Triangles

open Spec

section
variable {convex : Vec3 ℝ → Vec3 ℝ → Vec3 ℝ → Except PyErr Bool}

/-- Sum over the edges of one triangle. -/
noncomputable def edgeSum {G : Type} [AddCommGroup G] (pts : List (Vec3 ℝ)) (g : Vec3 ℝ → Vec3 ℝ → G)
    (t : Tri) : G :=
  match pts[t.1]?, pts[t.2.1]?, pts[t.2.2]? with
  | some a, some b, some c => g a b + g b c + g c a
  | _, _, _ => 0

theorem sum_edgeSum {G : Type} [AddCommGroup G] {pts : List (Vec3 ℝ)} {tri : List Tri}
    (hg : Good convex pts tri) (g : Vec3 ℝ → Vec3 ℝ → G) (ha : ∀ p q, g p q = -g q p) :
    (tri.map (edgeSum pts g)).sum = cycSum g pts := by
  let P : Nat → Vec3 ℝ := fun i => (pts[i]?).getD 0
  have hpts : pts = (List.range pts.length).map P := by
    apply List.ext_getElem?
    intro k
    by_cases hk : k < pts.length
    · rw [List.getElem?_map, List.getElem?_range hk, List.getElem?_eq_getElem hk]
      simp [P, hk]
    · rw [List.getElem?_eq_none (by omega), List.getElem?_eq_none (by simpa using hk)]
  have hs := hg.sum G (fun i j => g (P i) (P j)) (fun a b => ha _ _)
  conv_rhs => rw [hpts]
  rw [cycSum_map, ← hs]
  congr 1
  apply List.map_congr_left
  intro t ht
  obtain ⟨_, a, b, c, ha, hb, hc, _⟩ := hg.each t ht
  simp only [edgeSum, ha, hb, hc, triSum, P, Option.getD_some]

/-- What a successful triangulation of flat points gives. -/
structure Flat (pts : List (Vec3 ℝ)) (tri : List Tri) (n : Vec3 ℝ) (e : ℝ) : Prop where
  ne : n ≠ 0
  plane : ∀ p ∈ pts, Vec3.dot n p = e
  pos : ∀ t ∈ tri, TriangleWith pts t fun a b c => 0 < Vec3.dot n (Vec3.cross (b - a) (c - a))

theorem triangulate_flat {fuel : Nat} {pts pts' : List (Vec3 ℝ)} {vn : Vec3 ℝ} {tri : List Tri}
    (hn : 3 ≤ pts.length) (h : triangulate fuel pts vn = some (.ok (pts', tri))) {e : ℝ}
    (hpl : ∀ p ∈ pts, Vec3.dot vn p = e) : Flat pts' tri vn e := by
  obtain ⟨h1, h2, h3⟩ := C20_triangulate_valid _ _ _ fuel pts pts' tri hn h
  have hpos : ∀ t ∈ tri, TriangleWith pts' t fun a b c => 0 < Vec3.dot vn (Vec3.cross (b - a) (c - a)) := by
    rintro ⟨i, j, k⟩ ht
    obtain ⟨-, -, -, -, -, -, -, a, b, c, ha, hb, hc, hconv⟩ := h3 i j k ht
    refine ⟨a, b, c, ha, hb, hc, ?_⟩
    have := isCornerConvex_sound hconv
    have e : Vec3.cross (b - a) (c - b) = Vec3.cross (b - a) (c - a) := by
      ext <;> simp <;> ring
    rwa [e, Vec3.dot_comm] at this
  refine ⟨?_, ?_, hpos⟩
  · rintro rfl
    match tri, h2, hpos with
    | [], h2, _ => simp at h2; omega
    | t :: ts, _, hpos =>
      obtain ⟨a, b, c, -, -, -, h0⟩ := hpos t List.mem_cons_self
      rw [Vec3.dot_zero_left] at h0
      exact lt_irrefl _ h0
  · intro p hp
    apply hpl
    rcases h1 with rfl | rfl
    · exact hp
    · exact List.mem_reverse.1 hp

open Classical in
/-- **C20.**  The triangles of a flat polygon cover exactly what its outline encloses: the outline does not run
around a point of the plane that is in no triangle, and it runs around a point that is on no triangle edge
as many times as there are triangles containing the point (counter-clockwise around the normal, counted on
any ray in the plane).  So if the outline runs around every point at most once, then the triangles do not
overlap. -/
theorem C20_winding {fuel : Nat} {pts pts' : List (Vec3 ℝ)} {vn : Vec3 ℝ} {tri : List Tri}
    (hn : 3 ≤ pts.length) (h : triangulate fuel pts vn = some (.ok (pts', tri))) {e : ℝ}
    (hpl : ∀ p ∈ pts, Vec3.dot vn p = e) {u x : Vec3 ℝ} (hu : u ≠ 0) (hvu : Vec3.dot vn u = 0)
    (hx : Vec3.dot vn x = e) :
    (¬ Region pts' tri x → winding vn u x pts' = 0) ∧
    ((∀ t ∈ tri, TriangleWith pts' t fun a b c => InTriangle a b c x → InsideTriangle a b c x) →
      winding vn u x pts' = tri.countP fun t => TriangleWith pts' t fun a b c => InsideTriangle a b c x) := by
  obtain ⟨-, hg⟩ := triangulateTries_good _ _ _ _ _ pts hn pts' tri h
  obtain ⟨hne, hpl', hpos⟩ := triangulate_flat hn h hpl
  have hw : winding vn u x pts' = (tri.map (edgeSum pts' (crossing vn u x))).sum := by
    rw [sum_edgeSum hg _ (crossing_antisymm vn u x), cycSum_eq_edges]
    rfl
  rw [hw]
  have one : ∀ t ∈ tri, ∃ a b c, pts'[t.1]? = some a ∧ pts'[t.2.1]? = some b ∧ pts'[t.2.2]? = some c ∧
      edgeSum pts' (crossing vn u x) t = crossing vn u x a b + crossing vn u x b c + crossing vn u x c a ∧
      (¬ InTriangle a b c x → crossing vn u x a b + crossing vn u x b c + crossing vn u x c a = 0) ∧
      (InsideTriangle a b c x → crossing vn u x a b + crossing vn u x b c + crossing vn u x c a = 1) := by
    intro t ht
    obtain ⟨a, b, c, ha, hb, hc, hA⟩ := hpos t ht
    refine ⟨a, b, c, ha, hb, hc, by simp only [edgeSum, ha, hb, hc], ?_⟩
    exact crossing_triangle hne hu hvu (hpl' _ (List.mem_of_getElem? ha)) (hpl' _ (List.mem_of_getElem? hb))
      (hpl' _ (List.mem_of_getElem? hc)) hx hA
  clear hw h hg
  refine ⟨fun hr => ?_, fun hb => ?_⟩
  · apply List.sum_eq_zero
    intro y hy
    obtain ⟨t, ht, rfl⟩ := List.mem_map.1 hy
    obtain ⟨a, b, c, ha, hb, hc, he, h0, -⟩ := one t ht
    rw [he, h0]
    intro hin
    exact hr ⟨t, ht, a, b, c, ha, hb, hc, hin⟩
  · clear hpos
    induction tri with
    | nil => simp
    | cons t ts ih =>
      rw [List.map_cons, List.sum_cons, List.countP_cons,
        ih (fun t ht => one t (List.mem_cons_of_mem _ ht)) (fun t ht => hb t (List.mem_cons_of_mem _ ht))]
      obtain ⟨a, b, c, ha, hb', hc, he, h0, h1⟩ := one t List.mem_cons_self
      obtain ⟨a', b', c', ha', hb'', hc', hin⟩ := hb t List.mem_cons_self
      rw [ha, Option.some.injEq] at ha'
      rw [hb', Option.some.injEq] at hb''
      rw [hc, Option.some.injEq] at hc'
      subst ha' hb'' hc'
      by_cases hi : InsideTriangle a b c x
      · have : TriangleWith pts' t fun a b c => InsideTriangle a b c x := ⟨a, b, c, ha, hb', hc, hi⟩
        rw [he, h1 hi]
        simp only [this, decide_true, if_true]
        push_cast
        ring
      · have : ¬ TriangleWith pts' t fun a b c => InsideTriangle a b c x := by
          rintro ⟨a', b', c', ha', hb'', hc', hi'⟩
          rw [ha, Option.some.injEq] at ha'
          rw [hb', Option.some.injEq] at hb''
          rw [hc, Option.some.injEq] at hc'
          subst ha' hb'' hc'
          exact hi hi'
        rw [he, h0 fun h => hi (hin h)]
        simp [this]

end

/-- The arrow head of C33. -/
def arrow : List (Vec3 ℝ) := [⟨1, 4, 0⟩, ⟨0, 0, 0⟩, ⟨4, 1, 0⟩, ⟨1, 1, 0⟩]

theorem arrow_triangulate : triangulate 10 arrow ⟨0, 0, 1⟩ = some (.ok (arrow, [(3, 0, 1), (3, 1, 2)])) :=
  Polygon.triangulate_quad (Polygon.unit_z (.inl rfl))
    (Polygon.isCornerConvex_z (.inl rfl) (by norm_num))
    (Polygon.isPointInside_far (m := 1) Vec3.x (.inl rfl) (.inr (by norm_num)))
    (Polygon.isCornerConvex_z (.inl rfl) (by norm_num))

/-- A point in the first triangle of the arrow head meets the hypotheses of both parts of `C20_winding` (for
the second part), a point in the notch those of the first; the winding numbers are 1 and 0. -/
example : (∀ p ∈ arrow, Vec3.dot ⟨0, 0, 1⟩ p = 0) ∧
    (∀ t ∈ [(3, 0, 1), (3, 1, 2)], TriangleWith arrow t fun a b c =>
      InTriangle a b c ⟨1 / 2, 1, 0⟩ → InsideTriangle a b c ⟨1 / 2, 1, 0⟩) ∧
    winding ⟨0, 0, 1⟩ ⟨1, 0, 0⟩ ⟨1 / 2, 1, 0⟩ arrow = 1 ∧
    ¬ Region arrow [(3, 0, 1), (3, 1, 2)] ⟨2, 2, 0⟩ ∧
    winding ⟨0, 0, 1⟩ ⟨1, 0, 0⟩ ⟨2, 2, 0⟩ arrow = 0 := by
  refine ⟨by simp [arrow, Vec3.dot], ?_, ?_, ?_, ?_⟩
  · intro t ht
    simp only [List.mem_cons, List.not_mem_nil, or_false] at ht
    rcases ht with rfl | rfl
    · refine ⟨⟨1, 1, 0⟩, ⟨1, 4, 0⟩, ⟨0, 0, 0⟩, rfl, rfl, rfl, fun _ => ?_⟩
      exact ⟨1 / 3, 1 / 6, 1 / 2, by norm_num, by norm_num, by norm_num, by norm_num, by ext <;> norm_num⟩
    · refine ⟨⟨1, 1, 0⟩, ⟨0, 0, 0⟩, ⟨4, 1, 0⟩, rfl, rfl, rfl, ?_⟩
      rintro ⟨r, s, t, hr, hs, ht, h1, h2⟩
      have hx := congrArg Vec3.x h2
      have hy := congrArg Vec3.y h2
      simp at hx hy
      linarith
  · norm_num [winding, arrow, cycEdges, crossing, Vec3.dot, Vec3.cross]
  · rintro ⟨t, ht, a, b, c, ha, hb, hc, r, s, q, hr, hs, hq, h1, h2⟩
    simp only [List.mem_cons, List.not_mem_nil, or_false] at ht
    rcases ht with rfl | rfl <;> simp [arrow] at ha hb hc <;> subst ha hb hc <;>
      have hx := congrArg Vec3.x h2 <;> have hy := congrArg Vec3.y h2 <;> simp at hx hy <;> linarith
  · norm_num [winding, arrow, cycEdges, crossing, Vec3.dot, Vec3.cross]

end B3d.Triangles
