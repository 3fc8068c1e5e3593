import Verif.Proofs.EarWinding
import Verif.Props.RegionWinding
import Verif.Props.Placement
import Verif.Props.SimplePolygons
import Verif.Props.Distinct

/-! # C95: the triangles of a simple outline do not overlap -/

namespace B3d.Tiling

open Spec Triangles

/-! ### Simple outlines -/

theorem Apart2.symm {f g : V × V} (h : Apart2 f g) : Apart2 g f := fun x hx hy => by
  rcases h x hy hx with ⟨a, b⟩ | ⟨a, b⟩
  · exact .inr ⟨b, a⟩
  · exact .inl ⟨b, a⟩

theorem simp_of_simple {pts : List V} (hnd : pts.Nodup) (h : SimplePolygon pts) : Simp pts := by
  refine ⟨hnd, ?_⟩
  have key : ∀ i j (hi : i < pts.length) (hj : j < pts.length), i < j →
      Apart2 (pts[i], pts[(i + 1) % pts.length]'(Nat.mod_lt _ (by omega)))
        (pts[j], pts[(j + 1) % pts.length]'(Nat.mod_lt _ (by omega))) := by
    intro i j hi hj hij x hx hy
    have s1 : SideFrom pts i pts[i] (pts[(i + 1) % pts.length]'(Nat.mod_lt _ (by omega))) :=
      ⟨List.getElem?_eq_getElem hi, List.getElem?_eq_getElem _⟩
    have s2 : SideFrom pts j pts[j] (pts[(j + 1) % pts.length]'(Nat.mod_lt _ (by omega))) :=
      ⟨List.getElem?_eq_getElem hj, List.getElem?_eq_getElem _⟩
    rcases h i j _ _ _ _ hij hj s1 s2 x hx hy with ⟨rfl, e⟩ | ⟨rfl, e1, e⟩
    · left
      refine ⟨?_, e⟩
      rw [e]
      simp only [Nat.mod_eq_of_lt hj]
    · right
      refine ⟨e, ?_⟩
      rw [e]
      simp only [e1, Nat.mod_self]
  intro f hf g hg hne
  obtain ⟨i, hi, rfl⟩ := Polygon.mem_cycEdges_iff.1 hf
  obtain ⟨j, hj, rfl⟩ := Polygon.mem_cycEdges_iff.1 hg
  rcases lt_trichotomy i j with h | rfl | h
  · exact key i j hi hj h
  · exact absurd rfl hne
  · exact (key j i hj hi h).symm

theorem Simp.reverse {L : List V} (h : Simp L) : Simp L.reverse := by
  refine ⟨List.nodup_reverse.2 h.nodup, ?_⟩
  intro f hf g hg hne x hx hy
  rw [(Solids.cycEdges_reverse_perm L).mem_iff] at hf hg
  obtain ⟨f, hf', rfl⟩ := List.mem_map.1 hf
  obtain ⟨g, hg', rfl⟩ := List.mem_map.1 hg
  rcases h.apart f hf' g hg' (fun e => hne (by rw [e])) x (onSegment_symm hx) (onSegment_symm hy) with h | h
  · exact .inr h
  · exact .inl h

/-! ### The ears of a run -/

section run

variable {convex : V → V → V → Except PyErr Bool} {inside : V → V → V → V → Except PyErr Bool} {pts : List V}

/-- The corners with the numbers of a triangle. -/
def Corners (pts : List V) (t : Tri) (T : V × V × V) : Prop :=
  pts[t.1]? = some T.1 ∧ pts[t.2.1]? = some T.2.1 ∧ pts[t.2.2]? = some T.2.2

theorem run_ears {n : V} (hconv : ∀ a b c, convex a b c = .ok true → 0 < Vec3.dot n (Vec3.cross (b - a) (c - a)))
    (hex : ∀ a ∈ pts, ∀ b ∈ pts, ∀ c ∈ pts, ∀ t ∈ pts, convex a b c = .ok true → inside t a b c = .ok false →
      ¬ InTriangle a b c t) : ∀ (fuel : Nat) (s : State V) (tri : List Tri), Inv convex pts s →
    run convex inside pts fuel s = some (.ok (some tri)) →
    ∃ tl ts, tri = s.triangles ++ tl ∧ List.Forall₂ (Corners pts) tl ts ∧ Ears n (s.vertices.map Prod.snd) ts := by
  intro fuel
  induction fuel with
  | zero => intro s tri _ h; cases h
  | succ fuel ih =>
    intro s tri hi h
    unfold run at h
    cases hs : step convex inside pts s with
    | flip => rw [hs] at h; simp at h
    | raise e => rw [hs] at h; simp at h
    | finish t =>
      rw [hs] at h
      simp only [Option.some.injEq, Except.ok.injEq] at h
      have := step_finish _ _ _ hs
      refine ⟨[], [], by rw [List.append_nil, ← h]; exact this.2, List.Forall₂.nil, .done ?_⟩
      rw [List.length_map]; exact this.1
    | cont s' =>
      rw [hs] at h
      have hi' := inv_step convex inside pts hi hs
      obtain ⟨tl, ts, h1, h2, h3⟩ := ih s' tri hi' h
      obtain ⟨hl, -, hc | ⟨A, c, B, p, q, v1, v2, v3, v4, v5, -, v7, v8⟩⟩ := step_cont _ _ _ hs
      · obtain ⟨e1, e2, -⟩ := hc
        rw [e1] at h3
        rw [e2] at h1
        exact ⟨tl, ts, h1, h2, h3⟩
      have hlen : A.length + B.length + 1 = s.vertices.length := by rw [v1]; simp; omega
      obtain ⟨X, hX⟩ := ear_split A B p q (by omega) v3 v4
      have hmem : ∀ v, v ∈ B ++ A → v ∈ s.vertices := by
        intro v hv
        rw [v1]
        rcases List.mem_append.1 hv with h | h <;> simp [h]
      have hpm : p ∈ s.vertices := hmem p (by rw [hX]; simp)
      have hqm : q ∈ s.vertices := hmem q (by rw [hX]; simp)
      have hcm : c ∈ s.vertices := by rw [v1]; simp
      have rot : s.vertices.IsRotated (p :: c :: q :: X) := by
        have r1 : s.vertices.IsRotated (c :: B ++ A) := by rw [v1]; exact List.isRotated_append
        rw [List.cons_append, hX] at r1
        refine r1.trans ?_
        have : c :: (q :: X ++ [p]) = (c :: q :: X) ++ [p] := by simp
        rw [this]
        exact List.isRotated_append
      have rot' : s'.vertices.IsRotated (p :: q :: X) := by
        have r1 : s'.vertices.IsRotated (B ++ A) := by rw [v2]; exact List.isRotated_append
        rw [hX] at r1
        exact r1.trans List.isRotated_append
      have hnd : ((p :: c :: q :: X).map Prod.fst).Nodup := by
        have : (s.vertices.map Prod.fst).Nodup := hi.sorted.imp (fun h => Nat.ne_of_lt h)
        exact ((rot.perm.map Prod.fst).nodup_iff).1 this
      refine ⟨(p.1, c.1, q.1) :: tl, (p.2, c.2, q.2) :: ts, ?_, ?_, ?_⟩
      · rw [h1, v5, List.append_assoc]; rfl
      · exact .cons ⟨hi.coords p hpm, hi.coords c hcm, hi.coords q hqm⟩ h2
      · have m1 := rot.map Prod.snd
        have m2 := rot'.map Prod.snd
        simp only [List.map_cons] at m1 m2
        refine .cut m1 m2 (hconv _ _ _ v7) ?_ h3
        intro x hx
        obtain ⟨v, hv, rfl⟩ := List.mem_map.1 hx
        have hvm : v ∈ s.vertices := hmem v (by rw [hX]; simp [hv])
        simp only [List.map_cons, List.nodup_cons, List.mem_cons, not_or, List.mem_map, not_exists, not_and] at hnd
        have := (anyPointInside_false (hi.coords p hpm) (hi.coords c hcm) (hi.coords q hqm) s.vertices false
          (fun v hv => hi.coords v hv) v8).2 v hvm (hnd.1.2.2 v hv) (hnd.2.1.2 v hv) (hnd.2.2.1 v hv)
        exact hex _ (List.mem_of_getElem? (hi.coords p hpm)) _ (List.mem_of_getElem? (hi.coords c hcm)) _
          (List.mem_of_getElem? (hi.coords q hqm)) _ (List.mem_of_getElem? (hi.coords v hvm)) v7 this

theorem tries_ears {n : V} {z : Bool} {fuel : Nat}
    (hconv : ∀ a b c, convex a b c = .ok true → 0 < Vec3.dot n (Vec3.cross (b - a) (c - a))) :
    ∀ (tries : Nat) (pts : List V), 3 ≤ pts.length →
    (∀ a ∈ pts, ∀ b ∈ pts, ∀ c ∈ pts, ∀ t ∈ pts, convex a b c = .ok true → inside t a b c = .ok false →
      ¬ InTriangle a b c t) → ∀ pts' tri, triangulateTries z convex inside fuel tries pts = some (.ok (pts', tri)) →
    ∃ ts, List.Forall₂ (Corners pts') tri ts ∧ Ears n pts' ts := by
  intro tries
  induction tries with
  | zero => intro pts _ _ pts' tri h; simp [triangulateTries] at h
  | succ k ih =>
    intro pts h3 hex pts' tri h
    unfold triangulateTries at h
    cases z
    · simp only [Bool.false_eq_true, if_false] at h
      cases hr : run convex inside pts fuel (initState pts) with
      | none => rw [hr] at h; simp at h
      | some r =>
        rw [hr] at h
        rcases r with e | _ | t
        · simp at h
        · simp only [] at h
          exact ih pts.reverse (by simpa using h3) (fun a ha b hb c hc t ht => hex a (List.mem_reverse.1 ha) b
            (List.mem_reverse.1 hb) c (List.mem_reverse.1 hc) t (List.mem_reverse.1 ht)) pts' tri h
        · simp only [Option.some.injEq, Except.ok.injEq, Prod.mk.injEq] at h
          obtain ⟨rfl, rfl⟩ := h
          obtain ⟨tl, ts, e1, e2, e3⟩ := run_ears hconv hex fuel _ _ (inv_init convex pts h3) hr
          have ev : (initState pts).vertices.map Prod.snd = pts := by
            simp only [initState]
            rw [List.map_snd_zip (by simp)]
          rw [ev] at e3
          refine ⟨ts, ?_, e3⟩
          rw [e1]
          exact e2
    · simp at h

end run

end B3d.Tiling

namespace B3d.Polygon

open Spec Triangles Tiling

theorem corners_triangleWith {pts : List (Vec3 ℝ)} {t : Tri} {T : Vec3 ℝ × Vec3 ℝ × Vec3 ℝ} (h : Corners pts t T)
    {R : Vec3 ℝ → Vec3 ℝ → Vec3 ℝ → Prop} (hR : TriangleWith pts t R) : R T.1 T.2.1 T.2.2 := by
  obtain ⟨a, b, c, ha, hb, hc, hr⟩ := hR
  obtain ⟨h1, h2, h3⟩ := h
  rw [ha, Option.some.injEq] at h1
  rw [hb, Option.some.injEq] at h2
  rw [hc, Option.some.injEq] at h3
  rw [← h1, ← h2, ← h3]
  exact hr

theorem no_overlap {pts : List (Vec3 ℝ)} {vn : Option (Vec3 ℝ)} {P : Poly} {v : Vec3 ℝ} {e : ℝ}
    (h : polygonNew pts none vn = .ok P) (hv : P.vn = some v) (hpl : ∀ p ∈ pts, Vec3.dot v p = e) (hS : Simp pts)
    (hex : ∀ a ∈ pts, ∀ b ∈ pts, ∀ c ∈ pts, ∀ t ∈ pts, isCornerConvex v a b c = .ok true →
      Triangles.isPointInside t a b c = .ok false → ¬ InTriangle a b c t) :
    ∃ ts, List.Forall₂ (Corners P.pts) P.tri ts ∧ ts.Pairwise fun T T' => ∀ x, Ins T x → Ins T' x → False := by
  obtain ⟨hn, v', hv', -, ht, -, -⟩ := polygonNew_ok h
  rw [hv, Option.some.injEq] at hv'
  subst hv'
  have hfl := triangulate_flat hn ht hpl
  obtain ⟨hrev, -⟩ := triangulateTries_good _ _ _ _ _ pts hn P.pts P.tri ht
  have hS : Simp P.pts := by
    rcases hrev with e | e
    · rw [e]; exact hS
    · rw [e]; exact hS.reverse
  obtain ⟨ts, hc, he⟩ := tries_ears (n := v) (fun a b c hcv => by
    have := isCornerConvex_sound hcv
    have e : Vec3.cross (b - a) (c - b) = Vec3.cross (b - a) (c - a) := by ext <;> simp <;> ring
    rwa [e, Vec3.dot_comm] at this) 2 pts hn hex P.pts P.tri ht
  exact ⟨ts, hc, he.disjoint hfl.ne hfl.plane hS⟩

theorem corners_trianglesOf {pts : List (Vec3 ℝ)} {tri : List Tri} {ts : List (Vec3 ℝ × Vec3 ℝ × Vec3 ℝ)}
    (h : List.Forall₂ (Corners pts) tri ts) : trianglesOf pts tri = ts := by
  induction h with
  | nil => rfl
  | cons h1 _ ih =>
    obtain ⟨a, b, c⟩ := h1
    unfold trianglesOf at ih ⊢
    rw [List.filterMap_cons, a, b, c]
    simp only [ih]

open Classical in
theorem winding_simp {pts : List (Vec3 ℝ)} {vn : Option (Vec3 ℝ)} {P : Poly} {v : Vec3 ℝ} {e : ℝ}
    (h : polygonNew pts none vn = .ok P) (hv : P.vn = some v) (hpl : ∀ p ∈ pts, Vec3.dot v p = e) (hS : Simp pts)
    (hex : ∀ a ∈ pts, ∀ b ∈ pts, ∀ c ∈ pts, ∀ t ∈ pts, isCornerConvex v a b c = .ok true →
      Triangles.isPointInside t a b c = .ok false → ¬ InTriangle a b c t)
    {u x : Vec3 ℝ} (hu : u ≠ 0) (hvu : Vec3.dot v u = 0) (hx : Vec3.dot v x = e) (hoff : ¬ OnOutline P.pts x) :
    winding v u x P.pts = if Region P.pts P.tri x then 1 else 0 := by
  obtain ⟨ts, hc, hdis⟩ := no_overlap h hv hpl hS hex
  obtain ⟨hn, v', hv', -, ht, -, -⟩ := polygonNew_ok h
  rw [hv, Option.some.injEq] at hv'
  subst hv'
  have hF := fills hn ht hpl
  rw [← corners_trianglesOf hc] at hdis
  split
  · rename_i hR
    exact hF.winding_one hdis hu hvu hx hoff (mem_triangles_iff.2 hR)
  · rename_i hR
    exact hF.winding_zero hu hvu hx fun h => hR (mem_triangles_iff.1 h)

/-- **C95.**  The triangles of a polygon with a simple outline do not overlap: no point is strictly inside two of them.
The corners are in one plane, and the test whether a corner is in a triangle is right for the corners of the outline
(it has a tolerance; see `C95_crisp_partial` for outlines where it is right). -/
theorem C95_no_overlap_partial {pts : List (Vec3 ℝ)} {vn : Option (Vec3 ℝ)} {P : Poly} {v : Vec3 ℝ} {e : ℝ}
    (h : polygonNew pts none vn = .ok P) (hv : P.vn = some v) (hpl : ∀ p ∈ pts, Vec3.dot v p = e)
    (hs : SimplePolygon pts)
    (hex : ∀ a ∈ pts, ∀ b ∈ pts, ∀ c ∈ pts, ∀ t ∈ pts, isCornerConvex v a b c = .ok true →
      Triangles.isPointInside t a b c = .ok false → ¬ InTriangle a b c t) :
    ∀ (i j : Nat) (s t : Tri), i < j → P.tri[i]? = some s → P.tri[j]? = some t → ∀ x,
      ¬ (TriangleWith P.pts s (fun a b c => InsideTriangle a b c x) ∧
        TriangleWith P.pts t fun a b c => InsideTriangle a b c x) := by
  obtain ⟨ts, hc, hd⟩ := no_overlap h hv hpl (simp_of_simple (C106_distinct h).1 hs) hex
  intro i j s t hij hi hj x hx
  obtain ⟨hil, rfl⟩ := List.getElem?_eq_some_iff.1 hi
  obtain ⟨hjl, rfl⟩ := List.getElem?_eq_some_iff.1 hj
  have hlen := hc.length_eq
  have h1 := hc.get hil (by omega)
  have h2 := hc.get hjl (by omega)
  exact List.pairwise_iff_getElem.1 hd i j (by omega) (by omega) hij x (corners_triangleWith h1 hx.1)
    (corners_triangleWith h2 hx.2)

open Classical in
/-- **C95, what a simple outline encloses.**  Such an outline runs around every point of the plane off the outline once
or not at all, and once exactly if the point is in the polygon. -/
theorem C95_winding_partial {pts : List (Vec3 ℝ)} {vn : Option (Vec3 ℝ)} {P : Poly} {v : Vec3 ℝ} {e : ℝ}
    (h : polygonNew pts none vn = .ok P) (hv : P.vn = some v) (hpl : ∀ p ∈ pts, Vec3.dot v p = e)
    (hs : SimplePolygon pts)
    (hex : ∀ a ∈ pts, ∀ b ∈ pts, ∀ c ∈ pts, ∀ t ∈ pts, isCornerConvex v a b c = .ok true →
      Triangles.isPointInside t a b c = .ok false → ¬ InTriangle a b c t)
    {u x : Vec3 ℝ} (hu : u ≠ 0) (hvu : Vec3.dot v u = 0) (hx : Vec3.dot v x = e) (hoff : ¬ OnOutline P.pts x) :
    winding v u x P.pts = if Region P.pts P.tri x then 1 else 0 :=
  winding_simp h hv hpl (simp_of_simple (C106_distinct h).1 hs) hex hu hvu hx hoff

/-! ### Outlines for which the tests are right -/

open Planar

theorem inClosed_of_inPlane {o u w : Vec3 ℝ} (hx : Axes u w) {t a b c : ℝ × ℝ} (hD : 0 < signedArea a b c)
    (h : InTriangle (inPlane o u w a) (inPlane o u w b) (inPlane o u w c) (inPlane o u w t)) : InClosed t a b c := by
  obtain ⟨r, s, q, hr, hs, hq, h1, h2⟩ := h
  have coord : ∀ z : Vec3 ℝ, Vec3.dot z (inPlane o u w t) = r * Vec3.dot z (inPlane o u w a) +
      s * Vec3.dot z (inPlane o u w b) + q * Vec3.dot z (inPlane o u w c) := by
    intro z
    rw [h2, Vec3.dot_add_right, Vec3.dot_add_right, Vec3.dot_smul_right, Vec3.dot_smul_right, Vec3.dot_smul_right]
  have eu : ∀ p : ℝ × ℝ, Vec3.dot u (inPlane o u w p) = Vec3.dot u o + p.1 := by
    intro p
    rw [inPlane, Vec3.dot_add_right, Vec3.dot_add_right, Vec3.dot_smul_right, Vec3.dot_smul_right, hx.unitU, hx.perp]
    ring
  have ew : ∀ p : ℝ × ℝ, Vec3.dot w (inPlane o u w p) = Vec3.dot w o + p.2 := by
    intro p
    rw [inPlane, Vec3.dot_add_right, Vec3.dot_add_right, Vec3.dot_smul_right, Vec3.dot_smul_right, hx.unitW,
      Vec3.dot_comm w u, hx.perp]
    ring
  have c1 := coord u
  have c2 := coord w
  rw [eu, eu, eu, eu] at c1
  rw [ew, ew, ew, ew] at c2
  have t1 : t.1 = r * a.1 + s * b.1 + q * c.1 := by linear_combination c1 + Vec3.dot u o * h1
  have t2 : t.2 = r * a.2 + s * b.2 + q * c.2 := by linear_combination c2 + Vec3.dot w o * h1
  obtain rfl : r = 1 - s - q := by linarith
  have e1 : signedArea a b t = q * signedArea a b c := by simp only [signedArea]; rw [t1, t2]; ring
  have e2 : signedArea b c t = (1 - s - q) * signedArea a b c := by simp only [signedArea]; rw [t1, t2]; ring
  have e3 : signedArea c a t = s * signedArea a b c := by simp only [signedArea]; rw [t1, t2]; ring
  exact ⟨by rw [e1]; exact mul_nonneg hq hD.le, by rw [e2]; exact mul_nonneg hr hD.le,
    by rw [e3]; exact mul_nonneg hs hD.le⟩

/-- The tests are right for the corners of an outline without doubtful cases. -/
theorem exact_inPlane {m : ℝ} {pts : List (ℝ × ℝ)} {o u w : Vec3 ℝ} (hx : Axes u w) (h : Crisp m pts)
    (hr : ∀ p ∈ pts, Reach m (inPlane o u w p)) : ∀ a ∈ pts.map (inPlane o u w), ∀ b ∈ pts.map (inPlane o u w),
    ∀ c ∈ pts.map (inPlane o u w), ∀ t ∈ pts.map (inPlane o u w), isCornerConvex (Vec3.cross u w) a b c = .ok true →
      Triangles.isPointInside t a b c = .ok false → ¬ InTriangle a b c t := by
  intro a ha b hb c hc t ht hcv hin htri
  obtain ⟨a, ha', rfl⟩ := List.mem_map.1 ha
  obtain ⟨b, hb', rfl⟩ := List.mem_map.1 hb
  obtain ⟨c, hc', rfl⟩ := List.mem_map.1 hc
  obtain ⟨t, ht', rfl⟩ := List.mem_map.1 ht
  rw [isCornerConvex_inPlane hx h ha' hb' hc'] at hcv
  simp only [Except.ok.injEq, decide_eq_true_eq] at hcv
  rw [isPointInside_inPlane hx h hr ha' hb' hc' ht' hcv] at hin
  simp only [Except.ok.injEq, decide_eq_false_iff_not] at hin
  exact hin (inClosed_of_inPlane hx hcv htri)

theorem plane_inPlane {u w : Vec3 ℝ} (o : Vec3 ℝ) (pts : List (ℝ × ℝ)) :
    ∀ p ∈ pts.map (inPlane o u w), Vec3.dot (Vec3.cross u w) p = Vec3.dot (Vec3.cross u w) o := by
  intro p hp
  obtain ⟨p, -, rfl⟩ := List.mem_map.1 hp
  simp only [inPlane, Vec3.dot, Vec3.cross_x, Vec3.cross_y, Vec3.cross_z, Vec3.add_x, Vec3.add_y, Vec3.add_z,
    Vec3.smul_x, Vec3.smul_y, Vec3.smul_z]
  ring

/-- **C95, outlines without doubtful cases.**  A simple outline in any plane, with corners as in `Crisp` and a first
corner which turns to the left: if the constructor accepts it, no point is strictly inside two triangles. -/
theorem C95_crisp_partial {m : ℝ} {pts : List (ℝ × ℝ)} {o u w : Vec3 ℝ} {P : Poly} (hx : Axes u w) (hc : Crisp m pts)
    (hr : ∀ p ∈ pts, Reach m (inPlane o u w p)) (hn : 3 ≤ pts.length) {l p0 p1 : ℝ × ℝ} (hl : pts.getLast? = some l)
    (h0 : pts[0]? = some p0) (h1 : pts[1]? = some p1) (hD : 0 < signedArea l p0 p1)
    (hs : SimplePolygon (pts.map (inPlane o u w))) (h : polygonNew (pts.map (inPlane o u w)) none none = .ok P) :
    ∀ (i j : Nat) (s t : Tri), i < j → P.tri[i]? = some s → P.tri[j]? = some t → ∀ x,
      ¬ (TriangleWith P.pts s (fun a b c => InsideTriangle a b c x) ∧
        TriangleWith P.pts t fun a b c => InsideTriangle a b c x) := by
  have hv : P.vn = some (Vec3.cross u w) := by
    have := polygonNew_inPlane (o := o) hx hc hr hn hl h0 h1 hD
    cases he : exactTriangulate (2 * pts.length + 2) pts with
    | none => rw [he] at this; simp only at this; rw [this] at h; cases h
    | some r =>
      rw [he] at this
      cases r with
      | error e => simp only at this; rw [this] at h; cases h
      | ok q =>
        obtain ⟨P', e1, -, e2, -⟩ := this
        rw [e1, Except.ok.injEq] at h
        rw [← h]; exact e2
  exact C95_no_overlap_partial h hv (plane_inPlane o pts) hs (exact_inPlane hx hc hr)

/-! ### Non-vacuity -/

theorem emb_eq_inPlane : (Grid.emb : ℤ × ℤ → Vec3 ℝ) =
    inPlane 0 ⟨1, 0, 0⟩ ⟨0, 1, 0⟩ ∘ fun p => ((p.1 : ℝ), (p.2 : ℝ)) := by
  funext p
  ext <;> simp [Grid.emb, inPlane]

/-- Non-vacuity: the plan of the corridor of C84 with sixteen corners, started at another corner, meets the hypotheses of
`C95_crisp_partial` (and with it those of the general theorems), and it is accepted. -/
example : ∃ (pts : List (ℝ × ℝ)) (P : Poly), pts.length = 16 ∧ Crisp 1 pts ∧ Axes ⟨1, 0, 0⟩ ⟨0, 1, 0⟩ ∧
    (∀ p ∈ pts, Reach 1 (inPlane 0 ⟨1, 0, 0⟩ ⟨0, 1, 0⟩ p)) ∧ pts.Nodup ∧
    SimplePolygon (pts.map (inPlane 0 ⟨1, 0, 0⟩ ⟨0, 1, 0⟩)) ∧ pts.getLast? = some (0, 3) ∧ pts[0]? = some (0, 1) ∧
    pts[1]? = some (1, 1) ∧ 0 < signedArea (0, 3) (0, 1) (1, 1) ∧
    polygonNew (pts.map (inPlane 0 ⟨1, 0, 0⟩ ⟨0, 1, 0⟩)) none none = .ok P := by
  obtain ⟨P, h, -, -, ht⟩ := Grid.polygonNew_emb_ok (pts := corridorGrid.rotate 4) (l := (0, 3)) (p0 := (0, 1))
    (p1 := (1, 1)) (pts' := corridorGrid.rotate 4)
    (by decide +kernel) (by decide) rfl rfl rfl (by decide)
    (tri := [(15, 0, 1), (1, 2, 3), (3, 4, 5), (7, 8, 9), (7, 9, 10), (10, 11, 12), (10, 12, 13), (1, 3, 5), (1, 5, 6),
      (7, 10, 13), (7, 13, 14), (7, 14, 15), (15, 1, 6), (15, 6, 7)]) (by decide +kernel)
  have hsm := Grid.simple_emb (pts := corridorGrid.rotate 4) (by decide +kernel)
  rw [emb_eq_inPlane, ← List.map_map] at h hsm
  refine ⟨(corridorGrid.rotate 4).map fun p => ((p.1 : ℝ), (p.2 : ℝ)), P, rfl, crisp_int (by decide +kernel),
    ⟨by norm_num [Vec3.dot], by norm_num [Vec3.dot], by norm_num [Vec3.dot]⟩, ?_, ?_, ?_, ?_, ?_, ?_, ?_, ?_⟩
  · intro p hp
    obtain ⟨p, hp', rfl⟩ := List.mem_map.1 hp
    have : ∀ p ∈ corridorGrid.rotate 4, 0 ≤ p.1 ∧ p.1 ≤ 10 ∧ 0 ≤ p.2 ∧ p.2 ≤ 10 := by decide +kernel
    obtain ⟨a, b, c, d⟩ := this p hp'
    have a' : (0 : ℝ) ≤ p.1 := by exact_mod_cast a
    have b' : (p.1 : ℝ) ≤ 10 := by exact_mod_cast b
    have c' : (0 : ℝ) ≤ p.2 := by exact_mod_cast c
    have d' : (p.2 : ℝ) ≤ 10 := by exact_mod_cast d
    refine ⟨?_, ?_, ?_⟩ <;> simp [inPlane, abs_le] <;> constructor <;> linarith
  · refine List.Nodup.map ?_ (by decide +kernel)
    rintro ⟨a, b⟩ ⟨c, d⟩ h
    simp only [Prod.mk.injEq, Int.cast_inj] at h
    exact Prod.ext h.1 h.2
  · exact hsm
  · rw [List.getLast?_map]; simp [show (corridorGrid.rotate 4).getLast? = some (0, 3) from rfl]
  · rw [List.getElem?_map]; simp [show (corridorGrid.rotate 4)[0]? = some (0, 1) from rfl]
  · rw [List.getElem?_map]; simp [show (corridorGrid.rotate 4)[1]? = some (1, 1) from rfl]
  · norm_num [signedArea]
  · exact h

/-! ### Outlines which are not simple -/

/-- A road which crosses itself. -/
def roadGrid : List (ℤ × ℤ) := [(0, -1), (11, -1), (11, 11), (3, 11), (3, -6), (5, -6), (5, 9), (9, 9), (9, 1), (0, 1)]

/-- **C95 needs simple outlines.**  The constructor accepts the outline of a road which crosses itself, although its
sides cross; two of its triangles overlap. -/
theorem C95_crossing_sides : ∃ P : Poly, polygonNew (roadGrid.map Grid.emb) none none = .ok P ∧
    ¬ SimplePolygon (roadGrid.map Grid.emb) ∧ ∃ s t : Tri, P.tri[0]? = some s ∧ P.tri[1]? = some t ∧
      TriangleWith P.pts s (fun a b c => InsideTriangle a b c ⟨4, 0, 0⟩) ∧
      TriangleWith P.pts t fun a b c => InsideTriangle a b c ⟨4, 0, 0⟩ := by
  obtain ⟨P, h, hp, -, ht⟩ := Grid.polygonNew_emb_ok (pts := roadGrid) (l := (0, 1)) (p0 := (0, -1))
    (p1 := (11, -1)) (pts' := roadGrid) (by decide +kernel) (by decide) rfl rfl rfl (by decide)
    (tri := [(9, 0, 1), (3, 4, 5), (3, 5, 6), (3, 6, 7), (8, 9, 1), (8, 1, 2), (2, 3, 7), (2, 7, 8)]) (by decide +kernel)
  refine ⟨P, h, ?_, (9, 0, 1), (3, 4, 5), by rw [ht]; rfl, by rw [ht]; rfl, ?_, ?_⟩
  · intro hs
    have := hs 0 3 (Grid.emb (0, -1)) (Grid.emb (11, -1)) (Grid.emb (3, 11)) (Grid.emb (3, -6)) (by decide) (by decide)
      ⟨rfl, rfl⟩ ⟨rfl, rfl⟩ ⟨3, -1, 0⟩ ⟨3 / 11, by norm_num, by norm_num, by ext <;> norm_num [Grid.emb]⟩
      ⟨12 / 17, by norm_num, by norm_num, by ext <;> norm_num [Grid.emb]⟩
    rcases this with ⟨h, -⟩ | ⟨-, h, -⟩
    · omega
    · simp [roadGrid] at h
  · refine ⟨Grid.emb (0, 1), Grid.emb (0, -1), Grid.emb (11, -1), by rw [hp]; rfl, by rw [hp]; rfl, by rw [hp]; rfl, ?_⟩
    exact ⟨1 / 2, 3 / 22, 4 / 11, by norm_num, by norm_num, by norm_num, by norm_num, by ext <;> norm_num [Grid.emb]⟩
  · refine ⟨Grid.emb (3, 11), Grid.emb (3, -6), Grid.emb (5, -6), by rw [hp]; rfl, by rw [hp]; rfl, by rw [hp]; rfl, ?_⟩
    exact ⟨6 / 17, 5 / 34, 1 / 2, by norm_num, by norm_num, by norm_num, by norm_num, by ext <;> norm_num [Grid.emb]⟩

end B3d.Polygon
