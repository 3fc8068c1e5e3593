import Verif.Props.PlanConvex
import Verif.Props.Placement

/-! # C90: floor plans do not depend on where they are built -/

namespace B3d.Solids

open Spec Polygon Points ConvexEars Planar

/-- The horizontal axes, turned by an angle. -/
noncomputable def axisU (phi : ℝ) : Vec3 ℝ := ⟨Real.cos phi, Real.sin phi, 0⟩

/-- The horizontal axes, turned by an angle. -/
noncomputable def axisW (phi : ℝ) : Vec3 ℝ := ⟨-Real.sin phi, Real.cos phi, 0⟩

theorem axes_turned (phi : ℝ) : Axes (axisU phi) (axisW phi) := by
  have := Real.sin_sq_add_cos_sq phi
  refine ⟨?_, ?_, ?_⟩ <;> simp only [axisU, axisW, Vec3.dot] <;> nlinarith

theorem cross_turned (phi : ℝ) : Vec3.cross (axisU phi) (axisW phi) = ⟨0, 0, 1⟩ := by
  have := Real.sin_sq_add_cos_sq phi
  ext <;> simp only [axisU, axisW, Vec3.cross] <;> nlinarith

theorem level_place (phi z : ℝ) (t : Vec3 ℝ) (p : ℝ × ℝ) :
    level z (place phi t p) = inPlane ⟨t.x, t.y, z⟩ (axisU phi) (axisW phi) p := by
  ext <;> simp [level, place, inPlane, axisU, axisW] <;> ring

theorem placed_level (plan : List (ℝ × ℝ)) (t : Vec3 ℝ) (phi z : ℝ) :
    (placed plan t phi).map (level z) =
      plan.map (inPlane ⟨(planShift t).x, (planShift t).y, z⟩ (axisU (planAngle phi)) (axisW (planAngle phi))) := by
  unfold placed
  rw [List.map_map]
  exact List.map_congr_left fun p _ => level_place _ _ _ _

theorem levelPolygon_same {m : ℝ} {pts : List (ℝ × ℝ)} {o u w o' u' w' : Vec3 ℝ} {name rnd : Str} {want : ℝ}
    (hwant : want = 1 ∨ want = -1) (hx : Axes u w) (hx' : Axes u' w') (hu : Vec3.cross u w = ⟨0, 0, 1⟩)
    (hu' : Vec3.cross u' w' = ⟨0, 0, 1⟩) (h : Crisp m pts) (hr : ∀ p ∈ pts, Reach m (inPlane o u w p))
    (hr' : ∀ p ∈ pts, Reach m (inPlane o' u' w' p)) (hn : 3 ≤ pts.length) (he : EndsTurn pts)
    (hv : validateName name = .ok name) :
    (∃ e, levelPolygon (pts.map (inPlane o u w)) name rnd ⟨0, 0, want⟩ = .error e ∧
      levelPolygon (pts.map (inPlane o' u' w')) name rnd ⟨0, 0, want⟩ = .error e) ∨
    ∃ nm P Q q, levelPolygon (pts.map (inPlane o u w)) name rnd ⟨0, 0, want⟩ = .ok (nm, P) ∧
      levelPolygon (pts.map (inPlane o' u' w')) name rnd ⟨0, 0, want⟩ = .ok (nm, Q) ∧ (q = pts ∨ q = pts.reverse) ∧
      P.pts = q.map (inPlane o u w) ∧ Q.pts = q.map (inPlane o' u' w') ∧ P.tri = Q.tri ∧ P.vn = Q.vn := by
  obtain ⟨p0, p1, r1, x, l, r2, h1, h2, hD, hD'⟩ := he
  have sc : ∀ p : ℝ × ℝ, scaled 1 p = p := fun p => by simp [scaled]
  have base : ∀ {l' a b : ℝ × ℝ} (pts' : List (ℝ × ℝ)), (∀ p ∈ pts', p ∈ pts) → 3 ≤ pts'.length → pts'.getLast? = some l' →
      pts'[0]? = some a → pts'[1]? = some b → signedArea l' a b ≠ 0 → (∃ e, polygonNew (pts'.map (inPlane o u w)) none none = .error e ∧
        polygonNew (pts'.map (inPlane o' u' w')) none none = .error e) ∨
      ∃ P Q q, ∃ s : ℝ, polygonNew (pts'.map (inPlane o u w)) none none = .ok P ∧
        polygonNew (pts'.map (inPlane o' u' w')) none none = .ok Q ∧ (q = pts' ∨ q = pts'.reverse) ∧
        P.pts = q.map (inPlane o u w) ∧ Q.pts = q.map (inPlane o' u' w') ∧ P.tri = Q.tri ∧ (s = 1 ∨ s = -1) ∧
        P.vn = some ⟨0, 0, s⟩ ∧ Q.vn = some ⟨0, 0, s⟩ := by
    intro l' a b pts' hsub hn hl h0 h1 hD
    have hc : Crisp m pts' :=
      ⟨h.scale, fun p hp q hq => h.far p (hsub p hp) q (hsub q hq), fun p hp q hq => h.near p (hsub p hp) q (hsub q hq),
        fun a ha b hb c hc => h.sides a (hsub a ha) b (hsub b hb) c (hsub c hc)⟩
    have := C89_placement_partial (k := 1) hx hx' hc one_pos (by rw [one_mul]; exact h.scale)
      (fun p hp => hr p (hsub p hp)) (by rw [one_mul]; intro p hp; rw [sc]; exact hr' p (hsub p hp)) hn hl h0 h1 hD
    simp only [sc] at this
    rcases this with this | ⟨P, Q, q, s, b1, b2, b3, b4, b5, b6, b7, b8, b9⟩
    · exact .inl this
    · refine .inr ⟨P, Q, q, s, b1, b2, b3, b4, b5, b6, ?_, ?_, ?_⟩
      · rw [b7]; split <;> simp
      · rw [b8, hu]; congr 1; ext <;> simp
      · rw [b9, hu']; congr 1; ext <;> simp
  have b0 := base pts (fun p hp => hp) hn (by rw [h2]; simp) (by rw [h1]; simp) (by rw [h1]; simp) hD
  have b1 := base pts.reverse (fun p hp => List.mem_reverse.1 hp) (by simpa using hn) (l' := p0) (a := l) (b := x)
    (by rw [List.getLast?_reverse, h1]; simp) (by rw [h2]; simp) (by rw [h2]; simp)
    (by rw [show signedArea p0 l x = -signedArea x l p0 by unfold signedArea; ring]; exact neg_ne_zero.2 hD')
  rcases b0 with ⟨e, c1, c2⟩ | ⟨P, Q, q, s, c1, c2, c3, c4, c5, c6, c7, c8, c9⟩
  · left
    refine ⟨e, ?_, ?_⟩ <;> simp [levelPolygon, namedPolygon, hv, c1, c2]
  by_cases hs : s = want
  · subst hs
    exact .inr ⟨name, P, Q, q, level_ok c7 hv c1 c8, level_ok c7 hv c2 c9, c3, c4, c5, c6, by rw [c8, c9]⟩
  have hs' : s = -want := by rcases c7 with rfl | rfl <;> rcases hwant with rfl | rfl <;> simp at hs ⊢
  have hq : (q.reverse = pts ∨ q.reverse = pts.reverse) := by
    rcases c3 with rfl | rfl
    · exact .inr rfl
    · exact .inl (List.reverse_reverse pts)
  have hex : ∀ R : Poly, R.vn = some ⟨0, 0, s⟩ → ¬ ∃ v, R.vn = some v ∧ allClose v ⟨0, 0, want⟩ NP_RTOL NP_ATOL := by
    rintro R hR ⟨v, hv, hc⟩
    rw [hR, Option.some.injEq] at hv
    rw [← hv, allClose_z c7 hwant] at hc
    exact hs hc
  have b2 : (∃ e, Polygon.flip P = .error e ∧ Polygon.flip Q = .error e) ∨
      ∃ P' Q' q', ∃ s : ℝ, Polygon.flip P = .ok P' ∧ Polygon.flip Q = .ok Q' ∧ (q' = pts ∨ q' = pts.reverse) ∧
        P'.pts = q'.map (inPlane o u w) ∧ Q'.pts = q'.map (inPlane o' u' w') ∧ P'.tri = Q'.tri ∧
        P'.vn = some ⟨0, 0, s⟩ ∧ Q'.vn = some ⟨0, 0, s⟩ := by
    unfold Polygon.flip
    rw [c4, c5, ← List.map_reverse, ← List.map_reverse]
    have b0' := base pts (fun p hp => hp) hn (by rw [h2]; simp) (by rw [h1]; simp) (by rw [h1]; simp) hD
    rcases hq with hq | hq <;> rw [hq]
    · rcases b0' with b | ⟨P', Q', q', s', d1, d2, d3, d4, d5, d6, d7, d8, d9⟩
      · exact .inl b
      · exact .inr ⟨P', Q', q', s', d1, d2, d3, d4, d5, d6, d8, d9⟩
    · rcases b1 with b | ⟨P', Q', q', s', d1, d2, d3, d4, d5, d6, d7, d8, d9⟩
      · exact .inl b
      · refine .inr ⟨P', Q', q', s', d1, d2, ?_, d4, d5, d6, d8, d9⟩
        rcases d3 with rfl | rfl
        · exact .inr rfl
        · exact .inl (List.reverse_reverse pts)
  rcases b2 with ⟨e, d1, d2⟩ | ⟨P', Q', q', s', d1, d2, d3, d4, d5, d6, d8, d9⟩
  · refine .inl ⟨e, ?_, ?_⟩
    · simp only [levelPolygon, namedPolygon, hv, c1]
      rw [if_pos (hex P c8)]
      simp only [d1]
    · simp only [levelPolygon, namedPolygon, hv, c2]
      rw [if_pos (hex Q c9)]
      simp only [d2]
  · exact .inr ⟨rnd, P', Q', q', level_flip hwant hv c1 (hs' ▸ c8) d1, level_flip hwant hv c2 (hs' ▸ c9) d2, d3, d4, d5, d6,
      by rw [d8, d9]⟩

theorem planSolid_error {z0 z1 : ℝ} {g : List (ℝ × ℝ)} {names : List Str} {fn cn r1 r2 : Str} {e : PyErr}
    (hnv : ∀ n ∈ names, validateName n = .ok n)
    (hside : ∀ e ∈ cycEdges g, ∃ P, polygonNew (side z0 z1 e) none none = .ok P)
    (he : levelPolygon (g.map (level z0)) fn r1 ⟨0, 0, -1⟩ = .error e ∨
      ∃ F, levelPolygon (g.map (level z0)) fn r1 ⟨0, 0, -1⟩ = .ok F ∧
        levelPolygon (g.map (level z1)) cn r2 ⟨0, 0, 1⟩ = .error e) :
    planSolid (g.map (level z0)) (g.map (level z1)) z0 names fn cn r1 r2 = .error e := by
  obtain ⟨walls, hw, -⟩ := mapExcept_ok (f := fun f : List (Vec3 ℝ) × Str => faceWall (f.2, f.2, f.1))
    (l := (sideOutlines (g.map (level z0)) (g.map (level z1)) (g.map (level z0)).length).zip names) (R := fun _ _ => True) (by
      rintro ⟨a, n⟩ hm
      obtain ⟨m1, m2⟩ := List.of_mem_zip hm
      rw [List.length_map, sideOutlines_eq] at m1
      obtain ⟨e, he, rfl⟩ := List.mem_map.1 m1
      obtain ⟨P, hP⟩ := hside e he
      exact ⟨⟨n, [(n, P)]⟩, by simp [faceWall, namedPolygon, hnv n m2, hP, oneWall], trivial⟩)
  unfold planSolid
  rw [hw]
  rcases he with he | ⟨F, h1, h2⟩
  · simp only [he]
  · simp only [h1, h2]

/-- A place at which a plan can be built: no corner is too far from the origin, and storeys are not too low for their
height above the ground. -/
structure Place (m height : ℝ) (plan : List (ℝ × ℝ)) (t : Vec3 ℝ) (phi : ℝ) : Prop where
  reach : ∀ p ∈ placed plan t phi, Reach m (level (planShift t).z p) ∧ Reach m (level ((planShift t).z + height) p)
  storey : 1 / 10 ^ 10 + 1 / 10 ^ 5 * |(planShift t).z| < height ∧
    1 / 10 ^ 10 + 1 / 10 ^ 5 * |(planShift t).z + height| < height
  walls : ∀ e ∈ cycEdges (placed plan t phi), WallFits height ((e.2.1 - e.1.1) ^ 2 + (e.2.2 - e.1.2) ^ 2)

theorem place_inPlane {m height phi : ℝ} {plan : List (ℝ × ℝ)} {t : Vec3 ℝ} (h : Place m height plan t phi) :
    (∀ p ∈ plan, Reach m (inPlane ⟨(planShift t).x, (planShift t).y, (planShift t).z⟩ (axisU (planAngle phi))
      (axisW (planAngle phi)) p)) ∧
    (∀ p ∈ plan, Reach m (inPlane ⟨(planShift t).x, (planShift t).y, (planShift t).z + height⟩ (axisU (planAngle phi))
      (axisW (planAngle phi)) p)) := by
  constructor <;> intro p hp <;> rw [← level_place]
  · exact (h.reach _ (List.mem_map.2 ⟨p, hp, rfl⟩)).1
  · exact (h.reach _ (List.mem_map.2 ⟨p, hp, rfl⟩)).2

theorem place_apart {m height phi : ℝ} {plan : List (ℝ × ℝ)} {t : Vec3 ℝ} (hc : Crisp m plan) (hnd : plan.Nodup)
    (h : Place m height plan t phi) : ∀ p q, List.Sublist [p, q] (placed plan t phi) →
      Apart (level (planShift t).z p) (level (planShift t).z q) ∧
      Apart (level (planShift t).z q) (level (planShift t).z p) := by
  intro p q hs
  obtain ⟨l, hl, he⟩ := List.sublist_map_iff.1 hs
  match l, he with
  | [a, b], he =>
    simp only [List.map_cons, List.map_nil, List.cons.injEq, and_true] at he
    obtain ⟨rfl, rfl⟩ := he
    have ha : a ∈ plan := hl.subset (by simp)
    have hb : b ∈ plan := hl.subset (by simp)
    have hne : a ≠ b := by
      rintro rfl
      have := hl.nodup hnd
      simp at this
    rw [level_place, level_place]
    have hr := (place_inPlane h).1
    exact ⟨apart_inPlane (axes_turned _) hc ha hb hne (hr b hb),
      apart_inPlane (axes_turned _) hc hb ha hne.symm (hr a ha)⟩

theorem place_dist (phi : ℝ) (t : Vec3 ℝ) (p q : ℝ × ℝ) :
    ((place phi t q).1 - (place phi t p).1) ^ 2 + ((place phi t q).2 - (place phi t p).2) ^ 2 = distSq q p := by
  have := Real.sin_sq_add_cos_sq phi
  simp only [place, distSq]
  linear_combination ((q.1 - p.1) ^ 2 + (q.2 - p.2) ^ 2) * this

theorem cycEdges_mem {α : Type} {g : List α} {e : α × α} (h : e ∈ cycEdges g) : e.1 ∈ g ∧ e.2 ∈ g := by
  match g, h with
  | a :: t, h =>
    simp only [cycEdges] at h
    have := List.of_mem_zip h
    refine ⟨this.1, ?_⟩
    have := this.2
    simp only [List.mem_append, List.mem_cons, List.not_mem_nil, or_false] at this ⊢
    tauto

theorem cycEdges_ne {α : Type} {g : List α} {e : α × α} (hnd : g.Nodup) (hn : 2 ≤ g.length) (h : e ∈ cycEdges g) :
    e.1 ≠ e.2 := by
  intro hee
  obtain ⟨i, hi⟩ := List.getElem?_of_mem h
  match g, hnd, hn, h, hi with
  | x :: r, hnod, hgl, he, hi =>
    simp only [cycEdges, List.getElem?_zip_eq_some] at hi
    obtain ⟨i1, i2⟩ := hi
    have hil := (List.getElem?_eq_some_iff.1 i1).1
    simp only [List.length_cons] at hgl hil
    by_cases hlt : i < r.length
    · rw [List.getElem?_append_left hlt] at i2
      have i3 : (x :: r)[i + 1]? = some e.1 := by rw [hee]; simpa using i2
      have := (List.getElem?_inj (i := i) (by simp; omega) hnod).1 (i1.trans i3.symm)
      omega
    · rw [List.getElem?_append_right (by omega)] at i2
      have hi0 : i - r.length = 0 := by omega
      rw [hi0] at i2
      simp only [List.getElem?_cons_zero, Option.some.injEq] at i2
      have i3 : (x :: r)[0]? = some e.1 := by rw [hee]; simpa using i2
      have := (List.getElem?_inj (i := i) (by simp; omega) hnod).1 (i1.trans i3.symm)
      omega

theorem placed_inj {phi : ℝ} {t : Vec3 ℝ} {p q : ℝ × ℝ} (h : place phi t p = place phi t q) : p = q := by
  have h1 := place_dist phi t p q
  rw [h] at h1
  simp only [sub_self, distSq] at h1
  have e1 : q.1 - p.1 = 0 := by nlinarith [sq_nonneg (q.1 - p.1), sq_nonneg (q.2 - p.2)]
  have e2 : q.2 - p.2 = 0 := by nlinarith [sq_nonneg (q.1 - p.1), sq_nonneg (q.2 - p.2)]
  exact Prod.ext (by linarith) (by linarith)

/-- Every place within reach is suitable. -/
theorem place_of_reach {m height phi : ℝ} {plan : List (ℝ × ℝ)} {t : Vec3 ℝ} (hc : Crisp m plan) (hnd : plan.Nodup)
    (hn : 3 ≤ plan.length) (hh : m ≤ height ∧ height ≤ 50 * m)
    (hr : ∀ p ∈ placed plan t phi, Reach m (level (planShift t).z p) ∧ Reach m (level ((planShift t).z + height) p)) :
    Place m height plan t phi := by
  have hm := hc.pos
  have hsc := hc.scale
  norm_num at hsc
  refine ⟨hr, ?_, ?_⟩
  · obtain ⟨x, hx⟩ : ∃ x, x ∈ placed plan t phi := by
      match plan, hn with
      | x :: _, _ => exact ⟨_, List.mem_map.2 ⟨x, by simp, rfl⟩⟩
    have hz1 := (hr x hx).1.2.2
    have hz2 := (hr x hx).2.2.2
    simp only [level] at hz1 hz2
    norm_num at hz1 hz2 ⊢
    constructor <;> linarith [hh.1]
  · have hwf : ∀ K, m ^ 2 ≤ K → K ≤ 5000 * m ^ 2 → WallFits height K := by
      intro K h1 h2
      have e1 : m ^ 2 ≤ height ^ 2 := by nlinarith [hh.1]
      have e2 : height ^ 2 ≤ 2500 * m ^ 2 := by nlinarith [hh.1, hh.2]
      have e3 : (1 / 1000) ^ 2 ≤ m ^ 2 := by
        have : (1 / 1000 : ℝ) ≤ m := by linarith
        nlinarith
      refine ⟨by linarith [hh.1], ?_, ?_, ?_⟩
      · have : (1 / 1000) ^ 2 * (1 / 1000) ^ 2 ≤ K * height ^ 2 :=
          mul_le_mul (e3.trans h1) (e3.trans e1) (by norm_num) (by nlinarith)
        norm_num at this ⊢
        linarith
      · norm_num at e3 ⊢; linarith
      · norm_num at e3 ⊢; linarith
    intro e he
    have hnd' : (placed plan t phi).Nodup := hnd.map fun x y h => placed_inj h
    have hne := cycEdges_ne hnd' (by simp [placed]; omega) he
    obtain ⟨h1, h2⟩ := cycEdges_mem he
    obtain ⟨x, hx, ex⟩ := List.mem_map.1 h1
    obtain ⟨y, hy, ey⟩ := List.mem_map.1 h2
    rw [← ex, ← ey, place_dist]
    exact hwf _ (hc.far y hy x hx (fun e0 => hne (by rw [← ex, ← ey, e0]))) (hc.near y hy x hx)

theorem planNames_length {n : Nat} {wallNames : Option (List Str)} {names : List Str}
    (hnames : planNames n wallNames = .ok names) : names.length = n := by
  unfold planNames at hnames
  split at hnames
  · rw [← Except.ok.inj hnames]; simp
  · split at hnames
    · cases hnames
    · rename_i h1
      split at hnames
      · cases hnames
      · rw [← Except.ok.inj hnames]; exact not_not.1 h1

theorem walls_ok {m height phi : ℝ} {plan : List (ℝ × ℝ)} {t : Vec3 ℝ} (hc : Crisp m plan) (hdis : plan.Nodup)
    (hn : 3 ≤ plan.length) (h : Place m height plan t phi) : ∀ e ∈ cycEdges (placed plan t phi),
      (∃ P, polygonNew (side (planShift t).z ((planShift t).z + height) e) none none = .ok P) ∧
      ∃ P, polygonNew (side (planShift t).z ((planShift t).z + height) e).reverse none none = .ok P := by
  intro e he
  have hl : 3 ≤ (placed plan t phi).length := by simpa [placed] using hn
  have := side_convex (z0 := (planShift t).z) (z1 := (planShift t).z + height) (e := e)
    (by rw [add_sub_cancel_left]; exact h.walls e he) (cycEdges_apart hl (place_apart hc hdis h) e he)
    (by rw [add_sub_cancel_left]; exact h.storey)
  obtain ⟨P, h1, -⟩ := C84_convex_partial this
  obtain ⟨Q, h2, -⟩ := C84_convex_partial (convexOutline_reverse this)
  exact ⟨⟨P, h1⟩, ⟨Q, h2⟩⟩

/-- `floor_plan` gives a solid if floor and ceiling are made. -/
theorem solid_of_levels {m height phi : ℝ} {plan : List (ℝ × ℝ)} {t : Vec3 ℝ} {fn cn rnd1 rnd2 : Str} {names : List Str}
    (hc : Crisp m plan) (hdis : plan.Nodup) (hn : 3 ≤ plan.length) (h : Place m height plan t phi)
    (hlennames : names.length = plan.length) (hnv : ∀ n ∈ names ++ [fn, cn], validateName n = .ok n)
    (hnd : (names ++ [fn, cn]).Nodup) {F C : Str × Poly}
    (hF : levelPolygon ((placed plan t phi).map (level (planShift t).z)) fn rnd1 ⟨0, 0, -1⟩ = .ok F)
    (hFp : F.2.pts = (placed plan t phi).map (level (planShift t).z) ∨
      F.2.pts = ((placed plan t phi).map (level (planShift t).z)).reverse)
    (hC : levelPolygon ((placed plan t phi).map (level ((planShift t).z + height))) cn rnd2 ⟨0, 0, 1⟩ = .ok C) :
    ∃ S, planSolid ((placed plan t phi).map (level (planShift t).z))
      ((placed plan t phi).map (level ((planShift t).z + height))) (planShift t).z names fn cn rnd1 rnd2 = .ok S := by
  have hh : 0 < height := by
    have := h.storey.1
    have := abs_nonneg (planShift t).z
    linarith
  have hl : 3 ≤ (placed plan t phi).length := by simpa [placed] using hn
  have hsep : Separated ((placed plan t phi).map (level (planShift t).z)) := by
    refine List.pairwise_map.2 (List.pairwise_iff_forall_sublist.2 fun {p q} hs => ?_)
    have := place_apart hc hdis h p q hs
    exact ⟨this.1.symm_ne, this.2.symm_ne⟩
  have wall := walls_ok hc hdis hn h
  rcases hFp with hFp | hFp
  · exact planSolid_ok (ccw := false) (by linarith) hl hsep (by rw [hlennames]; simp [placed]) hnv hnd hF
      (by rw [hFp]; simp) hC fun e he => ⟨(wall e he).1, fun _ => (wall e he).2⟩
  · exact planSolid_ok (ccw := true) (by linarith) hl hsep (by rw [hlennames]; simp [placed]) hnv hnd hF
      (by rw [hFp]; simp) hC fun e he => ⟨(wall e he).1, fun _ => (wall e he).2⟩

/-- **C90.**  A plan without doubtful cases, whose first and last corner are not straight, is built at two places: moved by
`t` and turned by `phi`, and moved by `t'` and turned by `phi'`.  Either `floor_plan` gives a solid at both places, or it
raises the same exception. -/
theorem C90_same_outcome_partial {m height phi phi' : ℝ} {plan : List (ℝ × ℝ)} {t t' : Vec3 ℝ} {wallNames : Option (List Str)}
    {fn cn rnd1 rnd2 : Str} {names : List Str} (hc : Crisp m plan) (hdis : plan.Nodup) (hn : 3 ≤ plan.length)
    (he : EndsTurn plan) (hh : m ≤ height ∧ height ≤ 50 * m)
    (hr : ∀ p ∈ placed plan t phi, Reach m (level (planShift t).z p) ∧ Reach m (level ((planShift t).z + height) p))
    (hr' : ∀ p ∈ placed plan t' phi', Reach m (level (planShift t').z p) ∧ Reach m (level ((planShift t').z + height) p))
    (hnames : planNames plan.length wallNames = .ok names)
    (hnv : ∀ n ∈ names ++ [fn, cn], validateName n = .ok n) (hnd : (names ++ [fn, cn]).Nodup) :
    (∃ e, floorPlan plan height t phi wallNames fn cn rnd1 rnd2 = .error e ∧
      floorPlan plan height t' phi' wallNames fn cn rnd1 rnd2 = .error e) ∨
    ∃ S S', floorPlan plan height t phi wallNames fn cn rnd1 rnd2 = .ok S ∧
      floorPlan plan height t' phi' wallNames fn cn rnd1 rnd2 = .ok S' := by
  have hp := place_of_reach hc hdis hn hh hr
  have hp' := place_of_reach hc hdis hn hh hr'
  have hplan : plan ≠ [] := by rintro rfl; simp at hn
  have hlennames := planNames_length hnames
  have hfv : validateName fn = .ok fn := hnv fn (by simp)
  have hcv : validateName cn = .ok cn := hnv cn (by simp)
  rw [floorPlan_eq hplan hnames, floorPlan_eq hplan hnames]
  have hnv' : ∀ n ∈ names, validateName n = .ok n := fun n h => hnv n (by simp [h])
  obtain ⟨r1, r2⟩ := place_inPlane hp
  obtain ⟨r1', r2'⟩ := place_inPlane hp'
  have hF := levelPolygon_same (name := fn) (rnd := rnd1) (want := -1) (.inr rfl) (axes_turned _) (axes_turned _)
    (cross_turned _) (cross_turned _) hc r1 r1' hn he hfv
  have hC := levelPolygon_same (name := cn) (rnd := rnd2) (want := 1) (.inl rfl) (axes_turned _) (axes_turned _)
    (cross_turned _) (cross_turned _) hc r2 r2' hn he hcv
  rw [← placed_level, ← placed_level] at hF hC
  rcases hF with ⟨e, a1, a2⟩ | ⟨nm, P, Q, q, a1, a2, a3, a4, a5, -, -⟩
  · exact .inl ⟨e, planSolid_error hnv' (fun e he => (walls_ok hc hdis hn hp e he).1) (.inl a1),
      planSolid_error hnv' (fun e he => (walls_ok hc hdis hn hp' e he).1) (.inl a2)⟩
  rcases hC with ⟨e, b1, b2⟩ | ⟨nm', P', Q', q', b1, b2, -⟩
  · exact .inl ⟨e, planSolid_error hnv' (fun e he => (walls_ok hc hdis hn hp e he).1) (.inr ⟨_, a1, b1⟩),
      planSolid_error hnv' (fun e he => (walls_ok hc hdis hn hp' e he).1) (.inr ⟨_, a2, b2⟩)⟩
  obtain ⟨S, hS⟩ := solid_of_levels hc hdis hn hp hlennames hnv hnd a1
    (by rw [placed_level]; rcases a3 with rfl | rfl <;> simp [a4]) b1
  obtain ⟨S', hS'⟩ := solid_of_levels hc hdis hn hp' hlennames hnv hnd a2
    (by rw [placed_level]; rcases a3 with rfl | rfl <;> simp [a5]) b2
  exact .inr ⟨S, S', hS, hS'⟩

/-- Non-vacuity of `C90_same_outcome_partial`: the corridor of `C32_corridor` is rejected wherever it is built. -/
theorem C90_corridor {t : Vec3 ℝ} {phi : ℝ} (ht : |t.x| ≤ 100 ∧ |t.y| ≤ 100 ∧ |t.z| ≤ 100) :
    floorPlan corridorPlan 1 t phi none "floor".toList "ceiling".toList "a".toList "b".toList =
      .error .triangulationError := by
  have hc : Crisp 1 corridorPlan := by
    have := crisp_int (pts := [(2, 4), (3, 4), (3, 3), (0, 3), (0, 1), (1, 1), (1, 0), (3, 0), (3, 1), (2, 1), (2, 2),
      (4, 2), (4, 6), (3, 6), (3, 5), (2, 5)]) (by decide +kernel)
    simpa [corridorPlan] using this
  have hsmall : ∀ p ∈ corridorPlan, 0 ≤ p.1 ∧ p.1 ≤ 4 ∧ 0 ≤ p.2 ∧ p.2 ≤ 6 := by
    simp only [corridorPlan, List.mem_cons, List.not_mem_nil, or_false, forall_eq_or_imp, forall_eq]
    norm_num
  have reach : ∀ (t : Vec3 ℝ) (phi : ℝ), |t.x| ≤ 100 ∧ |t.y| ≤ 100 ∧ |t.z| ≤ 100 → ∀ p ∈ placed corridorPlan t phi,
      Reach 1 (level (planShift t).z p) ∧ Reach 1 (level ((planShift t).z + 1) p) := by
    intro t phi ht p hp
    obtain ⟨q, hq, rfl⟩ := List.mem_map.1 hp
    obtain ⟨a1, a2, a3, a4⟩ := hsmall q hq
    have hs : |(planShift t).x| ≤ 100 ∧ |(planShift t).y| ≤ 100 ∧ |(planShift t).z| ≤ 100 := by
      unfold planShift
      split
      · norm_num
      · exact ht
    have c0 := Real.abs_cos_le_one (planAngle phi)
    have s0 := Real.abs_sin_le_one (planAngle phi)
    rw [abs_le] at c0 s0
    simp only [abs_le] at hs
    obtain ⟨⟨b1, b2⟩, ⟨b3, b4⟩, b5, b6⟩ := hs
    simp only [Reach, level, place, abs_le]
    norm_num
    refine ⟨⟨⟨?_, ?_⟩, ⟨?_, ?_⟩, ?_, ?_⟩, ⟨?_, ?_⟩, ⟨?_, ?_⟩, ?_, ?_⟩ <;> nlinarith
  have h := C90_same_outcome_partial (rnd1 := "a".toList) (rnd2 := "b".toList) (fn := "floor".toList) (cn := "ceiling".toList)
    (wallNames := none) (height := 1) (phi := 0) (phi' := phi) (t := 0) (t' := t) hc
    (by simp [corridorPlan]) (by simp [corridorPlan])
    ⟨(2, 4), (3, 4), _, (3, 5), (2, 5), [(2, 4), (3, 4), (3, 3), (0, 3), (0, 1), (1, 1), (1, 0), (3, 0), (3, 1), (2, 1),
      (2, 2), (4, 2), (4, 6), (3, 6)], rfl, rfl, by norm_num [signedArea], by norm_num [signedArea]⟩
    (by norm_num) (reach 0 0 (by simp)) (reach t phi ht) (show planNames 16 none = .ok (["wall-0", "wall-1", "wall-2",
      "wall-3", "wall-4", "wall-5", "wall-6", "wall-7", "wall-8", "wall-9", "wall-10", "wall-11", "wall-12", "wall-13",
      "wall-14", "wall-15"].map String.toList) by decide +kernel) (by decide +kernel) (by decide +kernel)
  rcases h with ⟨e, h1, h2⟩ | ⟨S, S', h1, h2⟩
  · rw [C32_corridor.2, Except.error.injEq] at h1
    rw [h2, h1]
  · rw [C32_corridor.2] at h1
    cases h1

end B3d.Solids
