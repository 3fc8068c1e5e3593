import Verif.Props.PointExact
import Verif.Props.SliceNames

/-!
# C111: the two sides of a chord, and the names of the parts
-/

namespace B3d.SliceConvex

open Spec Planar Points Slice Polygon Triangles ConvexEars PointExact

variable {o u w : Vec3 ℝ} {m : ℝ} {pts : List (ℝ × ℝ)} {x y : ℝ × ℝ}

/-- On the left of all sides, or on their lines. -/
def LeftOf (pts : List (ℝ × ℝ)) (z : ℝ × ℝ) : Prop := ∀ e ∈ cycEdges pts, 0 ≤ signedArea e.1 e.2 z

theorem leftOf_iff {z : ℝ × ℝ} : LeftOf pts z ↔ ∀ i a b, Side pts i a b → 0 ≤ signedArea a b z := by
  constructor
  · intro h i a b hs
    exact h (a, b) (cycEdges_of_side hs)
  · rintro h ⟨a, b⟩ he
    obtain ⟨i, hs⟩ := side_of_cycEdges he
    exact h i a b hs

theorem leftOf_rotated {L L' : List (ℝ × ℝ)} (hr : L ~r L') {z : ℝ × ℝ} : LeftOf L z ↔ LeftOf L' z := by
  have := B3d.Tiling.cycEdges_rotated hr
  exact ⟨fun h e he => h e (this.mem_iff.2 he), fun h e he => h e (this.mem_iff.1 he)⟩

/-- Points added on the sides change nothing. -/
theorem leftOf_divided (hx : Axes u w) {outline : List (ℝ × ℝ)}
    (h : Subdivides (pts.map (inPlane o u w)) (outline.map (inPlane o u w))) {z : ℝ × ℝ} (hz : LeftOf pts z) :
    LeftOf outline z := by
  have hn1 : Vec3.dot (Vec3.cross u w) (Vec3.cross u w) = 1 := by
    rw [show Vec3.dot (Vec3.cross u w) (Vec3.cross u w) = Vec3.normSq (Vec3.cross u w) from rfl, ← Vec3.norm_sq, norm_cross hx]
    norm_num
  have harea : ∀ a b : ℝ × ℝ, Vec3.dot (Vec3.cross u w)
      (Vec3.cross (inPlane o u w b - inPlane o u w a) (inPlane o u w z - inPlane o u w a)) = signedArea a b z := by
    intro a b
    rw [cross_inPlane, Vec3.dot_smul_right, hn1, mul_one]
  have key : ∀ q : List (Vec3 ℝ), Subdivides (pts.map (inPlane o u w)) q → ∀ e ∈ cycEdges q,
      0 ≤ Vec3.dot (Vec3.cross u w) (Vec3.cross (e.2 - e.1) (inPlane o u w z - e.1)) := by
    intro q hq
    induction hq with
    | rotate hr =>
      intro e he
      have he' := (B3d.Tiling.cycEdges_rotated hr).mem_iff.2 he
      rw [Solids.cycEdges_map, List.mem_map] at he'
      obtain ⟨e', he', rfl⟩ := he'
      show 0 ≤ Vec3.dot _ (Vec3.cross (inPlane o u w e'.2 - inPlane o u w e'.1) (_ - inPlane o u w e'.1))
      rw [harea]
      exact hz e' he'
    | @insert a b s r q _ hs hr ih =>
      intro e he
      have he' := (B3d.Tiling.cycEdges_rotated hr).mem_iff.2 he
      rw [B3d.Tiling.cycEdges_cut] at ih
      rw [B3d.Tiling.cycEdges_ear] at he'
      have h0 := ih (a, b) (by simp)
      obtain ⟨k, k0, k1, rfl⟩ := hs
      simp only [List.mem_cons] at he'
      rcases he' with rfl | rfl | he'
      · have : Vec3.dot (Vec3.cross u w) (Vec3.cross (a + k • (b - a) - a) (inPlane o u w z - a)) =
            k * Vec3.dot (Vec3.cross u w) (Vec3.cross (b - a) (inPlane o u w z - a)) := by
          simp only [Vec3.dot, Vec3.cross, Vec3.sub_x, Vec3.sub_y, Vec3.sub_z, Vec3.add_x, Vec3.add_y, Vec3.add_z, Vec3.smul_x,
            Vec3.smul_y, Vec3.smul_z]
          ring
        rw [this]
        exact mul_nonneg k0 h0
      · have : Vec3.dot (Vec3.cross u w) (Vec3.cross (b - (a + k • (b - a))) (inPlane o u w z - (a + k • (b - a)))) =
            (1 - k) * Vec3.dot (Vec3.cross u w) (Vec3.cross (b - a) (inPlane o u w z - a)) := by
          simp only [Vec3.dot, Vec3.cross, Vec3.sub_x, Vec3.sub_y, Vec3.sub_z, Vec3.add_x, Vec3.add_y, Vec3.add_z, Vec3.smul_x,
            Vec3.smul_y, Vec3.smul_z]
          ring
        show 0 ≤ Vec3.dot (Vec3.cross u w) (Vec3.cross (b - (a + k • (b - a))) (inPlane o u w z - (a + k • (b - a))))
        rw [this]
        exact mul_nonneg (by linarith) h0
      · exact ih e (List.mem_cons_of_mem _ he')
  rintro ⟨a, b⟩ he
  have := key _ h (inPlane o u w a, inPlane o u w b) (by
    rw [Solids.cycEdges_map]
    exact List.mem_map.2 ⟨(a, b), he, rfl⟩)
  rwa [harea] at this

/-- The first part is on the right of the chord, the second one on the left. -/
theorem leftOf_parts {outline A B : List (ℝ × ℝ)} (hcut : CutAlong outline [x, y] A B) {z : ℝ × ℝ} (hz : LeftOf outline z) :
    (LeftOf A z ↔ signedArea x y z ≤ 0) ∧ (LeftOf B z ↔ 0 ≤ signedArea x y z) := by
  obtain ⟨x', y', F, G, M, hs, ho, hA, hB⟩ := hcut
  obtain ⟨rfl, rfl, rfl⟩ : x' = x ∧ y' = y ∧ M = [] := by
    cases M with
    | nil => simp at hs; exact ⟨hs.1.symm, hs.2.symm, rfl⟩
    | cons c M => simp at hs
  rw [leftOf_rotated ho] at hz
  rw [leftOf_rotated hA, leftOf_rotated hB]
  have e0 : cycEdges (x' :: F ++ y' :: G) = pathEdges (x' :: F ++ [y']) ++ pathEdges (y' :: G ++ [x']) := by
    have e : x' :: (F ++ y' :: G) ++ [x'] = (x' :: F) ++ y' :: (G ++ [x']) := by simp
    rw [List.cons_append, cycEdges_cons, e, pathEdges_append]
    rfl
  have e1 : cycEdges (x' :: F ++ y' :: ([] : List (ℝ × ℝ)).reverse) = pathEdges (x' :: F ++ [y']) ++ [(y', x')] := by
    have e : x' :: (F ++ [y']) ++ [x'] = (x' :: F) ++ [y', x'] := by simp
    rw [List.reverse_nil, List.cons_append, cycEdges_cons, e, pathEdges_concat]
    rfl
  have e2 : cycEdges (y' :: G ++ x' :: ([] : List (ℝ × ℝ))) = pathEdges (y' :: G ++ [x']) ++ [(x', y')] := by
    have e : y' :: (G ++ [x']) ++ [y'] = (y' :: G) ++ [x', y'] := by simp
    rw [List.cons_append, cycEdges_cons, e, pathEdges_concat]
    rfl
  unfold LeftOf at hz ⊢
  rw [e0] at hz
  rw [e1, e2]
  simp only [List.mem_append, List.mem_singleton] at hz ⊢
  constructor
  · constructor
    · intro h
      have := h (y', x') (.inr rfl)
      rw [area_swap] at this
      linarith
    · rintro h e (he | rfl)
      · exact hz e (.inl he)
      · rw [area_swap]; linarith
  · constructor
    · intro h
      exact h (x', y') (.inr rfl)
    · rintro h e (he | rfl)
      · exact hz e (.inr he)
      · exact h

/-- A part is in the polygon. -/
theorem part_left (hx : Axes u w) (hp : Pos pts) (h : Chord pts x y) {A : List (ℝ × ℝ)} (lenA : 3 ≤ A.length) (posA : Pos A)
    (memA : ∀ p ∈ A, p ∈ x :: y :: pts) {z : ℝ × ℝ} (hz : LeftOf A z) : LeftOf pts z := by
  have hreg := (region_convex (o := (0 : Vec3 ℝ)) hx lenA posA rfl rfl z).2 (leftOf_iff.1 hz)
  rw [leftOf_iff]
  intro i a b hs
  have corner : ∀ c ∈ A, 0 ≤ signedArea a b c := by
    intro c hc
    have := memA c hc
    simp only [List.mem_cons] at this
    rcases this with rfl | rfl | hm
    · exact outline_nonneg hp h.start hs
    · exact outline_nonneg hp h.finish hs
    · obtain ⟨j, hj⟩ := List.getElem?_of_mem hm
      exact (hp.side hs hj).1
  obtain ⟨t, ht, a', b', c', ha, hb, hc, r, s, q, r0, s0, q0, h4, he⟩ := hreg
  have back : ∀ (j : Nat) (p : Vec3 ℝ), (A.map (inPlane 0 u w))[j]? = some p → ∃ p' ∈ A, p = inPlane 0 u w p' := by
    intro j p hj
    obtain ⟨p', hp', rfl⟩ := List.mem_map.1 (List.mem_of_getElem? hj)
    exact ⟨p', hp', rfl⟩
  obtain ⟨A', mA, rfl⟩ := back _ _ ha
  obtain ⟨B', mB, rfl⟩ := back _ _ hb
  obtain ⟨C', mC, rfl⟩ := back _ _ hc
  rw [comb_inPlane _ _ _ h4] at he
  obtain rfl := inPlane_injective hx he
  have e : signedArea a b (r * A'.1 + s * B'.1 + q * C'.1, r * A'.2 + s * B'.2 + q * C'.2) =
      r * signedArea a b A' + s * signedArea a b B' + q * signedArea a b C' := by
    obtain rfl : r = 1 - s - q := by linarith
    unfold signedArea; ring
  rw [e]
  have := corner _ mA
  have := corner _ mB
  have := corner _ mC
  positivity

/-- What the slice does, up to the choice of the names. -/
theorem slice_run {N : Type} [DecidableEq N] (hx : Axes u w) (hp : ConvexCorners pts) (h : Chord pts x y)
    {S : List (ℝ × ℝ)} (hc : Crisp m S) (hr : ∀ p ∈ S, Reach m (inPlane o u w p)) (hS : ∀ p ∈ x :: y :: pts, p ∈ S)
    (name1 name2 : Option N) (rand1 rand2 : N) :
    ∃ (P Q1 Q2 : Poly) (c : ℝ), Fan o u w pts P ∧ c ≠ 0 ∧
      (∀ pt1 pt2, slicePolygon P [inPlane o u w x, inPlane o u w y] pt1 name1 pt2 name2 rand1 rand2 =
        nameParts (fun P p => Polygon.isPointInside p P.pts P.tri) Q1 Q2 pt1 pt2 (name1.getD rand1) (name2.getD rand2)) ∧
      (∀ z, Region Q1.pts Q1.tri (inPlane o u w z) ↔ Region P.pts P.tri (inPlane o u w z) ∧ 0 ≤ c * signedArea x y z) ∧
      (∀ z, Region Q2.pts Q2.tri (inPlane o u w z) ↔ Region P.pts P.tri (inPlane o u w z) ∧ c * signedArea x y z ≤ 0) ∧
      ∀ z ∈ S, ∃ r1 r2, Polygon.isPointInside (inPlane o u w z) Q1.pts Q1.tri = .ok r1 ∧
        Polygon.isPointInside (inPlane o u w z) Q2.pts Q2.tri = .ok r2 ∧
        (r1 = true ↔ Region Q1.pts Q1.tri (inPlane o u w z)) ∧ (r2 = true ↔ Region Q2.pts Q2.tri (inPlane o u w z)) := by
  obtain ⟨hn, hpos⟩ := hp
  have hc0 := crisp_swap hc hS
  have hr0 : ∀ p ∈ x :: y :: pts, Reach m (inPlane o u w p) := fun p hp => hr p (hS p hp)
  have hS' : ∀ p ∈ pts, p ∈ x :: y :: pts := fun p hp => List.mem_cons_of_mem _ (List.mem_cons_of_mem _ hp)
  obtain ⟨P, hf⟩ := fan_exists hx (crisp_swap hc0 hS') (fun p hp => hr0 p (hS' p hp)) hn hpos
  obtain ⟨hkeep, q1, q2, A, B, outline, hpa, harr⟩ := chord_parts hx hc0 hr0 hn hpos h hf
  obtain ⟨q, hadd⟩ := no_points_added hx hc0 hr0 hn hpos h
  obtain ⟨Q1, g1, p1, v1, t1⟩ := poly_either (o := o) hx (crisp_swap hc0 hpa.memA) hpa.lenA hpa.posA
    (fun p hp => hr0 p (hpa.memA p hp)) hpa.first
  obtain ⟨Q2, g2, p2, v2, t2⟩ := poly_either (o := o) hx (crisp_swap hc0 hpa.memB) hpa.lenB hpa.posB
    (fun p hp => hr0 p (hpa.memB p hp)) hpa.second
  have regP : ∀ z, Region P.pts P.tri (inPlane o u w z) ↔ LeftOf pts z := fun z => by
    rw [region_convex hx hn hpos hf.points hf.tri, leftOf_iff]
  have reg1 : ∀ z, Region Q1.pts Q1.tri (inPlane o u w z) ↔ LeftOf A z := fun z => by
    rw [region_convex hx hpa.lenA hpa.posA p1 t1, leftOf_iff]
  have reg2 : ∀ z, Region Q2.pts Q2.tri (inPlane o u w z) ↔ LeftOf B z := fun z => by
    rw [region_convex hx hpa.lenB hpa.posB p2 t2, leftOf_iff]
  have in1 : ∀ z, LeftOf A z → LeftOf pts z := fun z => part_left hx hpos h hpa.lenA hpa.posA hpa.memA
  have in2 : ∀ z, LeftOf B z → LeftOf pts z := fun z => part_left hx hpos h hpa.lenB hpa.posB hpa.memB
  obtain ⟨c, hc1, kA, kB⟩ : ∃ c : ℝ, c ≠ 0 ∧ (∀ z, LeftOf pts z → (LeftOf A z ↔ 0 ≤ c * signedArea x y z)) ∧
      ∀ z, LeftOf pts z → (LeftOf B z ↔ c * signedArea x y z ≤ 0) := by
    rcases hpa.cut with k | k
    · refine ⟨-1, by norm_num, fun z hz => ?_, fun z hz => ?_⟩
      · rw [(leftOf_parts k (leftOf_divided hx hpa.divides hz)).1]; constructor <;> intro <;> linarith
      · rw [(leftOf_parts k (leftOf_divided hx hpa.divides hz)).2]; constructor <;> intro <;> linarith
    · refine ⟨1, by norm_num, fun z hz => ?_, fun z hz => ?_⟩
      · rw [(leftOf_parts k (leftOf_divided hx hpa.divides hz)).2]; constructor <;> intro <;> linarith
      · rw [(leftOf_parts k (leftOf_divided hx hpa.divides hz)).1]; constructor <;> intro <;> linarith
  have mem1 : ∀ p ∈ q1, p ∈ S := by
    intro p hp
    rcases hpa.first with e | e <;> rw [e] at hp
    · exact hS p (hpa.memA p hp)
    · exact hS p (hpa.memA p (List.mem_reverse.1 hp))
  have mem2 : ∀ p ∈ q2, p ∈ S := by
    intro p hp
    rcases hpa.second with e | e <;> rw [e] at hp
    · exact hS p (hpa.memB p hp)
    · exact hS p (hpa.memB p (List.mem_reverse.1 hp))
  refine ⟨P, Q1, Q2, c, hf, hc1, ?_, ?_, ?_, ?_⟩
  · intro pt1 pt2
    have hcop : arePointsCoplanar (P.pts ++ [inPlane o u w x, inPlane o u w y]) = true := by
      refine Points.C36_coplanar_complete _ (Vec3.cross u w) (Vec3.dot (Vec3.cross u w) o) _ ?_ Points.GEOM_ATOL_pos ?_
      · intro he
        have := norm_cross hx
        rw [he, Vec3.norm_eq_zero.2 rfl] at this
        norm_num at this
      · intro p hp
        rw [hf.points] at hp
        have e : pts.map (inPlane o u w) ++ [inPlane o u w x, inPlane o u w y] = (pts ++ [x, y]).map (inPlane o u w) := by simp
        rw [e] at hp
        exact plane_inPlane o _ p hp
    have hmake : makePolygons P.vn (q1.map (inPlane o u w)) (q2.map (inPlane o u w)) pt1 name1 pt2 name2 rand1 rand2 =
        nameParts (fun P p => Polygon.isPointInside p P.pts P.tri) Q1 Q2 pt1 pt2 (name1.getD rand1) (name2.getD rand2) := by
      unfold makePolygons
      rw [hf.normal, g1]
      simp only
      rw [g2]
    unfold slicePolygon
    rw [if_neg (by rw [hcop]; simp)]
    rw [← hf.points] at hadd
    simp only [hadd, hkeep]
    rw [if_neg (by simp), harr]
    simp only [hmake]
    cases hres : nameParts (fun P p => Polygon.isPointInside p P.pts P.tri) Q1 Q2 pt1 pt2 (name1.getD rand1)
        (name2.getD rand2) with
    | error e => rfl
    | ok r =>
      obtain ⟨⟨n1, R1⟩, n2, R2⟩ := r
      obtain ⟨-, -, hR⟩ := C42_order hres
      have w1 : R1.vn = some (Vec3.cross u w) := by rcases hR with ⟨e, -⟩ | ⟨e, -⟩ <;> rw [show R1 = _ from e] <;> assumption
      have w2 : R2.vn = some (Vec3.cross u w) := by rcases hR with ⟨-, e⟩ | ⟨-, e⟩ <;> rw [show R2 = _ from e] <;> assumption
      simp only
      rw [hf.normal, checkNormal_ok w1]
      simp only
      rw [checkNormal_ok w2]
  · intro z
    rw [reg1, regP]
    exact ⟨fun hz => ⟨in1 z hz, (kA z (in1 z hz)).1 hz⟩, fun hz => (kA z hz.1).2 hz.2⟩
  · intro z
    rw [reg2, regP]
    exact ⟨fun hz => ⟨in2 z hz, (kB z (in2 z hz)).1 hz⟩, fun hz => (kB z hz.1).2 hz.2⟩
  · intro z hz
    obtain ⟨r1, h1, k1⟩ := inside_both hx hc hr mem1 g1 v1 hz true
    obtain ⟨r2, h2, k2⟩ := inside_both hx hc hr mem2 g2 v2 hz true
    exact ⟨r1, r2, h1, h2, by simpa using k1, by simpa using k2⟩

/-- **C111, the two sides.**  Each part is what the polygon has on one side of the line, the line included. -/
theorem C111_sides {N : Type} [DecidableEq N] (hx : Axes u w) (hp : ConvexCorners pts) (h : Chord pts x y)
    (hc : Crisp m (x :: y :: pts)) (hr : ∀ p ∈ x :: y :: pts, Reach m (inPlane o u w p)) (name1 name2 : Option N)
    (rand1 rand2 : N) :
    ∃ (P Q1 Q2 : Poly) (k : ℝ), polygonNew (pts.map (inPlane o u w)) none none = .ok P ∧ k ≠ 0 ∧
      slicePolygon P [inPlane o u w x, inPlane o u w y] none name1 none name2 rand1 rand2 =
        .ok ((name1.getD rand1, Q1), (name2.getD rand2, Q2)) ∧
      (∀ z, Region Q1.pts Q1.tri (inPlane o u w z) ↔ Region P.pts P.tri (inPlane o u w z) ∧ 0 ≤ k * signedArea x y z) ∧
      (∀ z, Region Q2.pts Q2.tri (inPlane o u w z) ↔ Region P.pts P.tri (inPlane o u w z) ∧ k * signedArea x y z ≤ 0) := by
  obtain ⟨P, Q1, Q2, k, hf, hk, hs, k1, k2, -⟩ := slice_run hx hp h hc hr (fun p hp => hp) name1 name2 rand1 rand2
  refine ⟨P, Q1, Q2, k, hf.made, hk, ?_, k1, k2⟩
  rw [hs]
  simp [nameParts, chooseNames]

/-- **C111, named parts.**  A point of the polygon which is not on the line is given for the first name, or for the second
one, or both are given and are on different sides of the line; the points too are without doubtful cases, and the names are
different.  Then the part with the first name is the side of its point, and the part with the second name the side of the
other point: each part is what the polygon has on its side of the line.  The sign of `k` says which side this is. -/
theorem C111_named {N : Type} [DecidableEq N] (hx : Axes u w) (hp : ConvexCorners pts) (h : Chord pts x y)
    {pt1 pt2 : Option (ℝ × ℝ)} {k : ℝ} (hc : Crisp m (pt1.toList ++ pt2.toList ++ x :: y :: pts))
    (hr : ∀ p ∈ pt1.toList ++ pt2.toList ++ x :: y :: pts, Reach m (inPlane o u w p)) (hpt : pt1 ≠ none ∨ pt2 ≠ none)
    (h1 : ∀ z, pt1 = some z → (∀ i a b, Side pts i a b → 0 ≤ signedArea a b z) ∧ 0 < k * signedArea x y z)
    (h2 : ∀ z, pt2 = some z → (∀ i a b, Side pts i a b → 0 ≤ signedArea a b z) ∧ k * signedArea x y z < 0)
    (name1 name2 : Option N) (rand1 rand2 : N) (hne : name1.getD rand1 ≠ name2.getD rand2) :
    ∃ (P Q1 Q2 : Poly), polygonNew (pts.map (inPlane o u w)) none none = .ok P ∧
      slicePolygon P [inPlane o u w x, inPlane o u w y] (pt1.map (inPlane o u w)) name1 (pt2.map (inPlane o u w)) name2
        rand1 rand2 = .ok ((name1.getD rand1, Q1), (name2.getD rand2, Q2)) ∧
      (∀ z, Region Q1.pts Q1.tri (inPlane o u w z) ↔ Region P.pts P.tri (inPlane o u w z) ∧ 0 ≤ k * signedArea x y z) ∧
      (∀ z, Region Q2.pts Q2.tri (inPlane o u w z) ↔ Region P.pts P.tri (inPlane o u w z) ∧ k * signedArea x y z ≤ 0) := by
  obtain ⟨P, Q1, Q2, c, hf, hc0, hs, k1, k2, hin⟩ := slice_run hx hp h hc hr (fun p hp => List.mem_append_right _ hp)
    name1 name2 rand1 rand2
  have regP : ∀ z, Region P.pts P.tri (inPlane o u w z) ↔ ∀ i a b, Side pts i a b → 0 ≤ signedArea a b z := fun z =>
    region_convex hx hp.corners hp.turns hf.points hf.tri z
  have hk0 : k ≠ 0 := by
    rintro rfl
    rcases hpt with hh | hh
    · obtain ⟨z, hz⟩ := Option.ne_none_iff_exists'.1 hh
      have := (h1 z hz).2
      simp at this
    · obtain ⟨z, hz⟩ := Option.ne_none_iff_exists'.1 hh
      have := (h2 z hz).2
      simp at this
  -- the answers of the tests
  have test : ∀ z, z ∈ pt1.toList ++ pt2.toList ++ x :: y :: pts →
      (∀ i a b, Side pts i a b → 0 ≤ signedArea a b z) → c * signedArea x y z ≠ 0 →
      (0 < c * signedArea x y z → Polygon.isPointInside (inPlane o u w z) Q1.pts Q1.tri = .ok true ∧
        Polygon.isPointInside (inPlane o u w z) Q2.pts Q2.tri = .ok false) ∧
      (c * signedArea x y z < 0 → Polygon.isPointInside (inPlane o u w z) Q1.pts Q1.tri = .ok false ∧
        Polygon.isPointInside (inPlane o u w z) Q2.pts Q2.tri = .ok true) := by
    intro z hz hzP hne0
    obtain ⟨r1, r2, e1, e2, f1, f2⟩ := hin z hz
    rw [k1, regP] at f1
    rw [k2, regP] at f2
    constructor
    · intro hpos
      refine ⟨by rw [e1, f1.2 ⟨hzP, hpos.le⟩], ?_⟩
      have : r2 = false := by
        cases r2 with
        | false => rfl
        | true => exact absurd (f2.1 rfl).2 (not_le.2 hpos)
      rw [e2, this]
    · intro hneg
      refine ⟨?_, by rw [e2, f2.2 ⟨hzP, hneg.le⟩]⟩
      have : r1 = false := by
        cases r1 with
        | false => rfl
        | true => exact absurd (f1.1 rfl).2 (not_le.2 hneg)
      rw [e1, this]
  have hne' := hne.symm
  by_cases hck : 0 < c * k
  · -- the code finds the first part first
    have conv : ∀ t : ℝ, (0 ≤ c * t ↔ 0 ≤ k * t) ∧ (c * t ≤ 0 ↔ k * t ≤ 0) ∧ (0 < k * t → 0 < c * t) ∧ (k * t < 0 → c * t < 0) := by
      intro t
      have e : c * t * (k * k) = (c * k) * (k * t) := by ring
      have hkk : 0 < k * k := mul_self_pos.2 hk0
      refine ⟨⟨?_, ?_⟩, ⟨?_, ?_⟩, ?_, ?_⟩ <;> intro ht <;> by_contra hh <;> nlinarith
    refine ⟨P, Q1, Q2, hf.made, ?_, fun z => by rw [k1, (conv _).1], fun z => by rw [k2, (conv _).2.1]⟩
    rw [hs]
    cases hp1 : pt1 with
    | none =>
      cases hp2 : pt2 with
      | none => simp [hp1, hp2] at hpt
      | some z2 =>
        obtain ⟨a1, a2⟩ := h2 z2 hp2
        have a3 := (conv _).2.2.2 a2
        obtain ⟨t1, t2⟩ := (test z2 (by simp [hp2]) a1 a3.ne).2 a3
        simp [nameParts, chooseNames, t1, t2]
    | some z1 =>
      obtain ⟨a1, a2⟩ := h1 z1 hp1
      have a3 := (conv _).2.2.1 a2
      obtain ⟨t1, t2⟩ := (test z1 (by simp [hp1]) a1 a3.ne').1 a3
      cases hp2 : pt2 with
      | none => simp [nameParts, chooseNames, t1]
      | some z2 =>
        obtain ⟨b1, b2⟩ := h2 z2 hp2
        have b3 := (conv _).2.2.2 b2
        obtain ⟨t3, t4⟩ := (test z2 (by simp [hp2]) b1 b3.ne).2 b3
        simp [nameParts, chooseNames, t1, t2, t4]
  · have hck' : c * k < 0 := lt_of_le_of_ne (not_lt.1 hck) (mul_ne_zero hc0 hk0)
    have conv : ∀ t : ℝ, (0 ≤ c * t ↔ k * t ≤ 0) ∧ (c * t ≤ 0 ↔ 0 ≤ k * t) ∧ (0 < k * t → c * t < 0) ∧ (k * t < 0 → 0 < c * t) := by
      intro t
      have e : c * t * (k * k) = (c * k) * (k * t) := by ring
      have hkk : 0 < k * k := mul_self_pos.2 hk0
      refine ⟨⟨?_, ?_⟩, ⟨?_, ?_⟩, ?_, ?_⟩ <;> intro ht <;> by_contra hh <;> nlinarith
    refine ⟨P, Q2, Q1, hf.made, ?_, fun z => by rw [k2, (conv _).2.1], fun z => by rw [k1, (conv _).1]⟩
    rw [hs]
    cases hp1 : pt1 with
    | none =>
      cases hp2 : pt2 with
      | none => simp [hp1, hp2] at hpt
      | some z2 =>
        obtain ⟨a1, a2⟩ := h2 z2 hp2
        have a3 := (conv _).2.2.2 a2
        obtain ⟨t1, t2⟩ := (test z2 (by simp [hp2]) a1 a3.ne').1 a3
        simp [nameParts, chooseNames, t1, hne']
    | some z1 =>
      obtain ⟨a1, a2⟩ := h1 z1 hp1
      have a3 := (conv _).2.2.1 a2
      obtain ⟨t1, t2⟩ := (test z1 (by simp [hp1]) a1 a3.ne).2 a3
      cases hp2 : pt2 with
      | none => simp [nameParts, chooseNames, t1, t2, hne']
      | some z2 =>
        obtain ⟨b1, b2⟩ := h2 z2 hp2
        have b3 := (conv _).2.2.2 b2
        obtain ⟨t3, t4⟩ := (test z2 (by simp [hp2]) b1 b3.ne').1 b3
        simp [nameParts, chooseNames, t1, t2, t3, hne']

/-- **C111, points outside.**  If the point given for the first name is not in the polygon, slicing ends with `GeometryError`
and gives no parts. -/
theorem C111_outside {N : Type} [DecidableEq N] (hx : Axes u w) (hp : ConvexCorners pts) (h : Chord pts x y) {z : ℝ × ℝ}
    (hc : Crisp m (z :: x :: y :: pts)) (hr : ∀ p ∈ z :: x :: y :: pts, Reach m (inPlane o u w p))
    (hout : ∃ i a b, Side pts i a b ∧ signedArea a b z < 0) (name1 name2 : Option N) (rand1 rand2 : N) :
    ∃ P, polygonNew (pts.map (inPlane o u w)) none none = .ok P ∧
      slicePolygon P [inPlane o u w x, inPlane o u w y] (some (inPlane o u w z)) name1 none name2 rand1 rand2 =
        .error .geometryError ∧
      slicePolygon P [inPlane o u w x, inPlane o u w y] none name1 (some (inPlane o u w z)) name2 rand1 rand2 =
        .error .geometryError := by
  obtain ⟨P, Q1, Q2, c, hf, hc0, hs, k1, k2, hin⟩ := slice_run hx hp h hc hr (fun p hp => List.mem_cons_of_mem _ hp)
    name1 name2 rand1 rand2
  have hP : ¬ Region P.pts P.tri (inPlane o u w z) := by
    rw [region_convex hx hp.corners hp.turns hf.points hf.tri]
    intro hall
    obtain ⟨i, a, b, hside, hneg⟩ := hout
    exact absurd (hall i a b hside) (not_le.2 hneg)
  obtain ⟨r1, r2, e1, e2, f1, f2⟩ := hin z (by simp)
  have z1 : r1 = false := by
    cases r1 with
    | false => rfl
    | true => exact absurd ((k1 z).1 (f1.1 rfl)).1 hP
  have z2 : r2 = false := by
    cases r2 with
    | false => rfl
    | true => exact absurd ((k2 z).1 (f2.1 rfl)).1 hP
  rw [z1] at e1
  rw [z2] at e2
  refine ⟨P, hf.made, ?_, ?_⟩
  · rw [hs]; simp [nameParts, chooseNames, e1, e2]
  · rw [hs]; simp [nameParts, chooseNames, e1, e2]

/-! ### Non-vacuity -/

/-- Non-vacuity of `C111_sides`, `C111_named` and `C111_outside`: an octagon sliced between points of two opposite sides, a
point on each side of the line, and a point outside. -/
example : ∃ (pts : List (ℝ × ℝ)) (x y z1 z2 z3 : ℝ × ℝ), ConvexCorners pts ∧ Chord pts x y ∧
    Crisp 1 ([z1] ++ [z2] ++ x :: y :: pts) ∧ Crisp 1 (z3 :: x :: y :: pts) ∧ Axes ⟨3 / 5, 4 / 5, 0⟩ ⟨0, 0, 1⟩ ∧
    (∀ p ∈ z3 :: ([z1] ++ [z2] ++ x :: y :: pts), Reach 1 (inPlane ⟨100, -70, 1000⟩ ⟨3 / 5, 4 / 5, 0⟩ ⟨0, 0, 1⟩ p)) ∧
    (∀ i a b, Side pts i a b → 0 ≤ signedArea a b z1) ∧ 0 < 1 * signedArea x y z1 ∧
    (∀ i a b, Side pts i a b → 0 ≤ signedArea a b z2) ∧ 1 * signedArea x y z2 < 0 ∧
    ∃ i a b, Side pts i a b ∧ signedArea a b z3 < 0 := by
  refine ⟨[(2, 0), (5, 0), (7, 2), (7, 6), (5, 8), (2, 8), (0, 6), (0, 2)], (3, 0), (4, 8), (1, 4), (6, 4), (8, 1), ?_, ?_, ?_, ?_,
    ⟨by norm_num [Vec3.dot], by norm_num [Vec3.dot], by norm_num [Vec3.dot]⟩, ?_, ?_, ?_, ?_, ?_, ?_⟩
  · have := convex_int (L := [(2, 0), (5, 0), (7, 2), (7, 6), (5, 8), (2, 8), (0, 6), (0, 2)]) (by decide) (by decide +kernel)
    simpa using this
  · refine ⟨⟨0, (2, 0), (5, 0), 1 / 3, ⟨rfl, rfl⟩, by norm_num, by norm_num, by norm_num [lerp]⟩,
      ⟨4, (5, 8), (2, 8), 1 / 3, ⟨rfl, rfl⟩, by norm_num, by norm_num, by norm_num [lerp]⟩, ?_⟩
    rintro i a b ⟨h1, h2⟩
    have hi := (List.getElem?_eq_some_iff.1 h1).1
    simp only [List.length_cons, List.length_nil] at hi
    interval_cases i <;> simp at h1 h2 <;> subst h1 h2 <;> norm_num [signedArea]
  · have := crisp_int (pts := [(1, 4), (6, 4), (3, 0), (4, 8), (2, 0), (5, 0), (7, 2), (7, 6), (5, 8), (2, 8), (0, 6), (0, 2)])
      (by decide)
    simpa using this
  · have := crisp_int (pts := [(8, 1), (3, 0), (4, 8), (2, 0), (5, 0), (7, 2), (7, 6), (5, 8), (2, 8), (0, 6), (0, 2)])
      (by decide)
    simpa using this
  · simp only [List.cons_append, List.nil_append, List.mem_cons, List.not_mem_nil, or_false, forall_eq_or_imp, forall_eq,
      Reach, inPlane]
    norm_num [abs_le]
  · rintro i a b ⟨h1, h2⟩
    have hi := (List.getElem?_eq_some_iff.1 h1).1
    simp only [List.length_cons, List.length_nil] at hi
    interval_cases i <;> simp at h1 h2 <;> subst h1 h2 <;> norm_num [signedArea]
  · norm_num [signedArea]
  · rintro i a b ⟨h1, h2⟩
    have hi := (List.getElem?_eq_some_iff.1 h1).1
    simp only [List.length_cons, List.length_nil] at hi
    interval_cases i <;> simp at h1 h2 <;> subst h1 h2 <;> norm_num [signedArea]
  · norm_num [signedArea]
  · exact ⟨1, (5, 0), (7, 2), ⟨rfl, rfl⟩, by norm_num [signedArea]⟩

end B3d.SliceConvex
