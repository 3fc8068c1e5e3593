import Verif.Proofs.Rounded
import Verif.Props.Placement
import Verif.Props.PlanEll
import Verif.Proofs.Binary
import Mathlib.Data.List.Triplewise

/-! # C109: rounding does not change how an outline is divided -/

namespace B3d.Rounded

open Spec Planar Triangles

variable {o u w : Vec3 ℝ} {m : ℝ} {pts : List (ℝ × ℝ)}

theorem RelV.within {v n : Vec3 ℝ} (h : RelV (2 / 10 ^ 14) v n) (hn : Vec3.norm n = 1) : WithinBy (1 / 10 ^ 13) v n := by
  have key : ∀ x y : ℝ, Rel (2 / 10 ^ 14) x y → |y| ≤ 1 → |x - y| ≤ 1 / 10 ^ 13 := by
    intro x y h1 h2
    have := h1.err
    norm_num at *
    linarith
  have l1 := Vec3.abs_x_le n
  have l2 := Vec3.abs_y_le n
  have l3 := Vec3.abs_z_le n
  rw [hn] at l1 l2 l3
  exact ⟨key _ _ h.1 l1, key _ _ h.2.1 l2, key _ _ h.2.2 l3⟩

/-- The first corner turns left. -/
theorem constructor_left (A : Arith) (hx : Axes u w) (hf : AxisPlane u w) (h : Crisp m pts) (hm : m ≤ 10 ^ 6)
    (hs : StraightOnAxes o u w pts) (hr : ∀ p ∈ pts, Reach m (inPlane o u w p)) (hn : 3 ≤ pts.length) {l p0 p1 : ℝ × ℝ}
    (hl : pts.getLast? = some l) (h0 : pts[0]? = some p0) (h1 : pts[1]? = some p1) (hD : 0 < signedArea l p0 p1) :
    match Polygon.polygonNew (pts.map (inPlane o u w)) none none with
    | .error e => polygonNew A (pts.map (inPlane o u w)) = .error e
    | .ok P => ∃ n v, P.vn = some n ∧ polygonNew A (pts.map (inPlane o u w)) = .ok (P.pts, v, P.tri) ∧
        WithinBy (1 / 10 ^ 13) v n := by
  have ex := Polygon.polygonNew_inPlane hx h hr hn hl h0 h1 hD
  obtain ⟨v, hv, hrel⟩ := normal_flat A (o := o) hx hf h (List.mem_of_mem_getLast? hl) (List.mem_of_getElem? h0)
    (List.mem_of_getElem? h1) hD
  have ht := triangulate_flat A hx hf h hm hs hr hrel (fuel := 2 * pts.length + 2)
  have hc := coplanar_flat A (o := o) hx hf pts
  have hlen : ¬ ¬ 3 ≤ pts.length := not_not.2 hn
  have mine : polygonNew A (pts.map (inPlane o u w)) =
      match exactTriangulate (2 * pts.length + 2) pts with
      | none => .error .runtimeError
      | some (.error e) => .error e
      | some (.ok (q, tri)) => .ok (q.map (inPlane o u w), v, tri) := by
    unfold polygonNew
    rw [hc]
    simp only [Bool.true_eq_false, if_false, List.length_map, if_neg hlen, List.getLast?_map, List.getElem?_map, hl, h0, h1,
      Option.map_some, hv, ht]
    match exactTriangulate (2 * pts.length + 2) pts with
    | none => rfl
    | some (.error e) => rfl
    | some (.ok (q, tri)) => rfl
  rw [mine]
  match he : exactTriangulate (2 * pts.length + 2) pts with
  | none => rw [he] at ex; simp only at ex; rw [ex]
  | some (.error e) => rw [he] at ex; simp only at ex; rw [ex]
  | some (.ok (q, tri)) =>
    rw [he] at ex
    obtain ⟨P, e1, e2, e3, e4⟩ := ex
    rw [e1]
    exact ⟨_, v, e3, by rw [e2, e4], hrel.within (norm_cross hx)⟩

/-- Straight first corner: the computed cross product is exactly zero. -/
theorem cross_straight' (A : Arith) (hs : StraightOnAxes o u w pts) {a b c : ℝ × ℝ}
    (ha : a ∈ pts) (hb : b ∈ pts) (hc : c ∈ pts) (h0 : signedArea a b c = 0) :
    cross A (subv A (inPlane o u w b) (inPlane o u w a)) (subv A (inPlane o u w c) (inPlane o u w a)) = 0 := by
  by_cases hab : a = b
  · subst hab; ext <;> simp [cross, subv]
  by_cases hac : a = c
  · subst hac; ext <;> simp [cross, subv]
  by_cases hbc : b = c
  · subst hbc
    ext
    · simp only [cross]; rw [A.mul_comm, sub_self']; rfl
    · simp only [cross]; rw [A.mul_comm, sub_self']; rfl
    · simp only [cross]; rw [A.mul_comm, sub_self']; rfl
  · rcases hs a ha b hb c hc hab hbc hac h0 with ⟨e1, e2, e3, e4⟩ | ⟨e1, e2, e3, e4⟩ | ⟨e1, e2, e3, e4⟩ <;>
      ext <;> simp [cross, subv, e1, e2, e3, e4]

theorem _root_.B3d.Spec.AxisPlane.symm (h : AxisPlane u w) : AxisPlane w u := by
  unfold AxisPlane at *; tauto

theorem _root_.B3d.Spec.StraightOnAxes.swapped (h : StraightOnAxes o u w pts) :
    StraightOnAxes o w u (pts.map Prod.swap) := by
  intro a ha b hb c hc hab hbc hac h0
  obtain ⟨a, ha', rfl⟩ := List.mem_map.1 ha
  obtain ⟨b, hb', rfl⟩ := List.mem_map.1 hb
  obtain ⟨c, hc', rfl⟩ := List.mem_map.1 hc
  rw [Polygon.signedArea_swapped, neg_eq_zero] at h0
  simp only [Polygon.inPlane_swap]
  exact h a ha' b hb' c hc' (fun e => hab (by rw [e])) (fun e => hbc (by rw [e])) (fun e => hac (by rw [e])) h0

/-- **C109, the constructor.**  An outline without doubtful cases, in a plane parallel to two coordinate axes, whose
straight corners are on lines parallel to an axis.  In every rounded arithmetic `Polygon` does the same as with exact
numbers: it refuses the outline with the same exception, or it gives the same corners in the same order and the same
triangles, and a normal vector within `1e-13` of the exact one.

Missing: slanted planes, for which it is false (`C109_slanted_fails`); three corners on a slanted line; overflow and
underflow. -/
theorem C109_axis_planes_partial (A : Arith) (hx : Axes u w) (hf : AxisPlane u w) (h : Crisp m pts) (hm : m ≤ 10 ^ 6)
    (hs : StraightOnAxes o u w pts) (hr : ∀ p ∈ pts, Reach m (inPlane o u w p)) :
    match Polygon.polygonNew (pts.map (inPlane o u w)) none none with
    | .error e => polygonNew A (pts.map (inPlane o u w)) = .error e
    | .ok P => ∃ n v, P.vn = some n ∧ polygonNew A (pts.map (inPlane o u w)) = .ok (P.pts, v, P.tri) ∧
        WithinBy (1 / 10 ^ 13) v n := by
  have hcE := coplanar_inPlane (o := o) hx pts
  have hcA := coplanar_flat A (o := o) hx hf pts
  by_cases hn : 3 ≤ pts.length
  swap
  · have e1 : Polygon.polygonNew (pts.map (inPlane o u w)) none none = .error .assertionError := by
      simp only [Polygon.polygonNew, hcE, Bool.true_eq_false, if_false, List.length_map, if_pos hn]
    have e2 : polygonNew A (pts.map (inPlane o u w)) = .error .assertionError := by
      simp only [polygonNew, hcA, Bool.true_eq_false, if_false, List.length_map, if_pos hn]
    rw [e1]
    exact e2
  obtain ⟨l, hl⟩ : ∃ l, pts.getLast? = some l := by
    cases hp : pts with
    | nil => rw [hp] at hn; simp at hn
    | cons a t => exact ⟨_, List.getLast?_eq_some_getLast (by simp)⟩
  have h0 : pts[0]? = some pts[0] := List.getElem?_eq_getElem _
  have h1 : pts[1]? = some pts[1] := List.getElem?_eq_getElem _
  rcases lt_trichotomy (signedArea l pts[0] pts[1]) 0 with hlt | hz | hgt
  · have e1 : (pts.map Prod.swap).map (inPlane o w u) = pts.map (inPlane o u w) := by
      rw [List.map_map]
      exact List.map_congr_left fun p _ => Polygon.inPlane_swap o u w p
    have := constructor_left A (o := o) (Polygon.Axes_symm hx) hf.symm h.swapped hm hs.swapped
      (by
        intro p hp
        obtain ⟨p, hp', rfl⟩ := List.mem_map.1 hp
        rw [Polygon.inPlane_swap]; exact hr p hp')
      (by simpa using hn) (l := l.swap) (p0 := pts[0].swap) (p1 := pts[1].swap) (by rw [List.getLast?_map, hl]; rfl)
      (by rw [List.getElem?_map, h0]; rfl) (by rw [List.getElem?_map, h1]; rfl)
      (by rw [Polygon.signedArea_swapped]; linarith)
    rw [e1] at this
    exact this
  · have ml := List.mem_of_mem_getLast? hl
    have m0 := List.mem_of_getElem? h0
    have m1 := List.mem_of_getElem? h1
    have nE : Polygon.normal (inPlane o u w l) (inPlane o u w pts[0]) (inPlane o u w pts[1]) = none := by
      unfold Polygon.normal
      simp only [cross_inPlane, hz, zero_smul]
      rw [Vec3.norm_eq_zero.2 rfl, if_pos (by norm_num [B3d.isClose, NP_ATOL])]
    have nA : normal A (inPlane o u w l) (inPlane o u w pts[0]) (inPlane o u w pts[1]) = none := by
      unfold normal
      simp only [cross_straight' A hs ml m0 m1 hz, norm_zero']
      rw [if_pos]
      rw [cross_straight' A hs ml m0 m1 hz, norm_zero']
      refine isClose_of A (by norm_num [NP_RTOL]) (by norm_num [NP_ATOL]) ?_
      norm_num [NP_ATOL]
    have e1 : Polygon.polygonNew (pts.map (inPlane o u w)) none none = .error .assertionError := by
      simp only [Polygon.polygonNew, hcE, Bool.true_eq_false, if_false, List.length_map, if_neg (not_not.2 hn),
        Polygon.chooseNormal, List.getLast?_map, List.getElem?_map, hl, h0, h1, Option.map_some, nE, Polygon.chooseTriangles]
    have e2 : polygonNew A (pts.map (inPlane o u w)) = .error .assertionError := by
      simp only [polygonNew, hcA, Bool.true_eq_false, if_false, List.length_map, if_neg (not_not.2 hn),
        List.getLast?_map, List.getElem?_map, hl, h0, h1, Option.map_some, nA]
    rw [e1]
    exact e2
  · exact constructor_left A hx hf h hm hs hr hn hl h0 h1 hgt

/-! ## Outlines which are always accepted -/

theorem mem_three {l : List (ℝ × ℝ)} {p : ℝ × ℝ → ℝ × ℝ → ℝ × ℝ → Prop} (h : l.Triplewise p) {a b c : ℝ × ℝ}
    (hs : List.Sublist [a, b, c] l) : p a b c := by
  induction h with
  | nil => cases hs
  | cons hp _ ih =>
    cases hs with
    | cons _ hs => exact ih hs
    | cons_cons _ hs => exact List.pairwise_iff_forall_sublist.1 hp hs

/-- Three different corners in any order. -/
theorem straight_of_sorted (h : ∀ a b c, List.Sublist [a, b, c] pts → signedArea a b c ≠ 0) :
    StraightOnAxes o u w pts := by
  intro a ha b hb c hc hab hbc hac h0
  obtain ⟨l, hp, hs⟩ := List.subperm_of_subset (l₁ := [a, b, c]) (l₂ := pts) (by simp [hab, hbc, hac])
    (by intro x hx; simp only [List.mem_cons, List.not_mem_nil, or_false] at hx; rcases hx with rfl | rfl | rfl <;> assumption)
  have hl := hp.length_eq
  match l, hl with
  | [x, y, z], _ =>
    have mem : ∀ t ∈ [x, y, z], t = a ∨ t = b ∨ t = c := by
      intro t ht
      simpa using hp.subset ht
    refine absurd ?_ (h x y z hs)
    unfold signedArea at h0 ⊢
    rcases mem x (by simp) with rfl | rfl | rfl <;> rcases mem y (by simp) with rfl | rfl | rfl <;>
      rcases mem z (by simp) with rfl | rfl | rfl <;>
      first
      | ring1
      | linear_combination h0
      | linear_combination -h0

theorem convex_crisp (hx : Axes u w) (h : Crisp m pts) (hn : 3 ≤ pts.length) (hd : pts.Nodup)
    (ht : ∀ a b c, List.Sublist [a, b, c] pts → 0 < signedArea a b c) (hr : ∀ p ∈ pts, Reach m (inPlane o u w p)) :
    ConvexOutline (Vec3.cross u w) (pts.map (inPlane o u w)) := by
  refine ⟨norm_cross hx, by simpa using hn, ?_, ?_⟩
  · intro p q hpq
    obtain ⟨l, hl, e⟩ := List.sublist_map_iff.1 hpq
    match l, e with
    | [p', q'], e =>
      simp only [List.map_cons, List.map_nil, List.cons.injEq, and_true] at e
      obtain ⟨rfl, rfl⟩ := e
      have mp : p' ∈ pts := hl.subset (by simp)
      have mq : q' ∈ pts := hl.subset (by simp)
      have hne : p' ≠ q' := List.pairwise_iff_forall_sublist.1 hd hl
      exact ⟨apart_inPlane hx h mp mq hne (hr _ mq), apart_inPlane hx h mq mp hne.symm (hr _ mp)⟩
  · intro p q r hs
    obtain ⟨l, hl, e⟩ := List.sublist_map_iff.1 hs
    match l, e with
    | [p', q', r'], e =>
      simp only [List.map_cons, List.map_nil, List.cons.injEq, and_true] at e
      obtain ⟨rfl, rfl, rfl⟩ := e
      exact thick_inPlane hx h (hl.subset (by simp)) (hl.subset (by simp)) (hl.subset (by simp)) (ht _ _ _ hl)

/-- **C109, convex outlines.**  With rounding, a convex outline in a plane parallel to two coordinate axes becomes a
polygon: the corners stay in the given order, the triangles are the fan from the last corner, and the normal is the one
around which the corners run counter-clockwise, up to `1e-13`. -/
theorem C109_convex (A : Arith) (hx : Axes u w) (hf : AxisPlane u w) (h : Crisp m pts) (hm : m ≤ 10 ^ 6)
    (hn : 3 ≤ pts.length) (hd : pts.Nodup) (ht : ∀ a b c, List.Sublist [a, b, c] pts → 0 < signedArea a b c)
    (hr : ∀ p ∈ pts, Reach m (inPlane o u w p)) :
    ∃ v, WithinBy (1 / 10 ^ 13) v (Vec3.cross u w) ∧
      polygonNew A (pts.map (inPlane o u w)) = .ok (pts.map (inPlane o u w), v,
        (List.range (pts.length - 2)).map fun i => (pts.length - 1, i, i + 1)) := by
  have hc := convex_crisp (o := o) hx h hn hd ht hr
  obtain ⟨P, h1, h2, h3, h4⟩ := Polygon.C84_convex_partial hc
  have := C109_axis_planes_partial A (o := o) hx hf h hm (straight_of_sorted fun a b c hs => (ht a b c hs).ne') hr
  rw [h1] at this
  obtain ⟨n, v, e1, e2, e3⟩ := this
  rw [h3] at e1
  obtain rfl := Option.some.inj e1
  refine ⟨v, e3, ?_⟩
  rw [e2, h2, h4, List.length_map]

theorem rectangle_crisp {p q : ℝ} (hs : 1 / 10 ^ 3 ≤ m) (hp : m ≤ p) (hp' : p ≤ 50 * m) (hq : m ≤ q) (hq' : q ≤ 50 * m) :
    Crisp m [(0, 0), (p, 0), (p, q), (0, q)] ∧ ([(0, 0), (p, 0), (p, q), (0, q)] : List (ℝ × ℝ)).Nodup ∧
      ∀ a b c, List.Sublist [a, b, c] [(0, 0), (p, 0), (p, q), (0, q)] → 0 < signedArea a b c := by
  have hm : 0 < m := lt_of_lt_of_le (by norm_num) hs
  have h1 : m ^ 2 ≤ p ^ 2 := by gcongr
  have h2 : m ^ 2 ≤ q ^ 2 := by gcongr
  have h3 : p ^ 2 ≤ (50 * m) ^ 2 := by gcongr; linarith
  have h4 : q ^ 2 ≤ (50 * m) ^ 2 := by gcongr; linarith
  have h5 : m ^ 2 ≤ p * q := by rw [pow_two]; gcongr; linarith
  have h0 := sq_nonneg m
  have p0 : p ≠ 0 := by linarith
  have q0 : q ≠ 0 := by linarith
  have hpq : 0 < p * q := by nlinarith
  have turns : ∀ a b c, List.Sublist [a, b, c] [(0, 0), (p, 0), (p, q), (0, q)] → 0 < signedArea a b c := by
    intro a b c hs
    refine mem_three (p := fun a b c => 0 < signedArea a b c) ?_ hs
    simp only [List.triplewise_cons, List.pairwise_cons, List.forall_mem_cons, List.not_mem_nil, false_imp_iff,
      implies_true, List.Pairwise.nil, List.Triplewise.nil, and_true, signedArea]
    refine ⟨⟨⟨?_, ?_⟩, ?_⟩, ?_⟩ <;> linarith
  refine ⟨⟨hs, ?_, ?_, ?_⟩, ?_, turns⟩
  · simp only [List.forall_mem_cons, List.not_mem_nil, false_imp_iff, implies_true, distSq, and_true]
    refine ⟨⟨?_, ?_, ?_, ?_⟩, ⟨?_, ?_, ?_, ?_⟩, ⟨?_, ?_, ?_, ?_⟩, ⟨?_, ?_, ?_, ?_⟩⟩ <;> intro hne <;>
      first
      | exact absurd rfl hne
      | nlinarith
  · simp only [List.forall_mem_cons, List.not_mem_nil, false_imp_iff, implies_true, distSq, and_true]
    refine ⟨⟨?_, ?_, ?_, ?_⟩, ⟨?_, ?_, ?_, ?_⟩, ⟨?_, ?_, ?_, ?_⟩, ⟨?_, ?_, ?_, ?_⟩⟩ <;> nlinarith
  · refine Ell.sides_of_sorted fun i j k a b c hij hjk ha hb hc => ?_
    have hk : k < 4 := by
      have := (List.getElem?_eq_some_iff.1 hc).1
      simpa using this
    right
    interval_cases k <;> interval_cases j <;> interval_cases i <;>
      simp only [List.getElem?_cons_zero, List.getElem?_cons_succ, Option.some.injEq] at ha hb hc <;>
      subst ha hb hc <;> refine le_trans ?_ (le_abs_self _) <;> simp only [signedArea] <;> linarith
  · simp [p0, p0.symm, q0.symm]

/-- **C109, rectangles.**  With rounding, a rectangle in a plane parallel to two coordinate axes (for instance a face of a
box with sides along the axes), turned in any way in its plane, with sides between `m` and `50 m`, becomes a polygon with
the two triangles next to the diagonal through the second and the last corner. -/
theorem C109_rectangle {p q : ℝ} (A : Arith) (hx : Axes u w) (hf : AxisPlane u w) (hs : 1 / 10 ^ 3 ≤ m) (hm : m ≤ 10 ^ 6)
    (hp : m ≤ p) (hp' : p ≤ 50 * m) (hq : m ≤ q) (hq' : q ≤ 50 * m)
    (hr : Reach m o ∧ Reach m (o + p • u) ∧ Reach m (o + p • u + q • w) ∧ Reach m (o + q • w)) :
    ∃ v, WithinBy (1 / 10 ^ 13) v (Vec3.cross u w) ∧
      polygonNew A [o, o + p • u, o + p • u + q • w, o + q • w] =
        .ok ([o, o + p • u, o + p • u + q • w, o + q • w], v, [(3, 0, 1), (3, 1, 2)]) := by
  have e : [o, o + p • u, o + p • u + q • w, o + q • w] = [(0, 0), (p, 0), (p, q), (0, q)].map (inPlane o u w) := by
    simp only [List.map_cons, List.map_nil, inPlane]
    congr 1
    · ext <;> simp
    congr 1
    · ext <;> simp
    congr 1
    · ext <;> simp <;> ring
    congr 1
    · ext <;> simp
  obtain ⟨c1, c2, c3⟩ := rectangle_crisp hs hp hp' hq hq'
  have hr' : ∀ x ∈ [(0, 0), (p, 0), (p, q), (0, q)], Reach m (inPlane o u w x) := by
    rw [← List.forall_mem_map (f := inPlane o u w) (P := Reach m), ← e]
    simpa using hr
  obtain ⟨v, h1, h2⟩ := C109_convex A hx hf c1 hm (by simp) c2 c3 hr'
  rw [e]
  exact ⟨v, h1, h2⟩

/-- **C109, L-shaped outlines.**  With rounding, an L-shaped outline in a plane parallel to two coordinate axes becomes a
polygon, whichever corner except the reflex one comes first. -/
theorem C109_ell {a b c d : ℝ} {k : Nat} (A : Arith) (h : EllSize m a b c d) (hm : m ≤ 10 ^ 6)
    (hd : b * a + c * d ≠ a * d) (hx : Axes u w) (hf : AxisPlane u w)
    (hr : ∀ p ∈ ellShape a b c d, Reach m (inPlane o u w p)) (hk : k ∈ [0, 1, 2, 4, 5]) :
    ∃ v tri, WithinBy (1 / 10 ^ 13) v (Vec3.cross u w) ∧
      polygonNew A (((ellShape a b c d).rotate k).map (inPlane o u w)) =
        .ok (((ellShape a b c d).rotate k).map (inPlane o u w), v, tri) := by
  have hs : StraightOnAxes o u w (ellShape a b c d) := by
    refine straight_of_sorted fun p q r hs => ?_
    refine mem_three (p := fun p q r => signedArea p q r ≠ 0) ?_ hs
    obtain ⟨hs, hb, hc, ha, hd', hA, hD, hh⟩ := h
    have hm : 0 < m := lt_of_lt_of_le (by norm_num) hs
    have m0 := mul_pos (show 0 < b by linarith) (show 0 < c by linarith)
    have m1 := mul_pos (show 0 < b by linarith) (show 0 < a - c by linarith)
    have m2 := mul_pos (show 0 < c by linarith) (show 0 < d - b by linarith)
    have m3 := mul_pos (show 0 < a - c by linarith) (show 0 < d - b by linarith)
    have m4 := mul_pos (show 0 < c by linarith) (show 0 < a - c by linarith)
    have m5 := mul_pos (show 0 < b by linarith) (show 0 < d - b by linarith)
    have big : ∀ x : ℝ, 0 < x → x ≠ 0 := fun x h => h.ne'
    have small : ∀ x : ℝ, x < 0 → x ≠ 0 := fun x h => h.ne
    have diag : ∀ x : ℝ, x = b * a + c * d - a * d → x ≠ 0 := fun x h h0 => hd (by linarith)
    simp only [ellShape, List.triplewise_cons, List.pairwise_cons, List.forall_mem_cons, List.not_mem_nil, false_imp_iff,
      implies_true, List.Pairwise.nil, List.Triplewise.nil, and_true]
    refine ⟨⟨⟨?_, ?_, ?_, ?_⟩, ⟨?_, ?_, ?_⟩, ⟨?_, ?_⟩, ?_⟩, ⟨⟨?_, ?_, ?_⟩, ⟨?_, ?_⟩, ?_⟩, ⟨⟨?_, ?_⟩, ?_⟩, ?_⟩ <;>
    first
    | (apply diag; simp only [signedArea]; ring1)
    | (apply big; simp only [signedArea]; linarith)
    | (apply small; simp only [signedArea]; linarith)
  have sub : ∀ p ∈ (ellShape a b c d).rotate k, p ∈ ellShape a b c d := fun p hp => List.mem_rotate.1 hp
  obtain ⟨P, h1, h2, h3, -⟩ := Polygon.C84_ell_partial h hx hr hk
  have := C109_axis_planes_partial A (o := o) (pts := (ellShape a b c d).rotate k) hx hf ((Ell.ell_crisp h).subset sub) hm
    (fun x hx y hy z hz => hs x (sub x hx) y (sub y hy) z (sub z hz)) (fun p hp => hr p (sub p hp))
  rw [h1] at this
  obtain ⟨n, v, e1, e2, e3⟩ := this
  rw [h3] at e1
  obtain rfl := Option.some.inj e1
  exact ⟨v, P.tri, e3, by rw [e2, h2]⟩

/-! ## Whole-number outlines -/

/-- A grid point in the plane `z = 0`. -/
theorem emb_inPlane (p : ℤ × ℤ) : Grid.emb p = inPlane 0 ⟨1, 0, 0⟩ ⟨0, 1, 0⟩ ((p.1 : ℝ), (p.2 : ℝ)) := by
  ext <;> simp [Grid.emb, inPlane]

/-- **C109, whole-number coordinates.**  If the corners have whole-number coordinates between -25 and 25 in the plane
`z = 0` and no three different ones are on a line, rounding changes nothing but the normal. -/
theorem C109_grid (A : Arith) {L : List (ℤ × ℤ)} (hs : ∀ p ∈ L, |p.1| ≤ 25 ∧ |p.2| ≤ 25)
    (hl : ∀ a ∈ L, ∀ b ∈ L, ∀ c ∈ L, a ≠ b → b ≠ c → a ≠ c →
      (b.1 - a.1) * (c.2 - a.2) - (b.2 - a.2) * (c.1 - a.1) ≠ 0) :
    match Polygon.polygonNew (L.map Grid.emb) none none with
    | .error e => polygonNew A (L.map Grid.emb) = .error e
    | .ok P => ∃ n v, P.vn = some n ∧ polygonNew A (L.map Grid.emb) = .ok (P.pts, v, P.tri) ∧
        WithinBy (1 / 10 ^ 13) v n := by
  have e : L.map Grid.emb = (L.map fun p => ((p.1 : ℝ), (p.2 : ℝ))).map (inPlane 0 ⟨1, 0, 0⟩ ⟨0, 1, 0⟩) := by
    rw [List.map_map]
    exact List.map_congr_left fun p _ => emb_inPlane p
  rw [e]
  refine C109_axis_planes_partial A (m := 1) ?_ (.inr (.inr ⟨rfl, rfl⟩)) (Polygon.crisp_int ?_) (by norm_num) ?_ ?_
  · constructor <;> simp [Vec3.dot]
  · intro p hp q hq
    obtain ⟨h1, h2⟩ := hs p hp
    obtain ⟨h3, h4⟩ := hs q hq
    rw [abs_le] at h1 h2 h3 h4
    nlinarith
  · intro a ha b hb c hc hab hbc hac h0
    obtain ⟨a, ha', rfl⟩ := List.mem_map.1 ha
    obtain ⟨b, hb', rfl⟩ := List.mem_map.1 hb
    obtain ⟨c, hc', rfl⟩ := List.mem_map.1 hc
    refine absurd ?_ (hl a ha' b hb' c hc' (fun e => hab (by rw [e])) (fun e => hbc (by rw [e])) fun e => hac (by rw [e]))
    simp only [signedArea] at h0
    exact_mod_cast h0
  · intro p hp
    obtain ⟨p, hp', rfl⟩ := List.mem_map.1 hp
    obtain ⟨h1, h2⟩ := hs p hp'
    have h1' : |(p.1 : ℝ)| ≤ 25 := by exact_mod_cast h1
    have h2' : |(p.2 : ℝ)| ≤ 25 := by exact_mod_cast h2
    refine ⟨?_, ?_, ?_⟩ <;> simp [inPlane] <;> linarith

/-- **C109, refused outlines.**  A simple outline for which the constructor raises a TriangulationError (see
`C84_simple_fails`) is refused in every rounded arithmetic too. -/
theorem C109_refused (A : Arith) :
    SimplePolygon ([(13, 7), (5, 6), (3, 7), (3, 11), (0, 3), (1, 5), (9, 6), (9, -1)].map Grid.emb) ∧
    polygonNew A ([(13, 7), (5, 6), (3, 7), (3, 11), (0, 3), (1, 5), (9, 6), (9, -1)].map Grid.emb) =
      .error .triangulationError := by
  refine ⟨Grid.simple_emb (by decide +kernel), ?_⟩
  have h := C109_grid A (L := [(13, 7), (5, 6), (3, 7), (3, 11), (0, 3), (1, 5), (9, 6), (9, -1)]) (by decide)
    (by decide +kernel)
  rw [Grid.polygonNew_emb_error (e := .triangulationError) (l := (9, -1)) (p0 := (13, 7)) (p1 := (5, 6)) (by decide)
    (by decide) rfl rfl rfl (by decide) (by decide +kernel)] at h
  exact h

/-! ## Concrete cases -/

/-- Non-vacuity of `C109_ell` and `C109_axis_planes_partial`: an L-shaped ceiling, computed with 53 binary digits. -/
example : ∃ v tri, polygonNew binary ([(0, 0), (6, 0), (6, 2), (3, 2), (3, 5), (0, 5)].map
      (inPlane ⟨1001 / 10, 2003 / 10, 3⟩ ⟨1, 0, 0⟩ ⟨0, 1, 0⟩)) =
    .ok ([(0, 0), (6, 0), (6, 2), (3, 2), (3, 5), (0, 5)].map
      (inPlane ⟨1001 / 10, 2003 / 10, 3⟩ ⟨1, 0, 0⟩ ⟨0, 1, 0⟩), v, tri) := by
  obtain ⟨v, tri, -, h⟩ := C109_ell (m := 1) (a := 6) (b := 2) (c := 3) (d := 5) (k := 0) (o := ⟨1001 / 10, 2003 / 10, 3⟩)
    (u := ⟨1, 0, 0⟩) (w := ⟨0, 1, 0⟩) binary (by constructor <;> norm_num) (by norm_num) (by norm_num)
    (by constructor <;> simp [Vec3.dot]) (.inr (.inr ⟨rfl, rfl⟩))
    (by
      simp only [ellShape, List.forall_mem_cons, Reach, inPlane]
      norm_num [abs_le])
    (by simp)
  exact ⟨v, tri, h⟩

/-- Non-vacuity of `C109_rectangle` and `C109_convex`: a rectangle in a vertical plane, turned by an angle with cosine
3/5. -/
example : ∃ v, WithinBy (1 / 10 ^ 13) v ⟨0, -1, 0⟩ ∧
    polygonNew binary [⟨10, 7, 1⟩, ⟨13, 7, 5⟩, ⟨5, 7, 11⟩, ⟨2, 7, 7⟩] =
      .ok ([⟨10, 7, 1⟩, ⟨13, 7, 5⟩, ⟨5, 7, 11⟩, ⟨2, 7, 7⟩], v, [(3, 0, 1), (3, 1, 2)]) := by
  obtain ⟨v, h1, h2⟩ := C109_rectangle (m := 1) (p := 5) (q := 10) (o := ⟨10, 7, 1⟩) (u := ⟨3 / 5, 0, 4 / 5⟩)
    (w := ⟨-(4 / 5), 0, 3 / 5⟩) binary (by constructor <;> norm_num [Vec3.dot]) (.inr (.inl ⟨rfl, rfl⟩)) (by norm_num) (by norm_num)
    (by norm_num) (by norm_num) (by norm_num) (by norm_num) (by norm_num [Reach, abs_le])
  refine ⟨v, ?_, ?_⟩
  · convert h1 using 1
    ext <;> norm_num [Vec3.cross]
  · convert h2 using 3 <;> norm_num [Vec3.ext_iff]

end B3d.Rounded
