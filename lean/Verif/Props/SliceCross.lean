import Verif.Props.SliceCases
import Verif.Proofs.Prism

/-!
# C75: adding the points where two outlines cross

`addIntersectionPoints pts1 pts2` is `add_intersection_points`.
-/

namespace B3d.Slice

open Spec Points Polygon

/-- The point where the program finds that the edges cross, unless it counts as equal to one of the four ends. -/
noncomputable def crossOf (e1 e2 : Vec3 ℝ × Vec3 ℝ) : Option (Vec3 ℝ) :=
  (lineSegmentIntersection e1.1 e1.2 e2.1 e2.2).filter fun x =>
    !(pointsEqual e1.1 x || pointsEqual e1.2 x || pointsEqual e2.1 x || pointsEqual e2.2 x)

theorem crossOf_eq_some {e1 e2 : Vec3 ℝ × Vec3 ℝ} {x : Vec3 ℝ} :
    crossOf e1 e2 = some x ↔ lineSegmentIntersection e1.1 e1.2 e2.1 e2.2 = some x ∧ pointsEqual e1.1 x = false ∧
      pointsEqual e1.2 x = false ∧ pointsEqual e2.1 x = false ∧ pointsEqual e2.2 x = false := by
  simp [crossOf, Option.filter_eq_some_iff, and_assoc]

theorem intersections_eq (edges1 edges2 : List (Vec3 ℝ × Vec3 ℝ)) :
    intersections edges1 edges2 = edges1.zipIdx.flatMap fun e1 => edges2.zipIdx.flatMap fun e2 =>
      ((crossOf e1.1 e2.1).map fun x => (e1.2, e2.2, x)).toList := by
  unfold intersections
  congr 1
  funext e1
  rw [← List.filterMap_eq_flatMap_toList]
  obtain ⟨e1, i1⟩ := e1
  simp only
  congr 1
  funext e2
  obtain ⟨e2, i2⟩ := e2
  unfold crossOf
  rcases lineSegmentIntersection e1.1 e1.2 e2.1 e2.2 with _ | x
  · rfl
  · simp only [Option.filter]
    by_cases h : (pointsEqual e1.1 x || pointsEqual e1.2 x || pointsEqual e2.1 x || pointsEqual e2.2 x) = true
    · rw [if_pos h, if_neg (by rw [h]; simp)]; rfl
    · rw [if_neg h, if_pos (by rw [Bool.not_eq_true] at h; rw [h]; rfl)]; rfl

theorem flatMap_index {α β : Type} (F : α → List β) (l : List α) (k i : Nat) {a : α} (h : l[i]? = some a) :
    ((l.zipIdx k).flatMap fun e => if e.2 = k + i then F e.1 else []) = F a := by
  have none : ∀ (l : List α) (k i : Nat), i < k →
      ((l.zipIdx k).flatMap fun e => if e.2 = i then F e.1 else []) = [] := by
    intro l
    induction l with
    | nil => intros; rfl
    | cons b l ih =>
      intro k i hk
      simp only [List.zipIdx_cons, List.flatMap_cons, show ¬k = i by omega, if_false, List.nil_append]
      exact ih _ _ (by omega)
  induction l generalizing k i with
  | nil => cases h
  | cons b l ih =>
    cases i with
    | zero =>
      cases h
      simp only [List.zipIdx_cons, List.flatMap_cons, Nat.add_zero, if_true]
      rw [none _ _ _ (by omega), List.append_nil]
    | succ i =>
      simp only [List.zipIdx_cons, List.flatMap_cons, show ¬k = k + (i + 1) by omega, if_false, List.nil_append]
      have := ih (k + 1) i (by simpa using h)
      rwa [show k + 1 + i = k + (i + 1) by omega] at this

theorem flatMap_unindex {α β : Type} (F : α → List β) (l : List α) (k : Nat) :
    ((l.zipIdx k).flatMap fun e => F e.1) = l.flatMap F := by
  induction l generalizing k with
  | nil => rfl
  | cons a l ih => simp [ih]

theorem found_first {edges1 edges2 : List (Vec3 ℝ × Vec3 ℝ)} {i : Nat} {e : Vec3 ℝ × Vec3 ℝ}
    (h : edges1[i]? = some e) :
    ((intersections edges1 edges2).filter fun f => f.1 = i).map (·.2.2) = edges2.filterMap (crossOf e) := by
  rw [intersections_eq, List.filter_flatMap, List.map_flatMap, List.filterMap_eq_flatMap_toList]
  have := flatMap_index (fun e1 => edges2.flatMap fun e2 => (crossOf e1 e2).toList) edges1 0 i h
  rw [Nat.zero_add] at this
  refine Eq.trans ?_ this
  congr 1
  funext e1
  rw [List.filter_flatMap, List.map_flatMap]
  split
  next hi =>
    rw [← flatMap_unindex _ edges2 0]
    congr 1
    funext e2
    rcases crossOf e1.1 e2.1 with _ | x <;> simp [hi]
  next hi =>
    rw [List.flatMap_eq_nil_iff]
    intro e2 _
    rcases crossOf e1.1 e2.1 with _ | x <;> simp [hi]

theorem found_second {edges1 edges2 : List (Vec3 ℝ × Vec3 ℝ)} {i : Nat} {e : Vec3 ℝ × Vec3 ℝ}
    (h : edges2[i]? = some e) :
    ((intersections edges1 edges2).filter fun f => f.2.1 = i).map (·.2.2) =
      edges1.filterMap fun e1 => crossOf e1 e := by
  rw [intersections_eq, List.filter_flatMap, List.map_flatMap, List.filterMap_eq_flatMap_toList,
    ← flatMap_unindex _ edges1 0]
  congr 1
  funext e1
  rw [List.filter_flatMap, List.map_flatMap]
  have := flatMap_index (fun e2 => (crossOf e1.1 e2).toList) edges2 0 i h
  rw [Nat.zero_add] at this
  refine Eq.trans ?_ this
  congr 1
  funext e2
  rcases crossOf e1.1 e2.1 with _ | x <;> by_cases hi : e2.2 = i <;> simp [hi]

theorem flatMap_zipIdx_congr {α β : Type} {F : α × Nat → List β} {G : α → List β} {l : List α}
    (h : ∀ i a, l[i]? = some a → F (a, i) = G a) : l.zipIdx.flatMap F = l.flatMap G := by
  rw [← flatMap_unindex G l 0, List.flatMap_def, List.flatMap_def]
  congr 1
  refine List.map_congr_left fun e he => ?_
  exact h _ _ (List.mem_zipIdx_iff_getElem?.1 he)

/-- **C75.**  In both outlines each point is followed by the points where the edge that starts there crosses the edges
of the other outline, one for each edge of the other outline that crosses it, in the order of the other outline's edges.
A point counts as a crossing only if it is at no end of the two edges. -/
theorem C75_points {pts1 pts2 : List (Vec3 ℝ)} (h1 : pts1 ≠ []) (h2 : pts2 ≠ []) :
    addIntersectionPoints pts1 pts2 =
      .ok ((cycEdges pts1).flatMap fun e => e.1 :: (cycEdges pts2).filterMap fun e2 => crossOf e e2,
        (cycEdges pts2).flatMap fun e => e.1 :: (cycEdges pts1).filterMap fun e1 => crossOf e1 e) := by
  unfold addIntersectionPoints
  rw [polygonEdges_eq 0 pts1 h1, polygonEdges_eq 0 pts2 h2]
  simp only [Except.ok.injEq, Prod.mk.injEq]
  exact ⟨flatMap_zipIdx_congr fun i e he => by rw [found_first he],
    flatMap_zipIdx_congr fun i e he => by rw [found_second he]⟩

theorem sublist_flatMap {α β : Type} (g : α → β) (X : α → List β) (l : List α) :
    (l.map g).Sublist (l.flatMap fun a => g a :: X a) := by
  induction l with
  | nil => simp
  | cons a l ih =>
    simp only [List.map_cons, List.flatMap_cons, List.cons_append]
    exact .cons_cons _ (ih.trans (List.sublist_append_right _ _))

/-- **C75.**  No point of an outline is lost or moved. -/
theorem C75_kept {pts1 pts2 q1 q2 : List (Vec3 ℝ)} (h1 : pts1 ≠ []) (h2 : pts2 ≠ [])
    (h : addIntersectionPoints pts1 pts2 = .ok (q1, q2)) : pts1.Sublist q1 ∧ pts2.Sublist q2 := by
  rw [C75_points h1 h2] at h
  simp only [Except.ok.injEq, Prod.mk.injEq] at h
  obtain ⟨rfl, rfl⟩ := h
  constructor
  · have := sublist_flatMap Prod.fst (fun e => (cycEdges pts2).filterMap fun e2 => crossOf e e2) (cycEdges pts1)
    rwa [Solids.cycEdges_fst] at this
  · have := sublist_flatMap Prod.fst (fun e => (cycEdges pts1).filterMap fun e1 => crossOf e1 e) (cycEdges pts2)
    rwa [Solids.cycEdges_fst] at this

/-- The points are on the segment from `a` to `b`, in this order. -/
def Along (a b : Vec3 ℝ) : List (Vec3 ℝ) → Prop
  | [] => True
  | x :: xs => OnSegment a b x ∧ Along x b xs

theorem subdivides_along {pts U V : List (Vec3 ℝ)} {a b : Vec3 ℝ} {xs : List (Vec3 ℝ)} (hx : Along a b xs)
    (h : Subdivides pts (U ++ a :: b :: V)) : Subdivides pts (U ++ a :: xs ++ b :: V) := by
  induction xs generalizing U a with
  | nil => simpa using h
  | cons x xs ih =>
    have := ih (U := U ++ [a]) hx.2 (by simpa using h.middle hx.1)
    simpa using this

theorem subdivides_along_closing {pts W : List (Vec3 ℝ)} {a c : Vec3 ℝ} {xs : List (Vec3 ℝ)} (hx : Along a c xs)
    (h : Subdivides pts (c :: W ++ [a])) : Subdivides pts (c :: W ++ a :: xs) := by
  have h1 : Subdivides pts ([] ++ a :: c :: W) := h.rot (List.isRotated_append (l := c :: W) (l' := [a]))
  refine (subdivides_along hx h1).rot ?_
  have := List.isRotated_append (l := a :: xs) (l' := c :: W)
  simpa using this

theorem subdivides_flatMap {pts : List (Vec3 ℝ)} {c : Vec3 ℝ} (X : Vec3 ℝ × Vec3 ℝ → List (Vec3 ℝ))
    (l : List (Vec3 ℝ)) (U : List (Vec3 ℝ)) (a : Vec3 ℝ) (hU : U = [] ∧ a = c ∧ l ≠ [] ∨ U.head? = some c)
    (h : Subdivides pts (U ++ a :: l)) (hx : ∀ e ∈ List.zip (a :: l) (l ++ [c]), Along e.1 e.2 (X e)) :
    Subdivides pts (U ++ (List.zip (a :: l) (l ++ [c])).flatMap fun e => e.1 :: X e) := by
  induction l generalizing U a with
  | nil =>
    obtain ⟨W, rfl⟩ : ∃ W, U = c :: W := by
      rcases hU with ⟨-, -, h⟩ | h
      · exact absurd rfl h
      · cases U with
        | nil => cases h
        | cons d W => cases h; exact ⟨W, rfl⟩
    have := subdivides_along_closing (hx (a, c) (by simp)) h
    simpa using this
  | cons b l ih =>
    have h1 := subdivides_along (hx (a, b) (by simp)) h
    have := ih (U ++ a :: X (a, b)) b (.inr ?_) (by simpa using h1) (fun e he => hx e ?_)
    · simpa using this
    · rcases hU with ⟨rfl, rfl, -⟩ | hU
      · rfl
      · rw [List.head?_append, hU]; rfl
    · exact List.mem_cons_of_mem _ he

theorem subdivides_outline {pts : List (Vec3 ℝ)} (h : 2 ≤ pts.length) (X : Vec3 ℝ × Vec3 ℝ → List (Vec3 ℝ))
    (hx : ∀ e ∈ cycEdges pts, Along e.1 e.2 (X e)) :
    Subdivides pts ((cycEdges pts).flatMap fun e => e.1 :: X e) := by
  obtain ⟨c, b, l, rfl⟩ : ∃ c b l, pts = c :: b :: l := by
    match pts, h with
    | c :: b :: l, _ => exact ⟨c, b, l, rfl⟩
  exact subdivides_flatMap X (b :: l) [] c (.inl ⟨rfl, rfl, by simp⟩) (.rotate (List.IsRotated.refl _)) hx

/-- **C75, the same outline.**  If the crossings on each edge are exactly on the edge, and come along the edge in the
order of the edges of the other outline, then the outline with the points added is the same closed line.

What is missing: the crossings are not sorted along the edge (see `C75_order`). -/
theorem C75_same_outline_partial {pts1 pts2 q1 q2 : List (Vec3 ℝ)} (h1 : 2 ≤ pts1.length) (h2 : 2 ≤ pts2.length)
    (h : addIntersectionPoints pts1 pts2 = .ok (q1, q2)) :
    ((∀ e ∈ cycEdges pts1, Along e.1 e.2 ((cycEdges pts2).filterMap fun e2 => crossOf e e2)) → Subdivides pts1 q1) ∧
    ((∀ e ∈ cycEdges pts2, Along e.1 e.2 ((cycEdges pts1).filterMap fun e1 => crossOf e1 e)) →
      Subdivides pts2 q2) := by
  rw [C75_points (by rintro rfl; simp at h1) (by rintro rfl; simp at h2)] at h
  simp only [Except.ok.injEq, Prod.mk.injEq] at h
  obtain ⟨rfl, rfl⟩ := h
  exact ⟨subdivides_outline h1 _, subdivides_outline h2 _⟩

/-- **C75, one crossing on each edge.**  If an edge is crossed by at most one edge of the other outline, no order is
needed. -/
theorem C75_once_partial {pts1 pts2 q1 q2 : List (Vec3 ℝ)} (h1 : 2 ≤ pts1.length) (h2 : 2 ≤ pts2.length)
    (h : addIntersectionPoints pts1 pts2 = .ok (q1, q2))
    (hs : ∀ e1 ∈ cycEdges pts1, ∀ e2 ∈ cycEdges pts2, ∀ x, crossOf e1 e2 = some x → OnSegment e1.1 e1.2 x)
    (ho : ∀ e1 ∈ cycEdges pts1, ((cycEdges pts2).filterMap fun e2 => crossOf e1 e2).length ≤ 1) :
    Subdivides pts1 q1 := by
  refine (C75_same_outline_partial h1 h2 h).1 fun e he => ?_
  have := ho e he
  rcases hl : (cycEdges pts2).filterMap fun e2 => crossOf e e2 with _ | ⟨x, _ | ⟨y, l⟩⟩
  · trivial
  · have hm : x ∈ (cycEdges pts2).filterMap fun e2 => crossOf e e2 := by rw [hl]; simp
    obtain ⟨e2, h2, hx⟩ := List.mem_filterMap.1 hm
    exact ⟨hs e he e2 h2 x hx, trivial⟩
  · rw [hl] at this; simp at this

/-- A line along the x axis crosses a line along the y axis, away from the ends of both. -/
theorem crossOf_xy {x0 x1 y x y0 y1 t s : ℝ} (hx : 1 ≤ |x1 - x0|) (hy : 1 ≤ |y1 - y0|) (t0 : 0 ≤ t) (t1 : t ≤ 1)
    (s0 : 0 ≤ s) (s1 : s ≤ 1) (ht : x = x0 + t * (x1 - x0)) (hs : y = y0 + s * (y1 - y0)) (b : |x| ≤ 100)
    (c : |y| ≤ 100) (a0 : 1 ≤ |x0 - x|) (a1 : 1 ≤ |x1 - x|) (b0 : 1 ≤ |y0 - y|) (b1 : 1 ≤ |y1 - y|) :
    crossOf (⟨x0, y, 0⟩, ⟨x1, y, 0⟩) (⟨x, y0, 0⟩, ⟨x, y1, 0⟩) = some (⟨x, y, 0⟩ : Vec3 ℝ) :=
  crossOf_eq_some.2 ⟨intersection_xy hx hy t0 t1 s0 s1 ht hs, notEqual_x a0 b, notEqual_x a1 b, notEqual_y b0 c,
    notEqual_y b1 c⟩

/-- An end of a line on another one is no crossing. -/
theorem crossOf_touch {x0 x1 y x y0 y1 t s : ℝ} (hx : 1 ≤ |x1 - x0|) (hy : 1 ≤ |y1 - y0|) (t0 : 0 ≤ t) (t1 : t ≤ 1)
    (s0 : 0 ≤ s) (s1 : s ≤ 1) (ht : x = x0 + t * (x1 - x0)) (hs : y = y0 + s * (y1 - y0)) (h : y0 = y ∨ y1 = y) :
    crossOf (⟨x0, y, 0⟩, ⟨x1, y, 0⟩) (⟨x, y0, 0⟩, ⟨x, y1, 0⟩) = none := by
  rw [crossOf, intersection_xy hx hy t0 t1 s0 s1 ht hs]
  rcases h with rfl | rfl <;> simp [pointsEqual_refl]

theorem crossOf_yy {a b c d y0 y1 y2 y3 : ℝ} {k : ℝ} (h : y3 - y2 = k * (y1 - y0)) (hb : b = a) (hd : d = c) :
    crossOf (⟨a, y0, 0⟩, ⟨b, y1, 0⟩) (⟨c, y2, 0⟩, ⟨d, y3, 0⟩) = none := by
  rw [crossOf, intersection_yy h hb hd]
  rfl

/-- A line into the square: the point where it goes in is added to both outlines. -/
example : addIntersectionPoints square [⟨1, -1, 0⟩, ⟨1, 4, 0⟩] =
      .ok ([⟨0, 0, 0⟩, ⟨1, 0, 0⟩, ⟨1, 0, 0⟩, ⟨4, 0, 0⟩, ⟨4, 4, 0⟩, ⟨0, 4, 0⟩],
        [⟨1, -1, 0⟩, ⟨1, 0, 0⟩, ⟨1, 4, 0⟩, ⟨1, 0, 0⟩]) ∧
    ∀ e ∈ cycEdges ([⟨1, -1, 0⟩, ⟨1, 4, 0⟩] : List (Vec3 ℝ)),
      Along e.1 e.2 ((cycEdges square).filterMap fun e1 => crossOf e1 e) := by
  have b1 : crossOf (⟨0, 0, 0⟩, ⟨4, 0, 0⟩) (⟨1, -1, 0⟩, ⟨1, 4, 0⟩) = some (⟨1, 0, 0⟩ : Vec3 ℝ) :=
    crossOf_xy (t := 1 / 4) (s := 1 / 5) (by norm_num) (by norm_num) (by norm_num) (by norm_num) (by norm_num)
      (by norm_num) (by norm_num) (by norm_num) (by norm_num) (by norm_num) (by norm_num) (by norm_num) (by norm_num)
      (by norm_num)
  have b2 : crossOf (⟨0, 0, 0⟩, ⟨4, 0, 0⟩) (⟨1, 4, 0⟩, ⟨1, -1, 0⟩) = some (⟨1, 0, 0⟩ : Vec3 ℝ) :=
    crossOf_xy (t := 1 / 4) (s := 4 / 5) (by norm_num) (by norm_num) (by norm_num) (by norm_num) (by norm_num)
      (by norm_num) (by norm_num) (by norm_num) (by norm_num) (by norm_num) (by norm_num) (by norm_num) (by norm_num)
      (by norm_num)
  have t1 : crossOf (⟨4, 4, 0⟩, ⟨0, 4, 0⟩) (⟨1, -1, 0⟩, ⟨1, 4, 0⟩) = none :=
    crossOf_touch (t := 3 / 4) (s := 1) (by norm_num) (by norm_num) (by norm_num) (by norm_num) (by norm_num)
      (by norm_num) (by norm_num) (by norm_num) (.inr rfl)
  have t2 : crossOf (⟨4, 4, 0⟩, ⟨0, 4, 0⟩) (⟨1, 4, 0⟩, ⟨1, -1, 0⟩) = none :=
    crossOf_touch (t := 3 / 4) (s := 0) (by norm_num) (by norm_num) (by norm_num) (by norm_num) (by norm_num)
      (by norm_num) (by norm_num) (by norm_num) (.inl rfl)
  have r1 : crossOf (⟨4, 0, 0⟩, ⟨4, 4, 0⟩) (⟨1, -1, 0⟩, ⟨1, 4, 0⟩) = none :=
    crossOf_yy (k := 5 / 4) (by norm_num) rfl rfl
  have r2 : crossOf (⟨4, 0, 0⟩, ⟨4, 4, 0⟩) (⟨1, 4, 0⟩, ⟨1, -1, 0⟩) = none :=
    crossOf_yy (k := -5 / 4) (by norm_num) rfl rfl
  have l1 : crossOf (⟨0, 4, 0⟩, ⟨0, 0, 0⟩) (⟨1, -1, 0⟩, ⟨1, 4, 0⟩) = none :=
    crossOf_yy (k := -5 / 4) (by norm_num) rfl rfl
  have l2 : crossOf (⟨0, 4, 0⟩, ⟨0, 0, 0⟩) (⟨1, 4, 0⟩, ⟨1, -1, 0⟩) = none :=
    crossOf_yy (k := 5 / 4) (by norm_num) rfl rfl
  have he : cycEdges ([⟨1, -1, 0⟩, ⟨1, 4, 0⟩] : List (Vec3 ℝ)) =
    [(⟨1, -1, 0⟩, ⟨1, 4, 0⟩), (⟨1, 4, 0⟩, ⟨1, -1, 0⟩)] := rfl
  constructor
  · rw [C75_points (by simp [square]) (by simp), square_edges, he]
    simp [b1, b2, t1, t2, r1, r2, l1, l2]
  · rw [square_edges, he]
    simp only [List.mem_cons, List.not_mem_nil, or_false, forall_eq_or_imp, forall_eq]
    simp only [List.filterMap_cons, b1, b2, t1, t2, r1, r2, l1, l2, List.filterMap_nil]
    exact ⟨⟨⟨1 / 5, by norm_num, by norm_num, by ext <;> norm_num⟩, trivial⟩,
      ⟨4 / 5, by norm_num, by norm_num, by ext <;> norm_num⟩, trivial⟩

/-- **C75, the order (negative).**  A line that goes down across the square: the crossings are added in the order of the
edges of the square, so the line with the points added goes down to `y = 0`, up to `y = 4` and down again.  It is not the
same closed line: it is 20 long, and the line is 12 long (there and back). -/
theorem C75_order : ∃ q1 q2, addIntersectionPoints square [⟨1, 5, 0⟩, ⟨1, -1, 0⟩] = .ok (q1, q2) ∧
    q2 = [⟨1, 5, 0⟩, ⟨1, 0, 0⟩, ⟨1, 4, 0⟩, ⟨1, -1, 0⟩, ⟨1, 0, 0⟩, ⟨1, 4, 0⟩] ∧
    ¬ Subdivides [⟨1, 5, 0⟩, ⟨1, -1, 0⟩] q2 := by
  have b1 : crossOf (⟨0, 0, 0⟩, ⟨4, 0, 0⟩) (⟨1, 5, 0⟩, ⟨1, -1, 0⟩) = some (⟨1, 0, 0⟩ : Vec3 ℝ) :=
    crossOf_xy (t := 1 / 4) (s := 5 / 6) (by norm_num) (by norm_num) (by norm_num) (by norm_num) (by norm_num)
      (by norm_num) (by norm_num) (by norm_num) (by norm_num) (by norm_num) (by norm_num) (by norm_num) (by norm_num)
      (by norm_num)
  have b2 : crossOf (⟨0, 0, 0⟩, ⟨4, 0, 0⟩) (⟨1, -1, 0⟩, ⟨1, 5, 0⟩) = some (⟨1, 0, 0⟩ : Vec3 ℝ) :=
    crossOf_xy (t := 1 / 4) (s := 1 / 6) (by norm_num) (by norm_num) (by norm_num) (by norm_num) (by norm_num)
      (by norm_num) (by norm_num) (by norm_num) (by norm_num) (by norm_num) (by norm_num) (by norm_num) (by norm_num)
      (by norm_num)
  have t1 : crossOf (⟨4, 4, 0⟩, ⟨0, 4, 0⟩) (⟨1, 5, 0⟩, ⟨1, -1, 0⟩) = some (⟨1, 4, 0⟩ : Vec3 ℝ) :=
    crossOf_xy (t := 3 / 4) (s := 1 / 6) (by norm_num) (by norm_num) (by norm_num) (by norm_num) (by norm_num)
      (by norm_num) (by norm_num) (by norm_num) (by norm_num) (by norm_num) (by norm_num) (by norm_num) (by norm_num)
      (by norm_num)
  have t2 : crossOf (⟨4, 4, 0⟩, ⟨0, 4, 0⟩) (⟨1, -1, 0⟩, ⟨1, 5, 0⟩) = some (⟨1, 4, 0⟩ : Vec3 ℝ) :=
    crossOf_xy (t := 3 / 4) (s := 5 / 6) (by norm_num) (by norm_num) (by norm_num) (by norm_num) (by norm_num)
      (by norm_num) (by norm_num) (by norm_num) (by norm_num) (by norm_num) (by norm_num) (by norm_num) (by norm_num)
      (by norm_num)
  have r1 : crossOf (⟨4, 0, 0⟩, ⟨4, 4, 0⟩) (⟨1, 5, 0⟩, ⟨1, -1, 0⟩) = none :=
    crossOf_yy (k := -3 / 2) (by norm_num) rfl rfl
  have r2 : crossOf (⟨4, 0, 0⟩, ⟨4, 4, 0⟩) (⟨1, -1, 0⟩, ⟨1, 5, 0⟩) = none :=
    crossOf_yy (k := 3 / 2) (by norm_num) rfl rfl
  have l1 : crossOf (⟨0, 4, 0⟩, ⟨0, 0, 0⟩) (⟨1, 5, 0⟩, ⟨1, -1, 0⟩) = none :=
    crossOf_yy (k := 3 / 2) (by norm_num) rfl rfl
  have l2 : crossOf (⟨0, 4, 0⟩, ⟨0, 0, 0⟩) (⟨1, -1, 0⟩, ⟨1, 5, 0⟩) = none :=
    crossOf_yy (k := -3 / 2) (by norm_num) rfl rfl
  have he : cycEdges ([⟨1, 5, 0⟩, ⟨1, -1, 0⟩] : List (Vec3 ℝ)) =
    [(⟨1, 5, 0⟩, ⟨1, -1, 0⟩), (⟨1, -1, 0⟩, ⟨1, 5, 0⟩)] := rfl
  refine ⟨_, _, C75_points (by simp [square]) (by simp), ?_, ?_⟩
  · rw [square_edges, he]
    simp [b1, b2, t1, t2, r1, r2, l1, l2]
  · rw [square_edges, he]
    simp only [List.flatMap_cons, List.filterMap_cons, b1, b2, t1, t2, r1, r2, l1, l2, List.filterMap_nil,
      List.flatMap_nil]
    intro h
    have := h.cycSum (f := fun a b => |b.y - a.y|) (fun a b x hx => by
      obtain ⟨t, h0, h1, rfl⟩ := hx
      have e1 : (a + t • (b - a)).y - a.y = t * (b.y - a.y) := by simp
      have e2 : b.y - (a + t • (b - a)).y = (1 - t) * (b.y - a.y) := by simp; ring
      simp only [e1, e2, abs_mul, abs_of_nonneg h0, abs_of_nonneg (sub_nonneg.2 h1)]
      ring)
    norm_num [cycSum, pathSum] at this

end B3d.Slice
