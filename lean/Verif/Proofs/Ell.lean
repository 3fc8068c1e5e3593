import Verif.Props.Placement
import Mathlib.Tactic.IntervalCases

/-! # Lemmas about L-shaped outlines -/

namespace B3d.Ell

open Spec Triangles Planar Polygon ConvexEars

section hex

variable {α : Type} {C : α → α → α → Bool} {I : α → α → α → α → Bool} {p0 p1 p2 p3 p4 p5 : α}

/-- The ear clipping with two-valued tests. -/
def clip (C : α → α → α → Bool) (I : α → α → α → α → Bool) (pts : List α) :=
  triangulateTries false (fun a b c => .ok (C a b c)) (fun t a b c => .ok (I t a b c)) 14 2 pts

/-- All ears are cut off at the last corner. -/
theorem hex_fan (c0 : C p5 p0 p1 = true) (i02 : I p2 p5 p0 p1 = false) (i03 : I p3 p5 p0 p1 = false)
    (i04 : I p4 p5 p0 p1 = false) (c1 : C p5 p1 p2 = true) (i13 : I p3 p5 p1 p2 = false) (i14 : I p4 p5 p1 p2 = false)
    (c2 : C p5 p2 p3 = true) (i24 : I p4 p5 p2 p3 = false) (c3 : C p5 p3 p4 = true) :
    clip C I [p0, p1, p2, p3, p4, p5] =
      some (.ok ([p0, p1, p2, p3, p4, p5], [(5, 0, 1), (5, 1, 2), (5, 2, 3), (5, 3, 4)])) := by
  simp [clip, triangulateTries, run, step, initState, List.range, List.range.loop, anyPointInside, c0, i02, i03, i04, c1,
    i13, i14, c2, i24, c3]

/-- The second corner cannot be cut off, the others are seen from it. -/
theorem hex_second (c0 : C p5 p0 p1 = true) (i02 : I p2 p5 p0 p1 = false) (i03 : I p3 p5 p0 p1 = false)
    (i04 : I p4 p5 p0 p1 = false) (f1 : C p5 p1 p2 = false ∨ I p3 p5 p1 p2 = true ∨ I p4 p5 p1 p2 = true)
    (c2 : C p1 p2 p3 = true) (i24 : I p4 p1 p2 p3 = false) (i25 : I p5 p1 p2 p3 = false) (c3 : C p1 p3 p4 = true)
    (i35 : I p5 p1 p3 p4 = false) (c4 : C p1 p4 p5 = true) :
    clip C I [p0, p1, p2, p3, p4, p5] =
      some (.ok ([p0, p1, p2, p3, p4, p5], [(5, 0, 1), (1, 2, 3), (1, 3, 4), (1, 4, 5)])) := by
  cases e1 : C p5 p1 p2 <;> cases e2 : I p3 p5 p1 p2 <;> cases e3 : I p4 p5 p1 p2 <;> rw [e1, e2, e3] at f1 <;>
    simp [clip, triangulateTries, run, step, initState, List.range, List.range.loop, anyPointInside, c0, i02, i03, i04,
      e1, e2, e3, c2, i24, i25, c3, i35, c4] at f1 ⊢

/-- The first corner cannot be cut off, the others are seen from it. -/
theorem hex_first (c0 : C p5 p0 p1 = true) (i03 : I p3 p5 p0 p1 = true) (c1 : C p0 p1 p2 = true)
    (i13 : I p3 p0 p1 p2 = false) (i14 : I p4 p0 p1 p2 = false) (i15 : I p5 p0 p1 p2 = false) (c2 : C p0 p2 p3 = true)
    (i24 : I p4 p0 p2 p3 = false) (i25 : I p5 p0 p2 p3 = false) (c3 : C p0 p3 p4 = true) (i35 : I p5 p0 p3 p4 = false)
    (c4 : C p0 p4 p5 = true) :
    clip C I [p0, p1, p2, p3, p4, p5] =
      some (.ok ([p0, p1, p2, p3, p4, p5], [(0, 1, 2), (0, 2, 3), (0, 3, 4), (0, 4, 5)])) := by
  cases e1 : I p2 p5 p0 p1 <;> cases e2 : I p4 p5 p0 p1 <;>
    simp [clip, triangulateTries, run, step, initState, List.range, List.range.loop, anyPointInside, c0, i03, e1, e2,
      c1, i13, i14, i15, c2, i24, i25, c3, i35, c4]

/-- The first corner is cut off, then the second one cannot be, and neither can the fourth. -/
theorem hex_alternate (c0 : C p5 p0 p1 = true) (i02 : I p2 p5 p0 p1 = false) (i03 : I p3 p5 p0 p1 = false)
    (i04 : I p4 p5 p0 p1 = false) (f1 : I p3 p5 p1 p2 = true) (c2 : C p1 p2 p3 = true) (i24 : I p4 p1 p2 p3 = false)
    (i25 : I p5 p1 p2 p3 = false) (f3 : C p1 p3 p4 = false) (c4 : C p3 p4 p5 = true) (i41 : I p1 p3 p4 p5 = false)
    (c5 : C p3 p5 p1 = true) :
    clip C I [p0, p1, p2, p3, p4, p5] =
      some (.ok ([p0, p1, p2, p3, p4, p5], [(5, 0, 1), (1, 2, 3), (3, 4, 5), (3, 5, 1)])) := by
  cases e1 : C p5 p1 p2 <;> cases e2 : I p4 p5 p1 p2 <;>
    simp [clip, triangulateTries, run, step, initState, List.range, List.range.loop, anyPointInside, c0, i02, i03, i04,
      e1, e2, f1, c2, i24, i25, f3, c4, i41, c5]

/-- Only the first corner can be cut off; in the reversed list all ears are cut off at the last corner. -/
theorem hex_wrong (c0 : C p5 p0 p1 = true) (i02 : I p2 p5 p0 p1 = false) (i03 : I p3 p5 p0 p1 = false)
    (i04 : I p4 p5 p0 p1 = false) (f1 : C p5 p1 p2 = false) (f2 : C p1 p2 p3 = false) (f3 : C p2 p3 p4 = false)
    (f4 : C p3 p4 p5 = false) (f5 : C p4 p5 p1 = false)
    (d0 : C p0 p5 p4 = true) (j02 : I p3 p0 p5 p4 = false) (j03 : I p2 p0 p5 p4 = false)
    (j04 : I p1 p0 p5 p4 = false) (d1 : C p0 p4 p3 = true) (j13 : I p2 p0 p4 p3 = false) (j14 : I p1 p0 p4 p3 = false)
    (d2 : C p0 p3 p2 = true) (j24 : I p1 p0 p3 p2 = false) (d3 : C p0 p2 p1 = true) :
    clip C I [p0, p1, p2, p3, p4, p5] =
      some (.ok ([p5, p4, p3, p2, p1, p0], [(5, 0, 1), (5, 1, 2), (5, 2, 3), (5, 3, 4)])) := by
  simp [clip, triangulateTries, run, step, initState, List.range, List.range.loop, anyPointInside, c0, i02, i03, i04, f1,
    f2, f3, f4, f5, d0, j02, j03, j04, d1, j13, j14, d2, j24, d3]

end hex

/-- The triangles of an L-shaped outline which starts at the corner with the number `k`; `near` tells that the reflex
corner is in the triangle of its neighbours' neighbours. -/
def ellTri (near : Bool) : Nat → List Tri
  | 0 => if near then [(0, 1, 2), (0, 2, 3), (0, 3, 4), (0, 4, 5)] else [(5, 0, 1), (1, 2, 3), (3, 4, 5), (3, 5, 1)]
  | 1 | 4 => [(5, 0, 1), (5, 1, 2), (5, 2, 3), (5, 3, 4)]
  | _ => [(5, 0, 1), (1, 2, 3), (1, 3, 4), (1, 4, 5)]

section exact

variable {m a b c d : ℝ}

theorem exact_eq (pts : List (ℝ × ℝ)) : exactTriangulate 14 pts =
    clip (fun a b c => @decide _ (Classical.propDecidable (0 < signedArea a b c)))
      (fun t a b c => @decide _ (Classical.propDecidable (InClosed t a b c))) pts := rfl

theorem tt {p : Prop} (h : p) : @decide _ (Classical.propDecidable p) = true := @decide_eq_true _ (Classical.propDecidable p) h

theorem ff {p : Prop} (h : ¬ p) : @decide _ (Classical.propDecidable p) = false := @decide_eq_false _ (Classical.propDecidable p) h

theorem out1 {t p q r : ℝ × ℝ} (h : signedArea p q t < 0) : ¬ InClosed t p q r := fun h' => not_le.2 h h'.1

theorem out2 {t p q r : ℝ × ℝ} (h : signedArea q r t < 0) : ¬ InClosed t p q r := fun h' => not_le.2 h h'.2.1

theorem out3 {t p q r : ℝ × ℝ} (h : signedArea r p t < 0) : ¬ InClosed t p q r := fun h' => not_le.2 h h'.2.2

/-- The corner is convex. -/
local macro "convex" : tactic => `(tactic| (apply tt; simp only [signedArea]; nlinarith))

/-- The corner is not convex. -/
local macro "reflex" : tactic => `(tactic| (apply ff; simp only [signedArea]; nlinarith))

/-- The point is in the triangle. -/
local macro "inside" : tactic =>
  `(tactic| (apply tt; simp only [InClosed, signedArea]; refine ⟨?_, ?_, ?_⟩ <;> nlinarith))

/-- The point is on the other side of one of the sides. -/
local macro "outside" : tactic => `(tactic| (apply ff; first
  | (apply out1; simp only [signedArea]; nlinarith) | (apply out2; simp only [signedArea]; nlinarith)
  | (apply out3; simp only [signedArea]; nlinarith)))

/-- The exact ear clipping of an L-shaped outline, for every first corner except the reflex one. -/
theorem ell_exact (hb : 0 < b) (hc : 0 < c) (ha : c < a) (hd : b < d) :
    (∃ near, exactTriangulate 14 ((ellShape a b c d).rotate 0) = some (.ok ((ellShape a b c d).rotate 0, ellTri near 0))) ∧
    ∀ k ∈ [1, 2, 4, 5], exactTriangulate 14 ((ellShape a b c d).rotate k) =
      some (.ok ((ellShape a b c d).rotate k, ellTri true k)) := by
  have e1 : 0 < a - c := by linarith
  have e2 : 0 < d - b := by linarith
  have m1 := mul_pos hb hc
  have m2 := mul_pos e1 e2
  have m3 := mul_pos hb e1
  have m4 := mul_pos hc e2
  have m5 := mul_pos hc e1
  have m6 := mul_pos hb e2
  constructor
  · by_cases h : b * a + c * d ≤ a * d
    · refine ⟨true, hex_first ?_ ?_ ?_ ?_ ?_ ?_ ?_ ?_ ?_ ?_ ?_ ?_⟩
      · convex
      · inside
      · convex
      · outside
      · outside
      · outside
      · convex
      · outside
      · outside
      · convex
      · outside
      · convex
    · push Not at h
      refine ⟨false, hex_alternate ?_ ?_ ?_ ?_ ?_ ?_ ?_ ?_ ?_ ?_ ?_ ?_⟩
      · convex
      iterate 3 (outside)
      · inside
      · convex
      iterate 2 (outside)
      · reflex
      · convex
      iterate 1 (outside)
      · convex
  · intro k hk
    simp only [List.mem_cons, List.not_mem_nil, or_false] at hk
    rcases hk with rfl | rfl | rfl | rfl
    · refine hex_fan ?_ ?_ ?_ ?_ ?_ ?_ ?_ ?_ ?_ ?_
      · convex
      iterate 3 (outside)
      · convex
      iterate 2 (outside)
      · convex
      iterate 1 (outside)
      · convex
    · refine hex_second ?_ ?_ ?_ ?_ (.inl ?_) ?_ ?_ ?_ ?_ ?_ ?_
      · convex
      iterate 3 (outside)
      · reflex
      · convex
      iterate 2 (outside)
      · convex
      iterate 1 (outside)
      · convex
    · refine hex_fan ?_ ?_ ?_ ?_ ?_ ?_ ?_ ?_ ?_ ?_
      · convex
      iterate 3 (outside)
      · convex
      iterate 2 (outside)
      · convex
      iterate 1 (outside)
      · convex
    · refine hex_second ?_ ?_ ?_ ?_ (.inr (.inr ?_)) ?_ ?_ ?_ ?_ ?_ ?_
      · convex
      iterate 3 (outside)
      · inside
      · convex
      iterate 2 (outside)
      · convex
      iterate 1 (outside)
      · convex

/-- The reflex corner first, seen from behind: the list is reversed. -/
theorem ell_exact_reflex (hb : 0 < b) (hc : 0 < c) (ha : c < a) (hd : b < d) :
    exactTriangulate 14 (((ellShape a b c d).rotate 3).map Prod.swap) =
      some (.ok ((((ellShape a b c d).rotate 3).map Prod.swap).reverse, ellTri true 4)) := by
  have e1 : 0 < a - c := by linarith
  have e2 : 0 < d - b := by linarith
  have m1 := mul_pos hb hc
  have m2 := mul_pos e1 e2
  have m3 := mul_pos hb e1
  have m4 := mul_pos hc e2
  have m5 := mul_pos hc e1
  have m6 := mul_pos hb e2
  show exactTriangulate 14 [(b, c), (d, c), (d, 0), (0, 0), (0, a), (b, a)] =
    some (.ok ([(b, a), (0, a), (0, 0), (d, 0), (d, c), (b, c)], [(5, 0, 1), (5, 1, 2), (5, 2, 3), (5, 3, 4)]))
  refine hex_wrong ?_ ?_ ?_ ?_ ?_ ?_ ?_ ?_ ?_ ?_ ?_ ?_ ?_ ?_ ?_ ?_ ?_ ?_ ?_
  · convex
  iterate 3 outside
  iterate 5 reflex
  · convex
  iterate 3 outside
  · convex
  iterate 2 outside
  · convex
  iterate 1 outside
  · convex

end exact

theorem _root_.B3d.Spec.Crisp.subset {m : ℝ} {pts l : List (ℝ × ℝ)} (h : Crisp m pts) (hl : ∀ p ∈ l, p ∈ pts) :
    Crisp m l :=
  ⟨h.scale, fun p hp q hq => h.far p (hl p hp) q (hl q hq), fun p hp q hq => h.near p (hl p hp) q (hl q hq),
    fun a ha b hb c hc => h.sides a (hl a ha) b (hl b hb) c (hl c hc)⟩

/-- It is enough to look at three corners in their order. -/
theorem sides_of_sorted {m : ℝ} {pts : List (ℝ × ℝ)}
    (h : ∀ (i j k : Nat) a b c, i < j → j < k → pts[i]? = some a → pts[j]? = some b → pts[k]? = some c →
      signedArea a b c = 0 ∨ m ^ 2 ≤ |signedArea a b c|) :
    ∀ a ∈ pts, ∀ b ∈ pts, ∀ c ∈ pts, signedArea a b c = 0 ∨ m ^ 2 ≤ |signedArea a b c| := by
  have rot : ∀ a b c : ℝ × ℝ, (signedArea b c a = 0 ∨ m ^ 2 ≤ |signedArea b c a|) →
      (signedArea a b c = 0 ∨ m ^ 2 ≤ |signedArea a b c|) := by
    intro a b c h
    rwa [show signedArea a b c = signedArea b c a by unfold signedArea; ring]
  have swap : ∀ a b c : ℝ × ℝ, (signedArea b a c = 0 ∨ m ^ 2 ≤ |signedArea b a c|) →
      (signedArea a b c = 0 ∨ m ^ 2 ≤ |signedArea a b c|) := by
    intro a b c h
    rwa [show signedArea a b c = -signedArea b a c by unfold signedArea; ring, neg_eq_zero, abs_neg]
  intro a ha b hb c hc
  obtain ⟨i, hi⟩ := List.getElem?_of_mem ha
  obtain ⟨j, hj⟩ := List.getElem?_of_mem hb
  obtain ⟨k, hk⟩ := List.getElem?_of_mem hc
  have e : ∀ i j : Nat, ∀ p q : ℝ × ℝ, pts[i]? = some p → pts[j]? = some q → i = j → p = q := by
    rintro i j p q h1 h2 rfl
    rw [h1] at h2
    exact Option.some.inj h2
  rcases lt_trichotomy i j with h1 | h1 | h1
  · rcases lt_trichotomy j k with h2 | h2 | h2
    · exact h i j k a b c h1 h2 hi hj hk
    · left; rw [e j k b c hj hk h2]; unfold signedArea; ring
    · rcases lt_trichotomy i k with h3 | h3 | h3
      · exact rot _ _ _ (swap _ _ _ (rot _ _ _ (rot _ _ _ (h i k j a c b h3 h2 hi hk hj))))
      · left; rw [e i k a c hi hk h3]; unfold signedArea; ring
      · exact rot _ _ _ (rot _ _ _ (h k i j c a b h3 h1 hk hi hj))
  · left; rw [e i j a b hi hj h1]; unfold signedArea; ring
  · rcases lt_trichotomy i k with h2 | h2 | h2
    · exact swap _ _ _ (h j i k b a c h1 h2 hj hi hk)
    · left; rw [e i k a c hi hk h2]; unfold signedArea; ring
    · rcases lt_trichotomy j k with h3 | h3 | h3
      · exact rot _ _ _ (h j k i b c a h3 h2 hj hk hi)
      · left; rw [e j k b c hj hk h3]; unfold signedArea; ring
      · exact rot _ _ _ (swap _ _ _ (h k j i c b a h3 h1 hk hj hi))

theorem ell_sides {m a b c d : ℝ} (h : EllSize m a b c d) (i j k : Nat) (p q r : ℝ × ℝ) (hij : i < j) (hjk : j < k)
    (hp : (ellShape a b c d)[i]? = some p) (hq : (ellShape a b c d)[j]? = some q) (hr : (ellShape a b c d)[k]? = some r) :
    signedArea p q r = 0 ∨ m ^ 2 ≤ |signedArea p q r| := by
  obtain ⟨hs, hb, hc, ha, hd, hA, hD, hh⟩ := h
  have hm : 0 < m := lt_of_lt_of_le (by norm_num) hs
  have e0 : 0 ≤ b - m := by linarith
  have e1 : 0 ≤ c - m := by linarith
  have e2 : 0 ≤ a - c - m := by linarith
  have e3 : 0 ≤ d - b - m := by linarith
  have m0 := mul_nonneg e0 e1
  have m1 := mul_nonneg e0 e2
  have m2 := mul_nonneg e1 e3
  have m3 := mul_nonneg e2 e3
  have m4 := mul_nonneg e1 e2
  have m5 := mul_nonneg e0 e3
  have n := sq_nonneg m
  have n0 := mul_nonneg e0 hm.le
  have n1 := mul_nonneg e1 hm.le
  have n2 := mul_nonneg e2 hm.le
  have n3 := mul_nonneg e3 hm.le
  have hk : k < 6 := by
    have := (List.getElem?_eq_some_iff.1 hr).1
    simpa [ellShape] using this
  have big : ∀ x : ℝ, m ^ 2 ≤ x → x = 0 ∨ m ^ 2 ≤ |x| := fun x h => .inr (h.trans (le_abs_self x))
  have small : ∀ x : ℝ, m ^ 2 ≤ -x → x = 0 ∨ m ^ 2 ≤ |x| := fun x h => .inr (h.trans (neg_le_abs x))
  have diag : ∀ x : ℝ, x = b * a + c * d - a * d ∨ x = -(b * a + c * d - a * d) → x = 0 ∨ m ^ 2 ≤ |x| := by
    rintro x (rfl | rfl)
    · exact hh.imp (fun h => by linarith) id
    · rw [abs_neg]; exact hh.imp (fun h => by linarith) id
  interval_cases k <;> interval_cases j <;> interval_cases i <;>
    simp only [ellShape, List.getElem?_cons_zero, List.getElem?_cons_succ, Option.some.injEq] at hp hq hr <;>
    subst hp hq hr <;>
    first
    | (apply diag; left; simp only [signedArea]; ring1)
    | (apply big; simp only [signedArea]; linarith)
    | (apply small; simp only [signedArea]; linarith)

theorem ell_crisp {m a b c d : ℝ} (h : EllSize m a b c d) : Crisp m (ellShape a b c d) := by
  obtain ⟨hs, hb, hc, ha, hd, hA, hD, hh⟩ := id h
  have hm : 0 < m := lt_of_lt_of_le (by norm_num) hs
  refine ⟨hs, ?_, ?_, sides_of_sorted (ell_sides h)⟩
  · have far : ∀ x y s t : ℝ, m ≤ |x - s| ∨ m ≤ |y - t| → m ^ 2 ≤ distSq (x, y) (s, t) := by
      intro x y s t h
      unfold distSq
      simp only
      rcases h with h | h
      · have := abs_mul_abs_self (x - s); nlinarith [sq_nonneg (y - t), abs_nonneg (x - s)]
      · have := abs_mul_abs_self (y - t); nlinarith [sq_nonneg (x - s), abs_nonneg (y - t)]
    have le : ∀ x y : ℝ, m ≤ x - y → m ≤ |x - y| := fun x y h => h.trans (le_abs_self _)
    have le' : ∀ x y : ℝ, m ≤ y - x → m ≤ |x - y| := fun x y h => by rw [abs_sub_comm]; exact le _ _ h
    intro p hp q hq hne
    simp only [ellShape, List.mem_cons, List.not_mem_nil, or_false] at hp hq
    rcases hp with rfl | rfl | rfl | rfl | rfl | rfl <;> rcases hq with rfl | rfl | rfl | rfl | rfl | rfl <;>
      first
      | exact absurd rfl hne
      | exact far _ _ _ _ (.inl (le _ _ (by linarith)))
      | exact far _ _ _ _ (.inl (le' _ _ (by linarith)))
      | exact far _ _ _ _ (.inr (le _ _ (by linarith)))
      | exact far _ _ _ _ (.inr (le' _ _ (by linarith)))
  · have near : ∀ x y s t : ℝ, 0 ≤ x → x ≤ a → 0 ≤ s → s ≤ a → 0 ≤ y → y ≤ d → 0 ≤ t → t ≤ d →
        distSq (x, y) (s, t) ≤ 5000 * m ^ 2 := by
      intro x y s t h1 h2 h3 h4 h5 h6 h7 h8
      unfold distSq
      simp only
      have e1 : (x - s) ^ 2 ≤ (50 * m) ^ 2 := sq_le_sq' (by linarith) (by linarith)
      have e2 : (y - t) ^ 2 ≤ (50 * m) ^ 2 := sq_le_sq' (by linarith) (by linarith)
      nlinarith
    intro p hp q hq
    simp only [ellShape, List.mem_cons, List.not_mem_nil, or_false] at hp hq
    rcases hp with rfl | rfl | rfl | rfl | rfl | rfl <;> rcases hq with rfl | rfl | rfl | rfl | rfl | rfl <;>
      exact near _ _ _ _ (by linarith) (by linarith) (by linarith) (by linarith) (by linarith) (by linarith) (by linarith)
        (by linarith)

theorem ell_swap_reverse (a b c d : ℝ) {k k' : Nat} (h : (k, k') ∈ [(0, 1), (1, 0), (2, 5), (5, 2), (4, 3), (3, 4)]) :
    (((ellShape a b c d).rotate k).reverse).map Prod.swap = (ellShape d c b a).rotate k' := by
  simp only [List.mem_cons, Prod.mk.injEq, List.not_mem_nil, or_false] at h
  rcases h with ⟨rfl, rfl⟩ | ⟨rfl, rfl⟩ | ⟨rfl, rfl⟩ | ⟨rfl, rfl⟩ | ⟨rfl, rfl⟩ | ⟨rfl, rfl⟩ <;> rfl

theorem _root_.B3d.Spec.EllSize.swap {m a b c d : ℝ} (h : EllSize m a b c d) : EllSize m d c b a :=
  ⟨h.scale, h.arm, h.foot, h.height, h.width, h.high, h.wide, by
    rcases h.diag with h | h
    · left; linarith
    · right; rwa [show c * d + b * a - d * a = b * a + c * d - a * d by ring]⟩

/-- An L-shaped outline becomes a polygon, for every first corner except the reflex one. -/
theorem ell_polygon {m a b c d : ℝ} {o u w : Vec3 ℝ} {k : Nat} (h : EllSize m a b c d) (hx : Axes u w)
    (hr : ∀ p ∈ ellShape a b c d, Reach m (inPlane o u w p)) (hk : k ∈ [0, 1, 2, 4, 5]) :
    ∃ P near, polygonNew (((ellShape a b c d).rotate k).map (inPlane o u w)) none none = .ok P ∧
      P.pts = ((ellShape a b c d).rotate k).map (inPlane o u w) ∧ P.vn = some (Vec3.cross u w) ∧ P.tri = ellTri near k := by
  have hm : 0 < m := lt_of_lt_of_le (by norm_num) h.scale
  have hb : 0 < b := hm.trans_le h.foot
  have hc : 0 < c := hm.trans_le h.arm
  have ha : c < a := by linarith [h.width]
  have hd : b < d := by linarith [h.height]
  obtain ⟨e0, ek⟩ := ell_exact hb hc ha hd
  have hsub : ∀ p ∈ (ellShape a b c d).rotate k, p ∈ ellShape a b c d := fun p hp => List.mem_rotate.1 hp
  have he : ∃ near, exactTriangulate 14 ((ellShape a b c d).rotate k) =
      some (.ok ((ellShape a b c d).rotate k, ellTri near k)) := by
    rcases List.mem_cons.1 hk with rfl | hk
    · exact e0
    · exact ⟨true, ek k hk⟩
  obtain ⟨near, he⟩ := he
  have hcr := (ell_crisp h).subset hsub
  have e1 : 0 < a - c := by linarith
  have e2 : 0 < d - b := by linarith
  have m1 := mul_pos hb hc
  have m2 := mul_pos e1 e2
  have m3 := mul_pos hb e1
  have m4 := mul_pos hc e2
  have hlen : ((ellShape a b c d).rotate k).length = 6 := by rw [List.length_rotate]; rfl
  have key : ∀ l p0 p1, ((ellShape a b c d).rotate k).getLast? = some l → ((ellShape a b c d).rotate k)[0]? = some p0 →
      ((ellShape a b c d).rotate k)[1]? = some p1 → 0 < signedArea l p0 p1 →
      ∃ P near, polygonNew (((ellShape a b c d).rotate k).map (inPlane o u w)) none none = .ok P ∧
        P.pts = ((ellShape a b c d).rotate k).map (inPlane o u w) ∧ P.vn = some (Vec3.cross u w) ∧
        P.tri = ellTri near k := by
    intro l p0 p1 hl h0 h1 hD
    have := polygonNew_inPlane (o := o) hx hcr (fun p hp => hr p (hsub p hp)) (by rw [hlen]; norm_num) hl h0 h1 hD
    rw [hlen, show 2 * 6 + 2 = 14 from rfl, he] at this
    obtain ⟨P, h1, h2, h3, h4⟩ := this
    exact ⟨P, near, h1, h2, h3, h4⟩
  simp only [List.mem_cons, List.not_mem_nil, or_false] at hk
  rcases hk with rfl | rfl | rfl | rfl | rfl
  · exact key (0, d) (0, 0) (a, 0) rfl rfl rfl (by simp only [signedArea]; nlinarith)
  · exact key (0, 0) (a, 0) (a, b) rfl rfl rfl (by simp only [signedArea]; nlinarith)
  · exact key (a, 0) (a, b) (c, b) rfl rfl rfl (by simp only [signedArea]; nlinarith)
  · exact key (c, b) (c, d) (0, d) rfl rfl rfl (by simp only [signedArea]; nlinarith)
  · exact key (c, d) (0, d) (0, 0) rfl rfl rfl (by simp only [signedArea]; nlinarith)

/-- An L-shaped outline which begins at its reflex corner: the list is reversed, the normal points to the other side. -/
theorem ell_polygon_reflex {m a b c d : ℝ} {o u w : Vec3 ℝ} (h : EllSize m a b c d) (hx : Axes u w)
    (hr : ∀ p ∈ ellShape a b c d, Reach m (inPlane o u w p)) :
    ∃ P, polygonNew (((ellShape a b c d).rotate 3).map (inPlane o u w)) none none = .ok P ∧
      P.pts = (((ellShape a b c d).rotate 3).map (inPlane o u w)).reverse ∧ P.vn = some ((-1 : ℝ) • Vec3.cross u w) := by
  have hm : 0 < m := lt_of_lt_of_le (by norm_num) h.scale
  have hb : 0 < b := hm.trans_le h.foot
  have hc : 0 < c := hm.trans_le h.arm
  have ha : c < a := by linarith [h.width]
  have hd : b < d := by linarith [h.height]
  have he := ell_exact_reflex hb hc ha hd
  have hsub : ∀ p ∈ (ellShape a b c d).rotate 3, p ∈ ellShape a b c d := fun p hp => List.mem_rotate.1 hp
  have hcr := ((ell_crisp h).subset hsub).swapped
  have key := polygonNew_inPlane (o := o) (Axes_symm hx) hcr
    (by
      intro p hp
      obtain ⟨q, hq, rfl⟩ := List.mem_map.1 hp
      rw [inPlane_swap]
      exact hr q (hsub q hq))
    (by simp [ellShape]) (l := (b, a)) (p0 := (b, c)) (p1 := (d, c)) rfl rfl rfl
    (by simp only [signedArea]; nlinarith [mul_pos (sub_pos.2 ha) (sub_pos.2 hd)])
  rw [show 2 * (((ellShape a b c d).rotate 3).map Prod.swap).length + 2 = 14 from rfl, he] at key
  obtain ⟨P, h1, h2, h3, -⟩ := key
  have e' : (((ellShape a b c d).rotate 3).map Prod.swap).map (inPlane o w u) =
      ((ellShape a b c d).rotate 3).map (inPlane o u w) := by
    rw [List.map_map]
    exact List.map_congr_left fun p _ => inPlane_swap o u w p
  rw [List.map_reverse, e'] at h2
  rw [e'] at h1
  refine ⟨P, h1, h2, ?_⟩
  rw [h3]
  congr 1
  ext <;> simp [Vec3.cross] <;> ring

/-- The reversed outline. -/
theorem ell_reverse {m a b c d : ℝ} {o u w : Vec3 ℝ} {k : Nat} (h : EllSize m a b c d) (hx : Axes u w)
    (hr : ∀ p ∈ ellShape a b c d, Reach m (inPlane o u w p)) (hk : k ∈ [0, 1, 2, 5]) :
    ∃ Q, polygonNew (((ellShape a b c d).rotate k).map (inPlane o u w)).reverse none none = .ok Q ∧
      Q.pts = (((ellShape a b c d).rotate k).map (inPlane o u w)).reverse ∧ Q.vn = some ((-1 : ℝ) • Vec3.cross u w) := by
  obtain ⟨k', hk', hk2⟩ : ∃ k', (k, k') ∈ [(0, 1), (1, 0), (2, 5), (5, 2), (4, 3), (3, 4)] ∧ k' ∈ [0, 1, 2, 4, 5] := by
    simp only [List.mem_cons, List.not_mem_nil, or_false] at hk
    rcases hk with rfl | rfl | rfl | rfl
    · exact ⟨1, by simp, by simp⟩
    · exact ⟨0, by simp, by simp⟩
    · exact ⟨5, by simp, by simp⟩
    · exact ⟨2, by simp, by simp⟩
  have e := ell_swap_reverse a b c d hk'
  have hrr : ∀ p ∈ ellShape d c b a, Reach m (inPlane o w u p) := by
    intro p hp
    have : p ∈ (((ellShape a b c d).rotate k).reverse).map Prod.swap := by rw [e]; exact List.mem_rotate.2 hp
    obtain ⟨q, hq, rfl⟩ := List.mem_map.1 this
    rw [inPlane_swap]
    exact hr q (List.mem_rotate.1 (List.mem_reverse.1 hq))
  obtain ⟨Q, near, h1, h2, h3, -⟩ := ell_polygon h.swap (Axes_symm hx) hrr hk2
  have e' : ((ellShape d c b a).rotate k').map (inPlane o w u) =
      (((ellShape a b c d).rotate k).map (inPlane o u w)).reverse := by
    rw [← e, List.map_map, ← List.map_reverse]
    apply List.map_congr_left
    intro p _
    exact inPlane_swap o u w p
  rw [e'] at h1 h2
  refine ⟨Q, h1, h2, ?_⟩
  rw [h3]
  congr 1
  ext <;> simp [Vec3.cross] <;> ring

/-- The reversed outline, if the reflex corner is the last one. -/
theorem ell_reverse_reflex {m a b c d : ℝ} {o u w : Vec3 ℝ} (h : EllSize m a b c d) (hx : Axes u w)
    (hr : ∀ p ∈ ellShape a b c d, Reach m (inPlane o u w p)) :
    ∃ Q, polygonNew (((ellShape a b c d).rotate 4).map (inPlane o u w)).reverse none none = .ok Q ∧
      Q.pts = ((ellShape a b c d).rotate 4).map (inPlane o u w) ∧ Q.vn = some (Vec3.cross u w) := by
  have e := ell_swap_reverse a b c d (k := 4) (k' := 3) (by simp)
  have hrr : ∀ p ∈ ellShape d c b a, Reach m (inPlane o w u p) := by
    intro p hp
    have : p ∈ (((ellShape a b c d).rotate 4).reverse).map Prod.swap := by rw [e]; exact List.mem_rotate.2 hp
    obtain ⟨q, hq, rfl⟩ := List.mem_map.1 this
    rw [inPlane_swap]
    exact hr q (List.mem_rotate.1 (List.mem_reverse.1 hq))
  obtain ⟨Q, h1, h2, h3⟩ := ell_polygon_reflex h.swap (Axes_symm hx) hrr
  have e' : ((ellShape d c b a).rotate 3).map (inPlane o w u) =
      (((ellShape a b c d).rotate 4).map (inPlane o u w)).reverse := by
    rw [← e, List.map_map, ← List.map_reverse]
    apply List.map_congr_left
    intro p _
    exact inPlane_swap o u w p
  rw [e'] at h1 h2
  refine ⟨Q, h1, by rw [h2, List.reverse_reverse], ?_⟩
  rw [h3]
  congr 1
  ext <;> simp [Vec3.cross] <;> ring

/-- The reversed outline, if the reflex corner is the first one. -/
theorem ell_reverse_first {m a b c d : ℝ} {o u w : Vec3 ℝ} (h : EllSize m a b c d) (hx : Axes u w)
    (hr : ∀ p ∈ ellShape a b c d, Reach m (inPlane o u w p)) :
    ∃ Q, polygonNew (((ellShape a b c d).rotate 3).map (inPlane o u w)).reverse none none = .ok Q ∧
      Q.pts = (((ellShape a b c d).rotate 3).map (inPlane o u w)).reverse ∧ Q.vn = some ((-1 : ℝ) • Vec3.cross u w) := by
  have e := ell_swap_reverse a b c d (k := 3) (k' := 4) (by simp)
  have hrr : ∀ p ∈ ellShape d c b a, Reach m (inPlane o w u p) := by
    intro p hp
    have : p ∈ (((ellShape a b c d).rotate 3).reverse).map Prod.swap := by rw [e]; exact List.mem_rotate.2 hp
    obtain ⟨q, hq, rfl⟩ := List.mem_map.1 this
    rw [inPlane_swap]
    exact hr q (List.mem_rotate.1 (List.mem_reverse.1 hq))
  obtain ⟨Q, -, h1, h2, h3, -⟩ := ell_polygon (k := 4) h.swap (Axes_symm hx) hrr (by simp)
  have e' : ((ellShape d c b a).rotate 4).map (inPlane o w u) =
      (((ellShape a b c d).rotate 3).map (inPlane o u w)).reverse := by
    rw [← e, List.map_map, ← List.map_reverse]
    apply List.map_congr_left
    intro p _
    exact inPlane_swap o u w p
  rw [e'] at h1 h2
  refine ⟨Q, h1, h2, ?_⟩
  rw [h3]
  congr 1
  ext <;> simp [Vec3.cross] <;> ring

end B3d.Ell
