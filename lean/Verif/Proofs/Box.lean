import Verif.Proofs.Solids
import Verif.Proofs.Rectangle

/-! # Lemmas about boxes -/

namespace B3d.Solids

open Triangles Polygon Spec Points

theorem mapExcept_ok {α β : Type} {f : α → Except PyErr β} {R : α → β → Prop} :
    ∀ {l : List α}, (∀ a ∈ l, ∃ b, f a = .ok b ∧ R a b) → ∃ bs, mapExcept f l = .ok bs ∧ List.Forall₂ R l bs
  | [], _ => ⟨[], rfl, .nil⟩
  | a :: l, h => by
    obtain ⟨b, hb, hr⟩ := h a List.mem_cons_self
    obtain ⟨bs, hbs, hrs⟩ := mapExcept_ok (l := l) fun x hx => h x (List.mem_cons_of_mem _ hx)
    exact ⟨b :: bs, by simp only [mapExcept, hb, hbs], .cons hr hrs⟩

theorem mapExcept_forall {α β : Type} {f : α → Except PyErr β} :
    ∀ {l : List α} {bs : List β}, mapExcept f l = .ok bs → List.Forall₂ (fun a b => f a = .ok b) l bs
  | [], bs, h => by simp only [mapExcept, Except.ok.injEq] at h; rw [← h]; exact .nil
  | a :: l, bs, h => by
    simp only [mapExcept] at h
    split at h
    · cases h
    · rename_i b hb
      split at h
      · cases h
      · rename_i bs' hbs
        cases h
        exact .cons hb (mapExcept_forall hbs)

theorem cycEdges_map {α β : Type} (f : α → β) (l : List α) :
    cycEdges (l.map f) = (cycEdges l).map (Prod.map f f) := by
  cases l with
  | nil => rfl
  | cons a t =>
    simp only [List.map_cons, cycEdges]
    rw [← List.map_cons (f := f), show t.map f ++ [f a] = (t ++ [a]).map f by simp, List.zip_map]

theorem allEdges_map {α β : Type} (f : α → β) (fs : List (List α)) :
    allEdges (fs.map (List.map f)) = (allEdges fs).map (Prod.map f f) := by
  unfold allEdges
  rw [List.flatMap_map, List.map_flatMap]
  congr 1
  funext l
  exact cycEdges_map f l

theorem Closed.map {α β : Type} {fs : List (List α)} (h : Closed fs) (f : α → β) :
    Closed (fs.map (List.map f)) := by
  unfold Closed at h ⊢
  rw [allEdges_map]
  have := h.map (Prod.map f f)
  rw [List.map_map] at this ⊢
  exact this

/-- The corners of a box by number. -/
def boxCorner (x y z : ℝ) (mv : Vec3 ℝ) : Fin 8 → Vec3 ℝ
  | 0 => boxPoint x y z mv 0 0 0
  | 1 => boxPoint x y z mv 1 0 0
  | 2 => boxPoint x y z mv 1 1 0
  | 3 => boxPoint x y z mv 0 1 0
  | 4 => boxPoint x y z mv 0 0 1
  | 5 => boxPoint x y z mv 1 0 1
  | 6 => boxPoint x y z mv 1 1 1
  | 7 => boxPoint x y z mv 0 1 1

/-- The faces by numbers of corners. -/
def boxNumbers : List (List (Fin 8)) :=
  [[0, 3, 2, 1], [0, 1, 5, 4], [1, 2, 6, 5], [3, 7, 6, 2], [0, 4, 7, 3], [4, 5, 6, 7]]

theorem boxFaces_numbers (x y z : ℝ) (mv : Vec3 ℝ) :
    (boxFaces x y z mv).map (fun f => f.2.2) = boxNumbers.map (List.map (boxCorner x y z mv)) := rfl

theorem boxNumbers_closed : Closed boxNumbers := by
  unfold Closed
  decide +kernel

theorem boxNumbers_nodup : (allEdges boxNumbers).Nodup := by decide +kernel

theorem boxCorner_injective {x y z : ℝ} (hx : 0 < x) (hy : 0 < y) (hz : 0 < z) (mv : Vec3 ℝ) :
    Function.Injective (boxCorner x y z mv) := by
  intro i j h
  have h1 := congrArg Vec3.x h
  have h2 := congrArg Vec3.y h
  have h3 := congrArg Vec3.z h
  fin_cases i <;> fin_cases j <;> first
    | rfl
    | (exfalso; simp [boxCorner, boxPoint] at h1 h2 h3; linarith)

/-! ### Rectangles parallel to the axes -/

theorem ne_of_far {p q : ℝ} (h : 1 / 10 ^ 13 + 1 / 10 ^ 5 * |q| < |p - q|) : ¬ isClose p q NP_RTOL GEOM_ATOL := by
  unfold isClose
  simp only [NP_RTOL, GEOM_ATOL]
  exact not_le.2 h

theorem norm_axis {u : Vec3 ℝ} {k : ℝ} (hk : 0 ≤ k) (h : Vec3.normSq u = k * k) : Vec3.norm u = k := by
  rw [Vec3.norm, h, Real.sqrt_mul_self hk]

/-- A rectangle whose sides have lengths between `1/1000` and `M`, with `M ≤ 10000` times each side, and which
lies within `M` of the origin. -/
theorem goodRect_of_size {a u w : Vec3 ℝ} {k l M : ℝ} (ho : Vec3.dot u w = 0) (hk : Vec3.normSq u = k * k)
    (hl : Vec3.normSq w = l * l) (hk1 : 1 / 1000 ≤ k) (hl1 : 1 / 1000 ≤ l) (hkM : k ≤ M) (hlM : l ≤ M)
    (hMk : M ≤ 10000 * k) (hMl : M ≤ 10000 * l)
    (h1 : Points.pointsEqual (a + u + w) (a + w) = false)
    (h2 : Points.pointsEqual (a + u + w) a = false)
    (h3 : Points.pointsEqual (a + u + w) (a + u) = false) : GoodRect a u w := by
  have hk0 : 0 < k := by linarith
  have hl0 : 0 < l := by linarith
  have eu := norm_axis hk0.le hk
  have ew := norm_axis hl0.le hl
  refine ⟨ho, ?_, ?_, ?_, ?_, ?_, h1, h2, h3⟩
  · rw [eu, ew]
    have := mul_le_mul hk1 hl1 (by norm_num) hk0.le
    norm_num at this ⊢
    linarith
  · rw [hk, hl]
    have : k ≤ 10000 * l := by linarith
    have := mul_le_mul this this hk0.le (by positivity)
    linarith
  · rw [hk, hl]
    have : l ≤ 10000 * k := by linarith
    have := mul_le_mul this this hl0.le (by positivity)
    linarith
  · rw [eu]; norm_num at hk1 ⊢; linarith
  · rw [ew]; norm_num at hl1 ⊢; linarith

theorem far_of_size {s c k M : ℝ} (hk1 : 1 / 1000 ≤ k) (hMk : M ≤ 10000 * k) (hc : |c| ≤ M)
    (hs : |s - c| = k) : ¬ isClose s c NP_RTOL GEOM_ATOL := by
  apply ne_of_far
  rw [hs]
  norm_num at hk1 ⊢
  linarith

theorem pointsEqual_false_x {p q : Vec3 ℝ} (h : ¬ isClose p.x q.x NP_RTOL GEOM_ATOL) :
    Points.pointsEqual p q = false := decide_eq_false fun h' => h h'.1
theorem pointsEqual_false_y {p q : Vec3 ℝ} (h : ¬ isClose p.y q.y NP_RTOL GEOM_ATOL) :
    Points.pointsEqual p q = false := decide_eq_false fun h' => h h'.2.1
theorem pointsEqual_false_z {p q : Vec3 ℝ} (h : ¬ isClose p.z q.z NP_RTOL GEOM_ATOL) :
    Points.pointsEqual p q = false := decide_eq_false fun h' => h h'.2.2

theorem unit_of_smul {e : Vec3 ℝ} {k : ℝ} (hk : 0 < k) (he : Vec3.normSq e = 1) :
    (1 / Vec3.norm (k • e)) • (k • e) = e := by
  have : Vec3.norm (k • e) = k := norm_axis hk.le (by
    rw [show Vec3.normSq (k • e) = k * k * Vec3.normSq e by
      simp only [Vec3.normSq_def, Vec3.smul_x, Vec3.smul_y, Vec3.smul_z]; ring, he, mul_one])
  rw [this, smul_smul, one_div, inv_mul_cancel₀ hk.ne', one_smul]

theorem rectNormal_eq {u w e : Vec3 ℝ} {k : ℝ} (hk : 0 < k) (he : Vec3.normSq e = 1)
    (h : Vec3.cross u w = k • e) : rectNormal u w = e := by
  rw [rectNormal, h]
  exact unit_of_smul hk he

end B3d.Solids
