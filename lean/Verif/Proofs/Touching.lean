import Verif.Proofs.Crossing
import Verif.Proofs.PolygonObj

/-!
# Lemmas on touching polygons
-/

namespace B3d.Polygon

open Spec Points Triangles

/-- Some point which divides the edge into quarters, or an end of it, is found inside, off the boundary. -/
def QuarterInside (ptsA : List (Vec3 ℝ)) (triA : List Tri) (e : Vec3 ℝ × Vec3 ℝ) : Prop :=
  ∃ j : Nat, j ≤ 4 ∧ Polygon.isPointInside (e.1 + ((j : ℝ) / 4) • (e.2 - e.1)) ptsA triA false = .ok true

theorem quarters_iff {ptsA : List (Vec3 ℝ)} {triA : List Tri} (h : Sturdy ptsA triA) (a b : Vec3 ℝ) :
    ∃ r, anyOk (fun x => Polygon.isPointInside (newPointBetween a b x) ptsA triA false) (linspace01 4) = .ok r ∧
      (r = true ↔ QuarterInside ptsA triA (a, b)) := by
  obtain ⟨r, hr, hir⟩ := anyOk_iff (f := fun x => Polygon.isPointInside (newPointBetween a b x) ptsA triA false)
    (linspace01 4) fun x _ => by
      obtain ⟨b, hb, -⟩ := isPointInside_iff (x := newPointBetween a b x) false GEOM_ATOL h
      exact ⟨b, hb⟩
  refine ⟨r, hr, ?_⟩
  rw [hir, QuarterInside]
  constructor
  · rintro ⟨x, hx, hs⟩
    obtain ⟨k, hk, rfl⟩ := mem_linspace01.1 hx
    rw [newPointBetween_on] at hs
    exact ⟨k, hk, by simpa using hs⟩
  · rintro ⟨k, hk, hs⟩
    refine ⟨_, mem_linspace01.2 ⟨k, hk, rfl⟩, ?_⟩
    rw [newPointBetween_on]
    simpa using hs

theorem againstLoop_iff {ptsA : List (Vec3 ℝ)} {triA : List Tri} (h : Sturdy ptsA triA) :
    ∀ (pts : List (Vec3 ℝ)) (prev : Vec3 ℝ) (bnd ins : Bool), ∃ bnd' ins',
      againstLoop ptsA triA prev pts bnd ins = .ok (bnd', ins') ∧
      (bnd' = true ↔ bnd = true ∨ ∃ p ∈ pts, isPointAtBoundary p ptsA = .ok true) ∧
      (ins' = true ↔ ins = true ∨ ∃ e ∈ List.zip (prev :: pts) pts, QuarterInside ptsA triA e)
  | [], prev, bnd, ins => ⟨bnd, ins, rfl, by simp, by simp⟩
  | p :: pts, prev, bnd, ins => by
    obtain ⟨m, hm, him⟩ := quarters_iff h prev p
    obtain ⟨i, hi, -⟩ := isPointInside_iff (x := p) false GEOM_ATOL h
    have hat := atBoundary_eq h.1 p GEOM_ATOL
    have hi' : i = true → m = true := by
      intro hit
      rw [him]
      refine ⟨4, le_refl _, ?_⟩
      rw [hit] at hi
      have : prev + (((4 : ℕ) : ℝ) / 4) • (p - prev) = p := by ext <;> norm_num
      rw [this, hi]
    unfold againstLoop
    rw [hm, hat, hi]
    simp only
    obtain ⟨bnd', ins', he, hb, hin⟩ := againstLoop_iff h pts p (bnd || boundaryLoop p GEOM_ATOL (cycEdges ptsA))
      (ins || (m || i))
    refine ⟨bnd', ins', he, ?_, ?_⟩
    · rw [hb, List.exists_mem_cons_iff, hat, Except.ok.injEq, Bool.or_eq_true, or_assoc]
    · rw [hin, List.zip_cons_cons, List.exists_mem_cons_iff, ← him, Bool.or_eq_true, Bool.or_eq_true, or_assoc]
      have : (m = true ∨ i = true) ↔ m = true := ⟨fun h => h.elim id hi', .inl⟩
      rw [this]

theorem mem_zip_last {α : Type} {l : List α} {a : α} (hl : l.getLast? = some a) {e : α × α} :
    e ∈ List.zip (a :: l) l ↔ e ∈ cycEdges l := by
  rw [mem_cycEdges_iff]
  have hn : l ≠ [] := by rintro rfl; cases hl
  have hpos : 0 < l.length := List.length_pos_of_ne_nil hn
  have ha : a = l[l.length - 1] := by
    rw [List.getLast?_eq_getElem?, List.getElem?_eq_getElem (by omega), Option.some.injEq] at hl
    exact hl.symm
  rw [List.mem_iff_getElem]
  constructor
  · rintro ⟨k, hk, rfl⟩
    have hk' : k < l.length := by simp at hk; omega
    match k, hk, hk' with
    | 0, hk, hk' =>
      refine ⟨l.length - 1, by omega, ?_⟩
      have e1 : (l.length - 1 + 1) % l.length = 0 := by rw [Nat.sub_add_cancel hpos, Nat.mod_self]
      simp only [List.getElem_zip, List.getElem_cons_zero, Prod.mk.injEq]
      exact ⟨ha, by congr 1; exact e1.symm⟩
    | k + 1, hk, hk' =>
      refine ⟨k, by omega, ?_⟩
      simp only [List.getElem_zip, List.getElem_cons_succ, Prod.mk.injEq, true_and]
      congr 1
      rw [Nat.mod_eq_of_lt hk']
  · rintro ⟨k, hk, rfl⟩
    by_cases hk1 : k + 1 = l.length
    · refine ⟨0, by simp; omega, ?_⟩
      simp only [List.getElem_zip, List.getElem_cons_zero, Prod.mk.injEq]
      refine ⟨by rw [ha]; congr 1; omega, by congr 1; rw [hk1, Nat.mod_self]⟩
    · refine ⟨k + 1, by simp; omega, ?_⟩
      simp only [List.getElem_zip, List.getElem_cons_succ, Prod.mk.injEq, true_and]
      congr 1
      rw [Nat.mod_eq_of_lt (by omega)]

theorem checkAgainst_iff {ptsA ptsB : List (Vec3 ℝ)} {triA : List Tri} (h : Sturdy ptsA triA) (hB : ptsB ≠ []) :
    ∃ bnd ins, checkAgainst ptsA triA ptsB = .ok (bnd, ins) ∧
      (bnd = true ↔ ∃ p ∈ ptsB, isPointAtBoundary p ptsA = .ok true) ∧
      (ins = true ↔ ∃ e ∈ cycEdges ptsB, QuarterInside ptsA triA e) := by
  obtain ⟨bnd, ins, he, hb, hi⟩ := againstLoop_iff h ptsB (ptsB.getLast hB) false false
  unfold checkAgainst
  rw [List.getLast?_eq_some_getLast hB]
  refine ⟨bnd, ins, he, by simpa using hb, ?_⟩
  rw [hi]
  simp only [Bool.false_eq_true, false_or]
  constructor
  · rintro ⟨e, he, hq⟩
    exact ⟨e, (mem_zip_last (List.getLast?_eq_some_getLast hB)).1 he, hq⟩
  · rintro ⟨e, he, hq⟩
    exact ⟨e, (mem_zip_last (List.getLast?_eq_some_getLast hB)).2 he, hq⟩

/-- What `are_polygons_touching` computes, for polygons whose triangles are not degenerate. -/
theorem touching_iff {pts1 pts2 : List (Vec3 ℝ)} {tri1 tri2 : List Tri} (h1 : Sturdy pts1 tri1)
    (h2 : Sturdy pts2 tri2) :
    ∃ r b1 b2, arePolygonsTouching pts1 tri1 pts2 tri2 = .ok r ∧ Bboxes.boundingBox pts1 = .ok b1 ∧
      Bboxes.boundingBox pts2 = .ok b2 ∧
      (r = true ↔ Bboxes.areBboxesOverlapping b1 b2 = true ∧ areAllPointsSame pts1 pts2 = false ∧
        (¬ ∃ e ∈ cycEdges pts2, QuarterInside pts1 tri1 e) ∧ (¬ ∃ e ∈ cycEdges pts1, QuarterInside pts2 tri2 e) ∧
        ((∃ p ∈ pts2, isPointAtBoundary p pts1 = .ok true) ∨ ∃ p ∈ pts1, isPointAtBoundary p pts2 = .ok true)) := by
  obtain ⟨b1, b2, hb1, hb2, -⟩ := Bboxes.C26_overlap_iff_common_point pts1 pts2 h1.1 h2.1
  obtain ⟨t1, i1, c1, ht1, hi1⟩ := checkAgainst_iff h1 h2.1
  obtain ⟨t2, i2, c2, ht2, hi2⟩ := checkAgainst_iff h2 h1.1
  unfold arePolygonsTouching
  rw [hb1, hb2]
  simp only
  by_cases ho : Bboxes.areBboxesOverlapping b1 b2 = false
  · rw [if_pos ho]
    exact ⟨false, b1, b2, rfl, rfl, rfl, by simp [ho]⟩
  · rw [if_neg ho]
    by_cases hs : areAllPointsSame pts1 pts2 = true
    · rw [if_pos hs]
      exact ⟨false, b1, b2, rfl, rfl, rfl, by simp [hs]⟩
    · rw [if_neg hs, c1, c2]
      simp only
      rw [← hi1, ← hi2, ← ht1, ← ht2]
      rw [Bool.not_eq_false] at ho
      rw [Bool.not_eq_true] at hs
      simp only [hs, true_and]
      cases i1 <;> cases i2 <;> cases t1 <;> cases t2 <;> exact ⟨_, b1, b2, rfl, rfl, rfl, by simp [ho]⟩

theorem allSame_false {pts1 pts2 : List (Vec3 ℝ)} {p : Vec3 ℝ} (hp : p ∈ pts1)
    (h : ∀ q ∈ pts2, pointsEqual p q = false) : areAllPointsSame pts1 pts2 = false := by
  rw [areAllPointsSame, decide_eq_false_iff_not]
  intro hm
  obtain ⟨js, h1, -, -, h4⟩ := matchLoop_full pts1 [] 0 (by rw [hm, Nat.zero_add])
  obtain ⟨k, hk, rfl⟩ := List.mem_iff_getElem.1 hp
  obtain ⟨q, hq, he⟩ := h4 k _ js[k] (List.getElem?_eq_getElem hk) (List.getElem?_eq_getElem (by omega))
  rw [List.mem_zipIdx_iff_getElem?] at hq
  rw [h q (List.mem_of_getElem? hq)] at he
  cases he

theorem allSame_iff {pts1 pts2 : List (Vec3 ℝ)} (h : ∀ p ∈ pts1, ∀ q ∈ pts2, pointsEqual p q = true → p = q) :
    areAllPointsSame pts1 pts2 = true ↔ pts1.Subperm pts2 := by
  rw [areAllPointsSame, decide_eq_true_iff]
  have := matchLoop_subperm (eq := fun a b : Vec3 ℝ => Points.pointsEqual a b) (zipIdx_snd_nodup pts2) pts1
    (fun p hp a ha => ?_) [] 0
  · rwa [Nat.zero_add, unmatched_nil] at this
  · refine ⟨h p hp a.1 ?_, fun e => ?_⟩
    · have := List.mem_map_of_mem (f := Prod.fst) ha
      rwa [List.zipIdx_map_fst] at this
    · rw [e]
      exact decide_eq_true (allClose_self NP_RTOL_nonneg GEOM_ATOL_pos.le)

end B3d.Polygon
