import Verif.Model.Intersect
import Verif.Props.Points
import Verif.Proofs.Tactics
import Mathlib.Data.List.Basic
import Mathlib.Data.List.Perm.Subperm

/-! # Lemmas about intersections, visibility and closest pairs -/

namespace B3d.Points

set_option linter.unusedSectionVars false

/-! ### Lines -/

theorem lagrange {K : Type} [Field K] (a b : Vec3 K) :
    Vec3.dot a a * Vec3.dot b b - Vec3.dot a b * Vec3.dot a b = Vec3.normSq (Vec3.cross a b) := by
  simp only [Vec3.normSq, Vec3.dot, Vec3.cross]; ring

theorem unit_smul {d : Vec3 ℝ} {c : ℝ} (hc : c ≠ 0) (hd : d ≠ 0) :
    unit (c • d) = unit d ∨ unit (c • d) = (-1 : ℝ) • unit d := by
  have hn : Vec3.norm d ≠ 0 := fun h => hd (Vec3.norm_eq_zero.1 h)
  simp only [unit, Vec3.norm_smul]
  rcases lt_or_gt_of_ne hc with h | h
  · right
    rw [abs_of_neg h, smul_smul, smul_smul]
    congr 1
    field_simp
  · left
    rw [abs_of_pos h, smul_smul]
    congr 1
    field_simp

theorem parallel_of_cross {d1 d2 : Vec3 ℝ} (h1 : d1 ≠ 0) (h : Vec3.cross d1 d2 = 0) :
    ∃ c : ℝ, d2 = c • d1 := by
  have hp := Vec3.normSq_pos h1
  refine ⟨Vec3.dot d1 d2 / Vec3.normSq d1, ?_⟩
  simp only [Vec3.ext_iff, Vec3.cross_x, Vec3.cross_y, Vec3.cross_z, Vec3.zero_x, Vec3.zero_y,
    Vec3.zero_z] at h
  obtain ⟨hx, hy, hz⟩ := h
  have hn : Vec3.normSq d1 ≠ 0 := hp.ne'
  ext <;> simp only [Vec3.smul_x, Vec3.smul_y, Vec3.smul_z] <;> rw [div_mul_eq_mul_div, eq_div_iff hn] <;>
    simp only [Vec3.normSq, Vec3.dot]
  · linear_combination d1.z * hy - d1.y * hz
  · linear_combination d1.x * hz - d1.z * hx
  · linear_combination d1.y * hx - d1.x * hy

theorem NP_ATOL_nonneg : (0 : ℝ) ≤ NP_ATOL := by unfold NP_ATOL; positivity

theorem not_zero_of_not_close {d : Vec3 ℝ} (h : ¬ allClose d 0 NP_RTOL NP_ATOL) : d ≠ 0 := by
  rintro rfl
  exact h (allClose_self NP_RTOL_nonneg NP_ATOL_nonneg)

/-- Directions which the code does not take for parallel are not. -/
theorem cross_ne {d1 d2 : Vec3 ℝ} (h1 : ¬ allClose d1 0 NP_RTOL NP_ATOL)
    (h2 : ¬ allClose d2 0 NP_RTOL NP_ATOL) (h3 : ¬ allClose (unit d1) (unit d2) NP_RTOL NP_ATOL)
    (h4 : ¬ allClose (unit d1) ((-1 : ℝ) • unit d2) NP_RTOL NP_ATOL) : Vec3.cross d1 d2 ≠ 0 := by
  intro h
  have hd1 := not_zero_of_not_close h1
  have hd2 := not_zero_of_not_close h2
  obtain ⟨c, rfl⟩ := parallel_of_cross hd1 h
  have hc : c ≠ 0 := by
    rintro rfl
    exact hd2 (by simp)
  rcases unit_smul hc hd1 with e | e
  · rw [e] at h3
    exact h3 (allClose_self NP_RTOL_nonneg NP_ATOL_nonneg)
  · rw [e, smul_smul] at h4
    norm_num at h4
    exact h4 (allClose_self NP_RTOL_nonneg NP_ATOL_nonneg)

theorem lstsq_exact {d1 d2 : Vec3 ℝ} (h : Vec3.cross d1 d2 ≠ 0) (t s : ℝ) :
    lstsq d1 d2 (t • d1 - s • d2) = (t, s) := by
  have hp : Vec3.dot d1 d1 * Vec3.dot d2 d2 - Vec3.dot d1 d2 * Vec3.dot d1 d2 ≠ 0 := by
    rw [lagrange]; exact (Vec3.normSq_pos h).ne'
  simp only [lstsq, Prod.mk.injEq]
  constructor
  · rw [div_eq_iff hp]
    rw [Vec3.dot_sub_right, Vec3.dot_sub_right, Vec3.dot_smul_right, Vec3.dot_smul_right,
      Vec3.dot_smul_right, Vec3.dot_smul_right, Vec3.dot_comm d2 d1]
    ring
  · rw [div_eq_iff hp]
    rw [Vec3.dot_sub_right, Vec3.dot_sub_right, Vec3.dot_smul_right, Vec3.dot_smul_right,
      Vec3.dot_smul_right, Vec3.dot_smul_right, Vec3.dot_comm d2 d1]
    ring

/-! ### Visibility -/

theorem blockedBy_false_iff (pt0 pt1 : Vec3 ℝ) : ∀ es : List (Vec3 ℝ × Vec3 ℝ),
    blockedBy pt0 pt1 es = false ↔ ∀ e ∈ es,
      (pointsEqual e.1 pt0 = true ∨ pointsEqual e.1 pt1 = true ∨ pointsEqual e.2 pt0 = true ∨
        pointsEqual e.2 pt1 = true) ∨ lineSegmentIntersection pt0 pt1 e.1 e.2 = none
  | [] => by simp [blockedBy]
  | (e0, e1) :: es => by
    simp only [blockedBy]
    have ih := blockedBy_false_iff pt0 pt1 es
    split
    · rename_i h
      rw [ih]
      simp only [Bool.or_eq_true] at h
      constructor
      · intro hh e he
        rcases List.mem_cons.1 he with rfl | he
        · left; tauto
        · exact hh e he
      · intro hh e he
        exact hh e (List.mem_cons_of_mem _ he)
    · rename_i h
      simp only [Bool.or_eq_true] at h
      cases hl : lineSegmentIntersection pt0 pt1 e0 e1 with
      | some p =>
        simp only [Bool.true_eq_false, false_iff]
        intro hh
        rcases hh (e0, e1) List.mem_cons_self with h' | h'
        · exact h (by tauto)
        · rw [hl] at h'; cases h'
      | none =>
        simp only
        rw [ih]
        constructor
        · intro hh e he
          rcases List.mem_cons.1 he with rfl | he
          · right; exact hl
          · exact hh e he
        · intro hh e he
          exact hh e (List.mem_cons_of_mem _ he)

theorem arePointsVisible_spec (pt0 pt1 : Vec3 ℝ) : ∀ beds : List (List (Vec3 ℝ × Vec3 ℝ)),
    (arePointsVisible pt0 pt1 beds = 1 ∧ ∀ bed ∈ beds, blockedBy pt0 pt1 bed = false) ∨
    (arePointsVisible pt0 pt1 beds = 0 ∧ ∃ bed ∈ beds, blockedBy pt0 pt1 bed = true)
  | [] => Or.inl ⟨rfl, by simp⟩
  | bed :: beds => by
    simp only [arePointsVisible]
    split
    · rename_i h
      exact Or.inr ⟨rfl, bed, List.mem_cons_self, h⟩
    · rename_i h
      rcases arePointsVisible_spec pt0 pt1 beds with ⟨h1, h2⟩ | ⟨h1, b, hb, h2⟩
      · refine Or.inl ⟨h1, ?_⟩
        intro b hb
        rcases List.mem_cons.1 hb with rfl | hb
        · simpa using h
        · exact h2 b hb
      · exact Or.inr ⟨h1, b, List.mem_cons_of_mem _ hb, h2⟩

theorem fillUpper_get (vis : Nat → Nat → Nat) : ∀ (ij : List (Nat × Nat)) (m : Nat → Nat → Nat) (i j : Nat),
    fillUpper vis m ij i j = if (i, j) ∈ ij then vis i j else m i j := by
  intro ij
  induction ij with
  | nil => intro m i j; simp [fillUpper]
  | cons p ps ih =>
    intro m i j
    have e : fillUpper vis m (p :: ps) = fillUpper vis (setEntry m p.1 p.2 (vis p.1 p.2)) ps := rfl
    rw [e, ih]
    by_cases h : (i, j) ∈ ps
    · rw [if_pos h, if_pos (List.mem_cons_of_mem _ h)]
    · rw [if_neg h]
      simp only [setEntry]
      by_cases h2 : i = p.1 ∧ j = p.2
      · rw [if_pos h2, if_pos (by rw [h2.1, h2.2]; exact List.mem_cons_self), h2.1, h2.2]
      · rw [if_neg h2, if_neg]
        intro hm
        rcases List.mem_cons.1 hm with hm | hm
        · exact h2 (by rw [← hm]; exact ⟨rfl, rfl⟩)
        · exact h hm

theorem reflectLower_get : ∀ (ij : List (Nat × Nat)), (∀ p ∈ ij, p.2 < p.1) →
    ∀ (m : Nat → Nat → Nat) (i j : Nat),
      reflectLower m ij i j = if (i, j) ∈ ij then m j i else m i j := by
  intro ij
  induction ij with
  | nil => intro _ m i j; simp [reflectLower]
  | cons p ps ih =>
    intro hlt m i j
    have hp := hlt p List.mem_cons_self
    have hps : ∀ p ∈ ps, p.2 < p.1 := fun q hq => hlt q (List.mem_cons_of_mem _ hq)
    have e : reflectLower m (p :: ps) = reflectLower (setEntry m p.1 p.2 (m p.2 p.1)) ps := rfl
    rw [e, ih hps]
    by_cases h : (i, j) ∈ ps
    · rw [if_pos h, if_pos (List.mem_cons_of_mem _ h)]
      have := hps _ h
      simp only [setEntry]
      rw [if_neg]
      rintro ⟨h1, h2⟩
      simp only at this
      omega
    · rw [if_neg h]
      simp only [setEntry]
      by_cases h2 : i = p.1 ∧ j = p.2
      · rw [if_pos h2, if_pos (by rw [h2.1, h2.2]; exact List.mem_cons_self), h2.1, h2.2]
      · rw [if_neg h2, if_neg]
        intro hm
        rcases List.mem_cons.1 hm with hm | hm
        · exact h2 (by rw [← hm]; exact ⟨rfl, rfl⟩)
        · exact h hm

theorem mem_upperPairs {n i j : Nat} : (i, j) ∈ upperPairs n ↔ i < j ∧ j < n := by
  simp only [upperPairs, List.mem_flatMap, List.mem_range, List.mem_map, Prod.mk.injEq]
  constructor
  · rintro ⟨a, ha, b, hb, rfl, rfl⟩
    obtain ⟨k, hk, rfl⟩ := List.mem_iff_getElem.1 hb
    simp only [List.length_drop, List.length_range] at hk
    simp only [List.getElem_drop, List.getElem_range]
    omega
  · rintro ⟨h1, h2⟩
    refine ⟨i, by omega, j, ?_, rfl, rfl⟩
    refine List.mem_iff_getElem.2 ⟨j - (i + 1), ?_, ?_⟩
    · simp; omega
    · simp only [List.getElem_drop, List.getElem_range]; omega

theorem mem_lowerPairs {n i j : Nat} : (i, j) ∈ lowerPairs n ↔ j < i ∧ i < n := by
  simp only [lowerPairs, List.mem_flatMap, List.mem_range, List.mem_map, Prod.mk.injEq]
  constructor
  · rintro ⟨a, ha, b, hb, rfl, rfl⟩
    exact ⟨hb, ha⟩
  · rintro ⟨h1, h2⟩
    exact ⟨i, h2, j, h1, rfl, rfl⟩

theorem matrix_get (vis : Nat → Nat → Nat) (n i j : Nat) (hi : i < n) (hj : j < n) :
    reflectLower (fillUpper vis eye (upperPairs n)) (lowerPairs n) i j =
      if i = j then 1 else vis (min i j) (max i j) := by
  rw [reflectLower_get _ (fun p hp => (mem_lowerPairs.1 hp).1), fillUpper_get, fillUpper_get]
  simp only [mem_lowerPairs, mem_upperPairs, eye]
  rcases lt_trichotomy i j with h | h | h
  · rw [if_neg (by omega), if_pos (by omega), if_neg (by omega), min_eq_left h.le, max_eq_right h.le]
  · rw [if_neg (by omega), if_neg (by omega), if_pos h, if_pos h]
  · rw [if_pos (by omega), if_pos (by omega), if_neg (by omega), min_eq_right h.le, max_eq_left h.le]

/-! ### Closest pairs -/

section pairs

variable {P K : Type} [LinearOrder K]

theorem pairLE_total (a b : K × Nat × Nat) : PairLE a b ∨ PairLE b a := by
  unfold PairLE
  rcases lt_trichotomy a.1 b.1 with h | h | h
  · exact Or.inl (Or.inl h)
  · rcases lt_trichotomy a.2.1 b.2.1 with h2 | h2 | h2
    · exact Or.inl (Or.inr ⟨h, Or.inl h2⟩)
    · rcases le_total a.2.2 b.2.2 with h3 | h3
      · exact Or.inl (Or.inr ⟨h, Or.inr ⟨h2, h3⟩⟩)
      · exact Or.inr (Or.inr ⟨h.symm, Or.inr ⟨h2.symm, h3⟩⟩)
    · exact Or.inr (Or.inr ⟨h.symm, Or.inl h2⟩)
  · exact Or.inr (Or.inl h)

theorem pairLE_dist {a b : K × Nat × Nat} (h : PairLE a b) : a.1 ≤ b.1 := by
  rcases h with h | ⟨h, _⟩
  · exact h.le
  · exact h.le

theorem insertPair_mem (a : K × Nat × Nat) : ∀ (l : List (K × Nat × Nat)) (x : K × Nat × Nat),
    x ∈ insertPair a l ↔ x = a ∨ x ∈ l
  | [], x => by simp [insertPair]
  | b :: l, x => by
    simp only [insertPair]
    split
    · simp
    · simp only [List.mem_cons, insertPair_mem a l]
      tauto

theorem sortPairs_mem (l : List (K × Nat × Nat)) (x : K × Nat × Nat) : x ∈ sortPairs l ↔ x ∈ l := by
  induction l with
  | nil => simp [sortPairs]
  | cons a l ih =>
    have e : sortPairs (a :: l) = insertPair a (sortPairs l) := rfl
    rw [e, insertPair_mem, ih, List.mem_cons]

theorem insertPair_sorted (a : K × Nat × Nat) : ∀ (l : List (K × Nat × Nat)),
    l.Pairwise (fun x y => x.1 ≤ y.1) → (insertPair a l).Pairwise (fun x y => x.1 ≤ y.1)
  | [], _ => by simp [insertPair]
  | b :: l, h => by
    obtain ⟨h1, h2⟩ := List.pairwise_cons.1 h
    simp only [insertPair]
    split
    · rename_i hab
      refine List.pairwise_cons.2 ⟨?_, h⟩
      intro x hx
      rcases List.mem_cons.1 hx with rfl | hx
      · exact pairLE_dist hab
      · exact le_trans (pairLE_dist hab) (h1 x hx)
    · rename_i hab
      have hba : PairLE b a := (pairLE_total a b).resolve_left hab
      refine List.pairwise_cons.2 ⟨?_, insertPair_sorted a l h2⟩
      intro x hx
      rcases (insertPair_mem a l x).1 hx with rfl | hx
      · exact pairLE_dist hba
      · exact h1 x hx

theorem sortPairs_sorted (l : List (K × Nat × Nat)) :
    (sortPairs l).Pairwise (fun x y => x.1 ≤ y.1) := by
  induction l with
  | nil => simp [sortPairs]
  | cons a l ih => exact insertPair_sorted a _ ih

theorem candidatePairs_mem (dist : P → P → K) (vis : P → P → Bool) (visOnly : Bool) (pts0 pts1 : List P)
    (d : K) (i j : Nat) : (d, i, j) ∈ candidatePairs dist vis visOnly pts0 pts1 ↔
      ∃ a b, pts0[i]? = some a ∧ pts1[j]? = some b ∧ (visOnly = true → vis a b = true) ∧ d = dist a b := by
  simp only [candidatePairs, List.mem_flatMap]
  constructor
  · rintro ⟨⟨a, i'⟩, ha, ⟨b, j'⟩, hb, hd⟩
    rw [List.mem_zipIdx_iff_getElem?] at ha hb
    split at hd
    · simp at hd
    · rename_i hv
      simp only [List.mem_singleton, Prod.mk.injEq] at hd
      obtain ⟨rfl, rfl, rfl⟩ := hd
      refine ⟨a, b, ha, hb, ?_, rfl⟩
      intro hvo
      cases hvv : vis a b
      · exact absurd (by simp [hvo, hvv]) hv
      · rfl
  · rintro ⟨a, b, ha, hb, hv, rfl⟩
    refine ⟨(a, i), List.mem_zipIdx_iff_getElem?.2 ha, (b, j), List.mem_zipIdx_iff_getElem?.2 hb, ?_⟩
    rw [if_neg]
    · simp
    · intro h
      simp only [Bool.and_eq_true, Bool.not_eq_true'] at h
      rw [hv h.1] at h
      exact absurd h.2 (by simp)

/-- What the greedy loop does with a sorted list. -/
theorem greedyLoop_spec : ∀ (l : List (K × Nat × Nat)), l.Pairwise (fun x y => x.1 ≤ y.1) →
    ∀ (U V : List Nat),
      (∀ (k i j : Nat), (greedyLoop U V l)[k]? = some (i, j) →
        i ∉ U ∧ j ∉ V ∧
        i ∉ ((greedyLoop U V l).take k).map Prod.fst ∧ j ∉ ((greedyLoop U V l).take k).map Prod.snd ∧
        ∃ d, (d, i, j) ∈ l ∧ ∀ d' i' j', (d', i', j') ∈ l → i' ∉ U → j' ∉ V →
          i' ∉ ((greedyLoop U V l).take k).map Prod.fst → j' ∉ ((greedyLoop U V l).take k).map Prod.snd →
          d ≤ d') ∧
      (∀ d' i' j', (d', i', j') ∈ l → i' ∈ U ∨ j' ∈ V ∨ i' ∈ (greedyLoop U V l).map Prod.fst ∨
        j' ∈ (greedyLoop U V l).map Prod.snd) := by
  intro l
  induction l with
  | nil => intro _ U V; simp [greedyLoop]
  | cons pp pps ih =>
    intro hs U V
    obtain ⟨hs1, hs2⟩ := List.pairwise_cons.1 hs
    obtain ⟨d, i, j⟩ := pp
    by_cases hu : ¬ i ∈ U ∧ ¬ j ∈ V
    · have e : greedyLoop U V ((d, i, j) :: pps) = (i, j) :: greedyLoop (i :: U) (j :: V) pps := by
        simp only [greedyLoop]; rw [if_pos hu]
      rw [e]
      obtain ⟨ih1, ih2⟩ := ih hs2 (i :: U) (j :: V)
      refine ⟨?_, ?_⟩
      · intro k i' j' hk
        cases k with
        | zero =>
          simp only [List.getElem?_cons_zero, Option.some.injEq, Prod.mk.injEq] at hk
          obtain ⟨rfl, rfl⟩ := hk
          refine ⟨hu.1, hu.2, by simp, by simp, d, List.mem_cons_self, ?_⟩
          intro d' i' j' hm _ _ _ _
          rcases List.mem_cons.1 hm with hm | hm
          · rw [Prod.mk.injEq] at hm; exact hm.1.ge
          · exact hs1 _ hm
        | succ k =>
          rw [List.getElem?_cons_succ] at hk
          obtain ⟨h1, h2, h3, h4, d', h5, h6⟩ := ih1 k i' j' hk
          simp only [List.mem_cons, not_or] at h1 h2
          refine ⟨h1.2, h2.2, ?_, ?_, d', List.mem_cons_of_mem _ h5, ?_⟩
          · simp only [List.take_succ_cons, List.map_cons, List.mem_cons, not_or]
            exact ⟨h1.1, h3⟩
          · simp only [List.take_succ_cons, List.map_cons, List.mem_cons, not_or]
            exact ⟨h2.1, h4⟩
          · intro d'' i'' j'' hm ha hb hc hd
            simp only [List.take_succ_cons, List.map_cons, List.mem_cons, not_or] at hc hd
            rcases List.mem_cons.1 hm with hm | hm
            · simp only [Prod.mk.injEq] at hm
              exact absurd hm.2.1 hc.1
            · exact h6 d'' i'' j'' hm (by simp [ha, hc.1]) (by simp [hb, hd.1]) hc.2 hd.2
      · intro d' i' j' hm
        simp only [List.map_cons, List.mem_cons]
        rcases List.mem_cons.1 hm with hm | hm
        · simp only [Prod.mk.injEq] at hm
          exact Or.inr (Or.inr (Or.inl (Or.inl hm.2.1)))
        · have := ih2 d' i' j' hm
          simp only [List.mem_cons] at this
          tauto
    · have e : greedyLoop U V ((d, i, j) :: pps) = greedyLoop U V pps := by
        simp only [greedyLoop]; rw [if_neg hu]
      rw [e]
      obtain ⟨ih1, ih2⟩ := ih hs2 U V
      refine ⟨?_, ?_⟩
      · intro k i' j' hk
        obtain ⟨h1, h2, h3, h4, d', h5, h6⟩ := ih1 k i' j' hk
        refine ⟨h1, h2, h3, h4, d', List.mem_cons_of_mem _ h5, ?_⟩
        intro d'' i'' j'' hm ha hb
        rcases List.mem_cons.1 hm with hm | hm
        · simp only [Prod.mk.injEq] at hm
          obtain ⟨_, rfl, rfl⟩ := hm
          exact absurd ⟨ha, hb⟩ hu
        · exact h6 d'' i'' j'' hm ha hb
      · intro d' i' j' hm
        rcases List.mem_cons.1 hm with hm | hm
        · simp only [Prod.mk.injEq] at hm
          obtain ⟨_, rfl, rfl⟩ := hm
          tauto
        · exact ih2 d' i' j' hm

theorem nodup_of_fresh {α β : Type} (f : α → β) : ∀ l : List α,
    (∀ (k : Nat) (a : α), l[k]? = some a → f a ∉ (l.take k).map f) → (l.map f).Nodup := by
  intro l h
  rw [List.nodup_iff_getElem?_ne_getElem?]
  intro i j hij hj
  rw [List.length_map] at hj
  intro he
  simp only [List.getElem?_map, List.getElem?_eq_getElem hj,
    List.getElem?_eq_getElem (Nat.lt_trans hij hj), Option.map_some, Option.some.injEq] at he
  refine h j l[j] (List.getElem?_eq_getElem hj) ?_
  rw [← he]
  refine List.mem_map.2 ⟨l[i], ?_, rfl⟩
  rw [List.mem_take_iff_getElem]
  exact ⟨i, by omega, rfl⟩

theorem exists_fresh {n : Nat} {l : List Nat} (h : l.length < n) : ∃ i, i < n ∧ i ∉ l := by
  by_contra hc
  push Not at hc
  have hsub : List.range n ⊆ l := fun i hi => hc i (List.mem_range.1 hi)
  have := (List.subperm_of_subset List.nodup_range hsub).length_le
  rw [List.length_range] at this
  omega

theorem length_le_of_lt {n : Nat} {l : List Nat} (hn : l.Nodup) (h : ∀ i ∈ l, i < n) : l.length ≤ n := by
  have hsub : l ⊆ List.range n := fun i hi => List.mem_range.2 (h i hi)
  have := (List.subperm_of_subset hn hsub).length_le
  rwa [List.length_range] at this

end pairs

end B3d.Points
