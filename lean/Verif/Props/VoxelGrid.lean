import Verif.Proofs.Sim

/-! # Properties C44, C45: voxel grid and target surface -/

set_option linter.unusedSectionVars false

namespace B3d.Sim

variable {K : Type} [Field K] [LinearOrder K] [IsStrictOrderedRing K] [FloorRing K]

/-! ## C44 -/

/-- C44: whatever the position, a polygon with a point within one cell size of it on every axis is
among the polygons found in the 27 cells around the position. -/
theorem C44_lookup (setIter : List Nat → List Nat) (hset : IteratesSet setIter) (lo hi : Vec3 K)
    (polys : List (List (Vec3 K))) (step eps : K) (hs : 0 < step) (he : 0 ≤ eps) (g : Grid)
    (hg : makeVoxelGrid lo hi polys step eps = .ok g) (pn : Nat) (pts : List (Vec3 K))
    (hpn : polys[pn]? = some pts) (hw : Within lo hi pts) (p q : Vec3 K) (hq : PointOf pts q)
    (hnear : Near step p q) :
    pn ∈ findNearby setIter (cellOf p step) g := by
  unfold makeVoxelGrid at hg
  simp only [] at hg
  split at hg
  case isFalse => cases hg
  simp only [Except.ok.injEq] at hg
  obtain ⟨bx, bz, bw⟩ := pointOf_within hw hq
  have hkey := mem_gridKeys hs he bx bz bw
  have hget : gridGet g (cellOf q step) = some (polysIn polys (cellOf q step) step) := by
    rw [← hg, gridGet_fold, if_pos hkey]
  obtain ⟨i, hi', ei⟩ := floor_near hs hnear.1
  obtain ⟨j, hj, ej⟩ := floor_near hs hnear.2.1
  obtain ⟨k, hk, ek⟩ := floor_near hs hnear.2.2
  unfold findNearby
  rw [(hset _).2]
  simp only [List.mem_flatMap]
  refine ⟨i, hi', j, hj, k, hk, ?_⟩
  have e : ((cellOf p step).1 + i, (cellOf p step).2.1 + j, (cellOf p step).2.2 + k)
      = cellOf q step := by
    simp only [cellOf, ei, ej, ek]
  rw [e, hget, Option.getD_some, mem_polysIn]
  exact ⟨pts, hpn, outside_cellOf hq hs⟩

/-- C44: the grid can be made, and contains every polygon, when every polygon has a vertex and lies
in the box. -/
theorem C44_complete (lo hi : Vec3 K) (polys : List (List (Vec3 K))) (step eps : K) (hs : 0 < step)
    (he : 0 ≤ eps) (hp : ∀ pts ∈ polys, pts ≠ [] ∧ Within lo hi pts) :
    ∃ g, makeVoxelGrid lo hi polys step eps = .ok g ∧
      ∀ pn < polys.length, ∃ c l, gridGet g c = some l ∧ pn ∈ l := by
  have key : ∀ pn < polys.length, ∃ c ∈ gridKeys lo hi step eps, pn ∈ polysIn polys c step := by
    intro pn h
    obtain ⟨hne, hw⟩ := hp polys[pn] (List.getElem_mem h)
    obtain ⟨v, hv⟩ := List.exists_mem_of_ne_nil _ hne
    have hvp := vertex_pointOf hv
    obtain ⟨b1, b2, b3⟩ := pointOf_within hw hvp
    exact ⟨_, mem_gridKeys hs he b1 b2 b3,
      mem_polysIn.2 ⟨_, List.getElem?_eq_getElem h, outside_cellOf hvp hs⟩⟩
  unfold makeVoxelGrid
  simp only []
  rw [if_pos]
  · refine ⟨_, rfl, ?_⟩
    intro pn h
    obtain ⟨c, hc, hm⟩ := key pn h
    exact ⟨c, _, by rw [gridGet_fold, if_pos hc], hm⟩
  · rw [List.all_eq_true]
    intro pn h
    obtain ⟨c, hc, hm⟩ := key pn (List.mem_range.1 h)
    rw [List.any_eq_true]
    exact ⟨c, hc, by simpa using hm⟩

/-- C44: a grid is only returned when every polygon is in some cell. -/
theorem C44_no_polygon_missing (lo hi : Vec3 K) (polys : List (List (Vec3 K))) (step eps : K)
    (g : Grid) (hg : makeVoxelGrid lo hi polys step eps = .ok g) :
    ∀ pn < polys.length, ∃ c l, gridGet g c = some l ∧ pn ∈ l := by
  unfold makeVoxelGrid at hg
  simp only [] at hg
  split at hg
  case isFalse => cases hg
  rename_i h
  simp only [Except.ok.injEq] at hg
  intro pn hpn
  have := List.all_eq_true.1 h pn (List.mem_range.2 hpn)
  obtain ⟨c, hc, hm⟩ := List.any_eq_true.1 this
  exact ⟨c, _, by rw [← hg, gridGet_fold, if_pos hc], by simpa using hm⟩

/-- C44: nothing is invented: a polygon stored in a cell exists, and its bounding box meets the
cell. -/
theorem C44_sound (lo hi : Vec3 K) (polys : List (List (Vec3 K))) (step eps : K)
    (g : Grid) (hg : makeVoxelGrid lo hi polys step eps = .ok g) (c : Cell) (l : List Nat)
    (hc : gridGet g c = some l) (pn : Nat) (hpn : pn ∈ l) :
    ∃ pts, polys[pn]? = some pts ∧
      (∃ v ∈ pts, (c.1 : K) * step ≤ v.x) ∧ (∃ v ∈ pts, v.x ≤ (c.1 : K) * step + step) ∧
      (∃ v ∈ pts, (c.2.1 : K) * step ≤ v.y) ∧ (∃ v ∈ pts, v.y ≤ (c.2.1 : K) * step + step) ∧
      (∃ v ∈ pts, (c.2.2 : K) * step ≤ v.z) ∧ (∃ v ∈ pts, v.z ≤ (c.2.2 : K) * step + step) := by
  unfold makeVoxelGrid at hg
  simp only [] at hg
  split at hg
  case isFalse => cases hg
  simp only [Except.ok.injEq] at hg
  rw [← hg, gridGet_fold] at hc
  split at hc
  case isFalse => simp [gridGet] at hc
  simp only [Option.some.injEq] at hc
  rw [← hc] at hpn
  obtain ⟨pts, h1, h2⟩ := mem_polysIn.1 hpn
  unfold outside at h2
  rw [Bool.or_eq_false_iff, Bool.or_eq_false_iff, outsideAxis_false, outsideAxis_false,
    outsideAxis_false] at h2
  have hm : ∀ (f : Vec3 K → K) (r : K → Prop), (∃ x ∈ pts.map f, r x) → ∃ v ∈ pts, r (f v) := by
    rintro f r ⟨x, hx, h⟩
    obtain ⟨v, hv, rfl⟩ := List.mem_map.1 hx
    exact ⟨v, hv, h⟩
  exact ⟨pts, h1, hm _ _ h2.1.1.1, hm _ _ h2.1.1.2, hm _ _ h2.1.2.1, hm _ _ h2.1.2.2,
    hm _ _ h2.2.1, hm _ _ h2.2.2⟩

/-- Every polygon found is in one of the 27 cells. -/
theorem C44_lookup_sound (setIter : List Nat → List Nat) (hset : IteratesSet setIter) (g : Grid)
    (c : Cell) (pn : Nat) (h : pn ∈ findNearby setIter c g) :
    ∃ i j k, |i| ≤ 1 ∧ |j| ≤ 1 ∧ |k| ≤ 1 ∧
      ∃ l, gridGet g (c.1 + i, c.2.1 + j, c.2.2 + k) = some l ∧ pn ∈ l := by
  unfold findNearby at h
  rw [(hset _).2] at h
  simp only [List.mem_flatMap] at h
  obtain ⟨i, hi, j, hj, k, hk, hm⟩ := h
  have ho : ∀ i ∈ offsets, |i| ≤ 1 := by decide
  refine ⟨i, j, k, ho i hi, ho j hj, ho k hk, ?_⟩
  cases hg : gridGet g (c.1 + i, c.2.1 + j, c.2.2 + k) with
  | none => rw [hg] at hm; simp at hm
  | some l => rw [hg] at hm; exact ⟨l, rfl, hm⟩

/-! ### Example -/

theorem dedup_iteratesSet : IteratesSet List.dedup :=
  fun l => ⟨List.nodup_dedup l, fun _ => List.mem_dedup⟩

/-- A triangle and a square of a box with negative coordinates. -/
def demoPolys : List (List (Vec3 ℚ)) :=
  [[⟨-1, -1, 0⟩, ⟨1, -1, 0⟩, ⟨1, 1, 0⟩], [⟨1, -1, 0⟩, ⟨1, 1, 0⟩, ⟨1, 1, 2⟩, ⟨1, -1, 2⟩]]

example : (∃ g, makeVoxelGrid (K := ℚ) ⟨-1, -1, 0⟩ ⟨1, 1, 2⟩ demoPolys 1 (1 / 10000) = .ok g) ∧
    (∀ pts ∈ demoPolys, pts ≠ [] ∧ Within ⟨-1, -1, 0⟩ ⟨1, 1, 2⟩ pts) ∧
    PointOf demoPolys[1] ⟨1, 1 / 2, 1⟩ ∧ Near 1 (⟨1 / 2, 1, 1⟩ : Vec3 ℚ) ⟨1, 1 / 2, 1⟩ := by
  have hp : ∀ pts ∈ demoPolys, pts ≠ [] ∧ Within ⟨-1, -1, 0⟩ ⟨1, 1, 2⟩ pts := by
    unfold Within; decide +kernel
  refine ⟨?_, hp, ?_, ?_⟩
  · obtain ⟨g, hg, _⟩ := C44_complete (K := ℚ) ⟨-1, -1, 0⟩ ⟨1, 1, 2⟩ demoPolys 1 (1 / 10000)
      (by norm_num) (by norm_num) hp
    exact ⟨g, hg⟩
  · refine ⟨⟨1, -1, 0⟩, by decide +kernel, ⟨1, 1, 0⟩, by decide +kernel, ⟨1, 1, 2⟩,
      by decide +kernel, 1 / 4, 1 / 4, 1 / 2, by norm_num, by norm_num, by norm_num, by norm_num, ?_⟩
    decide +kernel
  · unfold Near; decide +kernel

/-! ## C45 -/

theorem targetStep_fold (geo : Geo K) (trans : List Int) (pos dir : Vec3 K) (check : List Nat)
    (best : Option (Nat × K)) :
    (check.foldl (targetStep geo trans pos dir) best = none ↔
      best = none ∧ ∀ pn ∈ check, ¬ OpaqueHit geo trans pos dir pn) ∧
    ∀ m d, check.foldl (targetStep geo trans pos dir) best = some (m, d) →
      (best = some (m, d) ∨ (m ∈ check ∧ OpaqueHit geo trans pos dir m ∧ d = geo.dist pos m)) ∧
      (∀ m' d', best = some (m', d') → d ≤ d') ∧
      ∀ pn ∈ check, OpaqueHit geo trans pos dir pn → d ≤ geo.dist pos pn := by
  induction check generalizing best with
  | nil =>
    refine ⟨by simp, ?_⟩
    intro m d h
    simp only [List.foldl_nil] at h
    subst h
    refine ⟨Or.inl rfl, ?_, by simp⟩
    intro m' d' h
    simp only [Option.some.injEq, Prod.mk.injEq] at h
    exact h.2.le
  | cons c cs ih =>
    rw [List.foldl_cons]
    obtain ⟨ih1, ih2⟩ := ih (targetStep geo trans pos dir best c)
    by_cases ho : OpaqueHit geo trans pos dir c
    · -- the polygon is considered
      have hs : targetStep geo trans pos dir best c = match best with
          | none => some (c, geo.dist pos c)
          | some (m, dm) => if geo.dist pos c < dm then some (c, geo.dist pos c) else some (m, dm) := by
        unfold targetStep
        rw [if_neg ho.1, if_pos ho.2]
        rcases best with _ | ⟨m, dm⟩ <;> rfl
      constructor
      · rw [ih1, hs]
        constructor
        · rintro ⟨h, _⟩
          cases best with
          | none => simp at h
          | some b =>
            simp only [] at h
            split at h <;> simp at h
        · rintro ⟨_, h⟩
          exact absurd ho (h c (by simp))
      · intro m d h
        obtain ⟨j1, j2, j3⟩ := ih2 m d h
        rw [hs] at j1 j2
        cases best with
        | none =>
          simp only [Option.some.injEq, Prod.mk.injEq] at j1 j2
          have hd : d ≤ geo.dist pos c := j2 c _ ⟨rfl, rfl⟩
          refine ⟨Or.inr ?_, by simp, ?_⟩
          · rcases j1 with ⟨rfl, rfl⟩ | ⟨k1, k2, k3⟩
            · exact ⟨by simp, ho, rfl⟩
            · exact ⟨by simp [k1], k2, k3⟩
          · intro pn hpn hop
            rcases List.mem_cons.1 hpn with rfl | hpn
            · exact hd
            · exact j3 pn hpn hop
        | some b =>
          obtain ⟨mb, db⟩ := b
          simp only [] at j1 j2
          by_cases hlt : geo.dist pos c < db
          · rw [if_pos hlt] at j1 j2
            have hd : d ≤ geo.dist pos c := j2 _ _ rfl
            refine ⟨Or.inr ?_, ?_, ?_⟩
            · rcases j1 with h' | ⟨k1, k2, k3⟩
              · simp only [Option.some.injEq, Prod.mk.injEq] at h'
                obtain ⟨rfl, rfl⟩ := h'
                exact ⟨by simp, ho, rfl⟩
              · exact ⟨by simp [k1], k2, k3⟩
            · intro m' d' h'
              simp only [Option.some.injEq, Prod.mk.injEq] at h'
              rw [← h'.2]
              exact hd.trans hlt.le
            · intro pn hpn hop
              rcases List.mem_cons.1 hpn with rfl | hpn
              · exact hd
              · exact j3 pn hpn hop
          · rw [if_neg hlt] at j1 j2
            have hd : d ≤ db := j2 _ _ rfl
            refine ⟨?_, ?_, ?_⟩
            · rcases j1 with h' | ⟨k1, k2, k3⟩
              · exact Or.inl h'
              · exact Or.inr ⟨by simp [k1], k2, k3⟩
            · intro m' d' h'
              simp only [Option.some.injEq, Prod.mk.injEq] at h'
              rw [← h'.2]
              exact hd
            · intro pn hpn hop
              rcases List.mem_cons.1 hpn with rfl | hpn
              · exact hd.trans (not_lt.1 hlt)
              · exact j3 pn hpn hop
    · -- the polygon is skipped
      have hs : targetStep geo trans pos dir best c = best := by
        unfold targetStep
        by_cases h1 : (c : Int) ∈ trans
        · rw [if_pos h1]
        · rw [if_neg h1, if_neg (fun h2 => ho ⟨h1, h2⟩)]
      rw [hs] at ih1 ih2
      rw [hs]
      constructor
      · rw [ih1]
        simp [ho]
      · intro m d h
        obtain ⟨j1, j2, j3⟩ := ih2 m d h
        refine ⟨?_, j2, ?_⟩
        · rcases j1 with h' | ⟨k1, k2, k3⟩
          · exact Or.inl h'
          · exact Or.inr ⟨by simp [k1], k2, k3⟩
        · intro pn hpn hop
          rcases List.mem_cons.1 hpn with rfl | hpn
          · exact absurd hop ho
          · exact j3 pn hpn hop

/-- C45: a target is found iff the ray hits an opaque polygon among those to check. -/
theorem C45_found_iff (geo : Geo K) (trans : List Int) (check : List Nat) (pos dir : Vec3 K) :
    findTarget geo trans check pos dir = none ↔
      ∀ pn ∈ check, ¬ OpaqueHit geo trans pos dir pn := by
  unfold findTarget
  rw [Option.map_eq_none_iff, (targetStep_fold geo trans pos dir check none).1]
  simp

/-- C45: the target is an opaque polygon hit by the ray, and no other such polygon is nearer. -/
theorem C45_nearest (geo : Geo K) (trans : List Int) (check : List Nat) (pos dir : Vec3 K) (m : Nat)
    (h : findTarget geo trans check pos dir = some m) :
    m ∈ check ∧ OpaqueHit geo trans pos dir m ∧
      ∀ pn ∈ check, OpaqueHit geo trans pos dir pn → geo.dist pos m ≤ geo.dist pos pn := by
  unfold findTarget at h
  rw [Option.map_eq_some_iff] at h
  obtain ⟨⟨m', d⟩, h1, rfl⟩ := h
  obtain ⟨j1, _, j3⟩ := (targetStep_fold geo trans pos dir check none).2 _ _ h1
  rcases j1 with h' | ⟨k1, k2, k3⟩
  · simp at h'
  · exact ⟨k1, k2, fun pn hp ho => by rw [← k3]; exact j3 pn hp ho⟩

/-- C45: the distance to the target does not depend on the order (or repetitions) in which the
polygons are examined. -/
theorem C45_order_independent (geo : Geo K) (trans : List Int) (check check' : List Nat)
    (pos dir : Vec3 K) (hsame : ∀ pn, pn ∈ check ↔ pn ∈ check') :
    (findTarget geo trans check pos dir).map (geo.dist pos)
      = (findTarget geo trans check' pos dir).map (geo.dist pos) := by
  cases h1 : findTarget geo trans check pos dir with
  | none =>
    have : findTarget geo trans check' pos dir = none := by
      rw [C45_found_iff] at h1 ⊢
      exact fun pn hp => h1 pn ((hsame pn).2 hp)
    rw [this]
  | some m =>
    cases h2 : findTarget geo trans check' pos dir with
    | none =>
      rw [C45_found_iff] at h2
      obtain ⟨k1, k2, _⟩ := C45_nearest _ _ _ _ _ _ h1
      exact absurd k2 (h2 m ((hsame m).1 k1))
    | some m' =>
      obtain ⟨k1, k2, k3⟩ := C45_nearest _ _ _ _ _ _ h1
      obtain ⟨l1, l2, l3⟩ := C45_nearest _ _ _ _ _ _ h2
      simp only [Option.map_some, Option.some.injEq]
      exact le_antisymm (k3 m' ((hsame m').2 l1) l2) (l3 m ((hsame m).1 k1) k2)

/-- A wall at distance 2, a nearer transparent one, and one behind the ray. -/
def demoGeo : Geo ℚ where
  hit _ _ pn := pn < 3
  dist _ pn := [3, 1, 2, 0].getD pn 0
  vn _ := ⟨1, 0, 0⟩

example : findTarget demoGeo [-1, 1] [3, 0, 2, 1] 0 ⟨1, 0, 0⟩ = some 2 ∧
    findTarget demoGeo [0, 1, 2] [3, 0, 2, 1] 0 ⟨1, 0, 0⟩ = none := by
  decide +kernel

end B3d.Sim
