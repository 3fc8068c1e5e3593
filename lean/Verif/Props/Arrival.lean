import Verif.Props.Echo
import Verif.Props.AbsorberPass
import Verif.Props.Output

/-!
# Property C128: when sound arrives at an absorber

Exact reals.
-/

namespace B3d.Sim

variable {P : Params ℝ}

/-- The triangle inequality, with squares. -/
theorem normSq_add_le {a b : Vec3 ℝ} {x y : ℝ} (hx : 0 ≤ x) (hy : 0 ≤ y) (ha : Vec3.normSq a ≤ x ^ 2) (hb : Vec3.normSq b ≤ y ^ 2) :
    Vec3.normSq (a + b) ≤ (x + y) ^ 2 := by
  have h1 : Vec3.dot a b ^ 2 ≤ Vec3.normSq a * Vec3.normSq b := by
    simp only [Vec3.normSq, Vec3.dot]
    nlinarith [sq_nonneg (a.x * b.y - a.y * b.x), sq_nonneg (a.x * b.z - a.z * b.x), sq_nonneg (a.y * b.z - a.z * b.y)]
  have h2 : Vec3.dot a b ^ 2 ≤ (x * y) ^ 2 := by
    rw [mul_pow]
    exact h1.trans (mul_le_mul ha hb (Vec3.normSq_nonneg b) (sq_nonneg x))
  have h3 : Vec3.dot a b ≤ x * y := (le_abs_self _).trans (abs_le_of_sq_le_sq h2 (mul_nonneg hx hy))
  have h4 : Vec3.normSq (a + b) = Vec3.normSq a + 2 * Vec3.dot a b + Vec3.normSq b := by
    simp [Vec3.normSq, Vec3.dot]; ring
  rw [h4]
  nlinarith

/-- After `i` steps no ray is further from the source than `i` steps. -/
theorem not_further (hn : ∀ k, Vec3.normSq (P.geo.vn k) = 1) (hv : 0 ≤ P.raySpeed) (ht : 0 ≤ P.timeStep) (fuel n : Nat)
    (source : Vec3 ℝ) (dirs : List (Vec3 ℝ)) (hd : ∀ d ∈ dirs, Vec3.normSq d = 1) (rows : List (Row ℝ))
    (h : simulationLoop P fuel n (initArrays P source dirs) = some rows) {i m : Nat} {row : Row ℝ} {p : Vec3 ℝ}
    (hi : rows[i]? = some row) (hp : row.pos[m]? = some p) :
    Vec3.normSq (p - source) ≤ (i * (P.raySpeed * P.timeStep)) ^ 2 := by
  have hδ : 0 ≤ P.raySpeed * P.timeStep := mul_nonneg hv ht
  induction i generalizing row p with
  | zero =>
    unfold simulationLoop at h
    rw [Option.map_eq_some_iff] at h
    obtain ⟨l, hl, rfl⟩ := h
    rw [List.getElem?_map, steps_head hl, Option.map_some, Option.some.injEq] at hi
    subst hi
    simp only [rowOf, start, initArrays, List.map_map, List.getElem?_map, Option.map_eq_some_iff] at hp
    obtain ⟨d, -, rfl⟩ := hp
    simp [Vec3.normSq, Vec3.dot]
  | succ i ih =>
    obtain ⟨hlt, -⟩ := List.getElem?_eq_some_iff.1 hi
    have h0 : rows[i]? = some rows[i] := List.getElem?_eq_getElem (by omega)
    have hf := C49_speed fuel n _ rows hn (by simp [initArrays]) (by
      intro r hr
      simp only [initArrays, List.mem_map] at hr
      obtain ⟨d, hd', rfl⟩ := hr
      change Vec3.normSq (P.raySpeed • d) = _
      have : Vec3.normSq (P.raySpeed • d) = P.raySpeed ^ 2 * Vec3.normSq d := by simp [Vec3.normSq, Vec3.dot]; ring
      rw [this, hd d hd', mul_one]) h i _ _ h0 hi
    obtain ⟨hm, -⟩ := List.getElem?_eq_some_iff.1 hp
    have hp0 : rows[i].pos[m]? = some (rows[i].pos[m]'(by rw [hf.length_eq]; exact hm)) := List.getElem?_eq_getElem _
    have h1 := ih h0 hp0
    have h2 := forall₂_getElem? hf hp0 hp
    have h3 : Vec3.normSq (p - rows[i].pos[m]'(by rw [hf.length_eq]; exact hm)) ≤ (P.raySpeed * P.timeStep) ^ 2 := by
      rcases h2 with h2 | h2
      · rw [h2, sub_self]
        simpa [Vec3.normSq, Vec3.dot] using sq_nonneg _
      · exact h2.le
    have := normSq_add_le hδ (mul_nonneg (Nat.cast_nonneg i) hδ) h3 h1
    rw [sub_add_sub_cancel] at this
    refine this.trans (le_of_eq ?_)
    push_cast
    ring

/-- **C128, nothing arrives before the direct sound.**  In any room, an absorber at the distance `D` from the source records
nothing in all rows `j` with `(j - 1) * speed * dt ≤ D - radius`. -/
theorem C128_not_before (hn : ∀ k, Vec3.normSq (P.geo.vn k) = 1) (hv : 0 ≤ P.raySpeed) (ht : 0 ≤ P.timeStep)
    (hR : 0 ≤ P.absorberRadius) (heps : 0 ≤ P.eps) (fuel n : Nat) (source : Vec3 ℝ) (dirs : List (Vec3 ℝ))
    (hd : ∀ d ∈ dirs, Vec3.normSq d = 1) (rows : List (Row ℝ))
    (h : simulationLoop P fuel n (initArrays P source dirs) = some rows) {sn : Nat} {c : Vec3 ℝ} {D : ℝ}
    (hc : P.absorbers[sn]? = some c) (hD : Vec3.normSq (c - source) = D ^ 2) {j : Nat} {row : Row ℝ} (hj : rows[j]? = some row)
    (hearly : ((j : ℝ) - 1) * (P.raySpeed * P.timeStep) ≤ D - P.absorberRadius) : row.hits[sn]? = some 0 := by
  have hδ : 0 ≤ P.raySpeed * P.timeStep := mul_nonneg hv ht
  obtain ⟨hsn, hc'⟩ := List.getElem?_eq_some_iff.1 hc
  cases j with
  | zero =>
    unfold simulationLoop at h
    rw [Option.map_eq_some_iff] at h
    obtain ⟨l, hl, rfl⟩ := h
    rw [List.getElem?_map, steps_head hl, Option.map_some, Option.some.injEq] at hj
    subst hj
    simp [rowOf, start, initArrays, hsn]
  | succ i =>
    obtain ⟨hlt, -⟩ := List.getElem?_eq_some_iff.1 hj
    have h0 : rows[i]? = some rows[i] := List.getElem?_eq_getElem (by omega)
    rw [(C48_hits fuel n _ rows heps (by simp [initArrays]) h i _ _ h0 hj).1.2 sn hsn, Option.some.injEq]
    unfold handedTo
    refine List.sum_eq_zero ?_
    intro x hx
    rw [List.mem_map] at hx
    obtain ⟨⟨p, e⟩, hpe, rfl⟩ := hx
    refine if_neg ?_
    rintro ⟨-, hfa⟩
    obtain ⟨m, hm⟩ := List.getElem?_of_mem (List.of_mem_zip hpe).1
    have h1 := not_further hn hv ht fuel n source dirs hd rows h h0 hm
    rw [firstAbsorber, List.findIdx?_eq_some_iff_getElem] at hfa
    obtain ⟨_, h2, -⟩ := hfa
    rw [hc'] at h2
    have h2 : Vec3.normSq (c - p) < P.absorberRadius ^ 2 := by
      have : Vec3.normSq (c - p) = Vec3.normSq (p - c) := by simp [Vec3.normSq, Vec3.dot]; ring
      rw [this]; simpa using h2
    push_cast at hearly
    rw [add_sub_cancel_right] at hearly
    have hi : 0 ≤ (i : ℝ) * (P.raySpeed * P.timeStep) := mul_nonneg (Nat.cast_nonneg _) hδ
    have h3 : Vec3.normSq (c - p) ≤ Real.sqrt (Vec3.normSq (c - p)) ^ 2 := (Real.sq_sqrt (Vec3.normSq_nonneg _)).ge
    have h4 : Real.sqrt (Vec3.normSq (c - p)) < P.absorberRadius := by
      rw [← Real.sqrt_sq hR]
      exact Real.sqrt_lt_sqrt (Vec3.normSq_nonneg _) h2
    have h5 := normSq_add_le (Real.sqrt_nonneg _) hi h3 h1
    rw [sub_add_sub_cancel, hD] at h5
    have h6 := abs_le_of_sq_le_sq h5 (add_nonneg (Real.sqrt_nonneg _) hi)
    linarith [le_abs_self D]

/-- Nothing stops a ray at `p` with the velocity `v`: it is in the building, in no absorber, and every opaque polygon ahead is
further away than the reflection distance. -/
def FreeAt (P : Params ℝ) (p v : Vec3 ℝ) : Prop :=
  ¬ Outside P.lo P.hi P.eps p ∧ ∀ k ∈ polygonsAround P p, OpaqueHit P.geo P.trans p v k → P.reflDist < P.geo.dist p k

theorem free_moves {p v : Vec3 ℝ} {e : ℝ} {r r' : Ray ℝ} (hfree : FreeAt P p v)
    (ha : firstAbsorber P.absorberRadius P.absorbers p = none) (he : P.eps < e)
    (hr : r.pos = p ∧ r.vel = v ∧ r.energy = e) (hf : Fate P r r') :
    r'.pos = p + P.timeStep • v ∧ r'.vel = v ∧ r'.energy = e := by
  obtain ⟨hp, hv, hen⟩ := hr
  have hks : ∀ ks, Chain P.geo P.trans (polygonsAround P r.pos) P.reflDist r.pos r.vel ks → ks = [] := by
    rw [hp, hv]
    rintro (_ | ⟨k, ks⟩) hc
    · rfl
    · obtain ⟨⟨hk, ho, -⟩, hd, -⟩ := hc
      exact absurd hd (not_lt.2 (hfree.2 k hk ho).le)
  cases hf with
  | rests h0 => linarith
  | absorbed _ ha' => rw [hp, ha] at ha'; cases ha'
  | lost _ _ ho => rw [hp] at ho; exact absurd ho hfree.1
  | spent ks k _ _ _ chain => simpa using hks _ chain
  | moves ks _ _ _ chain _ _ hv' hp' he' =>
    obtain rfl := hks _ chain
    have hv' : r'.vel = v := hv'.trans hv
    exact ⟨by rw [hp', hv', hp], hv', by rw [he', hen]; simp⟩
  | waits ks k _ _ _ chain _ near dist =>
    obtain rfl := hks _ chain
    rw [hp, show bounced P.geo r.vel [] = v from hv] at near
    rw [hp] at dist
    exact absurd dist (hfree.2 k near.1 near.2.1).ne'

/-- The way of one ray to an absorber. -/
theorem direct_history (he1 : P.eps < 1) (heps : 0 ≤ P.eps) (hδ : 0 < P.raySpeed * P.timeStep)
    (hstep : P.raySpeed * P.timeStep < 2 * P.absorberRadius) {D : ℝ} (hRD : P.absorberRadius ≤ D) {source u : Vec3 ℝ}
    (hu : Vec3.normSq u = 1) {sn : Nat} (hc : P.absorbers[sn]? = some (source + D • u))
    (hfree : ∀ z, 0 ≤ z → z ≤ D → FreeAt P (source + z • u) (P.raySpeed • u))
    (hother : ∀ k c, P.absorbers[k]? = some c → k ≠ sn → ∀ z, 0 ≤ z → z ≤ D + P.absorberRadius →
      P.absorberRadius ^ 2 ≤ Vec3.normSq (source + z • u - c)) :
    ∃ q : Nat, D - P.absorberRadius < q * (P.raySpeed * P.timeStep) ∧
      q * (P.raySpeed * P.timeStep) ≤ D - P.absorberRadius + P.raySpeed * P.timeStep ∧
      firstAbsorber P.absorberRadius P.absorbers (source + ((q : ℝ) * (P.raySpeed * P.timeStep)) • u) = some sn ∧
      ∀ n f, History P n f → (f 0).pos = source ∧ (f 0).vel = P.raySpeed • u ∧ (f 0).energy = 1 → ∀ j ≤ n,
        (j ≤ q → (f j).pos = source + ((j : ℝ) * (P.raySpeed * P.timeStep)) • u ∧ (f j).vel = P.raySpeed • u ∧ (f j).energy = 1) ∧
        (q < j → (f j).pos = source + ((q : ℝ) * (P.raySpeed * P.timeStep)) • u ∧ (f j).energy = 0) := by
  obtain ⟨hsn, hc'⟩ := List.getElem?_eq_some_iff.1 hc
  have hR : 0 < P.absorberRadius := by linarith
  have ex : 0 ≤ (D - P.absorberRadius) / (P.raySpeed * P.timeStep) := div_nonneg (by linarith) hδ.le
  obtain ⟨q, hq⟩ : ∃ q : Nat, q = ⌊(D - P.absorberRadius) / (P.raySpeed * P.timeStep)⌋₊ + 1 := ⟨_, rfl⟩
  have hq1 : D - P.absorberRadius < q * (P.raySpeed * P.timeStep) := by
    rw [← div_lt_iff₀ hδ, hq]
    push_cast
    exact Nat.lt_floor_add_one _
  have hq2 : q * (P.raySpeed * P.timeStep) ≤ D - P.absorberRadius + P.raySpeed * P.timeStep := by
    have : ((q : ℝ) - 1) ≤ (D - P.absorberRadius) / (P.raySpeed * P.timeStep) := by
      rw [hq]; push_cast; rw [add_sub_cancel_right]; exact Nat.floor_le ex
    rw [le_div_iff₀ hδ] at this
    linarith
  have dist : ∀ z : ℝ, Vec3.normSq (source + z • u - (source + D • u)) = (z - D) ^ 2 := by
    intro z
    have : Vec3.normSq (source + z • u - (source + D • u)) = (z - D) ^ 2 * Vec3.normSq u := by
      simp [Vec3.normSq, Vec3.dot]; ring
    rw [this, hu, mul_one]
  have hq0 : 0 ≤ (q : ℝ) * (P.raySpeed * P.timeStep) := mul_nonneg (Nat.cast_nonneg _) hδ.le
  have hin : firstAbsorber P.absorberRadius P.absorbers (source + ((q : ℝ) * (P.raySpeed * P.timeStep)) • u) = some sn := by
    rw [firstAbsorber, List.findIdx?_eq_some_iff_getElem]
    refine ⟨hsn, ?_, ?_⟩
    · rw [hc', dist]
      simp only [decide_eq_true_eq]
      exact sq_lt_sq' (by linarith) (by linarith)
    · intro k hk
      have := hother k _ (List.getElem?_eq_getElem (by omega)) (by omega) _ hq0 (by linarith)
      simpa using this
  have hout : ∀ k : Nat, k < q → firstAbsorber P.absorberRadius P.absorbers (source + ((k : ℝ) * (P.raySpeed * P.timeStep)) • u) = none ∧
      (k : ℝ) * (P.raySpeed * P.timeStep) ≤ D - P.absorberRadius := by
    intro k hk
    have hk0 : 0 ≤ (k : ℝ) * (P.raySpeed * P.timeStep) := mul_nonneg (Nat.cast_nonneg _) hδ.le
    have hk1 : (k : ℝ) * (P.raySpeed * P.timeStep) ≤ D - P.absorberRadius := by
      have : ((k : ℝ) + 1) * (P.raySpeed * P.timeStep) ≤ q * (P.raySpeed * P.timeStep) :=
        mul_le_mul_of_nonneg_right (by exact_mod_cast hk) hδ.le
      linarith
    refine ⟨?_, hk1⟩
    rw [firstAbsorber, List.findIdx?_eq_none_iff]
    intro c hcm
    obtain ⟨k', hk', rfl⟩ := List.getElem_of_mem hcm
    simp only [decide_eq_false_iff_not, not_lt]
    by_cases e : k' = sn
    · subst e
      rw [hc', dist]
      nlinarith
    · exact hother k' _ (List.getElem?_eq_getElem hk') e _ hk0 (by linarith)
  refine ⟨q, hq1, hq2, hin, ?_⟩
  intro n f hf h0 j
  induction j with
  | zero =>
    intro _
    refine ⟨fun _ => ?_, fun h => absurd h (Nat.not_lt_zero _)⟩
    simpa using h0
  | succ j ih =>
    intro hj
    have ih := ih (by omega)
    have hfate := hf j (by omega)
    refine ⟨fun hjq => ?_, fun hjq => ?_⟩
    · obtain ⟨o1, o2⟩ := hout j hjq
      obtain ⟨a, b, c⟩ := free_moves (hfree _ (mul_nonneg (Nat.cast_nonneg _) hδ.le) (by linarith)) o1 he1 (ih.1 (by omega)) hfate
      refine ⟨?_, b, c⟩
      rw [a]
      push_cast
      ext <;> simp <;> ring
    · rcases (Nat.lt_succ_iff.1 hjq).eq_or_lt with rfl | hlt
      · obtain ⟨a, b, c⟩ := ih.1 le_rfl
        cases hfate with
        | rests h0 => rw [c] at h0; linarith
        | absorbed _ _ hp _ he => exact ⟨by rw [hp, a], he⟩
        | lost _ ha => rw [a, hin] at ha; cases ha
        | spent _ _ _ ha => rw [a, hin] at ha; cases ha
        | moves _ _ ha => rw [a, hin] at ha; cases ha
        | waits _ _ _ ha => rw [a, hin] at ha; cases ha
      · obtain ⟨a, b⟩ := ih.2 hlt
        cases hfate with
        | rests _ h => rw [h]; exact ⟨a, b⟩
        | absorbed h0 => rw [b] at h0; linarith
        | lost h0 => rw [b] at h0; linarith
        | spent _ _ h0 => rw [b] at h0; linarith
        | moves _ h0 => rw [b] at h0; linarith
        | waits _ _ h0 => rw [b] at h0; linarith

/-- **C128, the direct sound.**  A ray that goes from the source straight to the centre of an absorber at the distance `D`,
with nothing in its way, is in the absorber after `q` steps and not before, where the way of `q` steps is more than
`D - radius`, and longer by at most one step.  Its energy is recorded in the row after that, `q + 1`. -/
theorem C128_direct (he1 : P.eps < 1) (heps : 0 ≤ P.eps) (hδ : 0 < P.raySpeed * P.timeStep)
    (hstep : P.raySpeed * P.timeStep < 2 * P.absorberRadius) {D : ℝ} (hRD : P.absorberRadius ≤ D) {source u : Vec3 ℝ}
    (hu : Vec3.normSq u = 1) {sn : Nat} (hc : P.absorbers[sn]? = some (source + D • u))
    (hfree : ∀ z, 0 ≤ z → z ≤ D → FreeAt P (source + z • u) (P.raySpeed • u))
    (hother : ∀ k c, P.absorbers[k]? = some c → k ≠ sn → ∀ z, 0 ≤ z → z ≤ D + P.absorberRadius →
      P.absorberRadius ^ 2 ≤ Vec3.normSq (source + z • u - c)) :
    ∃ q : Nat, D - P.absorberRadius < q * (P.raySpeed * P.timeStep) ∧
      q * (P.raySpeed * P.timeStep) ≤ D - P.absorberRadius + P.raySpeed * P.timeStep ∧
      ∀ (fuel n : Nat) (dirs : List (Vec3 ℝ)) (rows : List (Row ℝ)) (m : Nat),
        simulationLoop P fuel n (initArrays P source dirs) = some rows → dirs[m]? = some u →
        ∀ (j : Nat) (row : Row ℝ), rows[j]? = some row →
          (j ≤ q → row.pos[m]? = some (source + ((j : ℝ) * (P.raySpeed * P.timeStep)) • u) ∧ row.energy[m]? = some 1) ∧
          (q < j → row.pos[m]? = some (source + ((q : ℝ) * (P.raySpeed * P.timeStep)) • u) ∧ row.energy[m]? = some 0) ∧
          (j = q + 1 → ∃ x, row.hits[sn]? = some x ∧ 1 ≤ x) := by
  obtain ⟨q, h1, h2, h3, h4⟩ := direct_history he1 heps hδ hstep hRD hu hc hfree hother
  obtain ⟨hsn, hc'⟩ := List.getElem?_eq_some_iff.1 hc
  refine ⟨q, h1, h2, ?_⟩
  intro fuel n dirs rows m h hm
  have hsim := h
  unfold simulationLoop at h
  rw [Option.map_eq_some_iff] at h
  obtain ⟨l, hl, rfl⟩ := h
  obtain ⟨hm', -⟩ := List.getElem?_eq_some_iff.1 hm
  obtain ⟨f, hf, hfl⟩ := history_of heps (by simp [initArrays]) hl (m := m) (by simpa [initArrays] using hm')
  have hf0 : (f 0).pos = source ∧ (f 0).vel = P.raySpeed • u ∧ (f 0).energy = 1 := by
    obtain ⟨s0, a, b⟩ := hfl 0 (Nat.zero_le _)
    rw [steps_head hl, Option.some.injEq] at a
    rw [← a] at b
    simp only [start, initArrays, List.getElem?_map, hm, Option.map_some, Option.some.injEq] at b
    rw [← b]
    exact ⟨rfl, rfl, rfl⟩
  have hlen := steps_length hl
  have key : ∀ (j : Nat) (row : Row ℝ), (l.map rowOf)[j]? = some row →
      (j ≤ q → row.pos[m]? = some (source + ((j : ℝ) * (P.raySpeed * P.timeStep)) • u) ∧ row.energy[m]? = some 1) ∧
      (q < j → row.pos[m]? = some (source + ((q : ℝ) * (P.raySpeed * P.timeStep)) • u) ∧ row.energy[m]? = some 0) := by
    intro j row hj
    obtain ⟨hj', -⟩ := List.getElem?_eq_some_iff.1 hj
    rw [List.length_map] at hj'
    obtain ⟨s, a, b⟩ := hfl j (by omega)
    rw [List.getElem?_map, a, Option.map_some, Option.some.injEq] at hj
    obtain ⟨k1, k2⟩ := h4 n f hf hf0 j (by omega)
    subst hj
    simp only [rowOf, List.getElem?_map, b, Option.map_some, Option.some.injEq]
    exact ⟨fun h => ⟨(k1 h).1, (k1 h).2.2⟩, k2⟩
  intro j row hj
  refine ⟨(key j row hj).1, (key j row hj).2, ?_⟩
  rintro rfl
  obtain ⟨hj', -⟩ := List.getElem?_eq_some_iff.1 hj
  have hq : (l.map rowOf)[q]? = some (l.map rowOf)[q] := List.getElem?_eq_getElem (by omega)
  refine ⟨_, (C48_hits fuel n _ _ heps (by simp [initArrays]) hsim q _ _ hq hj).1.2 sn hsn, ?_⟩
  obtain ⟨hp, he⟩ := (key q _ hq).1 le_rfl
  generalize (l.map rowOf)[q] = row0 at hp he
  unfold handedTo
  have hz : (row0.pos.zip row0.energy)[m]? = some (source + ((q : ℝ) * (P.raySpeed * P.timeStep)) • u, 1) := by
    rw [List.getElem?_zip_eq_some]; exact ⟨hp, he⟩
  have hmem := List.mem_of_getElem? hz
  refine le_trans (le_of_eq ?_) (List.single_le_sum ?_ _ (List.mem_map.2 ⟨_, hmem, rfl⟩))
  · exact (if_pos ⟨he1, h3⟩).symm
  · intro x hx
    rw [List.mem_map] at hx
    obtain ⟨⟨p, e⟩, -, rfl⟩ := hx
    simp only
    split
    · next h => exact heps.trans h.1.le
    · exact le_rfl

/-- Every state has as many rays as the first one. -/
theorem rays_length {fuel n : Nat} {A : Arrays ℝ} {l : List (St ℝ)} (heps : 0 ≤ P.eps) (hl : A.hits.length = P.absorbers.length)
    (h : steps P fuel n (start P A) = some l) {i : Nat} {s : St ℝ} (hs : l[i]? = some s) : s.rays.length = A.rays.length := by
  induction i generalizing s with
  | zero =>
    rw [steps_head h, Option.some.injEq] at hs
    rw [← hs]
    simp [start]
  | succ i ih =>
    obtain ⟨hi, -⟩ := List.getElem?_eq_some_iff.1 hs
    have h0 : l[i]? = some l[i] := List.getElem?_eq_getElem (by omega)
    rw [← (C67_fate fuel n A l heps hl h i _ s h0 hs).length_eq]
    exact ih h0

/-- What the only absorber records of the only ray. -/
theorem single_hits (hR : 0 ≤ P.absorberRadius) (heps : 0 ≤ P.eps) (hδ : 0 < P.raySpeed * P.timeStep) {D : ℝ} {source u : Vec3 ℝ} (hu : Vec3.normSq u = 1)
    (hc : P.absorbers = [source + D • u]) {q : Nat}
    (h1 : D - P.absorberRadius < q * (P.raySpeed * P.timeStep))
    (h2 : q * (P.raySpeed * P.timeStep) ≤ D - P.absorberRadius + P.raySpeed * P.timeStep) (fuel n : Nat) (rows : List (Row ℝ))
    (h : simulationLoop P fuel n (initArrays P source [u]) = some rows)
    (h3 : ∀ (j : Nat) (row : Row ℝ), rows[j]? = some row →
      (j ≤ q → row.pos[0]? = some (source + ((j : ℝ) * (P.raySpeed * P.timeStep)) • u) ∧ row.energy[0]? = some 1) ∧
      (q < j → row.pos[0]? = some (source + ((q : ℝ) * (P.raySpeed * P.timeStep)) • u) ∧ row.energy[0]? = some 0) ∧
      (j = q + 1 → ∃ x, row.hits[0]? = some x ∧ 1 ≤ x)) :
    rows.length = n + 1 ∧ ∀ (j : Nat) (row : Row ℝ), rows[j]? = some row → row.hits = [if j = q + 1 then 1 else 0] := by
  have hsim := h
  unfold simulationLoop at h
  rw [Option.map_eq_some_iff] at h
  obtain ⟨l, hl, rfl⟩ := h
  have hlen := steps_length hl
  refine ⟨by simp [hlen], ?_⟩
  have hs1 : P.absorbers.length = 1 := by rw [hc]; rfl
  intro j row hj
  cases j with
  | zero =>
    rw [List.getElem?_map, steps_head hl, Option.map_some, Option.some.injEq] at hj
    subst hj
    simp [rowOf, start, initArrays, hc]
  | succ i =>
    obtain ⟨hlt, -⟩ := List.getElem?_eq_some_iff.1 hj
    rw [List.length_map] at hlt
    have hi : (l.map rowOf)[i]? = some (rowOf l[i]) := by
      rw [List.getElem?_map, List.getElem?_eq_getElem (by omega), Option.map_some]
    obtain ⟨⟨e1, e2⟩, -⟩ := C48_hits fuel n _ _ heps (by simp [initArrays]) hsim i _ _ hi hj
    have hr := rays_length heps (by simp [initArrays]) hl (List.getElem?_eq_getElem (show i < l.length by omega))
    obtain ⟨r, hr⟩ := List.length_eq_one_iff.1 (hr.trans (by simp [initArrays]))
    have e2 := e2 0 (by omega)
    rw [hs1] at e1
    obtain ⟨x, hx⟩ := List.length_eq_one_iff.1 e1
    rw [hx] at e2 ⊢
    simp only [List.getElem?_cons_zero, Option.some.injEq] at e2
    have k := h3 i _ hi
    simp only [rowOf, hr, List.map_cons, List.map_nil, List.getElem?_cons_zero, Option.some.injEq] at k
    simp only [handedTo, rowOf, hr, List.map_cons, List.map_nil, List.zip_cons_cons, List.zip_nil_right, List.sum_cons,
      List.sum_nil, add_zero] at e2
    rw [List.cons.injEq]
    refine ⟨?_, rfl⟩
    rcases lt_trichotomy i q with hlt' | rfl | hgt
    · rw [if_neg (by omega), e2, if_neg]
      rintro ⟨-, hfa⟩
      rw [firstAbsorber, List.findIdx?_eq_some_iff_getElem] at hfa
      obtain ⟨_, hfa, -⟩ := hfa
      simp only [hc, List.getElem_cons_zero, decide_eq_true_eq] at hfa
      rw [(k.1 hlt'.le).1] at hfa
      have hk1 : (i : ℝ) * (P.raySpeed * P.timeStep) ≤ D - P.absorberRadius := by
        have : ((i : ℝ) + 1) * (P.raySpeed * P.timeStep) ≤ q * (P.raySpeed * P.timeStep) :=
          mul_le_mul_of_nonneg_right (by exact_mod_cast hlt') hδ.le
        linarith
      have hd : Vec3.normSq (source + ((i : ℝ) * (P.raySpeed * P.timeStep)) • u - (source + D • u)) =
          ((i : ℝ) * (P.raySpeed * P.timeStep) - D) ^ 2 * Vec3.normSq u := by
        simp [Vec3.normSq, Vec3.dot]; ring
      rw [hd, hu, mul_one] at hfa
      nlinarith
    · rw [if_pos rfl]
      obtain ⟨y, hy, hy1⟩ := (h3 (i + 1) row hj).2.2 rfl
      rw [hx] at hy
      simp only [List.getElem?_cons_zero, Option.some.injEq] at hy
      rw [← hy, e2] at hy1
      rw [e2]
      split at hy1
      · next hh => rw [if_pos hh]; exact (k.1 le_rfl).2
      · linarith
    · rw [if_neg (by omega), e2, if_neg]
      rintro ⟨hh, -⟩
      rw [(k.2.1 hgt).2] at hh
      linarith

/-- **C128, the impulse response of one ray.**  If the ray is the only one and the absorber the only one, the impulse response
of a simulation of `n` steps is zero but for the row `q + 1`, where it is one; the time given for this row is
`(q + 1) * dt * (n + 1) / n`, later by more than one time step than the moment when the sound reaches the absorber. -/
theorem C128_response (he1 : P.eps < 1) (heps : 0 ≤ P.eps) (hv : 0 < P.raySpeed) (ht : 0 < P.timeStep)
    (hstep : P.raySpeed * P.timeStep < 2 * P.absorberRadius) {D : ℝ} (hRD : P.absorberRadius ≤ D) {source u : Vec3 ℝ}
    (hu : Vec3.normSq u = 1) (hc : P.absorbers = [source + D • u])
    (hfree : ∀ z, 0 ≤ z → z ≤ D → FreeAt P (source + z • u) (P.raySpeed • u)) (fuel n : Nat) (rows : List (Row ℝ))
    (h : simulationLoop P fuel n (initArrays P source [u]) = some rows)
    (hlong : D - P.absorberRadius + 2 * (P.raySpeed * P.timeStep) ≤ n * (P.raySpeed * P.timeStep)) :
    ∃ (q : Nat) (r : Output.Response ℝ), q + 1 ≤ n ∧ D - P.absorberRadius < q * (P.raySpeed * P.timeStep) ∧
      q * (P.raySpeed * P.timeStep) ≤ D - P.absorberRadius + P.raySpeed * P.timeStep ∧
      Output.impulseResponse (rows.map Row.hits) 1 P.timeStep = .ok r ∧
      r.columns = [(List.range (n + 1)).map fun j => if j = q + 1 then 1 else 0] ∧
      r.time[q + 1]? = some (((q : ℝ) + 1) * P.timeStep * ((n + 1) / n)) ∧
      (D - P.absorberRadius) / P.raySpeed + P.timeStep < ((q : ℝ) + 1) * P.timeStep * ((n + 1) / n) := by
  have hδ : 0 < P.raySpeed * P.timeStep := mul_pos hv ht
  have hc0 : P.absorbers[0]? = some (source + D • u) := by rw [hc]; rfl
  have hother : ∀ k c, P.absorbers[k]? = some c → k ≠ 0 → ∀ z, 0 ≤ z → z ≤ D + P.absorberRadius →
      P.absorberRadius ^ 2 ≤ Vec3.normSq (source + z • u - c) := by
    intro k c hk hk0
    obtain ⟨hlt, -⟩ := List.getElem?_eq_some_iff.1 hk
    rw [hc, List.length_singleton] at hlt
    omega
  obtain ⟨q, h1, h2, h3⟩ := C128_direct he1 heps hδ hstep hRD hu hc0 hfree hother
  have h3 := h3 fuel n [u] rows 0 h rfl
  have hqn : q + 1 ≤ n := by
    have : ((q : ℝ) + 1) * (P.raySpeed * P.timeStep) ≤ n * (P.raySpeed * P.timeStep) := by linarith
    exact_mod_cast le_of_mul_le_mul_right this hδ
  obtain ⟨hlen, hhits⟩ := single_hits (by linarith) heps hδ hu hc h1 h2 fuel n rows h h3
  have hrows : rows.map Row.hits = (List.range (n + 1)).map fun j => [if j = q + 1 then (1 : ℝ) else 0] := by
    refine List.ext_getElem (by simp [hlen]) ?_
    intro j a b
    rw [List.getElem_map, List.getElem_map, List.getElem_range]
    rw [List.length_map] at a
    exact hhits j _ (List.getElem?_eq_getElem a)
  have hsum : Output.colSum (rows.map Row.hits) 0 = 1 := by
    rw [Output.colSum, hrows, List.map_map]
    have : (List.range (n + 1)).map ((fun r : List ℝ => r.getD 0 0) ∘ fun j => [if j = q + 1 then (1 : ℝ) else 0]) =
        (List.range (n + 1)).map fun j => if j = q + 1 then (1 : ℝ) else 0 := by
      refine List.map_congr_left fun j _ => ?_
      simp
    rw [this, ← List.sum_toFinset _ List.nodup_range]
    simp [hqn]
  have hn : (0 : ℝ) < n := by exact_mod_cast (show 0 < n by omega)
  refine ⟨q, ⟨Output.linspace (((rows.map Row.hits).length : ℝ) * P.timeStep) (rows.map Row.hits).length,
    [(rows.map Row.hits).map fun r => r.getD 0 0 / 1]⟩, hqn, h1, h2, ?_, ?_, ?_, ?_⟩
  · rw [Output.impulseResponse]
    simp only [List.range_one, List.map_cons, List.map_nil, Output.maxOf, List.foldl_nil, hsum, zero_lt_one, if_true]
  · simp only [hrows]
    simp only [List.map_map]
    refine congrArg (fun x => [x]) (List.map_congr_left fun j _ => ?_)
    simp
  · simp only [Output.linspace, List.length_map, hlen]
    rw [List.getElem?_map, List.getElem?_range (by omega), Option.map_some, if_neg (by omega)]
    push_cast
    rw [add_sub_cancel_right, Option.some.injEq]
    field_simp
  · have e1 : (D - P.absorberRadius) / P.raySpeed < q * P.timeStep := by
      rw [div_lt_iff₀ hv]
      linarith
    have e2 : ((q : ℝ) + 1) * P.timeStep ≤ ((q : ℝ) + 1) * P.timeStep * ((n + 1) / n) := by
      refine le_mul_of_one_le_right (by positivity) ?_
      rw [le_div_iff₀ hn]
      linarith
    linarith

/-! ### The hypotheses are met -/

/-- An open space with an absorber a metre from the source. -/
noncomputable def openSpace : Params ℝ where
  raySpeed := 343
  timeStep := 1 / 40000
  gridStep := 1 / 10
  grid := []
  absorbers := [⟨0, 0, 0⟩ + (1 : ℝ) • ⟨1, 0, 0⟩]
  absorberRadius := 1 / 10
  lo := ⟨-10, -10, -10⟩
  hi := ⟨10, 10, 10⟩
  transparent := [-1]
  absorption _ := 1 / 5
  eps := 1 / 1000000
  geo := ⟨fun _ _ _ => false, fun _ _ => 5, fun _ => ⟨0, 0, 1⟩⟩
  setIter := id

/-- Simulations of any length: a ray to the absorber, with the hypotheses of all theorems of this file. -/
example (n : Nat) (hn : 200 ≤ n) : ∃ (P : Params ℝ) (source u : Vec3 ℝ) (D : ℝ) (fuel : Nat) (rows : List (Row ℝ)),
    (∀ k, Vec3.normSq (P.geo.vn k) = 1) ∧ P.eps < 1 ∧ 0 ≤ P.eps ∧ 0 < P.raySpeed ∧ 0 < P.timeStep ∧
    P.raySpeed * P.timeStep < 2 * P.absorberRadius ∧ P.absorberRadius ≤ D ∧ Vec3.normSq u = 1 ∧
    P.absorbers = [source + D • u] ∧ (∀ z, 0 ≤ z → z ≤ D → FreeAt P (source + z • u) (P.raySpeed • u)) ∧
    simulationLoop P fuel n (initArrays P source [u]) = some rows ∧
    D - P.absorberRadius + 2 * (P.raySpeed * P.timeStep) ≤ n * (P.raySpeed * P.timeStep) := by
  obtain ⟨rows, h⟩ := C51_terminates (P := openSpace) (1 / 5) 1 (by norm_num) (fun _ => le_rfl) (by norm_num [openSpace]) n
    (initArrays openSpace ⟨0, 0, 0⟩ [⟨1, 0, 0⟩]) (by simp [initArrays]) (by
      intro r hr
      simp only [initArrays, List.map_cons, List.map_nil, List.mem_singleton] at hr
      subst hr
      norm_num)
  have hn' : (200 : ℝ) ≤ n := by exact_mod_cast hn
  refine ⟨openSpace, ⟨0, 0, 0⟩, ⟨1, 0, 0⟩, 1, _, rows, ?_, ?_, ?_, ?_, ?_, ?_, ?_, ?_, rfl, ?_, h, ?_⟩
  · intro k; simp [openSpace, Vec3.normSq, Vec3.dot]
  all_goals try (norm_num [openSpace, Vec3.normSq, Vec3.dot]; done)
  · intro z h0 h1
    refine ⟨?_, ?_⟩
    · simp only [Outside, openSpace, not_or, not_lt]
      refine ⟨?_, ?_, ?_, ?_, ?_, ?_⟩ <;> simp <;> linarith
    · rintro k - ⟨-, ho⟩
      simp [openSpace] at ho
  · simp only [openSpace]
    linarith

end B3d.Sim
