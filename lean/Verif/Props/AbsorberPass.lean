import Verif.Props.SimFate

/-!
# Property C127: rays that pass through an absorber
-/

namespace B3d.Sim

variable {K : Type} [Field K] [LinearOrder K] [IsStrictOrderedRing K] [FloorRing K] {P : Params K}

omit [FloorRing K] in
/-- A ball is convex. -/
theorem inBall_between {p d c : Vec3 K} {ρ s k t : K} (h1 : s ≤ k) (h2 : k ≤ t)
    (hs : Vec3.normSq (p + s • d - c) < ρ) (ht : Vec3.normSq (p + t • d - c) < ρ) : Vec3.normSq (p + k • d - c) < ρ := by
  have e : ∀ x : K, Vec3.normSq (p + x • d - c) =
      Vec3.normSq (p - c) + 2 * x * Vec3.dot (p - c) d + x ^ 2 * Vec3.normSq d := by
    intro x
    simp [Vec3.normSq, Vec3.dot]
    ring
  rw [e] at *
  have hd : 0 ≤ Vec3.normSq d := by
    rw [Vec3.normSq, Vec3.dot]
    exact add_nonneg (add_nonneg (mul_self_nonneg _) (mul_self_nonneg _)) (mul_self_nonneg _)
  rcases h1.eq_or_lt with rfl | h1'
  · exact hs
  rcases h2.eq_or_lt with rfl | h2'
  · exact ht
  generalize Vec3.normSq (p - c) = A at *
  generalize Vec3.dot (p - c) d = B at *
  generalize Vec3.normSq d = D at *
  have h3 := mul_lt_mul_of_pos_left hs (sub_pos.2 h2')
  have h4 := mul_lt_mul_of_pos_left ht (sub_pos.2 h1')
  have h5 : 0 ≤ (t - k) * (k - s) * (t - s) * D :=
    mul_nonneg (mul_nonneg (mul_nonneg (sub_nonneg.2 h2) (sub_nonneg.2 h1)) (sub_nonneg.2 (h1.trans h2))) hd
  have h6 : (t - s) * (A + 2 * k * B + k ^ 2 * D) < (t - s) * ρ := by linarith
  exact lt_of_mul_lt_mul_left h6 (sub_nonneg.2 (h1.trans h2))

omit [IsStrictOrderedRing K] in
/-- A ray that still has energy after a step was in no absorber before it. -/
theorem alive_before {r r' : Ray K} (heps : 0 ≤ P.eps) (h : Fate P r r') (he : P.eps < r'.energy) :
    P.eps < r.energy ∧ firstAbsorber P.absorberRadius P.absorbers r.pos = none := by
  cases h with
  | rests h0 h => rw [h] at he; exact absurd he (not_lt.2 h0)
  | absorbed _ _ _ _ h => rw [h] at he; exact absurd he (not_lt.2 heps)
  | lost _ _ _ _ _ h => rw [h] at he; exact absurd he (not_lt.2 heps)
  | spent _ _ _ _ _ _ _ _ _ _ h => rw [h] at he; exact absurd he (not_lt.2 heps)
  | moves _ h0 ha => exact ⟨h0, ha⟩
  | waits _ _ h0 ha => exact ⟨h0, ha⟩

/-- **C127, where rays with energy have been.**  If a ray has energy at some step, then at no earlier step it was in an
absorber. -/
theorem C127_never_in (heps : 0 ≤ P.eps) (fuel n : Nat) (A : Arrays K) (l : List (St K))
    (hl : A.hits.length = P.absorbers.length) (h : steps P fuel n (start P A) = some l) {i j m : Nat} (hij : i < j)
    {s s' : St K} {r r' : Ray K} (hs : l[i]? = some s) (hr : s.rays[m]? = some r) (hs' : l[j]? = some s')
    (hr' : s'.rays[m]? = some r') (he : P.eps < r'.energy) {c : Vec3 K} (hc : c ∈ P.absorbers) :
    P.absorberRadius ^ 2 ≤ Vec3.normSq (r.pos - c) := by
  have key : ∀ k, i + k + 1 ≤ j → P.eps < r'.energy → ∀ s0 r0, l[j - k]? = some s0 → s0.rays[m]? = some r0 → P.eps < r0.energy := by
    intro k
    induction k with
    | zero =>
      intro _ _ s0 r0 h1 h2
      rw [Nat.sub_zero, hs', Option.some.injEq] at h1
      rw [← h1, hr', Option.some.injEq] at h2
      rw [← h2]; exact he
    | succ k ih =>
      intro hk _ s0 r0 h1 h2
      have hlt : j - k < l.length := by
        have := (List.getElem?_eq_some_iff.1 hs').1
        omega
      have e : l[j - (k + 1) + 1]? = some l[j - k] := by
        rw [show j - (k + 1) + 1 = j - k by omega]
        exact List.getElem?_eq_getElem hlt
      have hf := C67_fate fuel n A l heps hl h _ _ _ h1 e
      obtain ⟨hm, -⟩ := List.getElem?_eq_some_iff.1 h2
      have hm' : m < l[j - k].rays.length := by rw [← hf.length_eq]; exact hm
      have h3 := forall₂_getElem? hf h2 (List.getElem?_eq_getElem hm')
      exact (alive_before heps h3 (ih (by omega) he _ _ (List.getElem?_eq_getElem hlt) (List.getElem?_eq_getElem hm'))).1
  have hlt : i + 1 < l.length := by
    have := (List.getElem?_eq_some_iff.1 hs').1
    omega
  have e : l[i + 1]? = some l[i + 1] := List.getElem?_eq_getElem hlt
  have hf := C67_fate fuel n A l heps hl h _ _ _ hs e
  obtain ⟨hm, -⟩ := List.getElem?_eq_some_iff.1 hr
  have hm' : m < l[i + 1].rays.length := by rw [← hf.length_eq]; exact hm
  have h3 := forall₂_getElem? hf hr (List.getElem?_eq_getElem hm')
  have h4 := (alive_before heps h3 (key (j - (i + 1)) (by omega) he _ _ (by
    rw [show j - (j - (i + 1)) = i + 1 by omega]; exact e) (List.getElem?_eq_getElem hm'))).2
  rw [firstAbsorber, List.findIdx?_eq_none_iff] at h4
  simpa using h4 c hc

/-- **C127, rays are not missed** if their way in the absorber is at least as long as a step.  While a ray goes straight on, at
`p + k d` after `k` steps, and has energy at the end, no part of its way as long as a step lies in an absorber.

Missing from the full property: shorter parts, see `C127_missed` and `C127_missed_default`. -/
theorem C127_not_missed_partial (heps : 0 ≤ P.eps) (fuel n : Nat) (A : Arrays K) (l : List (St K))
    (hl : A.hits.length = P.absorbers.length) (h : steps P fuel n (start P A) = some l) {i q m : Nat} {p d : Vec3 K}
    (hway : ∀ k ≤ q, ∃ s r, l[i + k]? = some s ∧ s.rays[m]? = some r ∧ r.pos = p + (k : K) • d) {s' : St K} {r' : Ray K}
    (hs' : l[i + q]? = some s') (hr' : s'.rays[m]? = some r') (he : P.eps < r'.energy) {c : Vec3 K} (hc : c ∈ P.absorbers)
    {s t : K} (h0 : 0 ≤ s) (hst : s + 1 ≤ t) (ht : t ≤ q) :
    ¬ (Vec3.normSq (p + s • d - c) < P.absorberRadius ^ 2 ∧ Vec3.normSq (p + t • d - c) < P.absorberRadius ^ 2) := by
  rintro ⟨h1, h2⟩
  have hk1 : s ≤ (⌈s⌉₊ : K) := Nat.le_ceil s
  have hk2 : (⌈s⌉₊ : K) < s + 1 := Nat.ceil_lt_add_one h0
  have hk : (⌈s⌉₊ : K) < (q : K) := by linarith
  have hk : ⌈s⌉₊ < q := by exact_mod_cast hk
  obtain ⟨s0, r0, a, b, e⟩ := hway ⌈s⌉₊ hk.le
  have := C127_never_in heps fuel n A l hl h (show i + ⌈s⌉₊ < i + q by omega) a b hs' hr' he hc
  rw [e] at this
  exact absurd (inBall_between hk1 (by linarith) h1 h2) (not_lt.2 this)

/-- **C127, rays close to the middle are caught.**  While a ray goes straight on and has energy at the end, no absorber whose
centre it passes (half a step after the start or later, half a step before the end or earlier) is so close that the square of the
distance and a quarter of the square of the step are less than the square of the radius. -/
theorem C127_caught (heps : 0 ≤ P.eps) (fuel n : Nat) (A : Arrays K) (l : List (St K))
    (hl : A.hits.length = P.absorbers.length) (h : steps P fuel n (start P A) = some l) {i q m : Nat} {p d : Vec3 K}
    (hway : ∀ k ≤ q, ∃ s r, l[i + k]? = some s ∧ s.rays[m]? = some r ∧ r.pos = p + (k : K) • d) {s' : St K} {r' : Ray K}
    (hs' : l[i + q]? = some s') (hr' : s'.rays[m]? = some r') (he : P.eps < r'.energy) {c : Vec3 K} (hc : c ∈ P.absorbers)
    {t : K} (h0 : 1 / 2 ≤ t) (ht : t ≤ q - 1 / 2) (hfoot : Vec3.dot (p + t • d - c) d = 0) :
    P.absorberRadius ^ 2 ≤ Vec3.normSq (p + t • d - c) + Vec3.normSq d / 4 := by
  by_contra hlt
  rw [not_le] at hlt
  have e : ∀ x : K, Vec3.normSq (p + (t + x) • d - c) =
      Vec3.normSq (p + t • d - c) + 2 * x * Vec3.dot (p + t • d - c) d + x ^ 2 * Vec3.normSq d := by
    intro x
    simp [Vec3.normSq, Vec3.dot]
    ring
  refine C127_not_missed_partial heps fuel n A l hl h hway hs' hr' he hc (s := t + -(1 / 2)) (t := t + 1 / 2) (by linarith)
    (by linarith) (by linarith) ⟨?_, ?_⟩
  · rw [e, hfoot]; linarith
  · rw [e, hfoot]; linarith

/-! ### Rays that are missed -/

/-- An empty space with one absorber. -/
def space (dt : ℚ) (c : Vec3 ℚ) : Params ℚ where
  raySpeed := 343
  timeStep := dt
  gridStep := 1 / 10
  grid := []
  absorbers := [c]
  absorberRadius := 1 / 10
  lo := ⟨-1, -1, -1⟩
  hi := ⟨1, 1, 1⟩
  transparent := [-1]
  absorption _ := 1 / 5
  eps := 1 / 1000000
  geo := ⟨fun _ _ _ => false, fun _ _ => 0, fun _ => ⟨1, 0, 0⟩⟩
  setIter := id

/-- What is seen of a simulation: the positions and energies of the rays and the hits after each step. -/
def seen (l : List (St ℚ)) : List (List (Vec3 ℚ × ℚ) × List ℚ) := l.map fun s => (s.rays.map fun r => (r.pos, r.energy), s.hits)

/-- **C127 fails for long steps**: with a time step of a millisecond a ray passes through the centre of an absorber with the
default radius of 10 cm, halfway between its places before and after the step, and keeps its energy. -/
theorem C127_missed : (steps (space (1 / 1000) ⟨343 / 2000, 0, 0⟩) 2 1
      (start (space (1 / 1000) ⟨343 / 2000, 0, 0⟩) ⟨[(⟨0, 0, 0⟩, ⟨343, 0, 0⟩, 1)], [0]⟩)).map seen =
    some [([(⟨0, 0, 0⟩, 1)], [0]), ([(⟨343 / 1000, 0, 0⟩, 1)], [0])] :=
  by decide +kernel

/-- **C127 fails near the rim also with the default time step**: halfway of a step the ray is 99.95 mm beside the centre. -/
theorem C127_missed_default : (steps (space (1 / 40000) ⟨343 / 80000, 1999 / 20000, 0⟩) 2 1
      (start (space (1 / 40000) ⟨343 / 80000, 1999 / 20000, 0⟩) ⟨[(⟨0, 0, 0⟩, ⟨343, 0, 0⟩, 1)], [0]⟩)).map seen =
    some [([(⟨0, 0, 0⟩, 1)], [0]), ([(⟨343 / 40000, 0, 0⟩, 1)], [0])] :=
  by decide +kernel

/-! ### The hypotheses are met -/

/-- The states of a ray that goes straight on for three steps, 20 cm beside the absorber. -/
def passing : List (St ℚ) := [0, 1, 2, 3].map fun k => ⟨[⟨⟨k * (343 / 40000), 0, 0⟩, ⟨343, 0, 0⟩, ⟨343 / 40000, 0, 0⟩, 1⟩], [0]⟩

deriving instance DecidableEq for St

/-- The ray is straight on its way, has energy, and passes the centre halfway. -/
example : ∃ (P : Params ℚ) (A : Arrays ℚ) (l : List (St ℚ)) (p d : Vec3 ℚ) (s' : St ℚ) (r' : Ray ℚ), 0 ≤ P.eps ∧
    A.hits.length = P.absorbers.length ∧ steps P 2 3 (start P A) = some l ∧
    (∀ k : Nat, k ≤ 3 → ∃ (s : St ℚ) (r : Ray ℚ), l[0 + k]? = some s ∧ s.rays[0]? = some r ∧ r.pos = p + (k : ℚ) • d) ∧
    l[0 + 3]? = some s' ∧ s'.rays[0]? = some r' ∧ P.eps < r'.energy ∧
    ∃ c ∈ P.absorbers, Vec3.dot (p + (3 / 2 : ℚ) • d - c) d = 0 := by
  refine ⟨space (1 / 40000) ⟨3 * 343 / 80000, 1 / 5, 0⟩, ⟨[(⟨0, 0, 0⟩, ⟨343, 0, 0⟩, 1)], [0]⟩, passing, ⟨0, 0, 0⟩,
    ⟨343 / 40000, 0, 0⟩, _, _, by decide +kernel, rfl, by decide +kernel, ?_, rfl, rfl, by decide +kernel, _,
    List.mem_singleton_self _, by decide +kernel⟩
  intro k hk
  have : k = 0 ∨ k = 1 ∨ k = 2 ∨ k = 3 := by omega
  rcases this with rfl | rfl | rfl | rfl
  all_goals exact ⟨_, _, rfl, rfl, by decide +kernel⟩

end B3d.Sim
