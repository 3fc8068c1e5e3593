import Verif.Props.Directions

/-!
# Property C126: the echo between two parallel walls

Exact reals, with the tests of the code (`geoOf`).
-/

namespace B3d.Sim

open Spec Polygon Triangles

variable {P : Params ℝ} {Ps : List Poly} {p n : Vec3 ℝ} {L : ℝ} {k0 k1 : Nat}

/-- Polygon number `k` is flat, perpendicular to `n`, and contains the point `x`, not close to the edges of its triangles. -/
def WallAt (Ps : List Poly) (k : Nat) (n x : Vec3 ℝ) : Prop :=
  ∃ Q v e w, Ps[k]? = some Q ∧ FlatPoly Q v e w ∧ (w = n ∨ w = -n) ∧ (∀ q ∈ Q.pts, Vec3.dot n q = Vec3.dot n x) ∧ WellIn Q x

/-- Two opaque walls perpendicular to the unit vector `n`, the first one at `p`, the second one at the distance `L`; between
them, along the line through `p`, there are no other opaque polygons in the cells around, no absorbers, and the box of the
building is not left.  The walls are in the cells around where they are closer than the reflection distance. -/
structure Corridor (P : Params ℝ) (Ps : List Poly) (p n : Vec3 ℝ) (L : ℝ) (k0 k1 : Nat) : Prop where
  geo : P.geo = geoOf Ps
  unit : Vec3.dot n n = 1
  wall0 : WallAt Ps k0 n p
  wall1 : WallAt Ps k1 n (p + L • n)
  opaque0 : (k0 : Int) ∉ P.trans
  opaque1 : (k1 : Int) ∉ P.trans
  only : ∀ z, 0 < z → z < L → ∀ k ∈ polygonsAround P (p + z • n), (k : Int) ∉ P.trans → k = k0 ∨ k = k1
  near0 : ∀ z, 0 < z → z < L → z ≤ P.reflDist → k0 ∈ polygonsAround P (p + z • n)
  near1 : ∀ z, 0 < z → z < L → L - z ≤ P.reflDist → k1 ∈ polygonsAround P (p + z • n)
  free : ∀ z, 0 < z → z < L →
    firstAbsorber P.absorberRadius P.absorbers (p + z • n) = none ∧ ¬ Outside P.lo P.hi P.eps (p + z • n)

theorem wallAt_neg {k : Nat} {x : Vec3 ℝ} (h : WallAt Ps k n x) : WallAt Ps k (-n) x := by
  obtain ⟨Q, v, e, w, h1, h2, h3, h4, h5⟩ := h
  have hn : ∀ y : Vec3 ℝ, Vec3.dot (-n) y = -Vec3.dot n y := by intro y; simp [Vec3.dot]; ring
  exact ⟨Q, v, e, w, h1, h2, by rw [neg_neg]; exact h3.symm, fun q hq => by rw [hn, hn, h4 q hq], h5⟩

theorem corridor_point (z : ℝ) : p + L • n + z • -n = p + (L - z) • n := by
  ext <;> simp <;> ring

/-- The corridor seen from its other end. -/
theorem Corridor.reverse (h : Corridor P Ps p n L k0 k1) : Corridor P Ps (p + L • n) (-n) L k1 k0 where
  geo := h.geo
  unit := by rw [← h.unit]; simp [Vec3.dot]
  wall0 := wallAt_neg h.wall1
  wall1 := by
    rw [corridor_point, sub_self, zero_smul, add_zero]
    exact wallAt_neg h.wall0
  opaque0 := h.opaque1
  opaque1 := h.opaque0
  only z h0 h1 := by
    rw [corridor_point]
    exact fun k hk ho => (h.only (L - z) (by linarith) (by linarith) k hk ho).symm
  near0 z h0 h1 h2 := by
    rw [corridor_point]
    exact h.near1 (L - z) (by linarith) (by linarith) (by linarith)
  near1 z h0 h1 h2 := by
    rw [corridor_point]
    exact h.near0 (L - z) (by linarith) (by linarith) (by linarith)
  free z h0 h1 := by
    rw [corridor_point]
    exact h.free (L - z) (by linarith) (by linarith)

theorem wallAt_perpendicular {k : Nat} {x : Vec3 ℝ} (h : WallAt Ps k n x) :
    PerpendicularAt Ps (fun _ => n) k 0 (Vec3.dot n x) := by
  obtain ⟨Q, v, e, w, h1, h2, h3, h4, -⟩ := h
  exact ⟨Q, v, e, w, h1, h2, h3, h4⟩

/-- In front of a wall the distance is the height. -/
theorem wallAt_dist (hn : Vec3.dot n n = 1) {k : Nat} {x : Vec3 ℝ} (h : WallAt Ps k n x) (t : ℝ) :
    (geoOf Ps).dist (x + t • n) k = |t| := by
  obtain ⟨Q, v, e, w, hk, hQ, hw, -, hin⟩ := h
  obtain ⟨pts, vn, hnew⟩ := hQ.made
  obtain ⟨s, hs⟩ : ∃ s : ℝ, x + t • n = x + s • w := by
    rcases hw with rfl | rfl
    · exact ⟨t, rfl⟩
    · exact ⟨-t, by ext <;> simp⟩
  have h := (C72_distance_in_front hnew hQ.normal hQ.plane hQ.corner (x := x + t • n) (x' := x) (k := s) hs hin).1
  simp only [geoOf, hk]
  rw [polyNormal_eq hQ.corner, h]
  simp only []
  rw [add_sub_cancel_left, Vec3.norm, show Vec3.normSq (t • n) = t ^ 2 by
    rw [Vec3.normSq, Vec3.dot_smul_left, Vec3.dot_smul_right, hn]; ring, Real.sqrt_sq_eq_abs]

theorem wallAt_hit (hn : Vec3.dot n n = 1) {k : Nat} {x : Vec3 ℝ} (h : WallAt Ps k n x) {t u : ℝ} (ht : 0 ≤ t)
    (hu : 1 / 1000 ≤ u) : (geoOf Ps).hit (x - t • n) (u • n) k = true := by
  obtain ⟨Q, v, e, w, hk, hQ, hw, -, hin⟩ := h
  obtain ⟨pts, vn, hnew⟩ := hQ.made
  have hu0 : 0 < u := by linarith
  have hg : 1 / 1000 ≤ |Vec3.dot w (u • n)| := by
    rcases hw with rfl | rfl
    · rw [Vec3.dot_smul_right, hn, mul_one, abs_of_pos hu0]; exact hu
    · rw [Vec3.dot_smul_right, show Vec3.dot (-n) n = -Vec3.dot n n by simp [Vec3.dot]; ring, hn, mul_neg, mul_one, abs_neg,
        abs_of_pos hu0]
      exact hu
  simp only [geoOf, hk, decide_eq_true_eq]
  refine C73_hit_partial (s := t / u) hnew hQ.normal hQ.plane hQ.corner (by norm_num) hg true (fun _ => by positivity) (.inl ?_)
  have e : x - t • n + (t / u) • (u • n) = x := by
    rw [smul_smul, div_mul_cancel₀ _ hu0.ne', sub_add_cancel]
  rw [e]
  exact hin

/-- A wall behind the ray is not noticed. -/
theorem wallAt_behind (hn : Vec3.dot n n = 1) {k : Nat} {x : Vec3 ℝ} (h : WallAt Ps k n x) {t u : ℝ} (ht : 0 < t)
    (hu : 1 / 1000 ≤ u) : (geoOf Ps).hit (x + t • n) (u • n) k ≠ true := by
  intro hh
  have hp : Vec3.dot n (x + t • n) = Vec3.dot n x + t := by rw [Vec3.dot_add_right, Vec3.dot_smul_right, hn, mul_one]
  have hv : Vec3.dot n (u • n) = u := by rw [Vec3.dot_smul_right, hn, mul_one]
  have := hit_towards (wallAt_perpendicular h) (p := x + t • n) (v := u • n) (by simp only [hp]; linarith)
    (.inl (by simp only [hv]; rw [abs_of_pos (by linarith)]; exact hu)) hh
  simp only [hp, hv] at this
  have h2 : 0 < t * u := mul_pos ht (by linarith)
  linarith

/-- What a ray moving towards the second wall notices. -/
theorem corridor_hit (h : Corridor P Ps p n L k0 k1) {z u : ℝ} (h0 : 0 < z) (h1 : z < L) (hu : 1 / 1000 ≤ u) :
    (∀ k ∈ polygonsAround P (p + z • n), OpaqueHit P.geo P.trans (p + z • n) (u • n) k → k = k1) ∧
    OpaqueHit P.geo P.trans (p + z • n) (u • n) k1 ∧ P.geo.dist (p + z • n) k1 = L - z ∧
    mirror (P.geo.vn k1) (u • n) = -(u • n) := by
  have e : p + z • n = p + L • n - (L - z) • n := by ext <;> simp <;> ring
  refine ⟨fun k hk ho => ?_, ⟨h.opaque1, ?_⟩, ?_, ?_⟩
  · rcases h.only z h0 h1 k hk ho.1 with rfl | rfl
    · have := ho.2
      rw [h.geo] at this
      exact absurd this (wallAt_behind h.unit h.wall0 h0 hu)
    · rfl
  · rw [h.geo, e]
    exact wallAt_hit h.unit h.wall1 (by linarith) hu
  · rw [h.geo, show p + z • n = p + L • n + (-(L - z)) • n by ext <;> simp <;> ring, wallAt_dist h.unit h.wall1, abs_neg,
      abs_of_pos (by linarith)]
  · rw [h.geo]
    have hnn := h.unit
    have e2 : mirror n (u • n) = -(u • n) := by
      unfold mirror
      rw [Vec3.dot_smul_right, hnn]
      ext <;> simp <;> ring
    rcases vn_axis (wallAt_perpendicular h.wall1) with hw | hw <;> rw [hw]
    · exact e2
    · rw [← e2]
      unfold mirror
      ext <;> simp [Vec3.dot] <;> ring

/-- A ray between the walls that moves in the direction of `n`. -/
structure Going (P : Params ℝ) (p n : Vec3 ℝ) (z e : ℝ) (r : Ray ℝ) : Prop where
  pos : r.pos = p + z • n
  vel : r.vel = P.raySpeed • n
  energy : r.energy = e

/-- No wall near: the ray moves on. -/
theorem corridor_on (h : Corridor P Ps p n L k0 k1) (hu : 1 / 1000 ≤ P.raySpeed) {z e : ℝ} {r r' : Ray ℝ} (h0 : 0 < z)
    (h1 : P.reflDist < L - z) (hρ : 0 ≤ P.reflDist) (he : P.eps < e) (hr : Going P p n z e r) (hf : Fate P r r') :
    Going P p n (z + P.raySpeed * P.timeStep) e r' := by
  obtain ⟨hp, hv, hen⟩ := hr
  obtain ⟨g1, g2, g3, g4⟩ := corridor_hit h h0 (by linarith) hu
  obtain ⟨f1, f2⟩ := h.free z h0 (by linarith)
  have hks : ∀ ks, Chain P.geo P.trans (polygonsAround P r.pos) P.reflDist r.pos r.vel ks → ks = [] := by
    rw [hp, hv]
    rintro (_ | ⟨k, ks⟩) hc
    · rfl
    · obtain ⟨⟨hk, ho, -⟩, hd, -⟩ := hc
      rw [g1 k hk ho, g3] at hd
      linarith
  cases hf with
  | rests h0 => linarith
  | absorbed _ ha => rw [hp, f1] at ha; cases ha
  | lost _ _ ho => rw [hp] at ho; exact absurd ho f2
  | spent ks k _ _ _ chain => simpa using hks _ chain
  | moves ks _ _ _ chain _ _ hv' hp' he' =>
    obtain rfl := hks _ chain
    have hv' : r'.vel = P.raySpeed • n := hv'.trans hv
    refine ⟨?_, hv', ?_⟩
    · rw [hp', hv', hp]; ext <;> simp <;> ring
    · rw [he', hen]; simp
  | waits ks k _ _ _ chain _ near dist =>
    obtain rfl := hks _ chain
    rw [hp, show bounced P.geo r.vel [] = P.raySpeed • n from hv] at near
    rw [hp, g1 k near.1 near.2.1, g3] at dist
    linarith

/-- A wall near in front: the ray turns round and moves back. -/
theorem corridor_turn (h : Corridor P Ps p n L k0 k1) (hu : 1 / 1000 ≤ P.raySpeed) {z e : ℝ} {r r' : Ray ℝ} (h0 : P.reflDist < z)
    (h1 : z < L) (hnear : L - z < P.reflDist) (he : P.eps < e - P.absorption k1) (ha : 0 ≤ P.absorption k1)
    (hr : Going P p n z e r) (hf : Fate P r r') :
    Going P (p + L • n) (-n) (L - z + P.raySpeed * P.timeStep) (e - P.absorption k1) r' := by
  obtain ⟨hp, hv, hen⟩ := hr
  have hz0 : 0 < z := by linarith
  obtain ⟨g1, g2, g3, g4⟩ := corridor_hit h hz0 h1 hu
  obtain ⟨f1, f2⟩ := h.free z hz0 h1
  obtain ⟨b1, b2, b3, b4⟩ := corridor_hit h.reverse (z := L - z) (by linarith) (by linarith) hu
  rw [corridor_point, sub_sub_cancel] at b1 b2 b3
  have hneg : -(P.raySpeed • n) = P.raySpeed • -n := by ext <;> simp
  have hks : ∀ ks, Chain P.geo P.trans (polygonsAround P r.pos) P.reflDist r.pos r.vel ks → ks = [] ∨ ks = [k1] := by
    rw [hp, hv]
    rintro (_ | ⟨k, ks⟩) hc
    · exact .inl rfl
    · obtain ⟨⟨hk, ho, -⟩, -, hc⟩ := hc
      obtain rfl := g1 k hk ho
      rw [g4, hneg] at hc
      rcases ks with _ | ⟨m, ks⟩
      · exact .inr rfl
      · obtain ⟨⟨hk, ho, -⟩, hd, -⟩ := hc
        rw [b1 m hk ho, b3] at hd
        linarith
  have hb : bounced P.geo r.vel [k1] = P.raySpeed • -n := by
    change mirror (P.geo.vn k1) r.vel = _
    rw [hv, g4, hneg]
  cases hf with
  | rests h0 => linarith
  | absorbed _ ha => rw [hp, f1] at ha; cases ha
  | lost _ _ ho => rw [hp] at ho; exact absurd ho f2
  | spent ks k _ _ _ chain _ after =>
    have : ks ++ [k] = [k1] := (hks _ chain).resolve_left (by simp)
    rw [this, hen] at after
    simp at after
    linarith
  | moves ks _ _ _ chain _ free hv' hp' he' =>
    rcases hks _ chain with rfl | rfl
    · rw [hp, show bounced P.geo r.vel [] = P.raySpeed • n from hv] at free
      have := free k1 (h.near1 z hz0 h1 hnear.le) g2
      rw [g3] at this
      linarith
    · rw [hb] at hv'
      refine ⟨?_, hv', ?_⟩
      · rw [hp', hv', hp]; ext <;> simp <;> ring
      · rw [he', hen]; simp
  | waits ks k _ _ _ chain _ near dist =>
    rcases hks _ chain with rfl | rfl
    · rw [hp, show bounced P.geo r.vel [] = P.raySpeed • n from hv] at near
      rw [hp, g1 k near.1 near.2.1, g3] at dist
      linarith
    · rw [hp, hb] at near
      rw [hp, b1 k near.1 near.2.1, b3] at dist
      linarith

/-- A wall in front at the reflection distance exactly: the ray stands still. -/
theorem corridor_stuck (h : Corridor P Ps p n L k0 k1) (hu : 1 / 1000 ≤ P.raySpeed) {z e : ℝ} {r r' : Ray ℝ} (h0 : 0 < z)
    (h1 : z < L) (hnear : L - z = P.reflDist) (he : P.eps < e) (hr : Going P p n z e r) (hf : Fate P r r') :
    Going P p n z e r' := by
  obtain ⟨hp, hv, hen⟩ := hr
  obtain ⟨g1, g2, g3, g4⟩ := corridor_hit h h0 h1 hu
  obtain ⟨f1, f2⟩ := h.free z h0 h1
  have hks : ∀ ks, Chain P.geo P.trans (polygonsAround P r.pos) P.reflDist r.pos r.vel ks → ks = [] := by
    rw [hp, hv]
    rintro (_ | ⟨k, ks⟩) hc
    · rfl
    · obtain ⟨⟨hk, ho, -⟩, hd, -⟩ := hc
      rw [g1 k hk ho, g3] at hd
      linarith
  cases hf with
  | rests h0 => linarith
  | absorbed _ ha => rw [hp, f1] at ha; cases ha
  | lost _ _ ho => rw [hp] at ho; exact absurd ho f2
  | spent ks k _ _ _ chain => simpa using hks _ chain
  | moves ks _ _ _ chain _ free =>
    obtain rfl := hks _ chain
    rw [hp, show bounced P.geo r.vel [] = P.raySpeed • n from hv] at free
    have := free k1 (h.near1 z h0 h1 hnear.le) g2
    rw [g3] at this
    linarith
  | waits ks k _ _ _ chain _ _ _ hv' hp' he' =>
    obtain rfl := hks _ chain
    exact ⟨hp'.trans hp, hv'.trans hv, by rw [he', hen]; simp⟩

/-- The history of one ray: each entry comes from the one before by a step. -/
def History (P : Params ℝ) (N : Nat) (f : Nat → Ray ℝ) : Prop := ∀ i < N, Fate P (f i) (f (i + 1))

/-- The rays with number `m` in a simulation are a history. -/
theorem history_of {fuel n : Nat} {A : Arrays ℝ} {l : List (St ℝ)} (heps : 0 ≤ P.eps) (hl : A.hits.length = P.absorbers.length)
    (h : steps P fuel n (start P A) = some l) {m : Nat} (hm : m < A.rays.length) :
    ∃ f, History P n f ∧ ∀ i ≤ n, ∃ s, l[i]? = some s ∧ s.rays[m]? = some (f i) := by
  have hlen := steps_length h
  have hex : ∀ i, i ≤ n → ∃ r s, l[i]? = some s ∧ s.rays[m]? = some r := by
    intro i
    induction i with
    | zero =>
      intro _
      exact ⟨_, _, steps_head h, List.getElem?_eq_getElem (by simpa [start] using hm)⟩
    | succ i ih =>
      intro hi
      obtain ⟨r, s, hs, hr⟩ := ih (by omega)
      have hs' : l[i + 1]? = some l[i + 1] := List.getElem?_eq_getElem (by omega)
      have hf := C67_fate fuel n A l heps hl h i _ _ hs hs'
      obtain ⟨hm', -⟩ := List.getElem?_eq_some_iff.1 hr
      exact ⟨_, _, hs', List.getElem?_eq_getElem (by rw [← hf.length_eq]; exact hm')⟩
  choose g hg using hex
  refine ⟨fun i => if hi : i ≤ n then g i hi else g 0 (Nat.zero_le _), ?_, ?_⟩
  · intro i hi
    obtain ⟨s, hs, hr⟩ := hg i hi.le
    obtain ⟨s', hs', hr'⟩ := hg (i + 1) hi
    simp only [dif_pos hi.le, dif_pos (show i + 1 ≤ n from hi)]
    exact forall₂_getElem? (C67_fate fuel n A l heps hl h i s s' hs hs') hr hr'
  · intro i hi
    simp only [dif_pos hi]
    exact hg i hi

/-- Several steps without a wall near. -/
theorem corridor_leg (h : Corridor P Ps p n L k0 k1) (hu : 1 / 1000 ≤ P.raySpeed) (hδ : 0 ≤ P.timeStep) (hρ : 0 ≤ P.reflDist)
    {N : Nat} {f : Nat → Ray ℝ} (hf : History P N f) {z e : ℝ} {i : Nat} (h0 : 0 < z) (he : P.eps < e)
    (hr : Going P p n z e (f i)) : ∀ j : Nat, i + j ≤ N →
      (∀ t : Nat, t < j → P.reflDist < L - (z + t * (P.raySpeed * P.timeStep))) →
      Going P p n (z + j * (P.raySpeed * P.timeStep)) e (f (i + j)) := by
  intro j
  induction j with
  | zero => intro _ _; simpa using hr
  | succ j ih =>
    intro hj ht
    have h1 := ih (by omega) fun t h => ht t (by omega)
    have hz : 0 < z + j * (P.raySpeed * P.timeStep) := by
      have : 0 ≤ (j : ℝ) * (P.raySpeed * P.timeStep) := by
        have : 0 ≤ P.raySpeed := by linarith
        positivity
      linarith
    have := corridor_on h hu hz (ht j (by omega)) hρ he h1 (hf (i + j) (by omega))
    rw [show z + j * (P.raySpeed * P.timeStep) + P.raySpeed * P.timeStep = z + ((j + 1 : ℕ) : ℝ) * (P.raySpeed * P.timeStep) by
      push_cast; ring] at this
    exact this

/-- From the turning point at one wall to that at the other. -/
theorem corridor_half (h : Corridor P Ps p n L k0 k1) (hu : 1 / 1000 ≤ P.raySpeed) (hδ : 0 < P.timeStep)
    {N : Nat} {f : Nat → Ray ℝ} (hf : History P N f) {t1 t2 e : ℝ} {i m : Nat} (hm : 1 ≤ m)
    (hL : t1 + m * (P.raySpeed * P.timeStep) + t2 = L)
    (h1 : P.raySpeed * P.timeStep / 100 < t1) (h2 : 0 < t2) (h2' : t2 < P.reflDist)
    (ha : 0 ≤ P.absorption k1) (he : P.eps < e - P.absorption k1) (hi : i + m ≤ N)
    (hr : Going P p n (L - t2) e (f i)) :
    Going P (p + L • n) (-n) (L - t1) (e - P.absorption k1) (f (i + m)) := by
  have hu0 : 0 < P.raySpeed := by linarith
  have hd : 0 < P.raySpeed * P.timeStep := mul_pos hu0 hδ
  have hρ : P.reflDist = P.raySpeed * P.timeStep * (101 / 100) := rfl
  obtain ⟨m, rfl⟩ := Nat.exists_eq_add_of_le' hm
  generalize hD : P.raySpeed * P.timeStep = D at *
  push_cast at hL
  have hmD : 0 ≤ (m : ℝ) * D := by positivity
  have t := corridor_turn h hu (z := L - t2) (by linarith) (by linarith) (by linarith) he ha hr (hf i (by omega))
  rw [hD, sub_sub_cancel] at t
  have := corridor_leg h.reverse hu hδ.le (by rw [hρ]; linarith) hf (i := i + 1) (by linarith) he t m (by omega) (by
    intro j hj
    rw [hD, hρ]
    have : ((j : ℝ) + 1) * D ≤ m * D := mul_le_mul_of_nonneg_right (by exact_mod_cast hj) hd.le
    linarith)
  rw [hD, show t2 + D + (m : ℝ) * D = L - t1 by linarith, show i + 1 + m = i + (m + 1) by omega] at this
  exact this

theorem corridor_round (h : Corridor P Ps p n L k0 k1) (hu : 1 / 1000 ≤ P.raySpeed) (hδ : 0 < P.timeStep)
    {N : Nat} {f : Nat → Ray ℝ} (hf : History P N f) {t1 t2 e : ℝ} {i m : Nat} (hm : 1 ≤ m)
    (hL : t1 + m * (P.raySpeed * P.timeStep) + t2 = L)
    (h1 : P.raySpeed * P.timeStep / 100 < t1) (h1' : t1 < P.reflDist)
    (h2 : P.raySpeed * P.timeStep / 100 < t2) (h2' : t2 < P.reflDist)
    (ha0 : 0 ≤ P.absorption k0) (ha1 : 0 ≤ P.absorption k1) (he : P.eps < e - (P.absorption k0 + P.absorption k1))
    (hi : i + 2 * m ≤ N) (hr : Going P p n (L - t2) e (f i)) :
    Going P p n (L - t2) (e - (P.absorption k0 + P.absorption k1)) (f (i + 2 * m)) := by
  have hd : 0 < P.raySpeed * P.timeStep := mul_pos (by linarith) hδ
  have r1 := corridor_half h hu hδ hf hm hL h1 (by linarith) h2' ha1 (by linarith) (by omega) hr
  have r2 := corridor_half h.reverse hu hδ hf (t1 := t2) (t2 := t1) hm (by linarith) h2 (by linarith) h1' ha0 (by linarith)
    (by omega) r1
  rw [corridor_point, sub_self, zero_smul, add_zero, neg_neg, show i + m + m = i + 2 * m by omega,
    show e - P.absorption k1 - P.absorption k0 = e - (P.absorption k0 + P.absorption k1) by ring] at r2
  exact r2

/-- **C126, the echo is periodic.**  Let `t1` and `t2`, between 0.01 and 1.01 of the length of a step, and `m` steps be the
distance `L` of the walls.  A ray that has arrived at the distance `t2` of the second wall is there again after `2 m N` steps, for
every `N`, with the energy reduced by `N` times what the two walls absorb. -/
theorem C126_period (h : Corridor P Ps p n L k0 k1) (hu : 1 / 1000 ≤ P.raySpeed) (hδ : 0 < P.timeStep) (heps : 0 ≤ P.eps)
    (fuel num : Nat) (A : Arrays ℝ) (l : List (St ℝ)) (hl : A.hits.length = P.absorbers.length)
    (hst : steps P fuel num (start P A) = some l) {t1 t2 : ℝ} {m : Nat} (hm : 1 ≤ m)
    (hL : t1 + m * (P.raySpeed * P.timeStep) + t2 = L)
    (h1 : P.raySpeed * P.timeStep / 100 < t1) (h1' : t1 < P.reflDist)
    (h2 : P.raySpeed * P.timeStep / 100 < t2) (h2' : t2 < P.reflDist)
    (ha0 : 0 ≤ P.absorption k0) (ha1 : 0 ≤ P.absorption k1) {i j : Nat} {s : St ℝ} {r : Ray ℝ} (hs : l[i]? = some s)
    (hr : s.rays[j]? = some r) (hp : r.pos = p + (L - t2) • n) (hv : r.vel = P.raySpeed • n) (N : Nat)
    (he : P.eps < r.energy - N * (P.absorption k0 + P.absorption k1)) (hN : i + 2 * m * N ≤ num) :
    ∃ s' r', l[i + 2 * m * N]? = some s' ∧ s'.rays[j]? = some r' ∧ r'.pos = r.pos ∧ r'.vel = r.vel ∧
      r'.energy = r.energy - N * (P.absorption k0 + P.absorption k1) := by
  have hj : j < A.rays.length := by
    have key : ∀ (i : Nat) (s : St ℝ) (r : Ray ℝ), l[i]? = some s → s.rays[j]? = some r → j < A.rays.length := by
      intro i
      induction i with
      | zero =>
        intro s r hs hr
        rw [steps_head hst, Option.some.injEq] at hs
        subst hs
        obtain ⟨h, -⟩ := List.getElem?_eq_some_iff.1 hr
        simpa [start] using h
      | succ i ih =>
        intro s r hs hr
        obtain ⟨s0, r0, a, b, -⟩ := fate_before heps hl hst hs hr
        exact ih s0 r0 a b
    exact key i s r hs hr
  obtain ⟨f, hf, hfl⟩ := history_of heps hl hst hj
  have hfi : f i = r := by
    obtain ⟨s0, a, b⟩ := hfl i (by omega)
    rw [hs, Option.some.injEq] at a
    rw [← a, hr, Option.some.injEq] at b
    exact b.symm
  have key : ∀ N : Nat, P.eps < r.energy - N * (P.absorption k0 + P.absorption k1) → i + 2 * m * N ≤ num →
      Going P p n (L - t2) (r.energy - N * (P.absorption k0 + P.absorption k1)) (f (i + 2 * m * N)) := by
    intro N
    induction N with
    | zero => intro _ _; simpa [hfi] using (⟨hp, hv, rfl⟩ : Going P p n (L - t2) r.energy r)
    | succ N ih =>
      intro he hN
      push_cast at he
      have hle : i + 2 * m * N + 2 * m ≤ num := by rw [Nat.mul_succ] at hN; omega
      have := corridor_round h hu hδ hf hm hL h1 h1' h2 h2' ha0 ha1 (by linarith) hle (ih (by linarith) (by omega))
      rw [show i + 2 * m * N + 2 * m = i + 2 * m * (N + 1) by ring] at this
      push_cast
      rw [show r.energy - ((N : ℝ) + 1) * (P.absorption k0 + P.absorption k1) =
        r.energy - N * (P.absorption k0 + P.absorption k1) - (P.absorption k0 + P.absorption k1) by ring]
      exact this
  obtain ⟨s', a, b⟩ := hfl _ hN
  obtain ⟨g1, g2, g3⟩ := key N he hN
  exact ⟨s', _, a, b, g1.trans hp.symm, g2.trans hv.symm, g3⟩

/-- **C126, the echo comes too early.**  The true time of `N` round trips is `2 L N` divided by the speed; the time of `2 m N` steps is
shorter, by more than 0.04 and less than 4.04 time steps for each round trip. -/
theorem C126_early {u dt L t1 t2 : ℝ} {m N : Nat} (hu : 0 < u) (hL : t1 + m * (u * dt) + t2 = L)
    (h1 : u * dt / 100 < t1) (h1' : t1 < u * dt * (101 / 100)) (h2 : u * dt / 100 < t2) (h2' : t2 < u * dt * (101 / 100))
    (hN : 1 ≤ N) :
    N * (1 / 25 * dt) < 2 * L * N / u - (2 * m * N : ℕ) * dt ∧
      2 * L * N / u - (2 * m * N : ℕ) * dt < N * (101 / 25 * dt) := by
  have hN' : (0 : ℝ) < N := by exact_mod_cast hN
  have e : 2 * L * N / u - (2 * m * N : ℕ) * dt = N * (2 * (t1 + t2) / u) := by
    rw [← hL]; push_cast; field_simp; ring
  rw [e]
  constructor
  · refine mul_lt_mul_of_pos_left ?_ hN'
    rw [lt_div_iff₀ hu]; linarith
  · refine mul_lt_mul_of_pos_left ?_ hN'
    rw [div_lt_iff₀ hu]; linarith

/-- **C126, on the way to a wall.**  From any height `z` a ray moving to the second wall arrives after some steps at a distance `t2` from
it that is more than 0.01 and at most 1.01 of the length of a step. -/
theorem C126_arrives (h : Corridor P Ps p n L k0 k1) (hu : 1 / 1000 ≤ P.raySpeed) (hδ : 0 < P.timeStep) (heps : 0 ≤ P.eps)
    (fuel num : Nat) (A : Arrays ℝ) (l : List (St ℝ)) (hl : A.hits.length = P.absorbers.length)
    (hst : steps P fuel num (start P A) = some l) {j : Nat} {z e : ℝ} (h0 : 0 < z) (hz : P.reflDist < L - z)
    (hA : A.rays[j]? = some (p + z • n, P.raySpeed • n, e)) (he : P.eps < e) :
    ∃ (q : Nat) (t2 : ℝ), P.raySpeed * P.timeStep / 100 < t2 ∧ t2 ≤ P.reflDist ∧ z + q * (P.raySpeed * P.timeStep) = L - t2 ∧
      (q ≤ num → ∃ s r, l[q]? = some s ∧ s.rays[j]? = some r ∧ r.pos = p + (L - t2) • n ∧ r.vel = P.raySpeed • n ∧
        r.energy = e) := by
  have hd : 0 < P.raySpeed * P.timeStep := mul_pos (by linarith) hδ
  have hρ : P.reflDist = P.raySpeed * P.timeStep * (101 / 100) := rfl
  obtain ⟨hj, hA'⟩ := List.getElem?_eq_some_iff.1 hA
  obtain ⟨f, hf, hfl⟩ := history_of heps hl hst hj
  have hf0 : Going P p n z e (f 0) := by
    obtain ⟨s0, a, b⟩ := hfl 0 (Nat.zero_le _)
    rw [steps_head hst, Option.some.injEq] at a
    rw [← a] at b
    simp only [start, List.getElem?_map, hA, Option.map_some, Option.some.injEq] at b
    rw [← b]
    exact ⟨rfl, rfl, rfl⟩
  have hx : 0 < (L - z - P.reflDist) / (P.raySpeed * P.timeStep) := div_pos (by linarith) hd
  obtain ⟨q, hq⟩ : ∃ q : Nat, q = ⌈(L - z - P.reflDist) / (P.raySpeed * P.timeStep)⌉₊ := ⟨_, rfl⟩
  have hq1 : (L - z - P.reflDist) / (P.raySpeed * P.timeStep) ≤ q := by rw [hq]; exact Nat.le_ceil _
  have hq2 : (q : ℝ) < (L - z - P.reflDist) / (P.raySpeed * P.timeStep) + 1 := by rw [hq]; exact Nat.ceil_lt_add_one hx.le
  rw [div_le_iff₀ hd] at hq1
  have hq2 : ((q : ℝ) - 1) * (P.raySpeed * P.timeStep) < L - z - P.reflDist := by
    rw [← lt_div_iff₀ hd]; linarith
  refine ⟨q, L - z - q * (P.raySpeed * P.timeStep), by rw [hρ] at hq2; linarith, by linarith, by ring, fun hqn => ?_⟩
  have := corridor_leg h hu hδ.le (by rw [hρ]; linarith) hf h0 he hf0 q (by omega) (by
    intro t ht
    have : ((t : ℝ) + 1) * (P.raySpeed * P.timeStep) ≤ q * (P.raySpeed * P.timeStep) :=
      mul_le_mul_of_nonneg_right (by exact_mod_cast ht) hd.le
    linarith)
  rw [zero_add] at this
  obtain ⟨s, a, b⟩ := hfl q hqn
  refine ⟨s, _, a, b, ?_, this.vel, this.energy⟩
  rw [this.pos]
  congr 2
  ring

/-- **C126, a ray gets stuck.**  A ray that has arrived at the reflection distance exactly stands still for the rest of the
simulation and keeps its energy. -/
theorem C126_stuck (h : Corridor P Ps p n L k0 k1) (hu : 1 / 1000 ≤ P.raySpeed) (heps : 0 ≤ P.eps)
    (fuel num : Nat) (A : Arrays ℝ) (l : List (St ℝ)) (hl : A.hits.length = P.absorbers.length)
    (hst : steps P fuel num (start P A) = some l) {j : Nat} {e : ℝ} (h0 : 0 < P.reflDist) (hz : P.reflDist < L)
    (hA : A.rays[j]? = some (p + (L - P.reflDist) • n, P.raySpeed • n, e)) (he : P.eps < e) {i : Nat} (hi : i ≤ num) :
    ∃ s r, l[i]? = some s ∧ s.rays[j]? = some r ∧ r.pos = p + (L - P.reflDist) • n ∧ r.energy = e := by
  obtain ⟨hj, -⟩ := List.getElem?_eq_some_iff.1 hA
  obtain ⟨f, hf, hfl⟩ := history_of heps hl hst hj
  have hf0 : Going P p n (L - P.reflDist) e (f 0) := by
    obtain ⟨s0, a, b⟩ := hfl 0 (Nat.zero_le _)
    rw [steps_head hst, Option.some.injEq] at a
    rw [← a] at b
    simp only [start, List.getElem?_map, hA, Option.map_some, Option.some.injEq] at b
    rw [← b]
    exact ⟨rfl, rfl, rfl⟩
  have key : ∀ i : Nat, i ≤ num → Going P p n (L - P.reflDist) e (f i) := by
    intro i
    induction i with
    | zero => exact fun _ => hf0
    | succ i ih =>
      intro hi
      exact corridor_stuck h hu (by linarith) (by linarith) (by ring) he (ih (by omega)) (hf i (by omega))
  obtain ⟨s, a, b⟩ := hfl i hi
  exact ⟨s, _, a, b, (key i hi).pos, (key i hi).energy⟩

/-! ### The hypotheses are met: a corridor 10 cm wide -/

theorem flatRoom_corridor (α : ℝ) : ∃ A B : Poly, Corridor (flatRoom α A B) [A, B] ⟨1 / 20, 1 / 20, 0⟩ ⟨0, 0, 1⟩ (1 / 10) 0 1 := by
  obtain ⟨A, B, hA, hB, hiA, hiB⟩ := flatRoom_triangles
  have e : ∀ z : ℝ, (⟨1 / 20, 1 / 20, 0⟩ : Vec3 ℝ) + z • ⟨0, 0, 1⟩ = ⟨1 / 20, 1 / 20, z⟩ := by
    intro z; ext <;> simp
  refine ⟨A, B, rfl, by norm_num [Vec3.dot], ⟨A, _, _, _, rfl, hA, .inl rfl, ?_, hiA⟩, ⟨B, _, _, _, rfl, hB, .inl rfl, ?_, ?_⟩,
    by rw [flatRoom_trans]; simp, by rw [flatRoom_trans]; simp, ?_, ?_, ?_, ?_⟩
  · intro q hq; rw [hA.plane q hq]; norm_num [Vec3.dot]
  · intro q hq; rw [hB.plane q hq, e]; norm_num [Vec3.dot]
  · rw [e]; exact hiB
  · intro z h0 h1 k hk _
    rw [e, flatRoom_around α A B h0.le h1] at hk
    simpa using hk
  · intro z h0 h1 _; rw [e, flatRoom_around α A B h0.le h1]; simp
  · intro z h0 h1 _; rw [e, flatRoom_around α A B h0.le h1]; simp
  · intro z h0 h1
    rw [e]
    refine ⟨rfl, ?_⟩
    have h10 : (0 : ℝ) < 1 / 10 ^ 6 := by norm_num
    rintro (h | h | h | h | h | h) <;> simp only [flatRoom] at h <;> norm_num at h <;> linarith

/-- 343 m/s and 40000 steps in a second: eleven steps from wall to wall, where 10 cm are 11.66 steps.  The simulation
of two round trips and more exists, and the ray is where it was after 22 and after 44 steps. -/
example (num : Nat) (hnum : 44 ≤ num) : ∃ (P : Params ℝ) (A : Arrays ℝ) (l : List (St ℝ)), P.raySpeed = 343 ∧
    P.timeStep = 1 / 40000 ∧ steps P 6 num (start P A) = some l ∧ ∀ N : ℕ, N ≤ 2 → ∃ s r, l[22 * N]? = some s ∧ s.rays[0]? = some r ∧
      r.pos = ⟨1 / 20, 1 / 20, 1 / 10 - 27 / 40000⟩ ∧ r.energy = 1 - (N : ℝ) * (2 / 5) := by
  obtain ⟨A, B, h⟩ := flatRoom_corridor (1 / 5)
  have e : ∀ z : ℝ, (⟨1 / 20, 1 / 20, 0⟩ : Vec3 ℝ) + z • ⟨0, 0, 1⟩ = ⟨1 / 20, 1 / 20, z⟩ := by
    intro z; ext <;> simp
  obtain ⟨rows, hrun⟩ := C51_terminates (P := flatRoom (1 / 5) A B) (1 / 5) 1 (by norm_num) (fun _ => le_rfl)
    (by norm_num [flatRoom]) num ⟨[(⟨1 / 20, 1 / 20, 1 / 10 - 27 / 40000⟩, (343 : ℝ) • ⟨0, 0, 1⟩, 1)], []⟩ rfl (by simp)
  have e6 : ⌈(1 : ℝ) / (1 / 5)⌉.toNat + 1 = 6 := by norm_num; rfl
  unfold simulationLoop at hrun
  rw [Option.map_eq_some_iff, e6] at hrun
  obtain ⟨l, hl, -⟩ := hrun
  refine ⟨_, _, l, rfl, rfl, hl, fun N hN => ?_⟩
  have hN' : (N : ℝ) ≤ 2 := by exact_mod_cast hN
  obtain ⟨s, r, h1, h2, h3, -, h5⟩ := C126_period h (by norm_num [flatRoom]) (by norm_num [flatRoom]) (by norm_num [flatRoom]) 6 num _ l rfl hl
    (t1 := 5 / 1000) (t2 := 27 / 40000) (m := 11) (by norm_num) (by norm_num [flatRoom]) (by norm_num [flatRoom])
    (by norm_num [flatRoom, Params.reflDist]) (by norm_num [flatRoom]) (by norm_num [flatRoom, Params.reflDist])
    (by norm_num [flatRoom]) (by norm_num [flatRoom]) (i := 0) (j := 0) (steps_head hl) rfl (by rw [e]) rfl N
    (by simp only [flatRoom]; norm_num; linarith) (by omega)
  rw [zero_add] at h1
  refine ⟨s, r, h1, h2, h3, ?_⟩
  rw [h5]
  simp only [flatRoom]
  norm_num

/-- `C126_arrives` and `C126_stuck` apply to a ray from the height of 5 mm and to one at 1.01 steps from the wall. -/
example : ∃ (P : Params ℝ) (Ps : List Poly) (p n : Vec3 ℝ), Corridor P Ps p n (1 / 10) 0 1 ∧ 1 / 1000 ≤ P.raySpeed ∧
    0 < P.timeStep ∧ 0 ≤ P.eps ∧ P.reflDist < 1 / 10 - 5 / 1000 ∧ 0 < P.reflDist := by
  obtain ⟨A, B, h⟩ := flatRoom_corridor (1 / 5)
  exact ⟨_, _, _, _, h, by norm_num [flatRoom], by norm_num [flatRoom], by norm_num [flatRoom],
    by norm_num [flatRoom, Params.reflDist], by norm_num [flatRoom, Params.reflDist]⟩

end B3d.Sim
