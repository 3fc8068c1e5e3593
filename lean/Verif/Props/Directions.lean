import Verif.Props.Reflections

/-!
# Property C125: the directions of a ray in a room with perpendicular walls

Exact reals, with the tests of the code (`geoOf`).
-/

namespace B3d.Sim

open Spec Polygon Triangles

variable {P : Params ℝ} {Ps : List Poly} {a : Fin 3 → Vec3 ℝ}

/-- Every opaque polygon is perpendicular to one of the axes. -/
def PerpendicularRoom (P : Params ℝ) (Ps : List Poly) (a : Fin 3 → Vec3 ℝ) : Prop :=
  ∀ k, k < Ps.length → (k : Int) ∉ P.trans → ∃ i c, PerpendicularAt Ps a k i c

theorem bounced_axes (hgeo : P.geo = geoOf Ps) (ha : Axes a) (hroom : PerpendicularRoom P Ps a) {near : List Nat} {p : Vec3 ℝ} :
    ∀ (ks : List Nat) (v : Vec3 ℝ), Chain P.geo P.trans near P.reflDist p v ks →
      ∀ j, |Vec3.dot (a j) (bounced P.geo v ks)| = |Vec3.dot (a j) v| := by
  intro ks
  induction ks with
  | nil => intro v _ j; rfl
  | cons k ks ih =>
    rintro v ⟨⟨-, ⟨hop, hhit⟩, -⟩, -, hch⟩ j
    have hk : k < Ps.length := by
      by_contra hk
      rw [hgeo] at hhit
      simp only [geoOf, List.getElem?_eq_none (not_lt.1 hk)] at hhit
      cases hhit
    obtain ⟨i, c, hp⟩ := hroom k hk hop
    change |Vec3.dot (a j) (bounced P.geo (mirror (P.geo.vn k) v) ks)| = _
    rw [ih _ hch j, hgeo, mirror_axis ha (vn_axis hp) j]
    split
    · rw [abs_neg]
    · rfl

/-- The beginning of a list of reflections. -/
theorem chain_init {near : List Nat} {p : Vec3 ℝ} {k : Nat} : ∀ (ks : List Nat) (v : Vec3 ℝ),
    Chain P.geo P.trans near P.reflDist p v (ks ++ [k]) → Chain P.geo P.trans near P.reflDist p v ks := by
  intro ks
  induction ks with
  | nil => intros; trivial
  | cons m ks ih => exact fun v h => ⟨h.1, h.2.1, ih _ h.2.2⟩

theorem fate_axes (hgeo : P.geo = geoOf Ps) (ha : Axes a) (hroom : PerpendicularRoom P Ps a) {r r' : Ray ℝ} (h : Fate P r r') :
    (∀ j, |Vec3.dot (a j) r'.vel| = |Vec3.dot (a j) r.vel|) ∧ (r'.pos = r.pos ∨ r'.pos = r.pos + P.timeStep • r'.vel) := by
  cases h with
  | rests _ h => rw [h]; exact ⟨fun _ => rfl, .inl rfl⟩
  | absorbed _ _ hp hv => rw [hv]; exact ⟨fun _ => rfl, .inl hp⟩
  | lost _ _ _ hp hv => rw [hv]; exact ⟨fun _ => rfl, .inl hp⟩
  | spent ks k _ _ _ chain _ _ hp hv =>
    rw [hv]
    refine ⟨bounced_axes hgeo ha hroom (near := polygonsAround P r.pos) (p := r.pos) ks _ (chain_init ks _ chain), .inl hp⟩
  | moves ks _ _ _ chain _ _ hv hp => exact ⟨by rw [hv]; exact bounced_axes hgeo ha hroom ks _ chain, .inr hp⟩
  | waits ks k _ _ _ chain _ _ _ hv hp => rw [hv]; exact ⟨bounced_axes hgeo ha hroom ks _ chain, .inl hp⟩

/-- A ray of a state has a predecessor in the state before. -/
theorem fate_before {fuel n : Nat} {A : Arrays ℝ} {l : List (St ℝ)} (heps : 0 ≤ P.eps) (hl : A.hits.length = P.absorbers.length)
    (h : steps P fuel n (start P A) = some l) {i : Nat} {s' : St ℝ} (hs' : l[i + 1]? = some s') {m : Nat} {r' : Ray ℝ}
    (hr' : s'.rays[m]? = some r') : ∃ s r, l[i]? = some s ∧ s.rays[m]? = some r ∧ Fate P r r' := by
  obtain ⟨hi, -⟩ := List.getElem?_eq_some_iff.1 hs'
  have hs : l[i]? = some l[i] := List.getElem?_eq_getElem (by omega)
  have hf := C67_fate fuel n A l heps hl h i _ s' hs hs'
  obtain ⟨hm, -⟩ := List.getElem?_eq_some_iff.1 hr'
  have hr : l[i].rays[m]? = some (l[i].rays[m]'(by rw [hf.length_eq]; exact hm)) := List.getElem?_eq_getElem _
  exact ⟨_, _, hs, hr, forall₂_getElem? hf hr hr'⟩

/-- **C125, eight directions.**  During the whole simulation the part of the velocity of a ray along each axis keeps its
size. -/
theorem C125_directions (hgeo : P.geo = geoOf Ps) (ha : Axes a) (hroom : PerpendicularRoom P Ps a) (heps : 0 ≤ P.eps)
    (fuel n : Nat) (A : Arrays ℝ) (l : List (St ℝ)) (hl : A.hits.length = P.absorbers.length)
    (h : steps P fuel n (start P A) = some l) {m : Nat} {p v : Vec3 ℝ} {e : ℝ} (hA : A.rays[m]? = some (p, v, e)) {i : Nat}
    {s : St ℝ} {r : Ray ℝ} (hs : l[i]? = some s) (hr : s.rays[m]? = some r) (j : Fin 3) :
    |Vec3.dot (a j) r.vel| = |Vec3.dot (a j) v| := by
  induction i generalizing s r with
  | zero =>
    rw [steps_head h, Option.some.injEq] at hs
    subst hs
    simp only [start, List.getElem?_map, hA, Option.map_some, Option.some.injEq] at hr
    rw [← hr]
  | succ i ih =>
    obtain ⟨s0, r0, hs0, hr0, hf⟩ := fate_before heps hl h hs hr
    rw [(fate_axes hgeo ha hroom hf).1 j]
    exact ih hs0 hr0

/-- **C125, the way in one step.**  In every step a ray stays, or it moves along each axis by the same distance as in all
other steps. -/
theorem C125_moves (hgeo : P.geo = geoOf Ps) (ha : Axes a) (hroom : PerpendicularRoom P Ps a) (heps : 0 ≤ P.eps)
    (fuel n : Nat) (A : Arrays ℝ) (l : List (St ℝ)) (hl : A.hits.length = P.absorbers.length)
    (h : steps P fuel n (start P A) = some l) {m : Nat} {p v : Vec3 ℝ} {e : ℝ} (hA : A.rays[m]? = some (p, v, e)) {i : Nat}
    {s s' : St ℝ} {r r' : Ray ℝ} (hs : l[i]? = some s) (hr : s.rays[m]? = some r) (hs' : l[i + 1]? = some s')
    (hr' : s'.rays[m]? = some r') :
    r'.pos = r.pos ∨ ∀ j, |Vec3.dot (a j) (r'.pos - r.pos)| = |P.timeStep * Vec3.dot (a j) v| := by
  have hf := forall₂_getElem? (C67_fate fuel n A l heps hl h i s s' hs hs') hr hr'
  rcases (fate_axes hgeo ha hroom hf).2 with hp | hp
  · exact .inl hp
  · right
    intro j
    rw [hp, add_sub_cancel_left, Vec3.dot_smul_right, abs_mul, abs_mul,
      C125_directions hgeo ha hroom heps fuel n A l hl h hA hs' hr' j]

/-- **C125, rays parallel to the walls of a direction** keep their distance from these walls for the whole simulation: a
horizontal ray never leaves its height. -/
theorem C125_height (hgeo : P.geo = geoOf Ps) (ha : Axes a) (hroom : PerpendicularRoom P Ps a) (heps : 0 ≤ P.eps)
    (fuel n : Nat) (A : Arrays ℝ) (l : List (St ℝ)) (hl : A.hits.length = P.absorbers.length)
    (h : steps P fuel n (start P A) = some l) {m : Nat} {p v : Vec3 ℝ} {e : ℝ} (hA : A.rays[m]? = some (p, v, e)) {i : Nat}
    {s : St ℝ} {r : Ray ℝ} (hs : l[i]? = some s) (hr : s.rays[m]? = some r) {j : Fin 3} (hj : Vec3.dot (a j) v = 0) :
    Vec3.dot (a j) r.pos = Vec3.dot (a j) p := by
  induction i generalizing s r with
  | zero =>
    rw [steps_head h, Option.some.injEq] at hs
    subst hs
    simp only [start, List.getElem?_map, hA, Option.map_some, Option.some.injEq] at hr
    rw [← hr]
  | succ i ih =>
    obtain ⟨s0, r0, hs0, hr0, hf⟩ := fate_before heps hl h hs hr
    rcases (fate_axes hgeo ha hroom hf).2 with hp | hp
    · rw [hp]; exact ih hs0 hr0
    · have := C125_directions hgeo ha hroom heps fuel n A l hl h hA hs hr j
      rw [hj, abs_zero, abs_eq_zero] at this
      rw [hp, Vec3.dot_add_right, Vec3.dot_smul_right, this, mul_zero, add_zero]
      exact ih hs0 hr0

/-! ### The hypotheses are met -/

theorem flatRoom_perpendicular {α : ℝ} {A B : Poly} (hA : FlatPoly A ⟨0, 0, 1⟩ 0 ⟨0, 0, 1⟩)
    (hB : FlatPoly B ⟨0, 0, 1⟩ (1 / 10) ⟨0, 0, 1⟩) : PerpendicularRoom (flatRoom α A B) [A, B] stdAxes := by
  intro k hk _
  have : k = 0 ∨ k = 1 := by simp at hk; omega
  rcases this with rfl | rfl
  · exact ⟨2, _, (perpendicular_flat (Ps := [A, B]) (k := 0) rfl hA).1⟩
  · exact ⟨2, _, (perpendicular_flat (Ps := [A, B]) (k := 1) rfl hB).1⟩

/-- Simulations of any length between two horizontal triangles, of a slanted and a horizontal ray. -/
example (n : Nat) : ∃ (P : Params ℝ) (Ps : List Poly) (A : Arrays ℝ) (fuel : Nat) (l : List (St ℝ)), P.geo = geoOf Ps ∧
    PerpendicularRoom P Ps stdAxes ∧ 0 ≤ P.eps ∧ A.hits.length = P.absorbers.length ∧ Ps.length = 2 ∧
    A.rays = [(⟨1 / 20, 1 / 20, 1 / 200⟩, ⟨206, 0, 275⟩, 1), (⟨1 / 20, 1 / 20, 1 / 200⟩, ⟨343, 0, 0⟩, 1)] ∧
    steps P fuel n (start P A) = some l ∧ l.length = n + 1 := by
  obtain ⟨A, B, hA, hB, -⟩ := flatRoom_triangles
  obtain ⟨rows, h⟩ := C51_terminates (P := flatRoom (1 / 5) A B) (1 / 5) 1 (by norm_num) (fun _ => le_rfl)
    (by norm_num [flatRoom]) n ⟨[(⟨1 / 20, 1 / 20, 1 / 200⟩, ⟨206, 0, 275⟩, 1), (⟨1 / 20, 1 / 20, 1 / 200⟩, ⟨343, 0, 0⟩, 1)], []⟩ rfl
    (by simp)
  unfold simulationLoop at h
  rw [Option.map_eq_some_iff] at h
  obtain ⟨l, h, -⟩ := h
  exact ⟨_, [A, B], _, _, l, rfl, flatRoom_perpendicular hA hB, by norm_num [flatRoom], rfl, rfl, rfl, h, steps_length h⟩

end B3d.Sim
