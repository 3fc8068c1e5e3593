import Verif.Props.SimRounded
import Verif.Props.Buffers

/-! # Lemmas about the batches of a simulation in rounded arithmetic -/

namespace B3d.SimRounded

open Sim Rounded Spec

variable {A : Arith} {P : Params ℝ}

/-- All three coordinates are stored numbers. -/
def RepV (A : Arith) (p : Vec3 ℝ) : Prop := A.rep p.x ∧ A.rep p.y ∧ A.rep p.z

/-- A velocity after `k` reflections, with an initial error of at most `u`; `e` is the energy left. -/
def SpeedOk (P : Params ℝ) (u : ℝ) (v : Vec3 ℝ) (e : ℝ) : Prop :=
  ∃ k : ℕ, k * (5 / 10 ^ 7) + e ≤ 1 ∧
    (1 - 2 / 10 ^ 13) ^ k * ((1 - u) * P.raySpeed) ≤ Vec3.norm v ∧
    Vec3.norm v ≤ (1 + 2 / 10 ^ 13) ^ k * ((1 + u) * P.raySpeed)

/-- What all rays of a batch fulfil. -/
structure InvB (A : Arith) (P : Params ℝ) (u : ℝ) (r : Ray ℝ) : Prop where
  rep : A.rep r.energy
  nonneg : 0 ≤ r.energy
  le_one : r.energy ≤ 1
  delta : r.delta = mulv A P.timeStep r.vel
  pos : RepV A r.pos
  vel : RepV A r.vel
  speed : r.energy ≤ P.eps ∨ r.vel = 0 ∨ SpeedOk P u r.vel r.energy

/-- What the arrays at the start of a batch fulfil. -/
structure StartedB (A : Arith) (P : Params ℝ) (R : Nat) (u : ℝ) (a : Arrays ℝ) : Prop where
  rays : a.rays.length = R
  hits : a.hits.length = P.absorbers.length
  ray : ∀ r ∈ a.rays, A.rep r.2.2 ∧ 0 ≤ r.2.2 ∧ r.2.2 ≤ 1 ∧ (RepV A r.1 ∧ RepV A r.2.1) ∧
    (r.2.2 ≤ P.eps ∨ r.2.1 = 0 ∨ SpeedOk P u r.2.1 r.2.2)

theorem zero_of_rel {e : ℝ} {v : Vec3 ℝ} (h : RelV e v 0) : v = 0 := by
  ext
  · exact h.1.zero
  · exact h.2.1.zero
  · exact h.2.2.zero

theorem mulv_zero' (s : ℝ) : mulv A s 0 = 0 := by
  have h := mulv_rel A s 0
  rw [smul_zero] at h
  exact zero_of_rel h

theorem subv_self' (p : Vec3 ℝ) : subv A p p = 0 := by
  have h := subv_rel A p p
  rw [sub_self] at h
  exact zero_of_rel h

theorem addv_zero' {p : Vec3 ℝ} (h : RepV A p) : addv A p 0 = p := by
  ext
  · exact A.add_zero _ h.1
  · exact A.add_zero _ h.2.1
  · exact A.add_zero _ h.2.2

theorem repV_addv (p q : Vec3 ℝ) : RepV A (addv A p q) := ⟨A.rep_add _ _, A.rep_add _ _, A.rep_add _ _⟩

/-- A ray at rest stays at rest when it is reflected. -/
theorem reflect_zero {r : Ray ℝ} (h : r.vel = 0) (pn : Nat) (e : ℝ) (hn : |Vec3.norm (P.geo.vn pn) - 1| ≤ 2 / 10 ^ 14) :
    (reflect A P pn e r).vel = 0 := by
  have hr := (reflect_rel A r.vel hn).1
  rw [h, show Vec3.norm (0 : Vec3 ℝ) = 0 by simp [Vec3.norm, Vec3.normSq, Vec3.dot]] at hr
  have h0 := hr.zero
  rw [← h] at h0
  have : Vec3.norm (reflect A P pn e r).vel = 0 := h0
  rw [Vec3.norm, Real.sqrt_eq_zero (Vec3.normSq_nonneg _)] at this
  have h' : (reflect A P pn e r).vel.x * (reflect A P pn e r).vel.x + (reflect A P pn e r).vel.y * (reflect A P pn e r).vel.y +
    (reflect A P pn e r).vel.z * (reflect A P pn e r).vel.z = 0 := this
  generalize (reflect A P pn e r).vel = v at h'
  ext
  · exact mul_self_eq_zero.1 (le_antisymm (by linarith [mul_self_nonneg v.y, mul_self_nonneg v.z]) (mul_self_nonneg _))
  · exact mul_self_eq_zero.1 (le_antisymm (by linarith [mul_self_nonneg v.x, mul_self_nonneg v.z]) (mul_self_nonneg _))
  · exact mul_self_eq_zero.1 (le_antisymm (by linarith [mul_self_nonneg v.x, mul_self_nonneg v.y]) (mul_self_nonneg _))

theorem SpeedOk.reflect {u : ℝ} (heps : 0 ≤ P.eps) (ha : ∀ k, 1 / 10 ^ 6 ≤ P.absorption k)
    (hn : ∀ k, |Vec3.norm (P.geo.vn k) - 1| ≤ 2 / 10 ^ 14) {r : Ray ℝ} {pn : Nat} (h1 : r.energy ≤ 1)
    (h : SpeedOk P u r.vel r.energy) (h2 : P.eps < A.sub r.energy (P.absorption pn)) :
    SpeedOk P u (SimRounded.reflect A P pn (A.sub r.energy (P.absorption pn)) r).vel (A.sub r.energy (P.absorption pn)) := by
  obtain ⟨k, k1, k2, k3⟩ := h
  have hr := ((reflect_rel A r.vel (hn pn)).1.le (Vec3.norm_nonneg _))
  refine ⟨k + 1, ?_, ?_, ?_⟩
  · have := sub_energy h1 (ha pn) (lt_of_le_of_lt heps h2)
    push_cast
    linarith
  · refine le_trans ?_ hr.1
    rw [pow_succ (1 - 2 / 10 ^ 13 : ℝ) k, mul_right_comm, mul_comm _ (1 - 2 / 10 ^ 13 : ℝ)]
    exact mul_le_mul_of_nonneg_left k2 (by norm_num)
  · refine le_trans hr.2 ?_
    rw [pow_succ (1 + 2 / 10 ^ 13 : ℝ) k, mul_right_comm, mul_comm _ (1 + 2 / 10 ^ 13 : ℝ)]
    exact mul_le_mul_of_nonneg_left k3 (by norm_num)

/-- The invariant in all states of a batch. -/
theorem invB_states {u : ℝ} {R fuel n : Nat} {a : Arrays ℝ} {l : List (St ℝ)} (hP : Ordinary P) (h0 : StartedB A P R u a)
    (h : steps A P fuel n (start A P a) = some l) :
    ∀ (i : Nat) (s : St ℝ), l[i]? = some s → ∀ r ∈ s.rays, InvB A P u r := by
  refine steps_rays h (Q := InvB A P u) ?_ ?_ ?_ ?_
  · intro r hr
    simp only [start, List.mem_map] at hr
    obtain ⟨x, hx, rfl⟩ := hr
    obtain ⟨k1, k2, k3, k4, k5⟩ := h0.ray x hx
    exact ⟨k1, k2, k3, rfl, k4.1, k4.2, k5⟩
  · intro r hr
    exact ⟨A.rep_zero, le_rfl, zero_le_one, hr.delta, hr.pos, hr.vel, .inl hP.eps⟩
  · intro r pn hr h1 h2
    have ha : ∀ k, 0 ≤ P.absorption k := fun k => le_trans (by norm_num) (hP.absorption k)
    refine ⟨A.rep_sub _ _, (lt_of_le_of_lt hP.eps h2).le, (A.sub_le _ _ hr.rep (ha pn)).trans hr.le_one, rfl, hr.pos,
      ⟨A.rep_sub _ _, A.rep_sub _ _, A.rep_sub _ _⟩, ?_⟩
    rcases hr.speed with h3 | h3 | h3
    · exact absurd h1 (not_lt.2 h3)
    · exact .inr (.inl (reflect_zero h3 pn _ (hP.normals pn)))
    · exact .inr (.inr (h3.reflect hP.eps hP.absorption hP.normals hr.le_one h2))
  · intro r hr
    exact ⟨hr.rep, hr.nonneg, hr.le_one, hr.delta, repV_addv _ _, hr.vel, hr.speed⟩

theorem SpeedOk.near {u : ℝ} {v : Vec3 ℝ} {e : ℝ} (hs : 0 ≤ P.raySpeed) (he : 0 ≤ e) (hu0 : 0 ≤ u) (hu : u ≤ 3 / 10 ^ 6)
    (h : SpeedOk P u v e) : |Vec3.norm v - P.raySpeed| ≤ 4 / 10 ^ 6 * P.raySpeed := by
  obtain ⟨k, k1, k2, k3⟩ := h
  have hk : (k : ℝ) ≤ 2 * 10 ^ 6 := by linarith
  obtain ⟨b1, b2⟩ := pow_bounds hk
  have hu1 : 0 ≤ 1 - u := by norm_num at hu ⊢; linarith
  have c1 := mul_le_mul_of_nonneg_right b1 (mul_nonneg hu1 hs)
  have c2 := mul_le_mul_of_nonneg_right b2 (mul_nonneg (by linarith : 0 ≤ 1 + u) hs)
  have d1 := mul_le_mul_of_nonneg_right (by linarith : 1 - 3 / 10 ^ 6 ≤ 1 - u) hs
  have d2 := mul_le_mul_of_nonneg_right (by linarith : 1 + u ≤ 1 + 3 / 10 ^ 6) hs
  rw [abs_le]
  norm_num at c1 c2 k2 k3 d1 d2 ⊢
  constructor <;> linarith

/-- A moved ray, with its displacement and the sum of position and displacement. -/
theorem moved_near {u L : ℝ} (hs : 0 ≤ P.raySpeed) (ht : 0 ≤ P.timeStep)
    (hlo : |P.lo.x| ≤ L ∧ |P.lo.y| ≤ L ∧ |P.lo.z| ≤ L) (hhi : |P.hi.x| ≤ L ∧ |P.hi.y| ≤ L ∧ |P.hi.z| ≤ L)
    (heps : 0 ≤ P.eps) (hL : P.eps ≤ L) (hu0 : 0 ≤ u) (hu : u ≤ 3 / 10 ^ 6) {r r' : Ray ℝ}
    (he : 0 ≤ r'.energy) (hd : r'.delta = mulv A P.timeStep r'.vel) (hv : SpeedOk P u r'.vel r'.energy) (hm : Moved A P r r') :
    |Vec3.norm (r'.pos - r.pos) - P.timeStep * Vec3.norm r'.vel| ≤ 7 / 10 ^ 15 * (L + P.raySpeed * P.timeStep) ∧
    |P.timeStep * Vec3.norm r'.vel - P.raySpeed * P.timeStep| ≤ 4 / 10 ^ 6 * (P.raySpeed * P.timeStep) := by
  have h1 := inBox hlo hhi heps hL hm.inside
  have h2 := ((mulv_rel A P.timeStep r'.vel).norm (by norm_num)).le (Vec3.norm_nonneg _)
  rw [← hd, Vec3.norm_smul, abs_of_nonneg ht] at h2
  have h3 := abs_le.1 (hv.near hs he hu0 hu)
  have h4 := RelV.dist (addv_rel A r.pos r'.delta)
  rw [← hm.pos] at h4
  have h5 := Vec3.norm_add_le r.pos r'.delta
  have e1 : r'.pos - r.pos = r'.delta + (r'.pos - (r.pos + r'.delta)) := by ext <;> simp <;> ring
  have h6 := Vec3.norm_add_le r'.delta (r'.pos - (r.pos + r'.delta))
  rw [← e1] at h6
  have e2 : r'.delta = (r'.pos - r.pos) - (r'.pos - (r.pos + r'.delta)) := by ext <;> simp
  have h7 := Vec3.norm_sub_le (r'.pos - r.pos) (r'.pos - (r.pos + r'.delta))
  rw [← e2] at h7
  obtain ⟨D, hD⟩ : ∃ D, D = P.raySpeed * P.timeStep := ⟨_, rfl⟩
  have t1 : P.timeStep * Vec3.norm r'.vel ≤ (1 + 4 / 10 ^ 6) * D := by
    rw [hD]
    have := mul_le_mul_of_nonneg_left (by linarith [h3.2] : Vec3.norm r'.vel ≤ (1 + 4 / 10 ^ 6) * P.raySpeed) ht
    linarith
  have t2 : (1 - 4 / 10 ^ 6) * D ≤ P.timeStep * Vec3.norm r'.vel := by
    rw [hD]
    have := mul_le_mul_of_nonneg_left (by linarith [h3.1] : (1 - 4 / 10 ^ 6) * P.raySpeed ≤ Vec3.norm r'.vel) ht
    linarith
  have hD0 : 0 ≤ D := by rw [hD]; positivity
  have hL0 : 0 ≤ L := heps.trans hL
  rw [← hD]
  have hd0 := Vec3.norm_nonneg r'.delta
  rw [abs_le, abs_le]
  norm_num at t1 t2 h2 h4 ⊢
  refine ⟨⟨?_, ?_⟩, ?_, ?_⟩ <;> linarith [h2.1, h2.2]

/-- The velocity for the next batch. -/
theorem next_speed {u g L : ℝ} (hs : 0 < P.raySpeed) (ht : 0 < P.timeStep)
    (hlo : |P.lo.x| ≤ L ∧ |P.lo.y| ≤ L ∧ |P.lo.z| ≤ L) (hhi : |P.hi.x| ≤ L ∧ |P.hi.y| ≤ L ∧ |P.hi.z| ≤ L)
    (heps : 0 ≤ P.eps) (hL : P.eps ≤ L) (hu0 : 0 ≤ u) (hu : u ≤ 3 / 10 ^ 6)
    (hg : 1 / 10 ^ 14 * (L + P.raySpeed * P.timeStep) ≤ g * (P.raySpeed * P.timeStep)) (hg0 : 0 ≤ g) {r r' : Ray ℝ}
    (he : 0 ≤ r'.energy) (hd : r'.delta = mulv A P.timeStep r'.vel) (hv : SpeedOk P u r'.vel r'.energy) (hm : Moved A P r r') :
    SpeedOk P (u + 2 * g) (divv A.toArith (subv A r'.pos r.pos) P.timeStep) r'.energy := by
  obtain ⟨m1, m2⟩ := moved_near hs.le ht.le hlo hhi heps hL hu0 hu he hd hv hm
  obtain ⟨k, k1, k2, k3⟩ := hv
  have hk : (k : ℝ) ≤ 2 * 10 ^ 6 := by linarith
  obtain ⟨b1, b2⟩ := pow_bounds hk
  have hb : (1 : ℝ) ≤ (1 + 2 / 10 ^ 13 : ℝ) ^ k := one_le_pow₀ (by norm_num)
  obtain ⟨D, hD⟩ : ∃ D, D = P.raySpeed * P.timeStep := ⟨_, rfl⟩
  have hD0 : 0 < D := by rw [hD]; positivity
  have hL0 : 0 ≤ L := heps.trans hL
  rw [← hD] at m1 m2 hg
  -- the two roundings of the difference and the quotient
  have q1 : ∀ x : ℝ, Rel (1 / 10 ^ 15) (A.div x P.timeStep) (x / P.timeStep) := fun x =>
    rel_of_err (by norm_num) (A.div_err x P.timeStep ht.ne')
  have q2 : RelV (1 / 10 ^ 15) (divv A.toArith (subv A r'.pos r.pos) P.timeStep) ((1 / P.timeStep) • subv A r'.pos r.pos) := by
    refine ⟨?_, ?_, ?_⟩
    · have := q1 (subv A r'.pos r.pos).x
      simpa [divv, div_eq_inv_mul] using this
    · have := q1 (subv A r'.pos r.pos).y
      simpa [divv, div_eq_inv_mul] using this
    · have := q1 (subv A r'.pos r.pos).z
      simpa [divv, div_eq_inv_mul] using this
  have q3 := (q2.norm (by norm_num)).le (Vec3.norm_nonneg _)
  rw [Vec3.norm_smul, abs_of_pos (by positivity : 0 < 1 / P.timeStep)] at q3
  have q4 := ((subv_rel A r'.pos r.pos).norm (by norm_num)).le (Vec3.norm_nonneg _)
  obtain ⟨w, hw⟩ : ∃ w, w = Vec3.norm (divv A.toArith (subv A r'.pos r.pos) P.timeStep) := ⟨_, rfl⟩
  obtain ⟨y, hy⟩ : ∃ y, y = Vec3.norm (subv A r'.pos r.pos) := ⟨_, rfl⟩
  obtain ⟨z, hz⟩ : ∃ z, z = Vec3.norm (r'.pos - r.pos) := ⟨_, rfl⟩
  obtain ⟨v, hvv⟩ : ∃ v, v = Vec3.norm r'.vel := ⟨_, rfl⟩
  rw [← hw, ← hy] at q3
  rw [← hy, ← hz] at q4
  rw [← hz, ← hvv] at m1
  rw [← hvv] at m2 k2 k3
  have z0 : 0 ≤ z := by rw [hz]; exact Vec3.norm_nonneg _
  have w1 : P.timeStep * w ≤ (1 + 1 / 10 ^ 15) * y := by
    have := mul_le_mul_of_nonneg_left q3.2 ht.le
    field_simp at this ⊢
    linarith
  have w2 : (1 - 1 / 10 ^ 15) * y ≤ P.timeStep * w := by
    have := mul_le_mul_of_nonneg_left q3.1 ht.le
    field_simp at this ⊢
    linarith
  have m1' := abs_le.1 m1
  have m2' := abs_le.1 m2
  have key : |P.timeStep * w - P.timeStep * v| ≤ g * D := by
    refine le_trans ?_ hg
    rw [abs_le]
    norm_num at w1 w2 q4 m1' m2' ⊢
    constructor <;> linarith [q4.1, q4.2, m1'.1, m1'.2, m2'.1, m2'.2]
  have key' : |w - v| ≤ g * P.raySpeed := by
    rw [← mul_sub, abs_mul, abs_of_pos ht, hD] at key
    have : P.timeStep * |w - v| ≤ P.timeStep * (g * P.raySpeed) := by linarith
    exact le_of_mul_le_mul_left this ht
  have key2 := abs_le.1 key'
  have hgs : 0 ≤ g * P.raySpeed := mul_nonneg hg0 hs.le
  refine ⟨k, k1, ?_, ?_⟩
  · rw [← hw]
    have : g * P.raySpeed ≤ (1 - 2 / 10 ^ 13) ^ k * (2 * (g * P.raySpeed)) := by
      have := mul_le_mul_of_nonneg_right b1 (by linarith : 0 ≤ 2 * (g * P.raySpeed))
      norm_num at this ⊢
      linarith
    have e : (1 - 2 / 10 ^ 13 : ℝ) ^ k * ((1 - (u + 2 * g)) * P.raySpeed) =
      (1 - 2 / 10 ^ 13) ^ k * ((1 - u) * P.raySpeed) - (1 - 2 / 10 ^ 13) ^ k * (2 * (g * P.raySpeed)) := by ring
    rw [e]
    linarith [key2.1]
  · rw [← hw]
    have := mul_le_mul_of_nonneg_right hb (by linarith : 0 ≤ 2 * (g * P.raySpeed))
    have e : (1 + 2 / 10 ^ 13 : ℝ) ^ k * ((1 + (u + 2 * g)) * P.raySpeed) =
      (1 + 2 / 10 ^ 13) ^ k * ((1 + u) * P.raySpeed) + (1 + 2 / 10 ^ 13) ^ k * (2 * (g * P.raySpeed)) := by ring
    rw [e]
    linarith [key2.2]

/-- A ray that moves is further away from every opaque surface ahead than it moves, with a margin of eight parts in 1000. -/
theorem stops_shortB {u L : ℝ} (hP : Ordinary P) (hs : 0 < P.raySpeed) (ht : 0 < P.timeStep)
    (hlo : |P.lo.x| ≤ L ∧ |P.lo.y| ≤ L ∧ |P.lo.z| ≤ L) (hhi : |P.hi.x| ≤ L ∧ |P.hi.y| ≤ L ∧ |P.hi.z| ≤ L)
    (hL : P.eps ≤ L) (hLs : L + P.raySpeed * P.timeStep ≤ 10 ^ 8 * (P.raySpeed * P.timeStep)) (hu0 : 0 ≤ u)
    (hu : u ≤ 3 / 10 ^ 6) {r r' : Ray ℝ} (hi' : InvB A P u r') (hv : SpeedOk P u r'.vel r'.energy) (hm : Moved A P r r')
    {pn : Nat} (hpn : pn ∈ findNearby P.setIter (cellOf A r.pos P.gridStep) P.grid)
    (hop : OpaqueHit P.geo P.trans r.pos r'.vel pn) : 1008 / 1000 * Vec3.norm (r'.pos - r.pos) < P.geo.dist r.pos pn := by
  obtain ⟨m1, m2⟩ := moved_near hs.le ht.le hlo hhi hP.eps hL hu0 hu hi'.nonneg hi'.delta hv hm
  have hg := reflDist_ge (A := A) hP.speed hP.time
  have hD : 0 < P.raySpeed * P.timeStep := mul_pos hs ht
  have hf := hm.far
  have m1' := (abs_le.1 m1).2
  have m2' := (abs_le.1 m2).2
  have hd : Vec3.norm (r'.pos - r.pos) ≤ (1 + 1 / 10 ^ 5) * (P.raySpeed * P.timeStep) := by
    generalize P.raySpeed * P.timeStep = D at *
    norm_num at m1' m2' hLs ⊢
    linarith
  cases hc : target P (cellOf A r.pos P.gridStep) ⟨r.pos, r'.vel, r'.delta, r'.energy⟩ with
  | none => exact absurd hop ((C45_found_iff _ _ _ _ _).1 hc pn hpn)
  | some m =>
    rw [hc] at hf
    simp only [farEnough, decide_eq_true_eq] at hf
    have hle := (C45_nearest _ _ _ _ _ _ hc).2.2 pn hpn hop
    simp only at hle
    norm_num at hd
    linarith

theorem step_casesB {u : ℝ} {fuel : Nat} {r r' : Ray ℝ} (hP : Ordinary P) (hi : InvB A P u r)
    (h : ∃ r1, (r1 = r ∨ P.eps < r.energy ∧ r1 = r.withEnergy 0) ∧ moveRay A P fuel r1 = some r') :
    r'.pos = r.pos ∨ Moved A P r r' := by
  obtain ⟨r1, h1, h2⟩ := h
  have ha : ∀ k, 0 ≤ P.absorption k := fun k => le_trans (by norm_num) (hP.absorption k)
  rcases h1 with rfl | ⟨_, rfl⟩
  · exact moveRay_pos hP.eps ha hi.rep h2
  · left
    rw [moveRay, if_pos (by simpa [Ray.withEnergy] using hP.eps), Option.some.injEq] at h2
    rw [← h2]
    rfl

end B3d.SimRounded
