import Verif.Spec.Rooms
import Verif.Spec.Walls
import Verif.Proofs.Tactics
import Mathlib.Topology.Order.IntermediateValue
import Mathlib.Topology.Instances.Real.Lemmas

/-!
# A straight way out of a set of rooms meets a wall
-/

namespace B3d.Spec

open Topology Filter Set

theorem eventually_up {lo hi c m t : ℝ} (h1 : lo ≤ c) (h2 : c < hi) (hm : 0 ≤ m) :
    ∀ᶠ t' in 𝓝[>] t, lo ≤ c + (t' - t) * m ∧ c + (t' - t) * m ≤ hi := by
  have hc : ContinuousAt (fun t' : ℝ => c + (t' - t) * m) t := by fun_prop
  have e : ∀ᶠ t' in 𝓝 t, c + (t' - t) * m < hi := hc.eventually_lt continuousAt_const (by simpa using h2)
  filter_upwards [nhdsWithin_le_nhds e, self_mem_nhdsWithin] with t' h3 h4
  exact ⟨by nlinarith [mul_nonneg (sub_nonneg.2 (le_of_lt (mem_Ioi.1 h4))) hm], h3.le⟩

theorem eventually_down {lo hi c m t : ℝ} (h1 : lo < c) (h2 : c ≤ hi) (hm : m ≤ 0) :
    ∀ᶠ t' in 𝓝[>] t, lo ≤ c + (t' - t) * m ∧ c + (t' - t) * m ≤ hi := by
  have := eventually_up (t := t) (neg_le_neg h2) (neg_lt_neg h1) (neg_nonneg.2 hm)
  filter_upwards [this] with t' h
  constructor <;> linarith [h.1, h.2]

theorem coord_segment (a : Axis) (p q : Vec3 ℝ) (t : ℝ) :
    coord a (p + t • (q - p)) = coord a p + t * (coord a q - coord a p) := by
  cases a <;> simp [coord]

/-- Along one axis a point of the segment stays in the room, or it is on a side of the room and then goes on into every
room on the other side. -/
theorem axis_step {r : Room} {p q : Vec3 ℝ} {t : ℝ} (hpos : ∀ a, coord a r.lo < coord a r.hi)
    (hx : r.Contains (p + t • (q - p))) (a : Axis) :
    (∀ᶠ t' in 𝓝[>] t, coord a r.lo ≤ coord a (p + t' • (q - p)) ∧ coord a (p + t' • (q - p)) ≤ coord a r.hi) ∨
    ∃ f, coord a (p + t • (q - p)) = r.side a f ∧ ∀ r' : Room, coord a r'.lo < coord a r'.hi →
      r'.side a (!f) = r.side a f →
      ∀ᶠ t' in 𝓝[>] t, coord a r'.lo ≤ coord a (p + t' • (q - p)) ∧ coord a (p + t' • (q - p)) ≤ coord a r'.hi := by
  obtain ⟨h1, h2⟩ := hx a
  obtain ⟨c, hc⟩ : ∃ c, c = coord a (p + t • (q - p)) := ⟨_, rfl⟩
  obtain ⟨m, hm⟩ : ∃ m, m = coord a q - coord a p := ⟨_, rfl⟩
  have e : ∀ t', coord a (p + t' • (q - p)) = c + (t' - t) * m := by
    intro t'
    rw [hc, hm, coord_segment, coord_segment]
    ring
  have hp := hpos a
  rw [← hc] at h1 h2
  simp only [e]
  have e0 : c + (t - t) * m = c := by ring
  rw [e0]
  rcases lt_trichotomy m 0 with h0 | h0 | h0
  · rcases lt_or_eq_of_le h1 with h | h
    · exact .inl (eventually_down h h2 h0.le)
    · refine .inr ⟨false, h.symm, fun r' hr' hs => ?_⟩
      have : coord a r'.hi = c := by rw [← h]; exact hs
      exact eventually_down (by linarith) this.ge h0.le
  · left
    rw [h0]
    simp [h1, h2]
  · rcases lt_or_eq_of_le h2 with h | h
    · exact .inl (eventually_up h1 h h0.le)
    · refine .inr ⟨true, h, fun r' hr' hs => ?_⟩
      have : coord a r'.lo = c := by rw [h]; exact hs
      exact eventually_up this.le (by linarith) h0.le

/-- Every side of the rooms is a wall or the side of another room with the same extent. -/
theorem closes_of_rooms (L : List Room) (wall : Nat → Vec3 ℝ → Prop) (hpos : ∀ r ∈ L, ∀ a, coord a r.lo < coord a r.hi)
    (hw : ∀ r ∈ L, ∀ a f x, r.Contains x → coord a x = r.side a f → (∃ k, wall k x) ∨
      ∃ r' ∈ L, r'.side a (!f) = r.side a f ∧ ∀ c, c ≠ a → coord c r.lo = coord c r'.lo ∧ coord c r.hi = coord c r'.hi) :
    Sim.Closes (fun x => ∃ r ∈ L, r.Contains x) wall := by
  intro p q hp hq
  by_contra hno
  have hfree : ∀ t : ℝ, 0 ≤ t → t ≤ 1 → ∀ k, ¬ wall k (p + t • (q - p)) :=
    fun t h0 h1 k hk => hno ⟨_, k, ⟨t, h0, h1, rfl⟩, hk⟩
  obtain ⟨S, hS⟩ : ∃ S : Set ℝ, S = {t | ∃ r ∈ L, r.Contains (p + t • (q - p))} := ⟨_, rfl⟩
  have hmem : ∀ t, t ∈ S ↔ ∃ r ∈ L, r.Contains (p + t • (q - p)) := fun t => by rw [hS]; rfl
  have hclosed : IsClosed S := by
    have : S = ⋃ r ∈ {r | r ∈ L}, {t : ℝ | r.Contains (p + t • (q - p))} := by
      ext t
      rw [hmem]
      simp
    rw [this]
    apply (List.finite_toSet L).isClosed_biUnion
    intro r _
    have : {t : ℝ | r.Contains (p + t • (q - p))} = ⋂ a : Axis, {t : ℝ | coord a r.lo ≤ coord a p + t * (coord a q - coord a p) ∧
        coord a p + t * (coord a q - coord a p) ≤ coord a r.hi} := by
      ext t
      simp only [Set.mem_iInter, Set.mem_ofPred_eq, ← coord_segment]
      rfl
    rw [this]
    apply isClosed_iInter
    intro a
    have hcont : Continuous fun t : ℝ => coord a p + t * (coord a q - coord a p) := by fun_prop
    exact (isClosed_le continuous_const hcont).inter (isClosed_le hcont continuous_const)
  have hall : Icc (0 : ℝ) 1 ⊆ S := by
    apply IsClosed.Icc_subset_of_forall_mem_nhdsWithin (hclosed.inter isClosed_Icc)
    · rw [hmem]
      simpa using hp
    · rintro t ⟨ht, h0, h1⟩
      obtain ⟨r, hr, hx⟩ := (hmem t).1 ht
      -- one axis after the other
      have step : ∀ (a : Axis) (r : Room), r ∈ L → r.Contains (p + t • (q - p)) → ∃ r' ∈ L, r'.Contains (p + t • (q - p)) ∧
          (∀ᶠ t' in 𝓝[>] t, coord a r'.lo ≤ coord a (p + t' • (q - p)) ∧ coord a (p + t' • (q - p)) ≤ coord a r'.hi) ∧
          ∀ c, c ≠ a → coord c r.lo = coord c r'.lo ∧ coord c r.hi = coord c r'.hi := by
        intro a r hr hx
        rcases axis_step (hpos r hr) hx a with h | ⟨f, hf, h⟩
        · exact ⟨r, hr, hx, h, fun c _ => ⟨rfl, rfl⟩⟩
        · rcases hw r hr a f _ hx hf with ⟨k, hk⟩ | ⟨r', hr', hs, hc⟩
          · exact absurd hk (hfree t h0 h1.le k)
          · refine ⟨r', hr', fun c => ?_, h r' (hpos r' hr' a) hs, hc⟩
            by_cases hca : c = a
            · subst hca
              rw [hf, ← hs]
              have := (hpos r' hr' c).le
              cases f <;> simp [Room.side, this]
            · rw [← (hc c hca).1, ← (hc c hca).2]
              exact hx c
      obtain ⟨r1, m1, x1, o1, -⟩ := step .x r hr hx
      obtain ⟨r2, m2, x2, o2, c2⟩ := step .y r1 m1 x1
      obtain ⟨r3, m3, x3, o3, c3⟩ := step .z r2 m2 x2
      filter_upwards [o1, o2, o3] with t' e1 e2 e3
      rw [hmem]
      refine ⟨r3, m3, fun a => ?_⟩
      cases a
      · rw [← (c3 .x (by decide)).1, ← (c3 .x (by decide)).2, ← (c2 .x (by decide)).1, ← (c2 .x (by decide)).2]
        exact e1
      · rw [← (c3 .y (by decide)).1, ← (c3 .y (by decide)).2]
        exact e2
      · exact e3
  have h1 := (hmem 1).1 (hall ⟨zero_le_one, le_refl _⟩)
  apply hq
  obtain ⟨r, hr, hx⟩ := h1
  refine ⟨r, hr, ?_⟩
  have e : p + (1 : ℝ) • (q - p) = q := by ext <;> simp
  rwa [e] at hx

end B3d.Spec
