import Verif.Proofs.SimRoundedBatch
import Verif.Proofs.RoundedNanArea

/-!
# Property C131: whole runs with rounded arithmetic

`Simulation.run` calculates the velocities of a batch from the last two positions of the batch before, so rounding errors
of the positions get into the velocities once in every batch.
-/

namespace B3d.SimRounded

open Sim Rounded Spec

variable {A : Arith} {P : Params ℝ}

/-! ### One batch -/

theorem absorbLoop_length (sq : ℝ) (pos : Vec3 ℝ) : ∀ (as : List (Vec3 ℝ)) (hs : List ℝ) (e : ℝ),
    (absorbLoop A sq pos as hs e).1.length = hs.length := by
  intro as
  induction as with
  | nil => intro hs e; simp [absorbLoop]
  | cons a as ih =>
    intro hs e
    cases hs with
    | nil => simp [absorbLoop]
    | cons h hs =>
      rw [absorbLoop]
      split_ifs <;> simp [ih]

theorem absorbAll_length : ∀ (rs : List (Ray ℝ)) (hs : List ℝ), (absorbAll A P hs rs).1.length = hs.length := by
  intro rs
  induction rs with
  | nil => intro hs; rfl
  | cons r rs ih =>
    intro hs
    rw [absorbAll]
    simp only [ih]
    unfold absorbRay
    split_ifs
    · rfl
    · exact absorbLoop_length _ _ _ _ _

theorem step_shape {fuel : Nat} {s s' : St ℝ} (h : step A P fuel s = some s') :
    s'.rays.length = s.rays.length ∧ s'.hits.length = s.hits.length := by
  refine ⟨((step_rays h).length_eq).symm, ?_⟩
  unfold step at h
  simp only at h
  split at h
  · simp at h
  · simp only [Option.some.injEq] at h
    rw [← h]
    simp [absorbAll_length]

theorem states_shape {R fuel n : Nat} {u : ℝ} {a : Arrays ℝ} {l : List (St ℝ)} (h0 : StartedB A P R u a)
    (h : steps A P fuel n (start A P a) = some l) :
    ∀ (i : Nat) (s : St ℝ), l[i]? = some s → s.rays.length = R ∧ s.hits.length = P.absorbers.length := by
  obtain ⟨e1, e2, e3⟩ := steps_chain h
  intro i
  induction i with
  | zero =>
    intro s hs
    rw [e2, Option.some.injEq] at hs
    rw [← hs]
    simp [start, h0.rays, h0.hits]
  | succ i ih =>
    intro s hs
    have hi : i < l.length := by
      have := (List.getElem?_eq_some_iff.1 hs).1
      omega
    have hx := List.getElem?_eq_getElem hi
    obtain ⟨s1, s2⟩ := step_shape (e3 i _ s hx hs)
    obtain ⟨t1, t2⟩ := ih _ hx
    exact ⟨s1.trans t1, s2.trans t2⟩

section
variable {L g u : ℝ} {R : Nat} (hP : Ordinary P) (hs : 0 < P.raySpeed) (ht : 0 < P.timeStep)
    (hlo : |P.lo.x| ≤ L ∧ |P.lo.y| ≤ L ∧ |P.lo.z| ≤ L) (hhi : |P.hi.x| ≤ L ∧ |P.hi.y| ≤ L ∧ |P.hi.z| ≤ L)
    (hL : P.eps ≤ L) (hu0 : 0 ≤ u) (hu : u ≤ 3 / 10 ^ 6)
include hP hs ht hlo hhi hL hu0 hu

/-- The steps of a batch. -/
theorem batch_step (hLs : L + P.raySpeed * P.timeStep ≤ 10 ^ 8 * (P.raySpeed * P.timeStep)) {fuel n : Nat} {a : Arrays ℝ}
    {l : List (St ℝ)} (h0 : StartedB A P R u a) (h : steps A P fuel n (start A P a) = some l) {i : Nat} {s s' : St ℝ}
    (h1 : l[i]? = some s) (h2 : l[i + 1]? = some s') :
    List.Forall₂ (fun r r' : Ray ℝ => (r'.pos = r.pos ∨ OneStep P r.pos r'.pos) ∧ 0 ≤ r'.energy ∧ r'.energy ≤ r.energy ∧
      (r.energy ≤ P.eps → r'.pos = r.pos ∧ r'.energy = r.energy)) s.rays s'.rays := by
  have hinv := invB_states hP h0 h
  have hst := step_rays ((steps_chain h).2.2 i s s' h1 h2)
  have ha : ∀ k, 0 ≤ P.absorption k := fun k => le_trans (by norm_num) (hP.absorption k)
  rw [List.forall₂_iff_get] at hst ⊢
  refine ⟨hst.1, fun k hk hk' => ?_⟩
  have hi := hinv i s h1 _ (List.get_mem s.rays ⟨k, hk⟩)
  have hi' := hinv (i + 1) s' h2 _ (List.get_mem s'.rays ⟨k, hk'⟩)
  have hx := hst.2 k hk hk'
  obtain ⟨-, c2, c3⟩ := energy_step hP.eps ha hi.rep hi.nonneg hx
  refine ⟨?_, c2, c3, ?_⟩
  · rcases step_casesB hP hi hx with h3 | h3
    · exact .inl h3
    · rcases hi'.speed with h4 | h4 | h4
      · exact absurd h3.energy (not_lt.2 h4)
      · left
        rw [h3.pos, hi'.delta, h4, mulv_zero', addv_zero' hi.pos]
      · right
        obtain ⟨m1, m2⟩ := moved_near hs.le ht.le hlo hhi hP.eps hL hu0 hu hi'.nonneg hi'.delta h4 h3
        unfold OneStep
        have m1' := abs_le.1 m1
        have m2' := abs_le.1 m2
        have hD : 0 < P.raySpeed * P.timeStep := mul_pos hs ht
        generalize P.raySpeed * P.timeStep = D at *
        rw [abs_le]
        norm_num at m1' m2' hLs ⊢
        constructor <;> linarith [m1'.1, m1'.2, m2'.1, m2'.2]
  · intro he
    obtain ⟨r1, h3, h4⟩ := hx
    rcases h3 with rfl | ⟨h3, -⟩
    · rw [moveRay, if_pos he, Option.some.injEq] at h4
      rw [← h4]
      exact ⟨rfl, rfl⟩
    · exact absurd h3 (not_lt.2 he)

/-- The arrays for the next batch. -/
theorem batch_next (hg : 1 / 10 ^ 14 * (L + P.raySpeed * P.timeStep) ≤ g * (P.raySpeed * P.timeStep)) (hg0 : 0 ≤ g)
    {fuel B : Nat} (hB : 0 < B) {a : Arrays ℝ} {rows : List (Row ℝ)} (h0 : StartedB A P R u a)
    (h : simulationLoop A P fuel B a = some rows) :
    ∃ a', nextArrays A P rows = some a' ∧ StartedB A P R (u + 2 * g) a' ∧ rows[B]? = some (rowOf (start A P a')) := by
  obtain ⟨l, hl, rfl⟩ := simulationLoop_states h
  obtain ⟨e1, e2, e3⟩ := steps_chain hl
  have hsh := states_shape h0 hl
  have hinv := invB_states hP h0 hl
  obtain ⟨B, rfl⟩ : ∃ m, B = m + 1 := ⟨B - 1, by omega⟩
  have hx : l[B]? = some (l[B]'(by omega)) := List.getElem?_eq_getElem _
  have hy : l[B + 1]? = some (l[B + 1]'(by omega)) := List.getElem?_eq_getElem _
  obtain ⟨s, hs'⟩ : ∃ s, s = l[B]'(by omega) := ⟨_, rfl⟩
  obtain ⟨s2, hs2⟩ : ∃ s, s = l[B + 1]'(by omega) := ⟨_, rfl⟩
  rw [← hs'] at hx
  rw [← hs2] at hy
  have hrev : ∃ t, (l.map rowOf).reverse = rowOf s2 :: rowOf s :: t := by
    refine ⟨((l.take B).map rowOf).reverse, ?_⟩
    have e : l = l.take B ++ [s, s2] := by
      have d1 : l.drop B = s :: l.drop (B + 1) := by rw [hs']; exact List.drop_eq_getElem_cons (by omega)
      have d2 : l.drop (B + 1) = s2 :: l.drop (B + 2) := by rw [hs2]; exact List.drop_eq_getElem_cons (by omega)
      have d3 : l.drop (B + 2) = [] := List.drop_eq_nil_of_le (by omega)
      conv_lhs => rw [← List.take_append_drop B l, d1, d2, d3]
    conv_lhs => rw [e]
    simp
  obtain ⟨t, hrev⟩ := hrev
  have hst := step_rays (e3 B s s2 hx hy)
  obtain ⟨p1, p2⟩ := hsh _ _ hx
  obtain ⟨q1, q2⟩ := hsh _ _ hy
  refine ⟨_, by rw [nextArrays, hrev], ⟨?_, ?_, ?_⟩, ?_⟩
  · simp [rowOf, p1, q1]
  · simpa [rowOf] using q2
  · intro r hr
    simp only [List.mem_map] at hr
    obtain ⟨⟨p, q, e⟩, hz, rfl⟩ := hr
    obtain ⟨m, hm⟩ := List.getElem?_of_mem hz
    rw [List.getElem?_zip_eq_some] at hm
    obtain ⟨hm1, hm2⟩ := hm
    rw [List.getElem?_zip_eq_some] at hm2
    obtain ⟨hm2, hm3⟩ := hm2
    simp only [rowOf, List.getElem?_map, Option.map_eq_some_iff] at hm1 hm2 hm3
    obtain ⟨r', hr', rfl⟩ := hm1
    obtain ⟨r, hr, rfl⟩ := hm2
    obtain ⟨r'', hr'', rfl⟩ := hm3
    obtain rfl : r' = r'' := Option.some.inj (hr'.symm.trans hr'')
    have hi := hinv B s hx r (List.mem_of_getElem? hr)
    have hi' := hinv (B + 1) s2 hy r' (List.mem_of_getElem? hr')
    refine ⟨hi'.rep, hi'.nonneg, hi'.le_one, ⟨hi'.pos, A.rep_div _ _, A.rep_div _ _, A.rep_div _ _⟩, ?_⟩
    simp only
    rcases step_casesB hP hi (forall₂_getElem? hst hr hr') with h3 | h3
    · right; left
      rw [h3, subv_self']
      have q : ∀ x : ℝ, Rel (1 / 10 ^ 15) (A.div x P.timeStep) (x / P.timeStep) := fun x =>
        rel_of_err (by norm_num) (A.div_err x P.timeStep ht.ne')
      have z : A.div 0 P.timeStep = 0 := by
        have := q 0
        rw [zero_div] at this
        exact this.zero
      ext <;> simp [divv, z]
    · rcases hi'.speed with h4 | h4 | h4
      · exact .inl h4
      · right; left
        have : r'.pos = r.pos := by rw [h3.pos, hi'.delta, h4, mulv_zero', addv_zero' hi.pos]
        rw [this, subv_self']
        have q : ∀ x : ℝ, Rel (1 / 10 ^ 15) (A.div x P.timeStep) (x / P.timeStep) := fun x =>
          rel_of_err (by norm_num) (A.div_err x P.timeStep ht.ne')
        have z : A.div 0 P.timeStep = 0 := by
          have := q 0
          rw [zero_div] at this
          exact this.zero
        ext <;> simp [divv, z]
      · exact .inr (.inr (next_speed hs ht hlo hhi hP.eps hL hu0 hu hg hg0 hi'.nonneg hi'.delta h4 h3))
  · rw [List.getElem?_map, hy, Option.map_some, Option.some.injEq]
    simp only [rowOf, start, List.map_map, Function.comp_def, Row.mk.injEq, and_true]
    constructor
    · refine List.ext_getElem (by simp [p1, q1]) fun k _ _ => by simp
    · refine List.ext_getElem (by simp [p1, q1]) fun k _ _ => by simp

end

/-- The velocities at the beginning. -/
theorem startedB_init (hs : 0 ≤ P.raySpeed) {source : Vec3 ℝ} (hsrc : RepV A source) {raw : List (Vec3 ℝ)}
    (hraw : ∀ d ∈ raw, d ≠ 0) : StartedB A P raw.length (1 / 10 ^ 6) (initArrays A P source raw) := by
  refine ⟨by simp [initArrays], by simp [initArrays], fun r hr => ?_⟩
  obtain ⟨k1, k2, k3, k4⟩ := started_init (A := A) hs source raw hraw r hr
  have k5 := abs_le.1 k4
  refine ⟨k1, k2, k3, ?_, .inr (.inr ⟨0, by simpa using k3, by simp only [pow_zero]; linarith [k5.1],
    by simp only [pow_zero]; linarith [k5.2]⟩)⟩
  simp only [initArrays, List.mem_map] at hr
  obtain ⟨d, -, rfl⟩ := hr
  exact ⟨hsrc, A.rep_mul _ _, A.rep_mul _ _, A.rep_mul _ _⟩

/-! ### All batches -/

/-- All batches of a run, each one a call of the simulation loop. -/
theorem batches_run {L g : ℝ} {R : Nat} (hP : Ordinary P) (hs : 0 < P.raySpeed) (ht : 0 < P.timeStep)
    (hlo : |P.lo.x| ≤ L ∧ |P.lo.y| ≤ L ∧ |P.lo.z| ≤ L) (hhi : |P.hi.x| ≤ L ∧ |P.hi.y| ≤ L ∧ |P.hi.z| ≤ L)
    (hL : P.eps ≤ L) (hg : 1 / 10 ^ 14 * (L + P.raySpeed * P.timeStep) ≤ g * (P.raySpeed * P.timeStep)) (hg0 : 0 ≤ g)
    {B : Nat} (hB : 0 < B) : ∀ (b i : Nat) (u : ℝ) (a : Arrays ℝ), 0 ≤ u → u + b * (2 * g) ≤ 3 / 10 ^ 6 → StartedB A P R u a →
    ∃ batches : List (List (Row ℝ)), batches.length = b ∧
      runBatches A P (2 * 10 ^ 6 + 1) B b i a = some (Buffers.batchWrites B i batches) ∧
      (∀ rows ∈ batches, ∃ u a0, 0 ≤ u ∧ u ≤ 3 / 10 ^ 6 ∧ StartedB A P R u a0 ∧
        simulationLoop A P (2 * 10 ^ 6 + 1) B a0 = some rows) ∧
      (∀ rows, batches[0]? = some rows → rows[0]? = some (rowOf (start A P a))) ∧
      ∀ (k : Nat) (r r' : List (Row ℝ)), batches[k]? = some r → batches[k + 1]? = some r' → r[B]? = r'[0]? := by
  intro b
  induction b with
  | zero => intro i u a _ _ _; exact ⟨[], rfl, rfl, by simp, by simp, by simp⟩
  | succ b ih =>
    intro i u a hu0 hub h0
    push_cast at hub
    have hbg : 0 ≤ b * (2 * g) := by positivity
    have hu : u ≤ 3 / 10 ^ 6 := by linarith
    obtain ⟨rows, hrows⟩ := C117_terminates (A := A) hP.eps hP.absorption B a
      (fun r hr => ⟨(h0.ray r hr).1, (h0.ray r hr).2.1, (h0.ray r hr).2.2.1⟩)
    obtain ⟨a', n1, n2, n3⟩ := batch_next hP hs ht hlo hhi hL hu0 hu hg hg0 hB h0 hrows
    obtain ⟨batches, b1, b2, b3, b4, b5⟩ := ih (i + B) (u + 2 * g) a' (by linarith) (by linarith) n2
    refine ⟨rows :: batches, by simp [b1], ?_, ?_, ?_, ?_⟩
    · rw [runBatches]
      simp only [hrows, n1, b2, Buffers.batchWrites]
    · intro r hr
      rcases List.mem_cons.1 hr with rfl | hr
      · exact ⟨u, a, hu0, hu, h0, hrows⟩
      · exact b3 r hr
    · intro r hr
      simp only [List.getElem?_cons_zero, Option.some.injEq] at hr
      subst hr
      obtain ⟨l, hl, rfl⟩ := simulationLoop_states hrows
      rw [List.getElem?_map, (steps_chain hl).2.1]
      rfl
    · intro k r r' hk hk'
      cases k with
      | zero =>
        simp only [List.getElem?_cons_zero, Option.some.injEq] at hk
        subst hk
        rw [n3, b4 r' (by simpa using hk')]
      | succ k => exact b5 k r r' (by simpa using hk) (by simpa using hk')

/-- The files of a list of batches in which each begins as the one before ends. -/
theorem files_of_batches {B : Nat} (hB : 0 < B) {bs : List (List (Row ℝ))} (hlen : ∀ rows ∈ bs, rows.length = B + 1)
    (hj : ∀ (k : Nat) (r r' : List (Row ℝ)), bs[k]? = some r → bs[k + 1]? = some r' → r[B]? = r'[0]?) :
    (∀ rows, bs[0]? = some rows → fileOf (Buffers.batchWrites B 0 bs) 0 = rows[0]?) ∧
    (∀ n, n < bs.length * B → ∃ rows ∈ bs, ∃ j < B, fileOf (Buffers.batchWrites B 0 bs) n = rows[j]? ∧
      fileOf (Buffers.batchWrites B 0 bs) (n + 1) = rows[j + 1]?) ∧
    ∀ n, bs.length * B < n → fileOf (Buffers.batchWrites B 0 bs) n = none := by
  have hfile : ∀ k r j, bs[k]? = some r → j ≤ B → fileOf (Buffers.batchWrites B 0 bs) (k * B + j) = r[j]? := by
    intro k r j hk hj'
    rcases hj'.lt_or_eq with hj' | rfl
    · have := Buffers.fileOf_batchWrites 0 bs hlen k j r hk (.inl hj')
      rwa [Nat.zero_add] at this
    · by_cases hlast : k + 1 = bs.length
      · have := Buffers.fileOf_batchWrites 0 bs hlen k j r hk (.inr ⟨rfl, hlast⟩)
        rwa [Nat.zero_add] at this
      · have hk' : k + 1 < bs.length := by
          have := (List.getElem?_eq_some_iff.1 hk).1
          omega
        have hr' := List.getElem?_eq_getElem hk'
        have := Buffers.fileOf_batchWrites 0 bs hlen (k + 1) 0 _ hr' (.inl hB)
        rw [Nat.zero_add, ← hj k r _ hk hr'] at this
        rw [← this]
        congr 1
        ring
  refine ⟨?_, ?_, ?_⟩
  · intro rows h0
    have e := hfile 0 _ 0 h0 (Nat.zero_le _)
    rwa [Nat.zero_mul, Nat.zero_add] at e
  · intro n hnb
    have hk : n / B < bs.length := by
      rw [Nat.div_lt_iff_lt_mul hB]; exact hnb
    have hr := List.getElem?_eq_getElem hk
    have hm := Nat.mod_lt n hB
    have e : n / B * B + n % B = n := by
      have := Nat.div_add_mod n B
      rwa [Nat.mul_comm] at this
    have e1 := hfile _ _ (n % B) hr hm.le
    have e2 := hfile _ _ (n % B + 1) hr hm
    rw [e] at e1
    rw [← Nat.add_assoc, e] at e2
    exact ⟨_, List.mem_of_getElem? hr, n % B, hm, e1, e2⟩
  · intro n hnb
    refine Buffers.fileOf_none ?_
    rintro ⟨m, row⟩ hw rfl
    have key : ∀ (l : List (List (Row ℝ))) (i : Nat), (∀ rows ∈ l, rows.length = B + 1) → (m, row) ∈ Buffers.batchWrites B i l →
        m ≤ i + l.length * B := by
      intro l
      induction l with
      | nil => intro i _ h; simp [Buffers.batchWrites] at h
      | cons r l ih =>
        intro i hl hw
        rw [Buffers.batchWrites, List.mem_append] at hw
        rcases hw with hw | hw
        · unfold dumpBuffers at hw
          obtain ⟨e, he, heq⟩ := List.mem_map.1 hw
          have := List.mem_range.1 (List.of_mem_zip he).1
          rw [hl r (List.mem_cons_self ..)] at this
          have e1 : e.1 + i = m := congrArg Prod.fst heq
          rw [List.length_cons, Nat.succ_mul]
          have : 0 ≤ l.length * B := Nat.zero_le _
          omega
        · have := ih (i + B) (fun r hr => hl r (List.mem_cons_of_mem _ hr)) hw
          rw [List.length_cons, Nat.succ_mul]
          omega
    have := key bs 0 hlen hw
    simp only at hnb
    omega

/-- The files of a run, and the states they were written from. -/
theorem run_files (hP : Ordinary P) (hs : 0 < P.raySpeed) (ht : 0 < P.timeStep) {B b : Nat} (hB : 0 < B) (hb : 0 < b)
    (hsize : SizeForBatches P b) {source : Vec3 ℝ} (hsrc : RepV A source) {raw : List (Vec3 ℝ)} (hraw : ∀ d ∈ raw, d ≠ 0) :
    ∃ L ws, (|P.lo.x| ≤ L ∧ |P.lo.y| ≤ L ∧ |P.lo.z| ≤ L) ∧ (|P.hi.x| ≤ L ∧ |P.hi.y| ≤ L ∧ |P.hi.z| ≤ L) ∧ P.eps ≤ L ∧
      L + P.raySpeed * P.timeStep ≤ 10 ^ 8 * (P.raySpeed * P.timeStep) ∧
      simulationRun A P (2 * 10 ^ 6 + 1) B b source raw = some ws ∧
      fileOf ws 0 = some ⟨raw.map fun _ => source, raw.map fun _ => 1, P.absorbers.map fun _ => 0⟩ ∧
      (∀ n, b * B < n → fileOf ws n = none) ∧
      ∀ n, n < b * B → ∃ u a0 l j s s', 0 ≤ u ∧ u ≤ 3 / 10 ^ 6 ∧ StartedB A P raw.length u a0 ∧
        steps A P (2 * 10 ^ 6 + 1) B (start A P a0) = some l ∧ l[j]? = some s ∧ l[j + 1]? = some s' ∧
        fileOf ws n = some (rowOf s) ∧ fileOf ws (n + 1) = some (rowOf s') := by
  obtain ⟨L, hlo, hhi, hL, hLb⟩ := hsize
  have hD : 0 < P.raySpeed * P.timeStep := mul_pos hs ht
  have hb1 : (1 : ℝ) ≤ b := by exact_mod_cast hb
  have hL0 : 0 ≤ L := hP.eps.trans hL
  have hLs : L + P.raySpeed * P.timeStep ≤ 10 ^ 8 * (P.raySpeed * P.timeStep) :=
    le_trans (le_mul_of_one_le_left (by linarith) hb1) hLb
  obtain ⟨g, hg⟩ : ∃ g, g = 1 / 10 ^ 14 * (L + P.raySpeed * P.timeStep) / (P.raySpeed * P.timeStep) := ⟨_, rfl⟩
  have hg0 : 0 ≤ g := by rw [hg]; positivity
  have hgD : g * (P.raySpeed * P.timeStep) = 1 / 10 ^ 14 * (L + P.raySpeed * P.timeStep) := by
    rw [hg]; exact div_mul_cancel₀ _ hD.ne'
  have hbg : 1 / 10 ^ 6 + b * (2 * g) ≤ 3 / 10 ^ 6 := by
    have h1 : b * (g * (P.raySpeed * P.timeStep)) ≤ 1 / 10 ^ 6 * (P.raySpeed * P.timeStep) := by
      rw [hgD]
      norm_num at hLb ⊢
      linarith
    have h2 : b * g ≤ 1 / 10 ^ 6 := by
      refine le_of_mul_le_mul_right ?_ hD
      linarith
    linarith
  obtain ⟨bs, b1, b2, b3, b4, b5⟩ := batches_run hP hs ht hlo hhi hL hgD.ge hg0 hB b 0 (1 / 10 ^ 6)
    (initArrays A P source raw) (by norm_num) hbg (startedB_init hs.le hsrc hraw)
  have hlen : ∀ rows ∈ bs, rows.length = B + 1 := by
    intro rows hr
    obtain ⟨u, a0, -, -, -, h0⟩ := b3 rows hr
    obtain ⟨l, hl, rfl⟩ := simulationLoop_states h0
    rw [List.length_map, (steps_chain hl).1]
  obtain ⟨f0, f1, f2⟩ := files_of_batches hB hlen b5
  rw [b1] at f1 f2
  refine ⟨L, _, hlo, hhi, hL, hLs, b2, ?_, f2, ?_⟩
  · have hx : bs[0]? = some (bs[0]'(by omega)) := List.getElem?_eq_getElem _
    rw [f0 _ hx, b4 _ hx]
    simp [rowOf, start, initArrays, Function.comp_def]
  · intro n hnb
    obtain ⟨rows, hm, j, hj, k1, k2⟩ := f1 n hnb
    obtain ⟨u, a0, hu0, hu, g0, h0⟩ := b3 rows hm
    have hlr := hlen rows hm
    obtain ⟨l, hl, rfl⟩ := simulationLoop_states h0
    rw [List.length_map] at hlr
    have hx : l[j]? = some (l[j]'(by omega)) := List.getElem?_eq_getElem _
    have hy : l[j + 1]? = some (l[j + 1]'(by omega)) := List.getElem?_eq_getElem _
    rw [List.getElem?_map, hx, Option.map_some] at k1
    rw [List.getElem?_map, hy, Option.map_some] at k2
    exact ⟨u, a0, l, j, _, _, hu0, hu, g0, hl, hx, hy, k1, k2⟩

/-- **C131.**  A whole run of `Simulation.run` with rounded arithmetic, with any number of batches of any length for which
the building is of ordinary size: it ends, it leaves the files of the steps `0` to `b * B` and no others, those of step 0
with all rays at the source; and from each step to the next, in the same batch or not, every ray stays where it is or moves
by the distance of one step up to one part in `10 ^ 5`, no energy is negative or grows, and rays without energy stay as
they are. -/
theorem C131_run (hP : Ordinary P) (hs : 0 < P.raySpeed) (ht : 0 < P.timeStep) {B b : Nat} (hB : 0 < B) (hb : 0 < b)
    (hsize : SizeForBatches P b) {source : Vec3 ℝ} (hsrc : RepV A source) {raw : List (Vec3 ℝ)} (hraw : ∀ d ∈ raw, d ≠ 0) :
    ∃ ws, simulationRun A P (2 * 10 ^ 6 + 1) B b source raw = some ws ∧
      fileOf ws 0 = some ⟨raw.map fun _ => source, raw.map fun _ => 1, P.absorbers.map fun _ => 0⟩ ∧
      (∀ n, n ≤ b * B → ∃ row, fileOf ws n = some row ∧ row.pos.length = raw.length ∧ row.energy.length = raw.length ∧
        row.hits.length = P.absorbers.length) ∧
      (∀ n, b * B < n → fileOf ws n = none) ∧
      ∀ (n : Nat) (r r' : Row ℝ), fileOf ws n = some r → fileOf ws (n + 1) = some r' →
        List.Forall₂ (fun p q => q = p ∨ OneStep P p q) r.pos r'.pos ∧
        List.Forall₂ (fun e e' => 0 ≤ e' ∧ e' ≤ e) r.energy r'.energy ∧
        ∀ (k : Nat) (e : ℝ), r.energy[k]? = some e → e ≤ P.eps → r'.energy[k]? = some e ∧ r'.pos[k]? = r.pos[k]? := by
  obtain ⟨L, ws, hlo, hhi, hL, hLs, hrun, f0, f2, f1⟩ := run_files (A := A) hP hs ht hB hb hsize hsrc hraw
  refine ⟨ws, hrun, f0, ?_, f2, ?_⟩
  · intro n hn
    cases n with
    | zero => exact ⟨_, f0, by simp, by simp, by simp⟩
    | succ n =>
      obtain ⟨u, a0, l, j, s, s', hu0, hu, g0, hl, h1, h2, k1, k2⟩ := f1 n hn
      obtain ⟨t1, t2⟩ := states_shape g0 hl _ _ h2
      exact ⟨_, k2, by simp [rowOf, t1], by simp [rowOf, t1], t2⟩
  · intro n r r' hr hr'
    have hnb : n < b * B := by
      by_contra hc
      rw [f2 (n + 1) (by omega)] at hr'
      cases hr'
    obtain ⟨u, a0, l, j, s, s', hu0, hu, g0, hl, h1, h2, k1, k2⟩ := f1 n hnb
    obtain rfl := Option.some.inj (hr.symm.trans k1)
    obtain rfl := Option.some.inj (hr'.symm.trans k2)
    have hst := batch_step hP hs ht hlo hhi hL hu0 hu hLs g0 hl h1 h2
    simp only [rowOf]
    rw [List.forall₂_map_left_iff, List.forall₂_map_right_iff, List.forall₂_map_left_iff, List.forall₂_map_right_iff]
    refine ⟨hst.imp fun _ _ h => h.1, hst.imp fun _ _ h => ⟨h.2.1, h.2.2.1⟩, ?_⟩
    intro k e hk he
    rw [List.getElem?_map, Option.map_eq_some_iff] at hk
    obtain ⟨x, hx, rfl⟩ := hk
    have hlt := (List.getElem?_eq_some_iff.1 hx).1
    have hy : s'.rays[k]? = some (s'.rays[k]'(by rw [← hst.length_eq]; exact hlt)) := List.getElem?_eq_getElem _
    obtain ⟨c1, c2⟩ := (forall₂_getElem? hst hx hy).2.2.2 he
    rw [List.getElem?_map, List.getElem?_map, List.getElem?_map, hx, hy]
    simp [c1, c2]

/-- **C131, surfaces.**  In a whole run with rounded arithmetic, a ray that moves in a step does so with a velocity that has the
ray speed up to four parts in `10 ^ 6`, and the calculated distance to every opaque surface that is near and ahead is larger
than the distance it moves, by at least eight parts in 1000. -/
theorem C131_stops_short (hP : Ordinary P) (hs : 0 < P.raySpeed) (ht : 0 < P.timeStep) {B b : Nat} (hB : 0 < B) (hb : 0 < b)
    (hsize : SizeForBatches P b) {source : Vec3 ℝ} (hsrc : RepV A source) {raw : List (Vec3 ℝ)} (hraw : ∀ d ∈ raw, d ≠ 0)
    {ws : List (Nat × Row ℝ)} (h : simulationRun A P (2 * 10 ^ 6 + 1) B b source raw = some ws) {n k : Nat} {r r' : Row ℝ}
    (hr : fileOf ws n = some r) (hr' : fileOf ws (n + 1) = some r') {p q : Vec3 ℝ} (hp : r.pos[k]? = some p)
    (hq : r'.pos[k]? = some q) (hm : q ≠ p) :
    RepV A p ∧ ∃ v, RepV A v ∧ |Vec3.norm v - P.raySpeed| ≤ 4 / 10 ^ 6 * P.raySpeed ∧ q = addv A p (mulv A P.timeStep v) ∧
      ∀ pn ∈ findNearby P.setIter (cellOf A p P.gridStep) P.grid, OpaqueHit P.geo P.trans p v pn →
        1008 / 1000 * Vec3.norm (q - p) < P.geo.dist p pn := by
  obtain ⟨L, ws', hlo, hhi, hL, hLs, hrun, f0, f2, f1⟩ := run_files (A := A) hP hs ht hB hb hsize hsrc hraw
  obtain rfl : ws = ws' := Option.some.inj (h.symm.trans hrun)
  have hnb : n < b * B := by
    by_contra hc
    rw [f2 (n + 1) (by omega)] at hr'
    cases hr'
  obtain ⟨u, a0, l, j, s, s', hu0, hu, g0, hl, h1, h2, k1, k2⟩ := f1 n hnb
  obtain rfl := Option.some.inj (hr.symm.trans k1)
  obtain rfl := Option.some.inj (hr'.symm.trans k2)
  simp only [rowOf, List.getElem?_map, Option.map_eq_some_iff] at hp hq
  obtain ⟨x, hx, rfl⟩ := hp
  obtain ⟨y, hy, rfl⟩ := hq
  have hinv := invB_states hP g0 hl
  have hi := hinv j s h1 x (List.mem_of_getElem? hx)
  have hi' := hinv (j + 1) s' h2 y (List.mem_of_getElem? hy)
  rcases step_casesB hP hi (forall₂_getElem? (step_rays ((steps_chain hl).2.2 j s s' h1 h2)) hx hy) with h3 | h3
  · exact absurd h3 hm
  · rcases hi'.speed with h4 | h4 | h4
    · exact absurd h3.energy (not_lt.2 h4)
    · exact absurd (by rw [h3.pos, hi'.delta, h4, mulv_zero', addv_zero' hi.pos]) hm
    · refine ⟨hi.pos, y.vel, hi'.vel, h4.near hs.le hi'.nonneg hu0 hu, by rw [h3.pos, hi'.delta], fun pn hpn hop => ?_⟩
      exact stops_shortB hP hs ht hlo hhi hL hLs hu0 hu hi' h4 h3 hpn hop

/-- **C131, energies.**  In all files the energies are between 0 and 1. -/
theorem C131_energy (hP : Ordinary P) (hs : 0 < P.raySpeed) (ht : 0 < P.timeStep) {B b : Nat} (hB : 0 < B) (hb : 0 < b)
    (hsize : SizeForBatches P b) {source : Vec3 ℝ} (hsrc : RepV A source) {raw : List (Vec3 ℝ)} (hraw : ∀ d ∈ raw, d ≠ 0)
    {ws : List (Nat × Row ℝ)} (h : simulationRun A P (2 * 10 ^ 6 + 1) B b source raw = some ws) :
    ∀ (n : Nat) (r : Row ℝ), fileOf ws n = some r → ∀ e ∈ r.energy, 0 ≤ e ∧ e ≤ 1 := by
  obtain ⟨ws', e1, f0, f1, f2, f3⟩ := C131_run (A := A) hP hs ht hB hb hsize hsrc hraw
  obtain rfl : ws = ws' := Option.some.inj (h.symm.trans e1)
  intro n
  induction n with
  | zero =>
    intro r hr e he
    rw [f0, Option.some.injEq] at hr
    subst hr
    simp only [List.mem_map] at he
    obtain ⟨-, -, rfl⟩ := he
    exact ⟨zero_le_one, le_rfl⟩
  | succ n ih =>
    intro r hr e he
    have hnb : n + 1 ≤ b * B := by
      by_contra hc
      rw [f2 _ (by omega)] at hr
      cases hr
    obtain ⟨r0, hr0, -⟩ := f1 n (by omega)
    have hst := (f3 n r0 r hr0 hr).2.1
    obtain ⟨k, hk⟩ := List.getElem?_of_mem he
    obtain ⟨hk', -⟩ := List.getElem?_eq_some_iff.1 hk
    have hx : r0.energy[k]? = some (r0.energy[k]'(by rw [hst.length_eq]; exact hk')) := List.getElem?_eq_getElem _
    obtain ⟨g1, g2⟩ := forall₂_getElem? hst hx hk
    exact ⟨g1, g2.trans (ih r0 hr0 _ (List.mem_of_getElem? hx)).2⟩

/-- **C131, distance.**  After `n` steps no ray is further from the source than sound travels in `n` steps, up to one part in
`10 ^ 5`, whatever the rounding errors of all batches. -/
theorem C131_not_further (hP : Ordinary P) (hs : 0 < P.raySpeed) (ht : 0 < P.timeStep) {B b : Nat} (hB : 0 < B) (hb : 0 < b)
    (hsize : SizeForBatches P b) {source : Vec3 ℝ} (hsrc : RepV A source) {raw : List (Vec3 ℝ)} (hraw : ∀ d ∈ raw, d ≠ 0)
    {ws : List (Nat × Row ℝ)} (h : simulationRun A P (2 * 10 ^ 6 + 1) B b source raw = some ws) :
    ∀ (n : Nat) (r : Row ℝ), fileOf ws n = some r → ∀ p ∈ r.pos,
      Vec3.norm (p - source) ≤ n * ((1 + 1 / 10 ^ 5) * (P.raySpeed * P.timeStep)) := by
  obtain ⟨ws', e1, f0, f1, f2, f3⟩ := C131_run (A := A) hP hs ht hB hb hsize hsrc hraw
  obtain rfl : ws = ws' := Option.some.inj (h.symm.trans e1)
  have hD : 0 < P.raySpeed * P.timeStep := mul_pos hs ht
  intro n
  induction n with
  | zero =>
    intro r hr p hp
    rw [f0, Option.some.injEq] at hr
    subst hr
    simp only [List.mem_map] at hp
    obtain ⟨-, -, rfl⟩ := hp
    simp [Vec3.norm, Vec3.normSq, Vec3.dot]
  | succ n ih =>
    intro r hr q hq
    have hnb : n + 1 ≤ b * B := by
      by_contra hc
      rw [f2 _ (by omega)] at hr
      cases hr
    obtain ⟨r0, hr0, -⟩ := f1 n (by omega)
    have hst := (f3 n r0 r hr0 hr).1
    obtain ⟨k, hk⟩ := List.getElem?_of_mem hq
    obtain ⟨hk', -⟩ := List.getElem?_eq_some_iff.1 hk
    have hx : r0.pos[k]? = some (r0.pos[k]'(by rw [hst.length_eq]; exact hk')) := List.getElem?_eq_getElem _
    have hi := ih r0 hr0 _ (List.mem_of_getElem? hx)
    push_cast
    generalize r0.pos[k]'(by rw [hst.length_eq]; exact hk') = p at hx hi
    rcases forall₂_getElem? hst hx hk with h1 | h1
    · rw [h1]
      norm_num at hi ⊢
      linarith
    · have h2 := (abs_le.1 h1).2
      have e : q - source = (p - source) + (q - p) := by ext <;> simp
      have h3 := Vec3.norm_add_le (p - source) (q - p)
      rw [← e] at h3
      norm_num at hi h2 ⊢
      linarith

/-! ### When sound arrives -/

/-- A point that the rounded test finds in an absorber is in a sphere that is hardly larger. -/
theorem sqDist_near {p c : Vec3 ℝ} {R : ℝ} (hR : 0 ≤ R) (h : sqDist A p c < A.mul R R) :
    Vec3.norm (p - c) ≤ (1 + 1 / 10 ^ 14) * R := by
  have hm := ((mul_rel A.toArith R R).le (mul_self_nonneg R)).2
  have hd := ((subv_rel A p c).norm (by norm_num)).le (Vec3.norm_nonneg _)
  obtain ⟨d, hdd⟩ : ∃ d, d = subv A p c := ⟨_, rfl⟩
  have e : sqDist A p c = A.add (A.add (A.mul d.x d.x) (A.mul d.y d.y)) (A.mul d.z d.z) := by rw [hdd]; rfl
  rw [← hdd] at hd
  rw [e] at h
  have a1 := ((mul_rel A.toArith d.x d.x).le (mul_self_nonneg _)).1
  have a2 := ((mul_rel A.toArith d.y d.y).le (mul_self_nonneg _)).1
  have a3 := ((mul_rel A.toArith d.z d.z).le (mul_self_nonneg _)).1
  have n1 := mul_self_nonneg d.x
  have n2 := mul_self_nonneg d.y
  have n3 := mul_self_nonneg d.z
  have b1 : 0 ≤ A.mul d.x d.x := le_trans (mul_nonneg (by norm_num) n1) a1
  have b2 : 0 ≤ A.mul d.y d.y := le_trans (mul_nonneg (by norm_num) n2) a2
  have b3 : 0 ≤ A.mul d.z d.z := le_trans (mul_nonneg (by norm_num) n3) a3
  have c1 := ((add_rel A.toArith (A.mul d.x d.x) (A.mul d.y d.y)).le (by linarith)).1
  have b4 : 0 ≤ A.add (A.mul d.x d.x) (A.mul d.y d.y) := le_trans (mul_nonneg (by norm_num) (by linarith)) c1
  have c2 := ((add_rel A.toArith (A.add (A.mul d.x d.x) (A.mul d.y d.y)) (A.mul d.z d.z)).le (by linarith)).1
  have key : Vec3.normSq d ≤ (1 + 5 / 10 ^ 15) * (R * R) := by
    rw [Vec3.normSq_def]
    generalize d.x * d.x = x at *
    generalize d.y * d.y = y at *
    generalize d.z * d.z = z at *
    generalize R * R = w at *
    norm_num at a1 a2 a3 c1 c2 hm ⊢
    linarith
  have hn : Vec3.norm d ≤ (1 + 5 / 10 ^ 15) * R := by
    refine Vec3.norm_le_of_sq (mul_nonneg (by norm_num) hR) ?_
    refine key.trans ?_
    have := mul_self_nonneg R
    norm_num
    nlinarith
  have := hd.1
  norm_num at this hn ⊢
  linarith

/-- An absorber that no ray with energy is in records nothing. -/
theorem absorbLoop_none {sq : ℝ} {pos : Vec3 ℝ} {c : Vec3 ℝ} (hout : ¬ sqDist A pos c < sq) :
    ∀ (m : Nat) (as : List (Vec3 ℝ)) (hs : List ℝ) (e : ℝ), as[m]? = some c → (absorbLoop A sq pos as hs e).1[m]? = hs[m]? := by
  intro m as
  induction as generalizing m with
  | nil => intro hs e h; simp at h
  | cons a as ih =>
    intro hs e h
    cases hs with
    | nil => simp [absorbLoop]
    | cons x hs =>
      rw [absorbLoop]
      cases m with
      | zero =>
        simp only [List.getElem?_cons_zero, Option.some.injEq] at h
        subst h
        rw [if_neg hout]
        rfl
      | succ m =>
        split_ifs
        · simpa using ih m hs 0 (by simpa using h)
        · simpa using ih m hs e (by simpa using h)

theorem absorbAll_none {sn : Nat} {c : Vec3 ℝ} (hc : P.absorbers[sn]? = some c) : ∀ (rs : List (Ray ℝ)) (hs : List ℝ),
    (∀ r ∈ rs, P.eps < r.energy → ¬ sqDist A r.pos c < A.mul P.absorberRadius P.absorberRadius) →
    (absorbAll A P hs rs).1[sn]? = hs[sn]? := by
  intro rs
  induction rs with
  | nil => intro hs _; rfl
  | cons r rs ih =>
    intro hs h
    rw [absorbAll]
    simp only
    rw [ih _ (fun x hx => h x (List.mem_cons_of_mem _ hx))]
    unfold absorbRay
    split_ifs with h1
    · rfl
    · exact absorbLoop_none (h r (List.mem_cons_self ..) (not_le.1 h1)) _ _ _ _ hc

/-- **C131, nothing arrives before the direct sound.**  With rounded arithmetic, an absorber at the distance `D` from the source
records nothing in all steps `n` in which sound cannot have reached it yet, up to one part in `10 ^ 5`. -/
theorem C131_not_before (hP : Ordinary P) (hs : 0 < P.raySpeed) (ht : 0 < P.timeStep) {B b : Nat} (hB : 0 < B) (hb : 0 < b)
    (hsize : SizeForBatches P b) {source : Vec3 ℝ} (hsrc : RepV A source) {raw : List (Vec3 ℝ)} (hraw : ∀ d ∈ raw, d ≠ 0)
    {ws : List (Nat × Row ℝ)} (h : simulationRun A P (2 * 10 ^ 6 + 1) B b source raw = some ws) (hR : 0 ≤ P.absorberRadius)
    {sn : Nat} {c : Vec3 ℝ} (hc : P.absorbers[sn]? = some c) {n : Nat} {r : Row ℝ} (hr : fileOf ws n = some r)
    (hearly : ((n : ℝ) - 1) * ((1 + 1 / 10 ^ 5) * (P.raySpeed * P.timeStep)) + (1 + 1 / 10 ^ 14) * P.absorberRadius <
      Vec3.norm (c - source)) : r.hits[sn]? = some 0 := by
  obtain ⟨L, ws', hlo, hhi, hL, hLs, hrun, f0, f2, f1⟩ := run_files (A := A) hP hs ht hB hb hsize hsrc hraw
  obtain rfl : ws = ws' := Option.some.inj (h.symm.trans hrun)
  cases n with
  | zero =>
    rw [f0, Option.some.injEq] at hr
    subst hr
    simp [(List.getElem?_eq_some_iff.1 hc).1]
  | succ n =>
    have hnb : n < b * B := by
      by_contra hcc
      rw [f2 (n + 1) (by omega)] at hr
      cases hr
    obtain ⟨u, a0, l, j, s, s', hu0, hu, g0, hl, h1, h2, k1, k2⟩ := f1 n hnb
    obtain rfl := Option.some.inj (hr.symm.trans k2)
    have hst := (steps_chain hl).2.2 j s s' h1 h2
    have hlen := (states_shape g0 hl j s h1).2
    have hlt := (List.getElem?_eq_some_iff.1 hc).1
    have hfar := C131_not_further hP hs ht hB hb hsize hsrc hraw h n _ k1
    unfold step at hst
    simp only at hst
    split at hst
    · simp at hst
    · simp only [Option.some.injEq] at hst
      rw [← hst]
      simp only [rowOf]
      rw [absorbAll_none hc]
      · simp [hlen, hlt]
      · intro x hx _ hin
        have g1 := sqDist_near hR hin
        have g2 := hfar x.pos (by simp only [rowOf]; exact List.mem_map_of_mem hx)
        have e : c - source = (x.pos - source) - (x.pos - c) := by ext <;> simp
        have g3 := Vec3.norm_sub_le (x.pos - source) (x.pos - c)
        rw [← e] at g3
        push_cast at hearly
        rw [add_sub_cancel_right] at hearly
        linarith

/-! ### The hypotheses can be met -/

/-- 53 binary digits, the hall of C117, five thousand batches of a hundred steps. -/
example : ∃ ws, simulationRun binary64 hall (2 * 10 ^ 6 + 1) 100 5000 0 [⟨-3, 4, 0⟩, ⟨1, 0, 0⟩] = some ws ∧
    (∀ n, n ≤ 500000 → ∃ row, fileOf ws n = some row ∧ row.pos.length = 2 ∧ ∀ e ∈ row.energy, 0 ≤ e ∧ e ≤ 1) ∧
    fileOf ws 500001 = none := by
  have hs : 0 < hall.raySpeed := by norm_num [hall]
  have ht : 0 < hall.timeStep := by norm_num [hall]
  have hz : SizeForBatches hall 5000 :=
    ⟨20, by norm_num [hall], by norm_num [hall], by norm_num [hall], by norm_num [hall]⟩
  have hsrc : RepV binary64 0 := ⟨binary64.rep_zero, binary64.rep_zero, binary64.rep_zero⟩
  have hraw : ∀ d ∈ [(⟨-3, 4, 0⟩ : Vec3 ℝ), ⟨1, 0, 0⟩], d ≠ 0 := by
    intro d hd
    simp only [List.mem_cons, List.not_mem_nil, or_false] at hd
    rcases hd with rfl | rfl <;> simp [Vec3.ext_iff]
  obtain ⟨ws, h1, h2, h3, h4, h5⟩ := C131_run (A := binary64) (B := 100) hall_ordinary hs ht (by norm_num) (by norm_num) hz
    hsrc hraw
  refine ⟨ws, h1, fun n hn => ?_, h4 _ (by norm_num)⟩
  obtain ⟨row, k1, k2, -⟩ := h3 n (by omega)
  exact ⟨row, k1, k2, C131_energy hall_ordinary hs ht (by norm_num) (by norm_num) hz hsrc hraw h1 n row k1⟩

/-- The absorber in the hall, 5 m from a source at (5, 1, 1) with a radius of 20 cm, records nothing in the first 279 steps of
17 mm, which are 4.78 m. -/
example (ws : List (Nat × Row ℝ)) (h : simulationRun binary64 hall (2 * 10 ^ 6 + 1) 100 5000 ⟨5, 1, 1⟩ [⟨-3, 4, 0⟩, ⟨1, 0, 0⟩] = some ws)
    (r : Row ℝ) (hr : fileOf ws 280 = some r) : r.hits[0]? = some 0 := by
  have f5 : fl 5 = 5 := by dyadic (-50) 5629499534213120
  have f1 : fl 1 = 1 := binary64.rep_one
  have hz : SizeForBatches hall 5000 :=
    ⟨20, by norm_num [hall], by norm_num [hall], by norm_num [hall], by norm_num [hall]⟩
  refine C131_not_before (A := binary64) hall_ordinary (by norm_num [hall]) (by norm_num [hall]) (by norm_num) (by norm_num) hz
    (source := ⟨5, 1, 1⟩) ⟨f5, f1, f1⟩ ?_ h (by norm_num [hall]) (c := ⟨10, 1, 1⟩) rfl hr ?_
  · intro d hd
    simp only [List.mem_cons, List.not_mem_nil, or_false] at hd
    rcases hd with rfl | rfl <;> simp [Vec3.ext_iff]
  · have e : Vec3.norm ((⟨10, 1, 1⟩ : Vec3 ℝ) - ⟨5, 1, 1⟩) = 5 := by
      have e2 : Vec3.normSq ((⟨10, 1, 1⟩ : Vec3 ℝ) - ⟨5, 1, 1⟩) = 5 ^ 2 := by rw [Vec3.normSq_def]; norm_num
      rw [Vec3.norm, e2, Real.sqrt_sq (by norm_num)]
    rw [e]
    norm_num [hall]

end B3d.SimRounded
