import Verif.Props.Buffers
import Verif.Props.SimBatch
import Verif.Props.Arrival

/-!
# Property C129: what holds in a batch holds in the whole run

The files left by `Simulation.run`, with any number of batches.
-/

namespace B3d.Sim

variable {K : Type} [Field K] [LinearOrder K] [IsStrictOrderedRing K] [FloorRing K] {P : Params K}

/-- What the arrays handed from batch to batch fulfil: `R` rays with energies that are not negative, at rest or with the ray
speed. -/
structure GoodArrays (P : Params K) (R : Nat) (a : Arrays K) : Prop where
  rays : a.rays.length = R
  hits : a.hits.length = P.absorbers.length
  energy : ∀ r ∈ a.rays, 0 ≤ r.2.2
  speed : ∀ r ∈ a.rays, Vec3.normSq r.2.1 = P.raySpeed ^ 2 ∨ r.2.1 = 0

omit [FloorRing K] in
theorem normSq_zero_vec {v : Vec3 K} (h : Vec3.normSq v = 0) : v = 0 := by
  have h' : v.x * v.x + v.y * v.y + v.z * v.z = 0 := h
  have hx : v.x * v.x = 0 := le_antisymm (by linarith [mul_self_nonneg v.y, mul_self_nonneg v.z]) (mul_self_nonneg _)
  have hy : v.y * v.y = 0 := le_antisymm (by linarith [mul_self_nonneg v.x, mul_self_nonneg v.z]) (mul_self_nonneg _)
  have hz : v.z * v.z = 0 := le_antisymm (by linarith [mul_self_nonneg v.x, mul_self_nonneg v.y]) (mul_self_nonneg _)
  ext
  · simpa using hx
  · simpa using hy
  · simpa using hz

/-- C49 for rays at rest or with the ray speed. -/
theorem speed_loop {R : Nat} (fuel n : Nat) (a : Arrays K) (rows : List (Row K)) (hn : ∀ k, Vec3.normSq (P.geo.vn k) = 1)
    (hg : GoodArrays P R a) (h : simulationLoop P fuel n a = some rows) (i : Nat) (ri rj : Row K) (hi : rows[i]? = some ri)
    (hj : rows[i + 1]? = some rj) :
    List.Forall₂ (fun p q => q = p ∨ Vec3.normSq (q - p) = (P.raySpeed * P.timeStep) ^ 2) ri.pos rj.pos := by
  obtain ⟨l, hs, rfl⟩ := simulationLoop_states h
  obtain ⟨s, h1, rfl⟩ := row_state hi
  obtain ⟨s', h2, rfl⟩ := row_state hj
  have hinv := steps_invariant hs (fun s => s.hits.length = P.absorbers.length ∧
      ∀ r ∈ s.rays, r.delta = P.timeStep • r.vel ∧ (Vec3.normSq r.vel = P.raySpeed ^ 2 ∨ r.vel = 0))
    ⟨hg.hits, by
      intro r hr
      simp only [start, List.mem_map] at hr
      obtain ⟨x, hx, rfl⟩ := hr
      exact ⟨rfl, hg.speed x hx⟩⟩
    (fun a b hg hst => ⟨by rw [step_hits_length hst, hg.1],
      forall₂_right ((step_iff hg.1).1 hst).1 fun x hx y hy =>
        ⟨rayStep_delta hy (hg.2 x hx).1, by
          have e := rayStep_vel hy hn
          rcases (hg.2 x hx).2 with h | h
          · exact .inl (by rw [e, h])
          · right
            refine normSq_zero_vec ?_
            rw [e, h]
            simp [Vec3.normSq, Vec3.dot]⟩⟩)
  have hst := steps_succ hs i s s' h1 h2
  have hf := ((step_iff (hinv i s h1).1).1 hst).1
  have hr := (hinv (i + 1) s' h2).2
  simp only [rowOf]
  rw [List.forall₂_map_left_iff, List.forall₂_map_right_iff]
  have : ∀ {l m : List (Ray K)}, List.Forall₂ (RayStep P fuel) l m →
      (∀ r ∈ m, r.delta = P.timeStep • r.vel ∧ (Vec3.normSq r.vel = P.raySpeed ^ 2 ∨ r.vel = 0)) →
      List.Forall₂ (fun c d => d.pos = c.pos ∨ Vec3.normSq (d.pos - c.pos) = (P.raySpeed * P.timeStep) ^ 2) l m := by
    intro l m h
    induction h with
    | nil => intro _; exact .nil
    | cons x _ ih =>
      intro hall
      refine .cons ?_ (ih fun r hr => hall r (List.mem_cons_of_mem _ hr))
      obtain ⟨hd, hv⟩ := hall _ (List.mem_cons_self ..)
      rcases rayStep_pos x with hp | ⟨hp, -⟩
      · exact .inl hp
      · rcases hv with hv | hv
        · right
          rw [hp, hd, add_sub_cancel_left]
          have e : ∀ (t : K) (v : Vec3 K), Vec3.normSq (t • v) = t ^ 2 * Vec3.normSq v := by
            intro t v; simp [Vec3.normSq, Vec3.dot]; ring
          rw [e, hv]; ring
        · left
          rw [hp, hd, hv, smul_zero, add_zero]
  exact this hf hr

/-- The arrays for the next batch are good again. -/
theorem good_next {R fuel B : Nat} (hn : ∀ k, Vec3.normSq (P.geo.vn k) = 1) (heps : 0 ≤ P.eps) (ha : ∀ k, 0 ≤ P.absorption k)
    (hdt : P.timeStep ≠ 0) {a a' : Arrays K} {rows : List (Row K)} (hg : GoodArrays P R a)
    (h : simulationLoop P fuel B a = some rows) (h' : nextArrays P rows = some a') : GoodArrays P R a' := by
  obtain ⟨l1, l2⟩ := Buffers.loop_shape hg.rays hg.hits h
  obtain ⟨n1, n2, n3⟩ := Buffers.next_shape l1 l2 h'
  obtain ⟨-, -, he⟩ := C46_energy fuel B a rows heps ha hg.hits hg.energy h
  unfold nextArrays at h'
  cases hrev : rows.reverse with
  | nil => rw [hrev] at h'; cases h'
  | cons last t =>
    rw [hrev] at h'
    cases t with
    | nil => cases h'
    | cons prev t =>
      simp only [Option.some.injEq] at h'
      have e : rows = t.reverse ++ [prev, last] := by
        rw [← List.reverse_reverse rows, hrev]; simp
      have hi : rows[t.length]? = some prev := by rw [e, List.getElem?_append_right (by simp)]; simp
      have hj : rows[t.length + 1]? = some last := by rw [e, List.getElem?_append_right (by simp)]; simp
      have hsp := speed_loop fuel B a rows hn hg h _ _ _ hi hj
      have hen := he _ _ _ _ le_rfl hj hj
      have hmem : ∀ r ∈ a'.rays, ∃ p q e, p ∈ last.pos ∧ e ∈ last.energy ∧ r = (p, (1 / P.timeStep) • (p - q), e) ∧
          (p = q ∨ Vec3.normSq (p - q) = (P.raySpeed * P.timeStep) ^ 2) := by
        intro r hr
        rw [← h'] at hr
        simp only [List.mem_map] at hr
        obtain ⟨⟨p, q, e⟩, hz, rfl⟩ := hr
        obtain ⟨m, hm⟩ := List.getElem?_of_mem hz
        rw [List.getElem?_zip_eq_some] at hm
        obtain ⟨hm1, hm2⟩ := hm
        rw [List.getElem?_zip_eq_some] at hm2
        exact ⟨p, q, e, List.mem_of_getElem? hm1, List.mem_of_getElem? hm2.2, rfl, forall₂_getElem? hsp hm2.1 hm1⟩
      refine ⟨n1, n2, ?_, ?_⟩
      · intro r hr
        obtain ⟨p, q, e, -, h2, rfl, -⟩ := hmem r hr
        obtain ⟨m, hm⟩ := List.getElem?_of_mem h2
        exact (forall₂_getElem? hen hm hm).1
      · intro r hr
        obtain ⟨p, q, e, -, -, rfl, hpq⟩ := hmem r hr
        rcases hpq with rfl | hpq
        · right; simp
        · left
          have e : Vec3.normSq ((1 / P.timeStep) • (p - q)) = (1 / P.timeStep) ^ 2 * Vec3.normSq (p - q) := by
            simp [Vec3.normSq, Vec3.dot]; ring
          simp only
          rw [e, hpq]
          field_simp

/-- The batches of a run: every one is a call of the simulation loop with good arrays. -/
theorem batches_good {R fuel B : Nat} (hn : ∀ k, Vec3.normSq (P.geo.vn k) = 1) (heps : 0 ≤ P.eps) (ha : ∀ k, 0 ≤ P.absorption k)
    (hdt : P.timeStep ≠ 0) : ∀ (b i : Nat) (a : Arrays K) (ws : List (Nat × Row K)), GoodArrays P R a →
    runBatches P fuel B b i a = some ws →
    ∃ batches : List (List (Row K)), batches.length = b ∧ ws = Buffers.batchWrites B i batches ∧
      (∀ rows ∈ batches, ∃ a0, GoodArrays P R a0 ∧ simulationLoop P fuel B a0 = some rows) ∧
      (∀ rows, batches[0]? = some rows → rows[0]? = some (rowOf (start P a))) ∧
      ∀ (k : Nat) (r r' : List (Row K)), batches[k]? = some r → batches[k + 1]? = some r' → r[B]? = r'[0]? := by
  intro b
  induction b with
  | zero =>
    intro i a ws _ h
    simp only [runBatches, Option.some.injEq] at h
    exact ⟨[], rfl, h.symm, by simp, by simp, by simp⟩
  | succ b ih =>
    intro i a ws hg h
    rw [runBatches] at h
    split at h
    · cases h
    · rename_i rows hrows
      split at h
      · cases h
      · rename_i a' ha'
        split at h
        · cases h
        · rename_i ws' hws'
          simp only [Option.some.injEq] at h
          obtain ⟨l1, l2⟩ := Buffers.loop_shape hg.rays hg.hits hrows
          obtain ⟨n1, n2, n3⟩ := Buffers.next_shape l1 l2 ha'
          obtain ⟨batches, b1, b2, b3, b5, b6⟩ := ih (i + B) a' ws' (good_next hn heps ha hdt hg hrows ha') hws'
          refine ⟨rows :: batches, by simp [b1], by rw [← h, b2]; rfl, ?_, ?_, ?_⟩
          · intro r hr'
            rcases List.mem_cons.1 hr' with rfl | hr'
            · exact ⟨a, hg, hrows⟩
            · exact b3 r hr'
          · intro r hr'
            simp only [List.getElem?_cons_zero, Option.some.injEq] at hr'
            subst hr'
            rw [(start_rows hrows).2]
            simp [rowOf, start, Function.comp_def]
          · intro k r r' hk hk'
            cases k with
            | zero =>
              simp only [List.getElem?_cons_zero, Option.some.injEq] at hk
              subst hk
              rw [n3, b5 r' (by simpa using hk')]
            | succ k => exact b6 k r r' (by simpa using hk) (by simpa using hk')

/-- The files of a run: the first one is the start, and two consecutive ones are consecutive rows of one call of the
simulation loop. -/
theorem files_of_run (hn : ∀ k, Vec3.normSq (P.geo.vn k) = 1) (heps : 0 ≤ P.eps) (ha : ∀ k, 0 ≤ P.absorption k)
    (hdt : P.timeStep ≠ 0) {fuel B b : Nat} (hB : 0 < B) {source : Vec3 K} {dirs : List (Vec3 K)}
    (hd : ∀ d ∈ dirs, Vec3.normSq d = 1) {ws : List (Nat × Row K)} (h : simulationRun P fuel B b source dirs = some ws) :
    (0 < b → fileOf ws 0 = some ⟨dirs.map fun _ => source, dirs.map fun _ => 1, P.absorbers.map fun _ => 0⟩) ∧
    (∀ n, n < b * B → ∃ a0 rows j, GoodArrays P dirs.length a0 ∧ simulationLoop P fuel B a0 = some rows ∧ j < B ∧
      fileOf ws n = rows[j]? ∧ fileOf ws (n + 1) = rows[j + 1]?) ∧
    ∀ n, b * B < n → fileOf ws n = none := by
  have hg : GoodArrays P dirs.length (initArrays P source dirs) := by
    refine ⟨by simp [initArrays], by simp [initArrays], ?_, ?_⟩
    · intro r hr
      simp only [initArrays, List.mem_map] at hr
      obtain ⟨d, -, rfl⟩ := hr
      exact zero_le_one
    · intro r hr
      simp only [initArrays, List.mem_map] at hr
      obtain ⟨d, hd', rfl⟩ := hr
      left
      have : Vec3.normSq (P.raySpeed • d) = P.raySpeed ^ 2 * Vec3.normSq d := by simp [Vec3.normSq, Vec3.dot]; ring
      simp only
      rw [this, hd d hd', mul_one]
  obtain ⟨bs, b1, b2, b3, b5, b6⟩ := batches_good (R := dirs.length) hn heps ha hdt b 0 _ ws hg h
  have hlen : ∀ rows ∈ bs, rows.length = B + 1 := by
    intro rows hr
    obtain ⟨a0, -, h0⟩ := b3 rows hr
    exact (start_rows h0).1
  have hfile : ∀ k r j, bs[k]? = some r → j ≤ B → fileOf ws (k * B + j) = r[j]? := by
    intro k r j hk hj
    rcases hj.lt_or_eq with hj | rfl
    · have := Buffers.fileOf_batchWrites 0 bs hlen k j r hk (.inl hj)
      rwa [Nat.zero_add, ← b2] at this
    · by_cases hlast : k + 1 = bs.length
      · have := Buffers.fileOf_batchWrites 0 bs hlen k j r hk (.inr ⟨rfl, hlast⟩)
        rwa [Nat.zero_add, ← b2] at this
      · have hk' : k + 1 < bs.length := by
          have := (List.getElem?_eq_some_iff.1 hk).1
          omega
        have hr' := List.getElem?_eq_getElem hk'
        have := Buffers.fileOf_batchWrites 0 bs hlen (k + 1) 0 _ hr' (.inl hB)
        rw [Nat.zero_add, ← b2, ← b6 k r _ hk hr'] at this
        rw [← this]
        congr 1
        ring
  refine ⟨?_, ?_, ?_⟩
  · intro hb
    have h0 : 0 < bs.length := by omega
    have hb0 := List.getElem?_eq_getElem h0
    have e := hfile 0 _ 0 hb0 (Nat.zero_le _)
    rw [Nat.zero_mul, Nat.zero_add, b5 _ hb0] at e
    rw [e]
    simp [rowOf, start, initArrays, Function.comp_def]
  · intro n hnb
    have hk : n / B < bs.length := by
      rw [Nat.div_lt_iff_lt_mul hB, b1]; exact hnb
    have hr := List.getElem?_eq_getElem hk
    obtain ⟨a0, g0, h0⟩ := b3 _ (List.mem_of_getElem? hr)
    have hm := Nat.mod_lt n hB
    have e : n / B * B + n % B = n := by
      have := Nat.div_add_mod n B
      rwa [Nat.mul_comm] at this
    have e1 := hfile _ _ (n % B) hr hm.le
    have e2 := hfile _ _ (n % B + 1) hr hm
    rw [e] at e1
    rw [← Nat.add_assoc, e] at e2
    exact ⟨a0, _, n % B, g0, h0, hm, e1, e2⟩
  · intro n hnb
    refine Buffers.fileOf_none ?_
    rintro ⟨m, row⟩ hw rfl
    have key : ∀ (l : List (List (Row K))) (i : Nat), (∀ rows ∈ l, rows.length = B + 1) → (m, row) ∈ Buffers.batchWrites B i l →
        m ≤ i + l.length * B := by
      intro l
      induction l with
      | nil => intro i _ h; simp [Buffers.batchWrites] at h
      | cons r l ih =>
        intro i hl hw
        rw [Buffers.batchWrites, List.mem_append] at hw
        rcases hw with hw | hw
        · unfold dumpBuffers at hw
          obtain ⟨e, he, heq⟩ := List.mem_map.1 hw
          have := List.mem_range.1 (List.of_mem_zip he).1
          rw [hl r (List.mem_cons_self ..)] at this
          have e1 : e.1 + i = m := congrArg Prod.fst heq
          rw [List.length_cons, Nat.succ_mul]
          have : 0 ≤ l.length * B := Nat.zero_le _
          omega
        · have := ih (i + B) (fun r hr => hl r (List.mem_cons_of_mem _ hr)) hw
          rw [List.length_cons, Nat.succ_mul]
          omega
    have := key bs 0 hlen (b2 ▸ hw)
    rw [b1] at this
    simp only at hnb
    omega

/-- What `step_sum` says of two rows. -/
theorem row_sum {R fuel B : Nat} (heps : 0 ≤ P.eps) (ha : ∀ k, 0 ≤ P.absorption k) {a : Arrays K} {rows : List (Row K)}
    (hg : GoodArrays P R a) (h : simulationLoop P fuel B a = some rows) {i : Nat} {ri rj : Row K} (hi : rows[i]? = some ri)
    (hj : rows[i + 1]? = some rj) : rj.hits.sum + rj.energy.sum ≤ ri.energy.sum := by
  obtain ⟨l, hs, rfl⟩ := simulationLoop_states h
  obtain ⟨s, h1, rfl⟩ := row_state hi
  obtain ⟨s', h2, rfl⟩ := row_state hj
  have hst := steps_succ hs i s s' h1 h2
  have hgs := steps_invariant hs (Good P) (good_start hg.hits hg.energy) (fun x y hx hxy => good_step heps ha hx hxy) i s h1
  have := step_sum heps ha hgs hst
  simpa [rowOf, add_comm] using this

omit [FloorRing K] in
/-- The triangle inequality, with squares, in any ordered field. -/
theorem normSq_add_le' {a b : Vec3 K} {x y : K} (hx : 0 ≤ x) (hy : 0 ≤ y) (ha : Vec3.normSq a ≤ x ^ 2)
    (hb : Vec3.normSq b ≤ y ^ 2) :
    Vec3.normSq (a + b) ≤ Vec3.normSq a + 2 * (x * y) + y ^ 2 := by
  have h1 : Vec3.dot a b ^ 2 ≤ Vec3.normSq a * Vec3.normSq b := by
    simp only [Vec3.normSq, Vec3.dot]
    nlinarith [sq_nonneg (a.x * b.y - a.y * b.x), sq_nonneg (a.x * b.z - a.z * b.x), sq_nonneg (a.y * b.z - a.z * b.y)]
  have h2 : Vec3.dot a b ^ 2 ≤ (x * y) ^ 2 := by
    rw [mul_pow]
    exact h1.trans (mul_le_mul ha hb (Vec3.normSq_nonneg b) (sq_nonneg x))
  have h3 : Vec3.dot a b ≤ x * y := (le_abs_self _).trans (abs_le_of_sq_le_sq h2 (mul_nonneg hx hy))
  have h4 : Vec3.normSq (a + b) = Vec3.normSq a + 2 * Vec3.dot a b + Vec3.normSq b := by
    simp [Vec3.normSq, Vec3.dot]; ring
  rw [h4]
  linarith

section
variable (hn : ∀ k, Vec3.normSq (P.geo.vn k) = 1) (heps : 0 ≤ P.eps) (ha : ∀ k, 0 ≤ P.absorption k) (hdt : P.timeStep ≠ 0)
  {fuel B b : Nat} (hB : 0 < B) (hb : 0 < b) {source : Vec3 K} {dirs : List (Vec3 K)} (hd : ∀ d ∈ dirs, Vec3.normSq d = 1)
  {ws : List (Nat × Row K)} (h : simulationRun P fuel B b source dirs = some ws)
include hn heps ha hdt hB hb hd h

/-- **C129, the files.**  A run of `b` batches of `B` steps leaves the files of the steps `0` to `b * B` and no others.  Those
of step 0 have all rays at the source, with energy one, and no hits. -/
theorem C129_files :
    fileOf ws 0 = some ⟨dirs.map fun _ => source, dirs.map fun _ => 1, P.absorbers.map fun _ => 0⟩ ∧
    (∀ n, n ≤ b * B → ∃ row, fileOf ws n = some row ∧ row.pos.length = dirs.length ∧ row.energy.length = dirs.length ∧
      row.hits.length = P.absorbers.length) ∧
    ∀ n, b * B < n → fileOf ws n = none := by
  obtain ⟨h0, h1, h2⟩ := files_of_run hn heps ha hdt hB hd h
  refine ⟨h0 hb, ?_, h2⟩
  intro n hnb
  cases n with
  | zero => exact ⟨_, h0 hb, by simp, by simp, by simp⟩
  | succ n =>
    obtain ⟨a0, rows, j, hg, hl, hj, -, e⟩ := h1 n hnb
    have hlen := (start_rows hl).1
    have hx : rows[j + 1]? = some (rows[j + 1]'(by omega)) := List.getElem?_eq_getElem _
    obtain ⟨-, l2⟩ := Buffers.loop_shape hg.rays hg.hits hl
    obtain ⟨s1, s2, s3⟩ := l2 _ (List.mem_of_getElem? hx)
    exact ⟨_, e.trans hx, s1, s2, s3⟩

omit hb in
/-- **C129, one step.**  From the files of a step to those of the next one, in the same batch or not: no ray moves, or it moves
by the distance of one time step; no energy grows or gets negative; rays without energy keep all they have; every absorber
records what the rays in it had, and those rays have nothing any more; what is recorded and left is not more than there was. -/
theorem C129_step {n : Nat} {r r' : Row K} (hr : fileOf ws n = some r) (hr' : fileOf ws (n + 1) = some r') :
    List.Forall₂ (fun p q => q = p ∨ Vec3.normSq (q - p) = (P.raySpeed * P.timeStep) ^ 2) r.pos r'.pos ∧
    List.Forall₂ (fun e e' => 0 ≤ e' ∧ e' ≤ e) r.energy r'.energy ∧
    (∀ (k : Nat) (e : K), r.energy[k]? = some e → e ≤ P.eps → r'.energy[k]? = some e ∧ r'.pos[k]? = r.pos[k]?) ∧
    (∀ sn < P.absorbers.length, r'.hits[sn]? = some (handedTo P r sn)) ∧
    (∀ (k : Nat) (p : Vec3 K) (e : K), r.pos[k]? = some p → r.energy[k]? = some e → P.eps < e →
      (firstAbsorber P.absorberRadius P.absorbers p).isSome → r'.energy[k]? = some 0) ∧
    r'.hits.sum + r'.energy.sum ≤ r.energy.sum := by
  obtain ⟨-, h1, h2⟩ := files_of_run hn heps ha hdt hB hd h
  have hnb : n < b * B := by
    by_contra hc
    rw [h2 (n + 1) (by omega)] at hr'
    cases hr'
  obtain ⟨a0, rows, j, hg, hl, hj, e, e'⟩ := h1 n hnb
  rw [hr] at e
  rw [hr'] at e'
  obtain ⟨c1, c2⟩ := C48_hits fuel B a0 rows heps hg.hits hl j r r' e.symm e'.symm
  exact ⟨speed_loop fuel B a0 rows hn hg hl j r r' e.symm e'.symm,
    (C46_energy fuel B a0 rows heps ha hg.hits hg.energy hl).2.2 j (j + 1) r r' (Nat.le_succ j) e.symm e'.symm,
    fun k x hk hx => C47_dead_rays_stay fuel B a0 rows hg.hits hl j (j + 1) r r' (Nat.le_succ j) e.symm e'.symm k x hk hx,
    c1.2, c2, row_sum heps ha hg hl e.symm e'.symm⟩

/-- **C129, energies.**  In all files the energies are between 0 and 1, and none grows from one step to any later one. -/
theorem C129_energy {n m : Nat} (hnm : n ≤ m) {r r' : Row K} (hr : fileOf ws n = some r) (hr' : fileOf ws m = some r') :
    List.Forall₂ (fun e e' => 0 ≤ e' ∧ e' ≤ e ∧ e ≤ 1) r.energy r'.energy := by
  obtain ⟨f0, f1, f2⟩ := C129_files hn heps ha hdt hB hb hd h
  have hone : ∀ n r, fileOf ws n = some r → ∀ e ∈ r.energy, 0 ≤ e ∧ e ≤ 1 := by
    intro n
    induction n with
    | zero =>
      intro r hr e he
      rw [f0, Option.some.injEq] at hr
      subst hr
      simp only [List.mem_map] at he
      obtain ⟨-, -, rfl⟩ := he
      exact ⟨zero_le_one, le_rfl⟩
    | succ n ih =>
      intro r hr e he
      have hnb : n + 1 ≤ b * B := by
        by_contra hc
        rw [f2 _ (by omega)] at hr
        cases hr
      obtain ⟨r0, hr0, -⟩ := f1 n (by omega)
      have hs := (C129_step hn heps ha hdt hB hd h hr0 hr).2.1
      obtain ⟨k, hk⟩ := List.getElem?_of_mem he
      obtain ⟨hk', -⟩ := List.getElem?_eq_some_iff.1 hk
      have hx : r0.energy[k]? = some (r0.energy[k]'(by rw [hs.length_eq]; exact hk')) := List.getElem?_eq_getElem _
      obtain ⟨g1, g2⟩ := forall₂_getElem? hs hx hk
      exact ⟨g1, g2.trans (ih r0 hr0 _ (List.mem_of_getElem? hx)).2⟩
  induction m, hnm using Nat.le_induction generalizing r' with
  | base =>
    rw [hr, Option.some.injEq] at hr'
    subst hr'
    exact List.forall₂_same.2 fun e he => ⟨(hone n r hr e he).1, le_rfl, (hone n r hr e he).2⟩
  | succ m hnm ih =>
    have hmb : m + 1 ≤ b * B := by
      by_contra hc
      rw [f2 _ (by omega)] at hr'
      cases hr'
    obtain ⟨r1, hr1, -⟩ := f1 m (by omega)
    have i1 := ih hr1
    have hs := (C129_step hn heps ha hdt hB hd h hr1 hr').2.1
    rw [List.forall₂_iff_get] at i1 hs ⊢
    refine ⟨i1.1.trans hs.1, fun k hk hk' => ?_⟩
    have u1 := i1.2 k hk (by omega)
    have u2 := hs.2 k (by omega) hk'
    exact ⟨u2.1, u2.2.trans u1.2.1, u1.2.2⟩

/-- **C129, rays without energy.**  They keep position and energy in all later steps. -/
theorem C129_dead {n m : Nat} (hnm : n ≤ m) {r r' : Row K} (hr : fileOf ws n = some r) (hr' : fileOf ws m = some r') (k : Nat)
    (e : K) (hk : r.energy[k]? = some e) (he : e ≤ P.eps) : r'.energy[k]? = some e ∧ r'.pos[k]? = r.pos[k]? := by
  obtain ⟨f0, f1, f2⟩ := C129_files hn heps ha hdt hB hb hd h
  induction m, hnm using Nat.le_induction generalizing r' with
  | base =>
    rw [hr, Option.some.injEq] at hr'
    subst hr'
    exact ⟨hk, rfl⟩
  | succ m hnm ih =>
    have hmb : m + 1 ≤ b * B := by
      by_contra hc
      rw [f2 _ (by omega)] at hr'
      cases hr'
    obtain ⟨r1, hr1, -⟩ := f1 m (by omega)
    obtain ⟨i1, i2⟩ := ih hr1
    obtain ⟨j1, j2⟩ := (C129_step hn heps ha hdt hB hd h hr1 hr').2.2.1 k e i1 he
    exact ⟨j1, j2.trans i2⟩

/-- **C129, the balance.**  All that the absorbers record in the steps up to any step, together with what the rays have left
there, is not more than one for each ray. -/
theorem C129_total {m : Nat} {r : Row K} (hr : fileOf ws m = some r) :
    ((List.range (m + 1)).map fun n => ((fileOf ws n).map fun q => q.hits.sum).getD 0).sum + r.energy.sum ≤ dirs.length := by
  obtain ⟨f0, f1, f2⟩ := C129_files hn heps ha hdt hB hb hd h
  induction m generalizing r with
  | zero =>
    rw [f0, Option.some.injEq] at hr
    subst hr
    simp [f0]
  | succ m ih =>
    have hmb : m + 1 ≤ b * B := by
      by_contra hc
      rw [f2 _ (by omega)] at hr
      cases hr
    obtain ⟨r1, hr1, -⟩ := f1 m (by omega)
    have i1 := ih hr1
    obtain ⟨-, -, -, -, -, hs⟩ := C129_step hn heps ha hdt hB hd h hr1 hr
    rw [List.range_succ, List.map_append, List.sum_append]
    simp only [List.map_cons, List.map_nil, List.sum_cons, List.sum_nil, add_zero, hr, Option.map_some, Option.getD_some]
    linarith

/-- **C129, not faster than sound.**  After `n` steps no ray is further from the source than `n` steps. -/
theorem C129_not_further (hv : 0 ≤ P.raySpeed) (ht : 0 ≤ P.timeStep) {n : Nat} {r : Row K} (hr : fileOf ws n = some r)
    {p : Vec3 K} (hp : p ∈ r.pos) : Vec3.normSq (p - source) ≤ (n * (P.raySpeed * P.timeStep)) ^ 2 := by
  have hδ : 0 ≤ P.raySpeed * P.timeStep := mul_nonneg hv ht
  obtain ⟨f0, f1, f2⟩ := C129_files hn heps ha hdt hB hb hd h
  induction n generalizing r p with
  | zero =>
    rw [f0, Option.some.injEq] at hr
    subst hr
    simp only [List.mem_map] at hp
    obtain ⟨-, -, rfl⟩ := hp
    simp [Vec3.normSq, Vec3.dot]
  | succ m ih =>
    have hmb : m + 1 ≤ b * B := by
      by_contra hc
      rw [f2 _ (by omega)] at hr
      cases hr
    obtain ⟨r1, hr1, -⟩ := f1 m (by omega)
    have hs := (C129_step hn heps ha hdt hB hd h hr1 hr).1
    obtain ⟨k, hk⟩ := List.getElem?_of_mem hp
    obtain ⟨hk', -⟩ := List.getElem?_eq_some_iff.1 hk
    have hx : r1.pos[k]? = some (r1.pos[k]'(by rw [hs.length_eq]; exact hk')) := List.getElem?_eq_getElem _
    have h1 := ih hr1 (List.mem_of_getElem? hx)
    have h3 : Vec3.normSq (p - r1.pos[k]'(by rw [hs.length_eq]; exact hk')) ≤ (P.raySpeed * P.timeStep) ^ 2 := by
      rcases forall₂_getElem? hs hx hk with h2 | h2
      · rw [h2, sub_self]
        simpa [Vec3.normSq, Vec3.dot] using sq_nonneg _
      · exact h2.le
    have := normSq_add_le' hδ (mul_nonneg (Nat.cast_nonneg m) hδ) h3 h1
    rw [sub_add_sub_cancel] at this
    refine this.trans ?_
    push_cast
    nlinarith

/-- **C129, nothing arrives before the direct sound.**  An absorber at the distance `D` from the source records nothing in all
steps `n` with `(n - 1) * speed * dt ≤ D - radius`. -/
theorem C129_not_before (hv : 0 ≤ P.raySpeed) (ht : 0 ≤ P.timeStep) (hR : 0 ≤ P.absorberRadius) {sn : Nat} {c : Vec3 K} {D : K}
    (hc : P.absorbers[sn]? = some c) (hD : Vec3.normSq (c - source) = D ^ 2) {n : Nat} {r : Row K}
    (hr : fileOf ws n = some r) (hearly : ((n : K) - 1) * (P.raySpeed * P.timeStep) ≤ D - P.absorberRadius) :
    r.hits[sn]? = some 0 := by
  have hδ : 0 ≤ P.raySpeed * P.timeStep := mul_nonneg hv ht
  obtain ⟨hsn, hc'⟩ := List.getElem?_eq_some_iff.1 hc
  obtain ⟨f0, f1, f2⟩ := C129_files hn heps ha hdt hB hb hd h
  cases n with
  | zero =>
    rw [f0, Option.some.injEq] at hr
    subst hr
    simp [hsn]
  | succ i =>
    have hmb : i + 1 ≤ b * B := by
      by_contra hc
      rw [f2 _ (by omega)] at hr
      cases hr
    obtain ⟨r1, hr1, -⟩ := f1 i (by omega)
    rw [(C129_step hn heps ha hdt hB hd h hr1 hr).2.2.2.1 sn hsn, Option.some.injEq]
    unfold handedTo
    refine List.sum_eq_zero ?_
    intro x hx
    rw [List.mem_map] at hx
    obtain ⟨⟨p, e⟩, hpe, rfl⟩ := hx
    refine if_neg ?_
    rintro ⟨-, hfa⟩
    have h1 := C129_not_further hn heps ha hdt hB hb hd h hv ht hr1 (List.of_mem_zip hpe).1
    rw [firstAbsorber, List.findIdx?_eq_some_iff_getElem] at hfa
    obtain ⟨_, h2, -⟩ := hfa
    rw [hc'] at h2
    have h2 : Vec3.normSq (c - p) < P.absorberRadius ^ 2 := by
      have : Vec3.normSq (c - p) = Vec3.normSq (p - c) := by simp [Vec3.normSq, Vec3.dot]; ring
      rw [this]; simpa using h2
    push_cast at hearly
    rw [add_sub_cancel_right] at hearly
    have hi : 0 ≤ (i : K) * (P.raySpeed * P.timeStep) := mul_nonneg (Nat.cast_nonneg _) hδ
    have h5 := normSq_add_le' hR hi h2.le h1
    rw [sub_add_sub_cancel, hD] at h5
    have h6 : D ^ 2 < (P.absorberRadius + i * (P.raySpeed * P.timeStep)) ^ 2 := by nlinarith
    have h7 := lt_of_pow_lt_pow_left₀ 2 (add_nonneg hR hi) h6
    linarith

end

theorem finishes (amin emax : K) (hpos : 0 < amin) (hmin : ∀ k, amin ≤ P.absorption k) (heps : 0 ≤ P.eps)
    {B : Nat} (hB : 0 < B) : ∀ (b i : Nat) (a : Arrays K), a.hits.length = P.absorbers.length →
    (∀ r ∈ a.rays, 0 ≤ r.2.2 ∧ r.2.2 ≤ emax) → ∃ ws, runBatches P (⌈emax / amin⌉.toNat + 1) B b i a = some ws := by
  intro b
  induction b with
  | zero => intro i a _ _; exact ⟨[], rfl⟩
  | succ b ih =>
    intro i a hl h0
    obtain ⟨rows, hrows⟩ := C51_terminates amin emax hpos hmin heps B a hl h0
    obtain ⟨e1, ⟨row0, e2, e3⟩, e4⟩ := C46_energy _ B a rows heps (fun k => hpos.le.trans (hmin k)) hl (fun r hr => (h0 r hr).1) hrows
    obtain ⟨-, l2⟩ := Buffers.loop_shape (R := a.rays.length) rfl hl hrows
    obtain ⟨a', ha'⟩ : ∃ a', nextArrays P rows = some a' := by
      unfold nextArrays
      match hrev : rows.reverse with
      | [] => rw [List.reverse_eq_nil_iff] at hrev; rw [hrev] at e1; simp at e1
      | [x] => have := congrArg List.length hrev; simp at this; omega
      | last :: prev :: _ => exact ⟨_, rfl⟩
    obtain ⟨n1, n2, n3⟩ := Buffers.next_shape e1 l2 ha'
    have hen : ∀ r ∈ a'.rays, 0 ≤ r.2.2 ∧ r.2.2 ≤ emax := by
      intro r hr
      obtain ⟨j, hj⟩ := List.getElem?_of_mem hr
      have hB' := e4 0 B row0 _ (Nat.zero_le _) e2 n3
      rw [e3] at hB'
      have hlen : j < a.rays.length := by rw [← n1]; exact (List.getElem?_eq_some_iff.1 hj).1
      have g1 : (a.rays.map fun r => r.2.2)[j]? = some (a.rays[j].2.2) := by
        rw [List.getElem?_map, List.getElem?_eq_getElem hlen]; rfl
      have g2 : (rowOf (start P a')).energy[j]? = some r.2.2 := by simp [rowOf, start, hj]
      have := forall₂_getElem? hB' g1 g2
      exact ⟨this.1, this.2.trans (h0 _ (List.getElem_mem hlen)).2⟩
    obtain ⟨ws, hws⟩ := ih (i + B) a' n2 hen
    refine ⟨dumpBuffers i rows ++ ws, ?_⟩
    rw [runBatches, hrows]
    simp only [ha', hws]

/-- **C129, the run finishes** if every absorption is at least `amin > 0`: a bound on the number of reflections of a ray in a
step that is enough for all steps of all batches is `1 / amin`, rounded up. -/
theorem C129_finishes (amin : K) (hpos : 0 < amin) (hmin : ∀ k, amin ≤ P.absorption k) (heps : 0 ≤ P.eps) {B : Nat} (hB : 0 < B)
    (b : Nat) (source : Vec3 K) (dirs : List (Vec3 K)) :
    ∃ ws, simulationRun P (⌈1 / amin⌉.toNat + 1) B b source dirs = some ws := by
  refine finishes amin 1 hpos hmin heps hB b 0 _ (by simp [initArrays]) ?_
  intro r hr
  simp only [initArrays, List.mem_map] at hr
  obtain ⟨d, -, rfl⟩ := hr
  exact ⟨zero_le_one, le_rfl⟩

/-- A room with two walls and an absorber. -/
def absorbingSlab : Params ℚ := { slab 10 with absorbers := [⟨7 / 2, 1, 1⟩] }

/-- The hypotheses are met: three batches of two steps with two rays.  One goes straight to the absorber and is recorded in
step 2, at the end of the first batch; the other one is reflected by a wall and recorded in step 6, in the third batch. -/
example : ∃ ws, simulationRun absorbingSlab 10 2 3 ⟨5 / 2, 1, 1⟩ [⟨1, 0, 0⟩, ⟨-1, 0, 0⟩] = some ws ∧
    (∀ k, Vec3.normSq (absorbingSlab.geo.vn k) = 1) ∧ 0 ≤ absorbingSlab.eps ∧ (∀ k, 0 ≤ absorbingSlab.absorption k) ∧
    absorbingSlab.timeStep ≠ 0 ∧ (∀ d ∈ [(⟨1, 0, 0⟩ : Vec3 ℚ), ⟨-1, 0, 0⟩], Vec3.normSq d = 1) ∧ 0 ≤ absorbingSlab.raySpeed ∧
    0 ≤ absorbingSlab.timeStep ∧ 0 ≤ absorbingSlab.absorberRadius ∧
    Vec3.normSq ((⟨7 / 2, 1, 1⟩ : Vec3 ℚ) - ⟨5 / 2, 1, 1⟩) = 1 ^ 2 ∧
    ((1 : ℚ) - 1) * (absorbingSlab.raySpeed * absorbingSlab.timeStep) ≤ 1 - absorbingSlab.absorberRadius ∧
    (List.range 8).map (fun n => (fileOf ws n).map Row.hits) =
      [some [0], some [0], some [1], some [0], some [0], some [0], some [4 / 5], none] ∧
    (List.range 8).map (fun n => (fileOf ws n).map Row.energy) =
      [some [1, 1], some [1, 1], some [0, 1], some [0, 4 / 5], some [0, 4 / 5], some [0, 4 / 5], some [0, 0], none] := by
  have key : (simulationRun absorbingSlab 10 2 3 ⟨5 / 2, 1, 1⟩ [⟨1, 0, 0⟩, ⟨-1, 0, 0⟩]).map (fun ws =>
      ((List.range 8).map (fun n => (fileOf ws n).map Row.hits), (List.range 8).map (fun n => (fileOf ws n).map Row.energy))) =
      some ([some [0], some [0], some [1], some [0], some [0], some [0], some [4 / 5], none],
        [some [1, 1], some [1, 1], some [0, 1], some [0, 4 / 5], some [0, 4 / 5], some [0, 4 / 5], some [0, 0], none]) := by
    decide +kernel
  rw [Option.map_eq_some_iff] at key
  obtain ⟨ws, h, e⟩ := key
  rw [Prod.mk.injEq] at e
  refine ⟨ws, h, ?_, by decide +kernel, ?_, by decide +kernel, by decide +kernel, by decide +kernel, by decide +kernel,
    by decide +kernel, by decide +kernel, by decide +kernel, e.1, e.2⟩
  · intro k
    simp only [absorbingSlab, slab]
    split <;> norm_num [Vec3.normSq, Vec3.dot]
  · intro k
    norm_num [absorbingSlab, slab]

end B3d.Sim
