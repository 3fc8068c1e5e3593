import Verif.Model.OutputRounded
import Verif.Props.Output
import Verif.Proofs.Rounded
import Verif.Props.SimRoundedBalance

/-!
# Property C132: impulse responses with rounded arithmetic
-/

namespace B3d.OutputRounded

open Output Rounded

variable {A : Rounded.Arith}

/-- A sum in any order, of numbers that are not negative: every number takes part in at most as many roundings as there are
numbers. -/
theorem Summed.bounds {l : List ℝ} {a : ℝ} (h : Summed A l a) : (∀ x ∈ l, 0 ≤ x) →
    (1 - 1 / 10 ^ 15) ^ l.length * l.sum ≤ a ∧ a ≤ (1 + 1 / 10 ^ 15) ^ l.length * l.sum := by
  induction h with
  | nil => intro _; simp
  | one x =>
    intro h
    have := h x (List.mem_singleton.2 rfl)
    simp only [List.length_singleton, pow_one, List.sum_singleton]
    constructor <;> linarith
  | @add l l' a b hl hl' _ _ ih ih' =>
    intro h
    obtain ⟨a1, a2⟩ := ih fun x hx => h x (List.mem_append_left _ hx)
    obtain ⟨b1, b2⟩ := ih' fun x hx => h x (List.mem_append_right _ hx)
    have s1 : 0 ≤ l.sum := List.sum_nonneg fun x hx => h x (List.mem_append_left _ hx)
    have s2 : 0 ≤ l'.sum := List.sum_nonneg fun x hx => h x (List.mem_append_right _ hx)
    have n1 : 1 ≤ l.length := List.length_pos_iff.2 hl
    have n2 : 1 ≤ l'.length := List.length_pos_iff.2 hl'
    have pl : ∀ n : Nat, (0 : ℝ) ≤ (1 - 1 / 10 ^ 15) ^ n := fun n => pow_nonneg (by norm_num) _
    have a0 : 0 ≤ a := le_trans (mul_nonneg (pl _) s1) a1
    have b0 : 0 ≤ b := le_trans (mul_nonneg (pl _) s2) b1
    obtain ⟨c1, c2⟩ := (add_rel A a b).le (add_nonneg a0 b0)
    rw [List.length_append, List.sum_append]
    have u : ∀ n, n + 1 ≤ l.length + l'.length → (1 + 1 / 10 ^ 15 : ℝ) * (1 + 1 / 10 ^ 15) ^ n ≤
        (1 + 1 / 10 ^ 15) ^ (l.length + l'.length) := by
      intro n hn
      rw [← pow_succ']
      exact pow_le_pow_right₀ (by norm_num) hn
    have v : ∀ n, n + 1 ≤ l.length + l'.length → (1 - 1 / 10 ^ 15 : ℝ) ^ (l.length + l'.length) ≤
        (1 - 1 / 10 ^ 15) * (1 - 1 / 10 ^ 15) ^ n := by
      intro n hn
      rw [← pow_succ']
      exact pow_le_pow_of_le_one (by norm_num) (by norm_num) hn
    have u1 := mul_le_mul_of_nonneg_right (u l.length (by omega)) s1
    have u2 := mul_le_mul_of_nonneg_right (u l'.length (by omega)) s2
    have v1 := mul_le_mul_of_nonneg_right (v l.length (by omega)) s1
    have v2 := mul_le_mul_of_nonneg_right (v l'.length (by omega)) s2
    have w1 := mul_le_mul_of_nonneg_left (add_le_add a2 b2) (by norm_num : (0 : ℝ) ≤ 1 + 1 / 10 ^ 15)
    have w2 := mul_le_mul_of_nonneg_left (add_le_add a1 b1) (by norm_num : (0 : ℝ) ≤ 1 - 1 / 10 ^ 15)
    constructor <;> linarith
  | perm hp _ ih =>
    intro h
    have := ih fun x hx => h x (hp.mem_iff.1 hx)
    rwa [hp.length_eq, hp.sum_eq] at this

theorem getD_nonneg {rows : List (List ℝ)} (h0 : ∀ row ∈ rows, ∀ x ∈ row, 0 ≤ x) (an : Nat) :
    ∀ x ∈ rows.map fun r => r.getD an 0, 0 ≤ x := by
  intro x hx
  obtain ⟨r, hr, rfl⟩ := List.mem_map.1 hx
  rw [List.getD_eq_getElem?_getD]
  cases he : r[an]? with
  | none => simp
  | some y => exact h0 r hr y (List.mem_of_getElem? he)

section
variable {rows : List (List ℝ)} {width : Nat} {sum : List ℝ → ℝ} (h0 : ∀ row ∈ rows, ∀ x ∈ row, 0 ≤ x)
    (hsum : ∀ l, Summed A l (sum l))
include h0 hsum

/-- The largest sum. -/
theorem max_bounds {s s' : ℝ} (h : maxOf ((List.range width).map (colSum rows)) = .ok s)
    (h' : maxOf ((List.range width).map fun an => sum (rows.map fun r => r.getD an 0)) = .ok s') :
    0 ≤ s ∧ (1 - 1 / 10 ^ 15) ^ rows.length * s ≤ s' ∧ s' ≤ (1 + 1 / 10 ^ 15) ^ rows.length * s := by
  obtain ⟨m1, m2⟩ := maxOf_ok h
  obtain ⟨m3, m4⟩ := maxOf_ok h'
  have key : ∀ an, (1 - 1 / 10 ^ 15) ^ rows.length * colSum rows an ≤ sum (rows.map fun r => r.getD an 0) ∧
      sum (rows.map fun r => r.getD an 0) ≤ (1 + 1 / 10 ^ 15) ^ rows.length * colSum rows an := by
    intro an
    have := (hsum (rows.map fun r => r.getD an 0)).bounds (getD_nonneg h0 an)
    rwa [List.length_map] at this
  obtain ⟨i, hi, e1⟩ := List.mem_map.1 m1
  obtain ⟨j, hj, e2⟩ := List.mem_map.1 m3
  refine ⟨?_, ?_, ?_⟩
  · rw [← e1]; exact List.sum_nonneg (getD_nonneg h0 i)
  · rw [← e1]
    exact (key i).1.trans (m4 _ (List.mem_map.2 ⟨i, hi, rfl⟩))
  · rw [← e2]
    exact (key j).2.trans (mul_le_mul_of_nonneg_left (m2 _ (List.mem_map.2 ⟨j, hj, rfl⟩)) (by positivity))

/-- **C132, success and errors.**  With rounded arithmetic, `impulse_response` returns a table or raises the same exception as with
exact numbers, whatever the order in which the hits are added. -/
theorem C132_outcome (dt : ℝ) :
    ((∃ r, impulseResponse A sum rows width dt = .ok r) ↔ ∃ r, Output.impulseResponse rows width dt = .ok r) ∧
    ∀ e, impulseResponse A sum rows width dt = .error e ↔ Output.impulseResponse rows width dt = .error e := by
  unfold impulseResponse Output.impulseResponse
  cases width with
  | zero => simp [maxOf]
  | succ w =>
    obtain ⟨s, hs⟩ : ∃ s, maxOf ((List.range (w + 1)).map (colSum rows)) = .ok s := by
      rw [List.range_succ_eq_map]; exact ⟨_, rfl⟩
    obtain ⟨s', hs'⟩ : ∃ s, maxOf ((List.range (w + 1)).map fun an => sum (rows.map fun r => r.getD an 0)) = .ok s := by
      rw [List.range_succ_eq_map]; exact ⟨_, rfl⟩
    obtain ⟨b0, b1, b2⟩ := max_bounds h0 hsum hs hs'
    simp only [hs, hs']
    by_cases hp : 0 < s
    · have hp' : 0 < s' := lt_of_lt_of_le (mul_pos (pow_pos (by norm_num) _) hp) b1
      rw [if_pos hp, if_pos hp']
      simp
    · have hz : s = 0 := le_antisymm (not_lt.1 hp) b0
      rw [hz, mul_zero] at b2
      rw [if_neg hp, if_neg (not_lt.2 b2)]
      simp

end

/-- Bounds of the powers. -/
theorem powers (n : Nat) :
    1 - n / 10 ^ 15 ≤ (1 - 1 / 10 ^ 15 : ℝ) ^ n ∧ (1 + 1 / 10 ^ 15 : ℝ) ^ n * (1 - n / 10 ^ 15) ≤ 1 := by
  have h1 : 1 - n / 10 ^ 15 ≤ (1 - 1 / 10 ^ 15 : ℝ) ^ n := by
    have := one_add_mul_le_pow (a := (-(1 / 10 ^ 15) : ℝ)) (by norm_num) n
    rw [← sub_eq_add_neg] at this
    refine le_trans (le_of_eq ?_) this
    ring
  refine ⟨h1, ?_⟩
  refine le_trans (mul_le_mul_of_nonneg_left h1 (by positivity)) ?_
  rw [← mul_pow]
  exact pow_le_one₀ (by norm_num) (by norm_num)

/-- A quotient of rounded numbers. -/
theorem quotient {n : Nat} (hn : n ≤ 10 ^ 9) {x s s' : ℝ} (hx : 0 ≤ x) (hs : 0 < s)
    (h1 : (1 - 1 / 10 ^ 15) ^ n * s ≤ s') (h2 : s' ≤ (1 + 1 / 10 ^ 15) ^ n * s) :
    |A.div x s' - x / s| ≤ 3 * (n + 1) / 10 ^ 15 * (x / s) := by
  obtain ⟨p1, p2⟩ := powers n
  have hn' : (n : ℝ) ≤ 10 ^ 9 := by exact_mod_cast hn
  have hn0 : (0 : ℝ) ≤ n := Nat.cast_nonneg n
  obtain ⟨t, ht⟩ : ∃ t : ℝ, t = n / 10 ^ 15 := ⟨_, rfl⟩
  have t0 : 0 ≤ t := by rw [ht]; positivity
  have t1 : t ≤ 1 / 10 ^ 6 := by
    rw [ht, div_le_iff₀ (by norm_num)]
    refine hn'.trans (by norm_num)
  rw [← ht] at p1 p2
  have hs' : 0 < s' := lt_of_lt_of_le (mul_pos (pow_pos (by norm_num) _) hs) h1
  obtain ⟨d1, d2⟩ := (div_rel A x hs'.ne').le (div_nonneg hx hs'.le)
  have q1 : (1 - t) * s ≤ s' := le_trans (mul_le_mul_of_nonneg_right p1 hs.le) h1
  have q2 : s' * (1 - t) ≤ s := by
    have := mul_le_mul_of_nonneg_right h2 (by linarith : 0 ≤ 1 - t)
    nlinarith
  -- the quotient lies between `(1 - t)` and `1 + 2 t` times the exact one
  have r1 : (1 - t) * (x / s) ≤ x / s' := by
    rw [← mul_div_assoc, div_le_div_iff₀ hs hs']
    have := mul_le_mul_of_nonneg_left q2 hx
    linarith
  have r2 : x / s' ≤ (1 + 2 * t) * (x / s) := by
    rw [← mul_div_assoc, div_le_div_iff₀ hs' hs]
    have e : s ≤ (1 + 2 * t) * s' := by
      have := mul_le_mul_of_nonneg_left q1 (by linarith : 0 ≤ 1 + 2 * t)
      nlinarith
    have := mul_le_mul_of_nonneg_left e hx
    linarith
  have hq : 0 ≤ x / s := div_nonneg hx hs.le
  have e3 : 3 * ((n : ℝ) + 1) / 10 ^ 15 = 3 * t + 3 / 10 ^ 15 := by rw [ht]; ring
  rw [e3, abs_le]
  have tq : 0 ≤ t * (x / s) := mul_nonneg t0 hq
  have tq1 : t * (x / s) ≤ 1 / 10 ^ 6 * (x / s) := mul_le_mul_of_nonneg_right t1 hq
  norm_num at d1 d2 tq1 ⊢
  constructor <;> linarith

/-- **C132, values.**  With rounded arithmetic and up to `10 ^ 9` rows, every value of the table is the exact one up to
`3 * (rows + 1) / 10 ^ 15` of it; values that are zero are exactly zero. -/
theorem C132_values {rows : List (List ℝ)} {width : Nat} {dt : ℝ} {sum : List ℝ → ℝ} (h0 : ∀ row ∈ rows, ∀ x ∈ row, 0 ≤ x)
    (hsum : ∀ l, Summed A l (sum l)) (hn : rows.length ≤ 10 ^ 9) {r r' : Response ℝ}
    (h : Output.impulseResponse rows width dt = .ok r) (h' : impulseResponse A sum rows width dt = .ok r') :
    r'.columns.length = width ∧ r'.time.length = rows.length ∧
    ∀ an < width, ∃ c c', r.columns[an]? = some c ∧ r'.columns[an]? = some c' ∧ c'.length = rows.length ∧
      List.Forall₂ (fun x x' : ℝ => |x' - x| ≤ 3 * (rows.length + 1) / 10 ^ 15 * x) c c' := by
  unfold impulseResponse at h'
  unfold Output.impulseResponse at h
  cases hm : maxOf ((List.range width).map (colSum rows)) with
  | error e => rw [hm] at h; cases h
  | ok s =>
    cases hm' : maxOf ((List.range width).map fun an => sum (rows.map fun r => r.getD an 0)) with
    | error e => rw [hm'] at h'; cases h'
    | ok s' =>
      rw [hm] at h
      rw [hm'] at h'
      simp only at h h'
      obtain ⟨b0, b1, b2⟩ := max_bounds h0 hsum hm hm'
      split_ifs at h with hp
      split_ifs at h' with hp'
      simp only [Except.ok.injEq] at h h'
      subst h h'
      refine ⟨by simp, by simp [linspace], fun an han => ?_⟩
      refine ⟨rows.map fun r => r.getD an 0 / s, rows.map fun r => A.div (r.getD an 0) s', ?_, ?_, by simp, ?_⟩
      · simp [han]
      · simp [han]
      · rw [List.forall₂_map_left_iff, List.forall₂_map_right_iff, List.forall₂_same]
        intro q hq
        exact quotient hn (getD_nonneg h0 an _ (List.mem_map.2 ⟨q, hq, rfl⟩)) hp b1 b2

/-- **C132, times.**  The times of the rows are the exact ones up to five roundings. -/
theorem C132_times {rows : List (List ℝ)} {width : Nat} {dt : ℝ} {sum : List ℝ → ℝ} (hdt : 0 ≤ dt) {r r' : Response ℝ}
    (h : Output.impulseResponse rows width dt = .ok r) (h' : impulseResponse A sum rows width dt = .ok r') :
    List.Forall₂ (fun t t' => |t' - t| ≤ 6 / 10 ^ 15 * t) r.time r'.time := by
  have e : r.time = Output.linspace ((rows.length : ℝ) * dt) rows.length := by
    unfold Output.impulseResponse at h
    split at h
    · cases h
    · split_ifs at h
      simp only [Except.ok.injEq] at h
      rw [← h]
  have e' : r'.time = linspace A (A.mul (rows.length : ℝ) dt) rows.length := by
    unfold impulseResponse at h'
    split at h'
    · cases h'
    · split_ifs at h'
      simp only [Except.ok.injEq] at h'
      rw [← h']
  rw [e, e']
  unfold linspace Output.linspace
  rw [List.forall₂_map_left_iff, List.forall₂_map_right_iff, List.forall₂_same]
  intro k hk
  rw [List.mem_range] at hk
  by_cases h1 : rows.length = 1
  · simp [h1]
  · rw [if_neg h1, if_neg h1]
    obtain ⟨N, hN⟩ : ∃ N : ℝ, N = rows.length := ⟨_, rfl⟩
    have hlt : 2 ≤ rows.length := by omega
    have hN2 : 2 ≤ N := by rw [hN]; exact_mod_cast hlt
    rw [← hN]
    have hS0 : 0 ≤ N * dt := mul_nonneg (by linarith) hdt
    have m1 := mul_rel A N dt
    split_ifs with h2
    · have hk1 : (k : ℝ) = N - 1 := by
        rw [hN, ← h2]
        push_cast
        ring
      rw [hk1, mul_div_cancel₀ _ (by linarith : N - 1 ≠ 0)]
      obtain ⟨a1, a2⟩ := m1.le hS0
      rw [abs_le]
      norm_num at a1 a2 ⊢
      constructor <;> linarith
    · obtain ⟨a1, a2⟩ := m1.le hS0
      have s0 : 0 ≤ A.mul N dt := le_trans (mul_nonneg (by norm_num) hS0) a1
      have b := sub_rel A (A.mul N dt) 0
      rw [sub_zero] at b
      obtain ⟨b1, b2⟩ := b.le s0
      have d0 : 0 ≤ A.sub (A.mul N dt) 0 := le_trans (mul_nonneg (by norm_num) s0) b1
      have hN1 : (0 : ℝ) < N - 1 := by linarith
      obtain ⟨c1, c2⟩ := (div_rel A (A.sub (A.mul N dt) 0) hN1.ne').le (div_nonneg d0 hN1.le)
      have e0 : 0 ≤ A.div (A.sub (A.mul N dt) 0) (N - 1) := le_trans (mul_nonneg (by norm_num) (div_nonneg d0 hN1.le)) c1
      have hk0 : (0 : ℝ) ≤ k := Nat.cast_nonneg k
      obtain ⟨f1, f2⟩ := (mul_rel A (k : ℝ) (A.div (A.sub (A.mul N dt) 0) (N - 1))).le (mul_nonneg hk0 e0)
      have g0 : 0 ≤ A.mul (k : ℝ) (A.div (A.sub (A.mul N dt) 0) (N - 1)) := le_trans (mul_nonneg (by norm_num) (mul_nonneg hk0 e0)) f1
      have g := add_rel A (A.mul (k : ℝ) (A.div (A.sub (A.mul N dt) 0) (N - 1))) 0
      rw [add_zero] at g
      obtain ⟨g1, g2⟩ := g.le g0
      -- everything in terms of `T = k * (N dt / (N - 1))`
      have u1 : A.sub (A.mul N dt) 0 / (N - 1) ≤ (1 + 21 / 10 ^ 16) * (N * dt / (N - 1)) := by
        rw [← mul_div_assoc]
        refine div_le_div_of_nonneg_right ?_ hN1.le
        norm_num at a2 b2 ⊢
        linarith
      have u2 : (1 - 21 / 10 ^ 16) * (N * dt / (N - 1)) ≤ A.sub (A.mul N dt) 0 / (N - 1) := by
        rw [← mul_div_assoc]
        refine div_le_div_of_nonneg_right ?_ hN1.le
        norm_num at a1 b1 ⊢
        linarith
      have hq : 0 ≤ N * dt / (N - 1) := div_nonneg hS0 hN1.le
      generalize A.sub (A.mul N dt) 0 / (N - 1) = w at *
      generalize N * dt / (N - 1) = q at *
      generalize A.div (A.sub (A.mul N dt) 0) (N - 1) = z at *
      have v1 : z ≤ (1 + 32 / 10 ^ 16) * q := by norm_num at c2 u1 ⊢; linarith
      have v2 : (1 - 32 / 10 ^ 16) * q ≤ z := by norm_num at c1 u2 ⊢; linarith
      have w1 := mul_le_mul_of_nonneg_left v1 hk0
      have w2 := mul_le_mul_of_nonneg_left v2 hk0
      have hkq : 0 ≤ (k : ℝ) * q := mul_nonneg hk0 hq
      rw [abs_le]
      norm_num at f1 f2 g1 g2 w1 w2 ⊢
      constructor <;> linarith

/-- **C132, order of the times.**  With a positive time step and up to `10 ^ 9` rows, rounding does not make two times equal or
exchange them. -/
theorem C132_increasing {rows : List (List ℝ)} {width : Nat} {dt : ℝ} {sum : List ℝ → ℝ} (hdt : 0 < dt)
    (h0 : ∀ row ∈ rows, ∀ x ∈ row, 0 ≤ x) (hsum : ∀ l, Summed A l (sum l)) (hn : rows.length ≤ 10 ^ 9) {r' : Response ℝ}
    (h' : impulseResponse A sum rows width dt = .ok r') {i j : Nat} (hij : i < j) {t u : ℝ} (hi : r'.time[i]? = some t)
    (hj : r'.time[j]? = some u) : t < u := by
  obtain ⟨r, h⟩ := (C132_outcome h0 hsum dt).1.1 ⟨r', h'⟩
  have hf := C132_times hdt.le h h'
  have hjl : j < r.time.length := by
    rw [hf.length_eq]; exact (List.getElem?_eq_some_iff.1 hj).1
  have hlen : r.time.length = rows.length := by
    rw [hf.length_eq]
    exact (C132_values h0 hsum hn h h').2.1
  have h2 : 2 ≤ rows.length := by omega
  have ti := (C57_time h).2 h2 i (by omega)
  have tj := (C57_time h).2 h2 j (by omega)
  have gi := abs_le.1 (Sim.forall₂_getElem? hf ti hi)
  have gj := abs_le.1 (Sim.forall₂_getElem? hf tj hj)
  have hN : (rows.length : ℝ) ≤ 10 ^ 9 := by exact_mod_cast hn
  have hN2 : (2 : ℝ) ≤ rows.length := by exact_mod_cast h2
  have hq : 0 < (rows.length : ℝ) * dt / ((rows.length : ℝ) - 1) := div_pos (by positivity) (by linarith)
  have hji : (i : ℝ) + 1 ≤ j := by exact_mod_cast hij
  have hjN : (j : ℝ) ≤ 10 ^ 9 := le_trans (by exact_mod_cast (by omega : j ≤ rows.length)) hN
  have hi0 : (0 : ℝ) ≤ i := Nat.cast_nonneg i
  generalize (rows.length : ℝ) * dt / ((rows.length : ℝ) - 1) = q at *
  have a1 := mul_le_mul_of_nonneg_right hji hq.le
  have a2 := mul_le_mul_of_nonneg_right hjN hq.le
  have a3 := mul_nonneg hi0 hq.le
  norm_num at gi gj a2
  linarith [gi.2, gj.1]

end B3d.OutputRounded
