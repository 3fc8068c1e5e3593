import Verif.Props.OutputRounded
import Verif.Props.Buffers

/-!
# Property C132: the impulse response of a whole run with rounded arithmetic

From the run through the files on disk to the table, all with rounded arithmetic.
-/

namespace B3d.SimRounded

open Sim Rounded Spec Wildcard Buffers

variable {A : Arith} {P : Params ℝ}

/-- Batches that are saved and read. -/
theorem saved_batches {ps : Paths} {pa pb pc : List Part} (hg : GoodPaths ps pa pb pc) {dir : Str}
    (hd : GoodDir dir) {order : List Str → List Str} (ho : ∀ l, (order l).Perm l) (fs : FS ℝ)
    (ha : NoneMatch fs dir ps.position) (hb : NoneMatch fs dir ps.energy) (hc : NoneMatch fs dir ps.hits) {B R W : Nat} (hB : 0 < B)
    {bs : List (List (Row ℝ))} (hne : bs ≠ []) (b3 : ∀ rows ∈ bs, rows.length = B + 1)
    (b4 : ∀ rows ∈ bs, ∀ row ∈ rows, SameShape R W row)
    (b6 : ∀ (k : Nat) (r r' : List (Row ℝ)), bs[k]? = some r → bs[k + 1]? = some r' → r[B]? = r'[0]?) :
    ∃ fs' rows, saveAll ps dir fs (batchWrites B 0 bs) = .ok fs' ∧ readBuffers order fs' ps dir = .ok rows ∧
      rows.length = bs.length * B + 1 ∧ (∀ n, n < rows.length → rows[n]? = fileOf (batchWrites B 0 bs) n) ∧
      ∀ row ∈ rows, SameShape R W row := by
  obtain ⟨fs', rows, r1, r2, r3, r4⟩ := C53_batches hg hd ho fs ha hb hc B R W hB bs hne b3 b4 b6
  rw [dumpBatches_eq] at r1
  have hfile : ∀ n, n < rows.length → rows[n]? = fileOf (batchWrites B 0 bs) n ∧ ∃ row, rows[n]? = some row ∧ SameShape R W row := by
    intro n hn
    rw [r3] at hn
    have hkj : ∃ k j r, n = k * B + j ∧ bs[k]? = some r ∧ j ≤ B ∧ (j < B ∨ (j = B ∧ k + 1 = bs.length)) := by
      by_cases hlast : n = bs.length * B
      · obtain ⟨m, hm⟩ : ∃ m, bs.length = m + 1 := ⟨bs.length - 1, by
          have := List.length_pos_iff.2 hne; omega⟩
        refine ⟨m, B, bs[m]'(by omega), ?_, List.getElem?_eq_getElem _, le_refl _, Or.inr ⟨rfl, hm.symm⟩⟩
        rw [hlast, hm]; ring
      · have hk : n / B < bs.length := by
          rw [Nat.div_lt_iff_lt_mul hB]; omega
        refine ⟨n / B, n % B, bs[n / B], ?_, List.getElem?_eq_getElem _,
          (Nat.mod_lt _ hB).le, Or.inl (Nat.mod_lt _ hB)⟩
        have := Nat.div_add_mod n B
        rw [Nat.mul_comm] at this
        omega
    obtain ⟨k, j, r, rfl, hr, hj, hj'⟩ := hkj
    have e1 := r4 k r hr j hj
    have e2 := fileOf_batchWrites 0 bs b3 k j r hr hj'
    rw [Nat.zero_add] at e2
    have hjl : j < r.length := by rw [b3 r (List.mem_of_getElem? hr)]; omega
    refine ⟨by rw [e1, e2], r[j], by rw [e1, List.getElem?_eq_getElem hjl], ?_⟩
    exact b4 r (List.mem_of_getElem? hr) _ (List.getElem_mem hjl)
  refine ⟨fs', rows, r1, r2, r3, fun n hn => (hfile n hn).1, ?_⟩
  intro row hrow
  obtain ⟨n, hn, rfl⟩ := List.getElem_of_mem hrow
  obtain ⟨_, row, h1, h2⟩ := hfile n hn
  rw [List.getElem?_eq_getElem hn] at h1
  cases h1
  exact h2

section
variable {inside : Vec3 ℝ → Vec3 ℝ → Prop}

theorem handedOver_nonneg (heps : 0 ≤ P.eps) (row : Row ℝ) (sn : Nat) : 0 ≤ handedOver P inside row sn := by
  unfold handedOver
  refine List.sum_nonneg fun x hx => ?_
  obtain ⟨⟨p, e⟩, -, rfl⟩ := List.mem_map.1 hx
  split
  · rename_i h; exact heps.trans h.1.le
  · exact le_rfl

theorem heardBy_iff (heps : 0 ≤ P.eps) (row : Row ℝ) :
    HeardBy P inside row ↔ ∃ sn < P.absorbers.length, 0 < handedOver P inside row sn := by
  classical
  constructor
  · rintro ⟨k, p, e, hp, he, hlt, c, hc, hin⟩
    have hs : (P.absorbers.findIdx? (fun c => inside c p)).isSome := by
      rw [List.findIdx?_isSome, List.any_eq_true]
      exact ⟨c, hc, by simpa using hin⟩
    obtain ⟨sn, hsn⟩ := Option.isSome_iff_exists.1 hs
    have hlen : sn < P.absorbers.length := by
      have := hsn
      rw [List.findIdx?_eq_some_iff_getElem] at this
      exact this.1
    refine ⟨sn, hlen, (lt_of_le_of_lt heps hlt).trans_le ?_⟩
    unfold handedOver
    refine List.single_le_sum ?_ _ ?_
    · intro x hx
      obtain ⟨⟨q, f⟩, -, rfl⟩ := List.mem_map.1 hx
      split
      · rename_i h; exact heps.trans h.1.le
      · exact le_rfl
    · refine List.mem_map.2 ⟨(p, e), List.mem_of_getElem? (List.getElem?_zip_eq_some.2 ⟨hp, he⟩), ?_⟩
      exact if_pos ⟨hlt, hsn⟩
  · rintro ⟨sn, -, hpos⟩
    by_contra hno
    refine absurd hpos (not_lt.2 (le_of_eq ?_))
    unfold handedOver
    refine List.sum_eq_zero fun x hx => ?_
    obtain ⟨⟨p, e⟩, hm, rfl⟩ := List.mem_map.1 hx
    rw [if_neg]
    rintro ⟨h1, h2⟩
    obtain ⟨k, hk⟩ := List.getElem?_of_mem hm
    rw [List.getElem?_zip_eq_some] at hk
    rw [List.findIdx?_eq_some_iff_getElem] at h2
    obtain ⟨hl, h3, -⟩ := h2
    exact hno ⟨k, p, e, hk.1, hk.2, h1, _, List.getElem_mem hl, by simpa using h3⟩

end

/-- **C132, the whole way.**  A simulation of `b` batches of `B` steps with rounded arithmetic leaves files from which the
`b * B + 1` rows of the run are read.  With absorbers, the impulse response of what is read is a table exactly if in some step before
the last a ray that is not dead was in an absorber, and `AssertionError` otherwise.  The table has a row for every step; the values
of an absorber are zero at step 0 and after that, up to one common positive factor and to rounding errors that grow with the
numbers of steps and rays, the energies that the rays caught by the absorber had one step before. -/
theorem C132_run {ps : Paths} {pa pb pc : List Part} (hg : GoodPaths ps pa pb pc) {dir : Str}
    (hdir : GoodDir dir) {order : List Str → List Str} (ho : ∀ l, (order l).Perm l) (fs : FS ℝ)
    (hpa : NoneMatch fs dir ps.position) (hpb : NoneMatch fs dir ps.energy) (hpc : NoneMatch fs dir ps.hits)
    (hP : Ordinary P) (hs : 0 < P.raySpeed) (ht : 0 < P.timeStep) {B b : Nat} (hB : 0 < B) (hb : 0 < b)
    (hsize : SizeForBatches P b) {source : Vec3 ℝ} (hsrc : RepV A source) {raw : List (Vec3 ℝ)} (hraw : ∀ d ∈ raw, d ≠ 0)
    (hab : P.absorbers ≠ []) (hlen : b * B + 1 ≤ 10 ^ 9) (hrays : raw.length ≤ 10 ^ 9) {sum : List ℝ → ℝ}
    (hsum : ∀ l, OutputRounded.Summed A.toArith l (sum l)) :
    ∃ ws fs' rows, simulationRun A P (2 * 10 ^ 6 + 1) B b source raw = some ws ∧ saveAll ps dir fs ws = .ok fs' ∧
      readBuffers order fs' ps dir = .ok rows ∧ rows.length = b * B + 1 ∧ (∀ n, n < rows.length → rows[n]? = fileOf ws n) ∧
      ((∃ r, OutputRounded.impulseResponse A.toArith sum (rows.map Row.hits) P.absorbers.length P.timeStep = .ok r) ↔
        ∃ n row, n < b * B ∧ rows[n]? = some row ∧ HeardBy P (InAbsorber A P) row) ∧
      ((∀ n row, n < b * B → rows[n]? = some row → ¬ HeardBy P (InAbsorber A P) row) →
        OutputRounded.impulseResponse A.toArith sum (rows.map Row.hits) P.absorbers.length P.timeStep = .error .assertionError) ∧
      ∀ r, OutputRounded.impulseResponse A.toArith sum (rows.map Row.hits) P.absorbers.length P.timeStep = .ok r →
        r.time.length = b * B + 1 ∧ r.columns.length = P.absorbers.length ∧
        ∃ s, 0 < s ∧ ∀ sn < P.absorbers.length, ∃ c, r.columns[sn]? = some c ∧ c.length = b * B + 1 ∧ c[0]? = some 0 ∧
          ∀ n row, n < b * B → rows[n]? = some row → ∃ v, c[n + 1]? = some v ∧
            |v - handedOver P (InAbsorber A P) row sn / s| ≤
              (6 * (b * B + 2) + 2 * raw.length) / 10 ^ 15 * (handedOver P (InAbsorber A P) row sn / s) := by
  -- the batches
  obtain ⟨L, hlo, hhi, hL, hLb⟩ := id hsize
  have hD : 0 < P.raySpeed * P.timeStep := mul_pos hs ht
  have hL0 : 0 ≤ L := hP.eps.trans hL
  obtain ⟨g, hg'⟩ : ∃ g, g = 1 / 10 ^ 14 * (L + P.raySpeed * P.timeStep) / (P.raySpeed * P.timeStep) := ⟨_, rfl⟩
  have hg0 : 0 ≤ g := by rw [hg']; positivity
  have hgD : g * (P.raySpeed * P.timeStep) = 1 / 10 ^ 14 * (L + P.raySpeed * P.timeStep) := by
    rw [hg']; exact div_mul_cancel₀ _ hD.ne'
  have hbg : 1 / 10 ^ 6 + b * (2 * g) ≤ 3 / 10 ^ 6 := by
    have h1 : b * (g * (P.raySpeed * P.timeStep)) ≤ 1 / 10 ^ 6 * (P.raySpeed * P.timeStep) := by
      rw [hgD]
      norm_num at hLb ⊢
      linarith
    have h2 : b * g ≤ 1 / 10 ^ 6 := by
      refine le_of_mul_le_mul_right ?_ hD
      linarith
    linarith
  obtain ⟨bs, b1, b2, b3, -, b5⟩ := batches_run hP hs ht hlo hhi hL hgD.ge hg0 hB b 0 (1 / 10 ^ 6)
    (initArrays A P source raw) (by norm_num) hbg (startedB_init hs.le hsrc hraw)
  have hblen : ∀ rows ∈ bs, rows.length = B + 1 := by
    intro rows hr
    obtain ⟨u, a0, -, -, -, h0⟩ := b3 rows hr
    obtain ⟨l, hl, rfl⟩ := simulationLoop_states h0
    rw [List.length_map, (steps_chain hl).1]
  have hbshape : ∀ rows ∈ bs, ∀ row ∈ rows, SameShape raw.length P.absorbers.length row := by
    intro rows hr row hrow
    obtain ⟨u, a0, -, -, g0, h0⟩ := b3 rows hr
    obtain ⟨l, hl, rfl⟩ := simulationLoop_states h0
    obtain ⟨s, hs', rfl⟩ := List.mem_map.1 hrow
    obtain ⟨i, hi⟩ := List.getElem?_of_mem hs'
    obtain ⟨t1, t2⟩ := states_shape g0 hl i s hi
    exact ⟨by simp [rowOf, t1], by simp [rowOf, t1], t2⟩
  have hne : bs ≠ [] := by
    rintro rfl
    simp at b1
    omega
  obtain ⟨fs', rows, s1, s2, s3, s4, s5⟩ := saved_batches hg hdir ho fs hpa hpb hpc hB hne hblen hbshape b5
  rw [b1] at s3
  obtain ⟨ws, hws⟩ : ∃ ws, ws = batchWrites B 0 bs := ⟨_, rfl⟩
  rw [← hws] at s1 s4
  have hrun : simulationRun A P (2 * 10 ^ 6 + 1) B b source raw = some ws := by
    rw [hws]; exact b2
  obtain ⟨ws', e1, f0, -⟩ := C131_run (A := A) hP hs ht hB hb hsize hsrc hraw
  obtain rfl : ws = ws' := Option.some.inj (hrun.symm.trans e1)
  have s6 : rows[0]? = some ⟨raw.map fun _ => source, raw.map fun _ => 1, P.absorbers.map fun _ => 0⟩ := by
    rw [s4 0 (by omega), f0]
  have hwidth : 0 < P.absorbers.length := List.length_pos_iff.2 hab
  -- the hits
  have hnn : ∀ row ∈ rows.map Row.hits, ∀ x ∈ row, 0 ≤ x := by
    intro q hq x hx
    obtain ⟨row, hrow, rfl⟩ := List.mem_map.1 hq
    obtain ⟨n, hn⟩ := List.getElem?_of_mem hrow
    have hl := (List.getElem?_eq_some_iff.1 hn).1
    rw [s4 n hl] at hn
    exact (C131_total hP hs ht hB hb hsize hsrc hraw hrun n row hn).1 x hx
  have hhits : ∀ n row, n < b * B → rows[n]? = some row → ∃ row', rows[n + 1]? = some row' ∧ ∀ sn < P.absorbers.length,
      ∃ y, row'.hits[sn]? = some y ∧ (1 - 1 / 10 ^ 15) ^ raw.length * handedOver P (InAbsorber A P) row sn ≤ y ∧
        y ≤ (1 + 1 / 10 ^ 15) ^ raw.length * handedOver P (InAbsorber A P) row sn := by
    intro n row hnb h1
    have h2 : rows[n + 1]? = some (rows[n + 1]'(by omega)) := List.getElem?_eq_getElem _
    refine ⟨_, h2, fun sn hsn => ?_⟩
    rw [s4 n (by omega)] at h1
    rw [s4 (n + 1) (by omega)] at h2
    exact C131_hits hP hs ht hB hb hsize hsrc hraw hrun h1 h2 hsn
  have hcol : (∃ an, an < P.absorbers.length ∧ 0 < ((rows.map Row.hits).map fun r => r.getD an 0).sum) ↔
      ∃ n row, n < b * B ∧ rows[n]? = some row ∧ HeardBy P (InAbsorber A P) row := by
    constructor
    · rintro ⟨an, han, hpos⟩
      by_contra hno
      refine absurd hpos (not_lt.2 (le_of_eq ?_))
      refine List.sum_eq_zero fun x hx => ?_
      rw [List.map_map, List.mem_map] at hx
      obtain ⟨row, hrow, rfl⟩ := hx
      obtain ⟨n, hnr⟩ := List.getElem?_of_mem hrow
      cases n with
      | zero =>
        rw [s6, Option.some.injEq] at hnr
        subst hnr
        simp [List.getD_eq_getElem?_getD, han]
      | succ n =>
        have l2 := (List.getElem?_eq_some_iff.1 hnr).1
        have h1 : rows[n]? = some (rows[n]'(by omega)) := List.getElem?_eq_getElem _
        obtain ⟨row', hr', hv⟩ := hhits n _ (by omega) h1
        obtain rfl : row = row' := Option.some.inj (hnr.symm.trans hr')
        obtain ⟨y, y1, y2, y3⟩ := hv an han
        have hz : handedOver P (InAbsorber A P) rows[n] an = 0 := by
          refine le_antisymm (not_lt.1 fun hp => hno ⟨n, _, by omega, h1, ?_⟩) (handedOver_nonneg hP.eps _ _)
          exact (heardBy_iff hP.eps _).2 ⟨an, han, hp⟩
        rw [hz, mul_zero] at y2 y3
        simp only [Function.comp_apply, List.getD_eq_getElem?_getD, y1, Option.getD_some]
        exact le_antisymm y3 y2
    · rintro ⟨n, row, hnb, hr, hh⟩
      obtain ⟨sn, hsn, hpos⟩ := (heardBy_iff hP.eps row).1 hh
      obtain ⟨row', hr', hv⟩ := hhits n row hnb hr
      obtain ⟨y, y1, y2, y3⟩ := hv sn hsn
      have hy : 0 < y := lt_of_lt_of_le (mul_pos (pow_pos (by norm_num) _) hpos) y2
      refine ⟨sn, hsn, hy.trans_le ?_⟩
      refine List.single_le_sum (OutputRounded.getD_nonneg hnn sn) _ ?_
      rw [List.map_map, List.mem_map]
      refine ⟨row', List.mem_of_getElem? hr', ?_⟩
      simp only [Function.comp_apply, List.getD_eq_getElem?_getD, y1, Option.getD_some]
  obtain ⟨-, c2, c3⟩ := Output.C57_errors (rows.map Row.hits) P.absorbers.length P.timeStep
  obtain ⟨o1, o2⟩ := OutputRounded.C132_outcome (A := A.toArith) (width := P.absorbers.length) hnn hsum P.timeStep
  have hfail : (∀ n row, n < b * B → rows[n]? = some row → ¬ HeardBy P (InAbsorber A P) row) →
      Output.impulseResponse (rows.map Row.hits) P.absorbers.length P.timeStep = .error .assertionError := by
    intro hno
    refine c3 hwidth fun an han => not_lt.1 fun hp => ?_
    obtain ⟨n, row, a1, a2, a3⟩ := hcol.1 ⟨an, han, hp⟩
    exact hno n row a1 a2 a3
  refine ⟨ws, fs', rows, hrun, s1, s2, s3, s4, ⟨?_, fun hh => o1.2 (c2 hwidth (hcol.2 hh))⟩, fun hno => (o2 _).2 (hfail hno), ?_⟩
  · intro hok
    obtain ⟨r, hr⟩ := o1.1 hok
    by_contra hno
    rw [hfail (fun n row a1 a2 a3 => hno ⟨n, row, a1, a2, a3⟩)] at hr
    cases hr
  · intro r hr
    obtain ⟨r0, hr0⟩ := o1.1 ⟨r, hr⟩
    have hrect : Output.Rect (rows.map Row.hits) P.absorbers.length := by
      intro x hx
      obtain ⟨row, hrow, rfl⟩ := List.mem_map.1 hx
      exact (s5 row hrow).2.2
    obtain ⟨-, -, ⟨s, hs0, hc⟩, -⟩ := Output.C57_normalised_partial hrect hnn hr0
    obtain ⟨v1, v2, v3⟩ := OutputRounded.C132_values hnn hsum (by rw [List.length_map, s3]; exact hlen) hr0 hr
    rw [List.length_map, s3] at v2 v3
    refine ⟨v2, v1, s, hs0, fun sn hsn => ?_⟩
    obtain ⟨c, c', d1, d2, d3, d4⟩ := v3 sn hsn
    obtain ⟨cc, e1, -, e3⟩ := hc sn hsn
    obtain rfl : c = cc := Option.some.inj (d1.symm.trans e1)
    have hval : ∀ (m : Nat) (row : Row ℝ) (x : ℝ), rows[m]? = some row → row.hits[sn]? = some x → ∃ v, c'[m]? = some v ∧
        |v - x / s| ≤ 3 * ((b * B + 1 : ℕ) + 1) / 10 ^ 15 * (x / s) := by
      intro m row x hm hx
      have hl := (List.getElem?_eq_some_iff.1 hm).1
      obtain ⟨x', g1, g2⟩ := e3 m (by rw [List.length_map]; exact hl)
      simp only [Output.at?, List.getElem?_map, hm, Option.map_some, Option.bind_some, hx, Option.some.injEq] at g1
      subst g1
      have hv : c'[m]? = some (c'[m]'(by omega)) := List.getElem?_eq_getElem _
      exact ⟨_, hv, forall₂_getElem? d4 g2 hv⟩
    refine ⟨c', d2, d3, ?_, fun n row hnb hrow => ?_⟩
    · obtain ⟨v, w1, w2⟩ := hval 0 _ 0 s6 (by simp [hsn])
      rw [zero_div, mul_zero, sub_zero] at w2
      rw [w1, abs_eq_zero.1 (le_antisymm w2 (abs_nonneg _))]
    · obtain ⟨row', hr', hv⟩ := hhits n row hnb hrow
      obtain ⟨y, y1, y2, y3⟩ := hv sn hsn
      obtain ⟨v, w1, w2⟩ := hval (n + 1) row' y hr' y1
      refine ⟨v, w1, ?_⟩
      have hh := handedOver_nonneg (inside := InAbsorber A P) hP.eps row sn
      generalize handedOver P (InAbsorber A P) row sn = h at *
      obtain ⟨p1, p2⟩ := OutputRounded.powers raw.length
      have hN : (raw.length : ℝ) ≤ 10 ^ 9 := by exact_mod_cast hrays
      have hM : ((b * B + 1 : ℕ) : ℝ) ≤ 10 ^ 9 := by exact_mod_cast hlen
      obtain ⟨t, hteq⟩ : ∃ t : ℝ, t = raw.length / 10 ^ 15 := ⟨_, rfl⟩
      obtain ⟨a, haeq⟩ : ∃ a : ℝ, a = 3 * ((b * B + 1 : ℕ) + 1) / 10 ^ 15 := ⟨_, rfl⟩
      have t0 : 0 ≤ t := by rw [hteq]; positivity
      have a0 : 0 ≤ a := by rw [haeq]; positivity
      have t1 : t ≤ 1 / 10 ^ 6 := by
        rw [hteq, div_le_iff₀ (by norm_num)]
        refine hN.trans (by norm_num)
      rw [← hteq] at p1 p2
      rw [← haeq] at w2
      have hbound : (6 * ((b : ℝ) * B + 2) + 2 * raw.length) / 10 ^ 15 = 2 * a + 2 * t := by
        rw [haeq, hteq]; push_cast; ring
      rw [hbound]
      -- the hits in terms of the energies
      have y4 : (1 - t) * h ≤ y := le_trans (mul_le_mul_of_nonneg_right p1 hh) y2
      have y5 : y ≤ (1 + 2 * t) * h := by
        refine y3.trans (mul_le_mul_of_nonneg_right ?_ hh)
        have h5 : (0 : ℝ) ≤ (1 + 1 / 10 ^ 15) ^ raw.length := by positivity
        generalize (1 + 1 / 10 ^ 15 : ℝ) ^ raw.length = z at *
        nlinarith
      have z1 : (1 - t) * (h / s) ≤ y / s := by
        rw [← mul_div_assoc]; exact div_le_div_of_nonneg_right y4 hs0.le
      have z2 : y / s ≤ (1 + 2 * t) * (h / s) := by
        rw [← mul_div_assoc]; exact div_le_div_of_nonneg_right y5 hs0.le
      have hq : 0 ≤ h / s := div_nonneg hh hs0.le
      generalize y / s = y' at *
      generalize h / s = h' at *
      obtain ⟨k1, k2⟩ := abs_le.1 w2
      have m1 := mul_le_mul_of_nonneg_left z2 a0
      have m2 : a * ((1 + 2 * t) * h') ≤ a * (2 * h') :=
        mul_le_mul_of_nonneg_left (mul_le_mul_of_nonneg_right (by linarith) hq) a0
      rw [abs_le]
      constructor <;> nlinarith

/-- **C132, silence before the direct sound.**  With rounded arithmetic, in the impulse response of a run the values of an absorber
are exactly zero as long as a ray that flies straight from the source, faster than the rays by a hundred thousandth, has not had
the time to reach it, one step being added. -/
theorem C132_silent {ps : Paths} {pa pb pc : List Part} (hg : GoodPaths ps pa pb pc) {dir : Str}
    (hdir : GoodDir dir) {order : List Str → List Str} (ho : ∀ l, (order l).Perm l) (fs : FS ℝ)
    (hpa : NoneMatch fs dir ps.position) (hpb : NoneMatch fs dir ps.energy) (hpc : NoneMatch fs dir ps.hits)
    (hP : Ordinary P) (hs : 0 < P.raySpeed) (ht : 0 < P.timeStep) {B b : Nat} (hB : 0 < B) (hb : 0 < b)
    (hsize : SizeForBatches P b) {source : Vec3 ℝ} (hsrc : RepV A source) {raw : List (Vec3 ℝ)} (hraw : ∀ d ∈ raw, d ≠ 0)
    (hlen : b * B + 1 ≤ 10 ^ 9) (hrays : raw.length ≤ 10 ^ 9) {sum : List ℝ → ℝ}
    (hsum : ∀ l, OutputRounded.Summed A.toArith l (sum l)) {ws : List (Nat × Row ℝ)}
    (h : simulationRun A P (2 * 10 ^ 6 + 1) B b source raw = some ws) (hR : 0 ≤ P.absorberRadius) {sn : Nat} {c : Vec3 ℝ}
    (hc : P.absorbers[sn]? = some c) {fs' : FS ℝ} {rows : List (Row ℝ)} {r : Output.Response ℝ}
    (hsave : saveAll ps dir fs ws = .ok fs') (hread : readBuffers order fs' ps dir = .ok rows)
    (hresp : OutputRounded.impulseResponse A.toArith sum (rows.map Row.hits) P.absorbers.length P.timeStep = .ok r) :
    ∃ col, r.columns[sn]? = some col ∧ col.length = b * B + 1 ∧ ∀ n, n ≤ b * B →
      ((n : ℝ) - 1) * ((1 + 1 / 10 ^ 5) * (P.raySpeed * P.timeStep)) + (1 + 1 / 10 ^ 14) * P.absorberRadius <
        Vec3.norm (c - source) → col[n]? = some 0 := by
  have hsn : sn < P.absorbers.length := (List.getElem?_eq_some_iff.1 hc).1
  obtain ⟨ws', fs'', rows', h1, h2, h3, h4, h5, -, -, h8⟩ := C132_run (A := A) hg hdir ho fs hpa hpb hpc hP hs ht hB hb hsize hsrc
    hraw (fun e => by simp [e] at hsn) hlen hrays hsum
  obtain rfl : ws = ws' := Option.some.inj (h.symm.trans h1)
  obtain rfl : fs' = fs'' := Except.ok.inj (hsave.symm.trans h2)
  obtain rfl : rows = rows' := Except.ok.inj (hread.symm.trans h3)
  obtain ⟨-, -, s, hs0, k⟩ := h8 r hresp
  obtain ⟨col, c1, c2, c3, c4⟩ := k sn hsn
  refine ⟨col, c1, c2, fun n hn hearly => ?_⟩
  cases n with
  | zero => exact c3
  | succ n =>
    have e1 : rows[n]? = some (rows[n]'(by omega)) := List.getElem?_eq_getElem _
    have e2 : rows[n + 1]? = some (rows[n + 1]'(by omega)) := List.getElem?_eq_getElem _
    obtain ⟨v, v1, v2⟩ := c4 n _ (by omega) e1
    rw [h5 n (by omega)] at e1
    rw [h5 (n + 1) (by omega)] at e2
    obtain ⟨y, y1, y2, -⟩ := C131_hits hP hs ht hB hb hsize hsrc hraw h e1 e2 hsn
    have hz := C131_not_before hP hs ht hB hb hsize hsrc hraw h hR hc e2 hearly
    obtain rfl : y = 0 := Option.some.inj (y1.symm.trans hz)
    have hh : handedOver P (InAbsorber A P) (rows[n]'(by omega)) sn = 0 := by
      refine le_antisymm ?_ (handedOver_nonneg hP.eps _ _)
      by_contra hpos
      exact absurd y2 (not_le.2 (mul_pos (pow_pos (by norm_num) _) (not_le.1 hpos)))
    rw [hh, zero_div, mul_zero, sub_zero] at v2
    rw [v1, abs_eq_zero.1 (le_antisymm v2 (abs_nonneg _))]

/-! ### The hypotheses can be met -/

/-- Adding one number after the other is a way to add them. -/
theorem summed_foldl (A : Rounded.Arith) : ∀ (xs l : List ℝ) (a : ℝ), l ≠ [] → OutputRounded.Summed A l a →
    OutputRounded.Summed A (l ++ xs) (xs.foldl A.add a) := by
  intro xs
  induction xs with
  | nil => intro l a _ h; simpa using h
  | cons x xs ih =>
    intro l a hl h
    have := ih (l ++ [x]) (A.add a x) (by simp) (.add hl (by simp) h (.one x))
    simpa using this

/-- One number after the other. -/
def oneByOne (A : Rounded.Arith) : List ℝ → ℝ
  | [] => 0
  | x :: xs => xs.foldl A.add x

theorem oneByOne_summed (A : Rounded.Arith) : ∀ l, OutputRounded.Summed A l (oneByOne A l)
  | [] => .nil
  | x :: xs => summed_foldl A xs [x] x (by simp) (.one x)

/-- 53 binary digits, the hall of C117, five thousand batches of a hundred steps, two rays from a source in the absorber: there is
an impulse response, and its second value is not zero. -/
example : ∃ ws fs' rows r s c v, simulationRun binary64 hall (2 * 10 ^ 6 + 1) 100 5000 ⟨10, 1, 1⟩ [⟨-3, 4, 0⟩, ⟨1, 0, 0⟩] = some ws ∧
    saveAll defaultPaths "out/states".toList [] ws = .ok fs' ∧ readBuffers List.reverse fs' defaultPaths "out/states".toList = .ok rows ∧
    OutputRounded.impulseResponse binary64.toArith (oneByOne binary64.toArith) (rows.map Row.hits) 1 hall.timeStep = .ok r ∧
    r.columns = [c] ∧ c.length = 500001 ∧ c[0]? = some 0 ∧ c[1]? = some v ∧ 0 < s ∧ |v - 2 / s| ≤ 1 / 10 ^ 8 * (2 / s) := by
  have f10 : fl 10 = 10 := by dyadic (-49) 5629499534213120
  have f1 : fl 1 = 1 := binary64.rep_one
  have hs : 0 < hall.raySpeed := by norm_num [hall]
  have ht : 0 < hall.timeStep := by norm_num [hall]
  have hz : SizeForBatches hall 5000 :=
    ⟨20, by norm_num [hall], by norm_num [hall], by norm_num [hall], by norm_num [hall]⟩
  have hsrc : RepV binary64 ⟨10, 1, 1⟩ := ⟨f10, f1, f1⟩
  have hraw : ∀ d ∈ [(⟨-3, 4, 0⟩ : Vec3 ℝ), ⟨1, 0, 0⟩], d ≠ 0 := by
    intro d hd
    simp only [List.mem_cons, List.not_mem_nil, or_false] at hd
    rcases hd with rfl | rfl <;> simp [Vec3.ext_iff]
  have hw : hall.absorbers.length = 1 := rfl
  have habs : hall.absorbers = [⟨10, 1, 1⟩] := rfl
  have heps : hall.eps < 1 := by norm_num [hall]
  obtain ⟨ws, fs', rows, h1, h2, h3, h4, h5, h6, -, h8⟩ := C132_run (A := binary64) (P := hall) (B := 100) (b := 5000)
    default_good (dir := "out/states".toList) ⟨by decide, by decide, by decide⟩ (order := List.reverse) List.reverse_perm []
    (by simp [NoneMatch]) (by simp [NoneMatch]) (by simp [NoneMatch]) hall_ordinary hs ht (by norm_num) (by norm_num) hz hsrc hraw
    (by simp [habs]) (by norm_num) (by simp) (oneByOne_summed binary64.toArith)
  rw [hw] at h6 h8
  obtain ⟨ws', e1, f0, -⟩ := C131_run (A := binary64) (B := 100) hall_ordinary hs ht (by norm_num) (by norm_num) hz hsrc hraw
  obtain rfl : ws = ws' := Option.some.inj (h1.symm.trans e1)
  have hrow : rows[0]? = some ⟨[⟨10, 1, 1⟩, ⟨10, 1, 1⟩], [1, 1], [0]⟩ := by
    rw [h5 0 (by rw [h4]; norm_num), f0]
    rfl
  have hin : InAbsorber binary64 hall ⟨10, 1, 1⟩ ⟨10, 1, 1⟩ := by
    unfold InAbsorber sqDist
    rw [subv_self']
    simp only [Vec3.zero_x, Vec3.zero_y, Vec3.zero_z, zeros.1, zeros.2]
    refine lt_of_lt_of_le ?_ ((mul_rel binary64.toArith hall.absorberRadius hall.absorberRadius).le (mul_self_nonneg _)).1
    norm_num [hall]
  have e : handedOver hall (InAbsorber binary64 hall) ⟨[⟨10, 1, 1⟩, ⟨10, 1, 1⟩], [1, 1], [0]⟩ 0 = 2 := by
    simp [handedOver, habs, hin, heps, List.findIdx?_cons]
    norm_num
  obtain ⟨r, hr⟩ := h6.2 ⟨0, _, by norm_num, hrow, 0, ⟨10, 1, 1⟩, 1, rfl, rfl, heps, ⟨10, 1, 1⟩, by simp [habs], hin⟩
  obtain ⟨-, k2, s, hs0, k3⟩ := h8 r hr
  obtain ⟨c, c1, c2, c3, c4⟩ := k3 0 (by norm_num)
  obtain ⟨v, v1, v2⟩ := c4 0 _ (by norm_num) hrow
  rw [e] at v2
  have hcol : r.columns = [c] := by
    obtain ⟨x, hx⟩ := List.length_eq_one_iff.1 k2
    rw [hx] at c1 ⊢
    simpa using c1
  refine ⟨ws, fs', rows, r, s, c, v, h1, h2, h3, hr, hcol, c2, c3, v1, hs0, v2.trans ?_⟩
  refine mul_le_mul_of_nonneg_right ?_ (by positivity)
  norm_num

/-- The hall with a second absorber two metres from the first. -/
noncomputable def hallOfTwo : Params ℝ := { hall with absorbers := [⟨10, 1, 1⟩, ⟨12, 1, 1⟩] }

/-- The same run with a second absorber: there is an impulse response, and the second absorber hears nothing in steps 0 to 100. -/
example : ∃ ws fs' rows r c, simulationRun binary64 hallOfTwo (2 * 10 ^ 6 + 1) 100 5000 ⟨10, 1, 1⟩ [⟨-3, 4, 0⟩, ⟨1, 0, 0⟩] = some ws ∧
    saveAll defaultPaths "out/states".toList [] ws = .ok fs' ∧ readBuffers List.reverse fs' defaultPaths "out/states".toList = .ok rows ∧
    OutputRounded.impulseResponse binary64.toArith (oneByOne binary64.toArith) (rows.map Row.hits) 2 hallOfTwo.timeStep = .ok r ∧
    r.columns[1]? = some c ∧ c.length = 500001 ∧ ∀ n ≤ 100, c[n]? = some 0 := by
  have f10 : fl 10 = 10 := by dyadic (-49) 5629499534213120
  have f1 : fl 1 = 1 := binary64.rep_one
  have hord : Ordinary hallOfTwo :=
    ⟨hall_ordinary.speed, hall_ordinary.time, hall_ordinary.eps, hall_ordinary.absorption, hall_ordinary.normals, hall_ordinary.size⟩
  have hs : 0 < hallOfTwo.raySpeed := by norm_num [hallOfTwo, hall]
  have ht : 0 < hallOfTwo.timeStep := by norm_num [hallOfTwo, hall]
  have hz : SizeForBatches hallOfTwo 5000 :=
    ⟨20, by norm_num [hallOfTwo, hall], by norm_num [hallOfTwo, hall], by norm_num [hallOfTwo, hall], by norm_num [hallOfTwo, hall]⟩
  have hsrc : RepV binary64 ⟨10, 1, 1⟩ := ⟨f10, f1, f1⟩
  have hraw : ∀ d ∈ [(⟨-3, 4, 0⟩ : Vec3 ℝ), ⟨1, 0, 0⟩], d ≠ 0 := by
    intro d hd
    simp only [List.mem_cons, List.not_mem_nil, or_false] at hd
    rcases hd with rfl | rfl <;> simp [Vec3.ext_iff]
  have habs : hallOfTwo.absorbers = [⟨10, 1, 1⟩, ⟨12, 1, 1⟩] := rfl
  have heps : hallOfTwo.eps < 1 := by norm_num [hallOfTwo, hall]
  have hdir : GoodDir "out/states".toList := ⟨by decide, by decide, by decide⟩
  obtain ⟨ws, fs', rows, h1, h2, h3, h4, h5, h6, -, -⟩ := C132_run (A := binary64) (P := hallOfTwo) (B := 100) (b := 5000)
    default_good hdir (order := List.reverse) List.reverse_perm []
    (by simp [NoneMatch]) (by simp [NoneMatch]) (by simp [NoneMatch]) hord hs ht (by norm_num) (by norm_num) hz hsrc hraw
    (by simp [habs]) (by norm_num) (by simp) (oneByOne_summed binary64.toArith)
  obtain ⟨ws', e1, f0, -⟩ := C131_run (A := binary64) (B := 100) hord hs ht (by norm_num) (by norm_num) hz hsrc hraw
  obtain rfl : ws = ws' := Option.some.inj (h1.symm.trans e1)
  have hrow : rows[0]? = some ⟨[⟨10, 1, 1⟩, ⟨10, 1, 1⟩], [1, 1], [0, 0]⟩ := by
    rw [h5 0 (by rw [h4]; norm_num), f0]
    rfl
  have hin : InAbsorber binary64 hallOfTwo ⟨10, 1, 1⟩ ⟨10, 1, 1⟩ := by
    unfold InAbsorber sqDist
    rw [subv_self']
    simp only [Vec3.zero_x, Vec3.zero_y, Vec3.zero_z, zeros.1, zeros.2]
    refine lt_of_lt_of_le ?_ ((mul_rel binary64.toArith hallOfTwo.absorberRadius hallOfTwo.absorberRadius).le (mul_self_nonneg _)).1
    norm_num [hallOfTwo, hall]
  obtain ⟨r, hr⟩ := h6.2 ⟨0, _, by norm_num, hrow, 0, ⟨10, 1, 1⟩, 1, rfl, rfl, heps, ⟨10, 1, 1⟩, by simp [habs], hin⟩
  obtain ⟨c, c1, c2, c3⟩ := C132_silent (A := binary64) (P := hallOfTwo) (B := 100) (b := 5000)
    default_good hdir (order := List.reverse) List.reverse_perm []
    (by simp [NoneMatch]) (by simp [NoneMatch]) (by simp [NoneMatch]) hord hs ht (by norm_num) (by norm_num) hz hsrc hraw
    (by norm_num) (by simp) (oneByOne_summed binary64.toArith) h1 (by norm_num [hallOfTwo, hall]) (sn := 1) (c := ⟨12, 1, 1⟩) rfl
    h2 h3 hr
  refine ⟨ws, fs', rows, r, c, h1, h2, h3, hr, c1, c2, fun n hn => c3 n (by omega) ?_⟩
  have hn' : (n : ℝ) ≤ 100 := by exact_mod_cast hn
  have hnorm : Vec3.norm ((⟨12, 1, 1⟩ : Vec3 ℝ) - ⟨10, 1, 1⟩) = 2 := by
    unfold Vec3.norm
    rw [Real.sqrt_eq_iff_mul_self_eq (Vec3.normSq_nonneg _) (by norm_num)]
    norm_num [Vec3.normSq, Vec3.dot]
  rw [hnorm]
  norm_num [hallOfTwo, hall]
  linarith

end B3d.SimRounded
