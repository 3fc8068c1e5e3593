import Verif.Props.WholeRun
import Verif.Props.Output

/-!
# Property C130: the impulse response of a run

From the run through the files on disk to the table.
-/

namespace B3d.Sim
open Wildcard Buffers

variable {K : Type} [Field K] [LinearOrder K] [IsStrictOrderedRing K] [FloorRing K] {P : Params K}

/-- A ray of the row with energy is in an absorber. -/
def Heard (P : Params K) (row : Row K) : Prop :=
  ∃ (k : Nat) (p : Vec3 K) (e : K), row.pos[k]? = some p ∧ row.energy[k]? = some e ∧ P.eps < e ∧
    ∃ c ∈ P.absorbers, Vec3.normSq (p - c) < P.absorberRadius ^ 2

omit [FloorRing K] in
theorem handedTo_nonneg (heps : 0 ≤ P.eps) (row : Row K) (sn : Nat) : 0 ≤ handedTo P row sn := by
  unfold handedTo
  refine List.sum_nonneg fun x hx => ?_
  obtain ⟨⟨p, e⟩, -, rfl⟩ := List.mem_map.1 hx
  split
  · rename_i h; exact heps.trans h.1.le
  · exact le_rfl

omit [FloorRing K] in
theorem heard_iff (heps : 0 ≤ P.eps) (row : Row K) :
    Heard P row ↔ ∃ sn < P.absorbers.length, 0 < handedTo P row sn := by
  constructor
  · rintro ⟨k, p, e, hp, he, hlt, c, hc, hin⟩
    have hs : (firstAbsorber P.absorberRadius P.absorbers p).isSome := by
      rw [firstAbsorber, List.findIdx?_isSome, List.any_eq_true]
      exact ⟨c, hc, by simpa using hin⟩
    obtain ⟨sn, hsn⟩ := Option.isSome_iff_exists.1 hs
    have hlen : sn < P.absorbers.length := by
      rw [firstAbsorber, List.findIdx?_eq_some_iff_getElem] at hsn
      exact hsn.1
    refine ⟨sn, hlen, ?_⟩
    have hmem : (p, e) ∈ row.pos.zip row.energy := by
      refine List.mem_of_getElem? (i := k) ?_
      rw [List.getElem?_zip_eq_some]
      exact ⟨hp, he⟩
    unfold handedTo
    refine lt_of_lt_of_le (heps.trans_lt hlt) ?_
    have hm := List.mem_map_of_mem (f := fun r : Vec3 K × K =>
      if P.eps < r.2 ∧ firstAbsorber P.absorberRadius P.absorbers r.1 = some sn then r.2 else 0) hmem
    simp only [hlt, hsn, and_self, if_true] at hm
    refine List.single_le_sum ?_ _ hm
    intro x hx
    obtain ⟨⟨p, e⟩, -, rfl⟩ := List.mem_map.1 hx
    split
    · rename_i h; exact heps.trans h.1.le
    · exact le_rfl
  · rintro ⟨sn, -, hpos⟩
    by_contra hno
    refine absurd hpos (not_lt.2 (le_of_eq ?_))
    unfold handedTo
    refine List.sum_eq_zero fun x hx => ?_
    obtain ⟨⟨p, e⟩, hz, rfl⟩ := List.mem_map.1 hx
    refine if_neg ?_
    rintro ⟨hlt, hf⟩
    obtain ⟨k, hk⟩ := List.getElem?_of_mem hz
    rw [List.getElem?_zip_eq_some] at hk
    have hs : (firstAbsorber P.absorberRadius P.absorbers p).isSome := by rw [hf]; rfl
    rw [firstAbsorber, List.findIdx?_isSome, List.any_eq_true] at hs
    obtain ⟨c, hc, hin⟩ := hs
    exact hno ⟨k, p, e, hk.1, hk.2, hlt, c, hc, by simpa using hin⟩

/-- **C130.**  A simulation of `b` batches of `B` steps that ends leaves files from which the `b * B + 1` rows of the run are read.
With absorbers, the impulse response of what is read is a table exactly if in some step before the last a ray with energy was
in an absorber, and `AssertionError` otherwise.  The table has a row for every step; the values of an absorber are zero at
step 0 and after that, up to one common positive factor, the energies that the rays caught by the absorber had one step before. -/
theorem C130_response {ps : Paths} {pa pb pc : List Part} (hg : GoodPaths ps pa pb pc) {dir : Str}
    (hdir : GoodDir dir) {order : List Str → List Str} (ho : ∀ l, (order l).Perm l) (fs : FS K)
    (hpa : NoneMatch fs dir ps.position) (hpb : NoneMatch fs dir ps.energy) (hpc : NoneMatch fs dir ps.hits)
    (hn : ∀ k, Vec3.normSq (P.geo.vn k) = 1) (heps : 0 ≤ P.eps) (ha : ∀ k, 0 ≤ P.absorption k) (hdt : P.timeStep ≠ 0)
    {fuel B b : Nat} (hB : 0 < B) (hb : 0 < b) {source : Vec3 K} {dirs : List (Vec3 K)} (hd : ∀ d ∈ dirs, Vec3.normSq d = 1)
    {ws : List (Nat × Row K)} (h : simulationRun P fuel B b source dirs = some ws) (hab : P.absorbers ≠ []) :
    ∃ fs' rows, saveAll ps dir fs ws = .ok fs' ∧ readBuffers order fs' ps dir = .ok rows ∧ rows.length = b * B + 1 ∧
      (∀ n, n < rows.length → rows[n]? = fileOf ws n) ∧
      ((∃ r, Output.impulseResponse (rows.map Row.hits) P.absorbers.length P.timeStep = .ok r) ↔
        ∃ n row, n < b * B ∧ rows[n]? = some row ∧ Heard P row) ∧
      ((∀ n row, n < b * B → rows[n]? = some row → ¬ Heard P row) →
        Output.impulseResponse (rows.map Row.hits) P.absorbers.length P.timeStep = .error .assertionError) ∧
      ∀ r, Output.impulseResponse (rows.map Row.hits) P.absorbers.length P.timeStep = .ok r →
        r.time.length = b * B + 1 ∧ r.columns.length = P.absorbers.length ∧
        ∃ s, 0 < s ∧ ∀ sn < P.absorbers.length, ∃ c, r.columns[sn]? = some c ∧ c.length = b * B + 1 ∧ c[0]? = some 0 ∧
          ∀ n row, n < b * B → rows[n]? = some row → c[n + 1]? = some (handedTo P row sn / s) := by
  obtain ⟨fs', rows, s1, s2, s3, s4, s5, s6⟩ := C53_run hg hdir ho fs hpa hpb hpc fuel B b hB hb source dirs ws h
  have hwidth : 0 < P.absorbers.length := List.length_pos_iff.2 hab
  -- the hits of all rows
  have hhits : ∀ n row row', rows[n]? = some row → rows[n + 1]? = some row' → row'.hits.length = P.absorbers.length ∧
      ∀ sn < P.absorbers.length, row'.hits[sn]? = some (handedTo P row sn) := by
    intro n row row' h1 h2
    have l2 := (List.getElem?_eq_some_iff.1 h2).1
    refine ⟨(s5 row' (List.mem_of_getElem? h2)).2.2, ?_⟩
    rw [s4 n (by omega)] at h1
    rw [s4 (n + 1) l2] at h2
    exact (C129_step hn heps ha hdt hB hd h h1 h2).2.2.2.1
  have hnonneg : ∀ row ∈ rows, ∀ sn < P.absorbers.length, ∃ x, row.hits[sn]? = some x ∧ 0 ≤ x := by
    intro row hrow sn hsn
    obtain ⟨n, hnr⟩ := List.getElem?_of_mem hrow
    cases n with
    | zero =>
      rw [s6, Option.some.injEq] at hnr
      subst hnr
      exact ⟨0, by simp [hsn], le_rfl⟩
    | succ n =>
      have l2 := (List.getElem?_eq_some_iff.1 hnr).1
      have h1 : rows[n]? = some (rows[n]'(by omega)) := List.getElem?_eq_getElem _
      exact ⟨_, (hhits n _ row h1 hnr).2 sn hsn, handedTo_nonneg heps _ _⟩
  have hcol : (∃ an, an < P.absorbers.length ∧ 0 < ((rows.map Row.hits).map fun r => r.getD an 0).sum) ↔
      ∃ n row, n < b * B ∧ rows[n]? = some row ∧ Heard P row := by
    constructor
    · rintro ⟨an, han, hpos⟩
      by_contra hno
      refine absurd hpos (not_lt.2 (le_of_eq ?_))
      refine List.sum_eq_zero fun x hx => ?_
      rw [List.map_map, List.mem_map] at hx
      obtain ⟨row, hrow, rfl⟩ := hx
      obtain ⟨n, hnr⟩ := List.getElem?_of_mem hrow
      cases n with
      | zero =>
        rw [s6, Option.some.injEq] at hnr
        subst hnr
        simp [List.getD_eq_getElem?_getD, han]
      | succ n =>
        have l2 := (List.getElem?_eq_some_iff.1 hnr).1
        have h1 : rows[n]? = some (rows[n]'(by omega)) := List.getElem?_eq_getElem _
        have hv := (hhits n _ row h1 hnr).2 an han
        simp only [Function.comp_apply, List.getD_eq_getElem?_getD, hv, Option.getD_some]
        refine le_antisymm (not_lt.1 fun hp => hno ⟨n, _, by omega, h1, ?_⟩) (handedTo_nonneg heps _ _)
        exact (heard_iff heps _).2 ⟨an, han, hp⟩
    · rintro ⟨n, row, hnb, hr, hh⟩
      obtain ⟨sn, hsn, hpos⟩ := (heard_iff heps row).1 hh
      have h2 : rows[n + 1]? = some (rows[n + 1]'(by omega)) := List.getElem?_eq_getElem _
      refine ⟨sn, hsn, hpos.trans_le ?_⟩
      refine List.single_le_sum ?_ _ ?_
      · intro x hx
        rw [List.map_map, List.mem_map] at hx
        obtain ⟨q, hq, rfl⟩ := hx
        obtain ⟨x, hx, h0⟩ := hnonneg q hq sn hsn
        simp only [Function.comp_apply, List.getD_eq_getElem?_getD, hx, Option.getD_some, h0]
      · rw [List.map_map, List.mem_map]
        refine ⟨_, List.mem_of_getElem? h2, ?_⟩
        simp only [Function.comp_apply, List.getD_eq_getElem?_getD, (hhits n row _ hr h2).2 sn hsn, Option.getD_some]
  obtain ⟨-, e2, e3⟩ := Output.C57_errors (rows.map Row.hits) P.absorbers.length P.timeStep
  have hfail : (∀ n row, n < b * B → rows[n]? = some row → ¬ Heard P row) →
      Output.impulseResponse (rows.map Row.hits) P.absorbers.length P.timeStep = .error .assertionError := by
    intro hno
    refine e3 hwidth fun an han => not_lt.1 fun hp => ?_
    obtain ⟨n, row, a1, a2, a3⟩ := hcol.1 ⟨an, han, hp⟩
    exact hno n row a1 a2 a3
  refine ⟨fs', rows, s1, s2, s3, s4, ⟨?_, fun hh => e2 hwidth (hcol.2 hh)⟩, hfail, ?_⟩
  · rintro ⟨r, hr⟩
    by_contra hno
    rw [hfail (fun n row a1 a2 a3 => hno ⟨n, row, a1, a2, a3⟩)] at hr
    cases hr
  · intro r hr
    have hrect : Output.Rect (rows.map Row.hits) P.absorbers.length := by
      intro x hx
      obtain ⟨row, hrow, rfl⟩ := List.mem_map.1 hx
      exact (s5 row hrow).2.2
    obtain ⟨t1, t2, ⟨s, hs, hc⟩, -⟩ := Output.C57_normalised_partial hrect (by
      intro x hx y hy
      obtain ⟨row, hrow, rfl⟩ := List.mem_map.1 hx
      obtain ⟨i, hi⟩ := List.getElem?_of_mem hy
      have hil : i < P.absorbers.length := by
        rw [← (s5 row hrow).2.2]
        exact (List.getElem?_eq_some_iff.1 hi).1
      obtain ⟨z, hz, h0⟩ := hnonneg row hrow i hil
      rw [hi, Option.some.injEq] at hz
      rw [hz]; exact h0) hr
    refine ⟨by rw [t1, List.length_map, s3], t2, s, hs, fun sn hsn => ?_⟩
    obtain ⟨c, c1, c2, c3⟩ := hc sn hsn
    refine ⟨c, c1, by rw [c2, List.length_map, s3], ?_, ?_⟩
    · obtain ⟨x, x1, x2⟩ := c3 0 (by rw [List.length_map, s3]; omega)
      rw [x2]
      simp only [Output.at?, List.getElem?_map, s6, Option.map_some, Option.bind_some, List.getElem?_eq_getElem hsn,
        Option.some.injEq] at x1
      rw [← x1, zero_div]
    · intro n row hnb hrow
      obtain ⟨x, x1, x2⟩ := c3 (n + 1) (by rw [List.length_map, s3]; omega)
      have h2 : rows[n + 1]? = some (rows[n + 1]'(by omega)) := List.getElem?_eq_getElem _
      rw [x2]
      simp only [Output.at?, List.getElem?_map, h2, Option.map_some, Option.bind_some, (hhits n row _ hrow h2).2 sn hsn,
        Option.some.injEq] at x1
      rw [← x1]

/-- **C130, silence before the direct sound.**  In the impulse response that is calculated from the saved files of a run, the values
of an absorber at the distance `D` from the source are zero at all steps `n` with `(n - 1) * speed * dt ≤ D - radius`. -/
theorem C130_silent {ps : Paths} {pa pb pc : List Part} (hg : GoodPaths ps pa pb pc) {dir : Str}
    (hdir : GoodDir dir) {order : List Str → List Str} (ho : ∀ l, (order l).Perm l) (fs : FS K)
    (hpa : NoneMatch fs dir ps.position) (hpb : NoneMatch fs dir ps.energy) (hpc : NoneMatch fs dir ps.hits)
    (hn : ∀ k, Vec3.normSq (P.geo.vn k) = 1) (heps : 0 ≤ P.eps) (ha : ∀ k, 0 ≤ P.absorption k) (hdt : P.timeStep ≠ 0)
    {fuel B b : Nat} (hB : 0 < B) (hb : 0 < b) {source : Vec3 K} {dirs : List (Vec3 K)} (hd : ∀ d ∈ dirs, Vec3.normSq d = 1)
    {ws : List (Nat × Row K)} (h : simulationRun P fuel B b source dirs = some ws) (hv : 0 ≤ P.raySpeed) (ht : 0 ≤ P.timeStep)
    (hR : 0 ≤ P.absorberRadius) {sn : Nat} {c : Vec3 K} {D : K} (hc : P.absorbers[sn]? = some c)
    (hD : Vec3.normSq (c - source) = D ^ 2) {fs' : FS K} {rows : List (Row K)} {r : Output.Response K}
    (hsave : saveAll ps dir fs ws = .ok fs') (hread : readBuffers order fs' ps dir = .ok rows)
    (hresp : Output.impulseResponse (rows.map Row.hits) P.absorbers.length P.timeStep = .ok r) :
    ∃ col, r.columns[sn]? = some col ∧ ∀ n, n ≤ b * B → ((n : K) - 1) * (P.raySpeed * P.timeStep) ≤ D - P.absorberRadius →
      col[n]? = some 0 := by
  have hsn := (List.getElem?_eq_some_iff.1 hc).1
  obtain ⟨fs1, rows1, s1, s2, s3, s4, -, -, s7⟩ := C130_response hg hdir ho fs hpa hpb hpc hn heps ha hdt hB hb hd h
    (by rintro he; rw [he] at hc; simp at hc)
  obtain rfl : fs' = fs1 := Except.ok.inj (hsave.symm.trans s1)
  obtain rfl : rows = rows1 := Except.ok.inj (hread.symm.trans s2)
  obtain ⟨-, -, s, -, hcol⟩ := s7 r hresp
  obtain ⟨col, c1, c2, c3, c4⟩ := hcol sn hsn
  refine ⟨col, c1, fun n hnb hearly => ?_⟩
  cases n with
  | zero => exact c3
  | succ n =>
    have h1 : rows[n]? = some (rows[n]'(by omega)) := List.getElem?_eq_getElem _
    have h2 : rows[n + 1]? = some (rows[n + 1]'(by omega)) := List.getElem?_eq_getElem _
    have g1 := h1
    have g2 := h2
    rw [s4 n (by omega)] at g1
    rw [s4 (n + 1) (by omega)] at g2
    have e1 := (C129_step hn heps ha hdt hB hd h g1 g2).2.2.2.1 sn hsn
    have e2 := C129_not_before hn heps ha hdt hB hb hd h hv ht hR hc hD g2 hearly
    rw [c4 n _ (by omega) h1, Option.some.inj (e1.symm.trans e2), zero_div]

/-- The hypotheses are met (those about the run: example at the end of `Props/WholeRun.lean`; those about the paths:
`Props/Buffers.lean`): two rays, one straight to the absorber and one by a wall that takes a fifth of its energy, in three
batches of two steps, saved, read and converted. -/
example : ((simulationRun absorbingSlab 10 2 3 ⟨5 / 2, 1, 1⟩ [⟨1, 0, 0⟩, ⟨-1, 0, 0⟩]).map fun ws =>
    match saveAll defaultPaths "out/states".toList [] ws with
    | .error _ => none
    | .ok fs' =>
      match readBuffers List.reverse fs' defaultPaths "out/states".toList with
      | .error _ => none
      | .ok rows => match Output.impulseResponse (rows.map Row.hits) 1 (1 / 100) with
        | .error _ => none
        | .ok r => some r.columns) = some (some [[0, 0, 5 / 9, 0, 0, 0, 4 / 9]]) := by
  decide +kernel

/-- A run of one step, too short for the ray to be recorded. -/
example : ((simulationRun absorbingSlab 10 1 1 ⟨5 / 2, 1, 1⟩ [⟨1, 0, 0⟩]).map fun ws =>
    match saveAll defaultPaths "out/states".toList [] ws with
    | .error _ => none
    | .ok fs' =>
      match readBuffers List.reverse fs' defaultPaths "out/states".toList with
      | .error _ => none
      | .ok rows => some (Output.impulseResponse (rows.map Row.hits) 1 (1 / 100))) =
    some (some (.error .assertionError)) := by
  decide +kernel

end B3d.Sim
