import Verif.Spec.Walls
import Verif.Props.SimFate
import Verif.Props.SimBatch
import Verif.Proofs.Norms

/-!
# C82: rays do not pass through walls

The tests of the simulation (whether a ray hits a polygon, and how far the polygon is) are parameters here; what they
notice is not passed.  `Props/WallsReal.lean` says what the tests of the code notice.
-/

namespace B3d.Sim

open Spec

variable {P : Params ℝ} {polys : List (List (Vec3 ℝ))}

/-- Speed and step of a ray. -/
structure Paced (P : Params ℝ) (s : St ℝ) : Prop where
  hits : s.hits.length = P.absorbers.length
  rays : ∀ r ∈ s.rays, r.delta = P.timeStep • r.vel ∧ Vec3.norm r.vel ≤ P.raySpeed

theorem norm_eq_of_normSq {a b : Vec3 ℝ} (h : Vec3.normSq a = Vec3.normSq b) : Vec3.norm a = Vec3.norm b := by
  unfold Vec3.norm; rw [h]

theorem paced_step (hn : ∀ k, Vec3.normSq (P.geo.vn k) = 1) {fuel : Nat} {s s' : St ℝ} (hp : Paced P s)
    (h : step P fuel s = some s') : Paced P s' :=
  ⟨by rw [step_hits_length h, hp.hits],
    forall₂_right ((step_iff hp.hits).1 h).1 fun x hx y hy =>
      ⟨rayStep_delta hy (hp.rays x hx).1, by
        rw [norm_eq_of_normSq (rayStep_vel hy hn)]; exact (hp.rays x hx).2⟩⟩

theorem paced_start {a : Arrays ℝ} (hl : a.hits.length = P.absorbers.length)
    (hv : ∀ r ∈ a.rays, Vec3.norm r.2.1 ≤ P.raySpeed) : Paced P (start P a) :=
  ⟨hl, by
    intro r hr
    simp only [start, List.mem_map] at hr
    obtain ⟨x, hx, rfl⟩ := hr
    exact ⟨rfl, hv x hx⟩⟩

/-- A moving ray does not meet a wall it notices. -/
theorem moves_free (hsc : Scene P polys) (hvox : P.raySpeed * P.timeStep ≤ P.gridStep) {r r' : Ray ℝ}
    (hf : Fate P r r') (hv : Vec3.norm r'.vel ≤ P.raySpeed) (hne : r'.pos ≠ r.pos) :
    r'.pos = r.pos + P.timeStep • r'.vel ∧
    ∀ (region : Nat → Vec3 ℝ → Prop) (k : Nat) (x : Vec3 ℝ), OnSegment r.pos r'.pos x → OnWall P polys region k x →
      ¬ Noticed P.geo r.pos r'.vel k x := by
  cases hf with
  | rests _ h => exact absurd (by rw [h]) hne
  | absorbed _ _ hp => exact absurd hp hne
  | lost _ _ _ hp => exact absurd hp hne
  | spent _ _ _ _ _ _ _ _ hp => exact absurd hp hne
  | waits _ _ _ _ _ _ _ _ _ _ hp => exact absurd hp hne
  | moves ks h0 ha hi chain left free hv' hp he =>
    refine ⟨hp, ?_⟩
    rintro region k x ⟨t, ht0, ht1, rfl⟩ ⟨⟨pts, hpts, hof⟩, hop, -⟩ ⟨hhit, hdist⟩
    have e1 : r'.pos - r.pos = P.timeStep • r'.vel := by rw [hp]; abel
    have e2 : r.pos + t • (r'.pos - r.pos) - r.pos = t • P.timeStep • r'.vel := by rw [e1]; abel
    have hlen : Vec3.norm (r.pos + t • (r'.pos - r.pos) - r.pos) ≤ P.raySpeed * P.timeStep := by
      rw [e2, Vec3.norm_smul, Vec3.norm_smul, abs_of_nonneg ht0, abs_of_nonneg hsc.timeStep.le]
      have h1 : P.timeStep * Vec3.norm r'.vel ≤ P.timeStep * P.raySpeed :=
        mul_le_mul_of_nonneg_left hv hsc.timeStep.le
      have h2 : t * (P.timeStep * Vec3.norm r'.vel) ≤ 1 * (P.timeStep * Vec3.norm r'.vel) :=
        mul_le_mul_of_nonneg_right ht1 (mul_nonneg hsc.timeStep.le (Vec3.norm_nonneg _))
      linarith
    obtain ⟨eps, heps, hg⟩ := hsc.grid
    have hmem : k ∈ polygonsAround P r.pos := by
      refine C44_lookup P.setIter hsc.set P.lo P.hi polys P.gridStep eps hsc.gridStep heps P.grid hg k pts hpts
        (hsc.within pts (List.mem_of_getElem? hpts)) r.pos _ hof ⟨?_, ?_, ?_⟩
      · exact ((Vec3.abs_x_le _).trans hlen).trans hvox
      · exact ((Vec3.abs_y_le _).trans hlen).trans hvox
      · exact ((Vec3.abs_z_le _).trans hlen).trans hvox
    rw [hv'] at hhit
    have h3 := free k hmem ⟨hop, hhit⟩
    have h4 : P.raySpeed * P.timeStep ≤ P.reflDist := by
      unfold Params.reflDist
      have := mul_nonneg hsc.raySpeed hsc.timeStep.le
      nlinarith
    linarith

/-- **C82, what is noticed is not passed.**  Between two rows of the buffers a ray stays where it is, or it moves along
a straight segment no longer than one time step at the ray speed, on which there is no point of an opaque polygon
that the tests of the simulation notice.  The cells of the grid must not be smaller than this distance. -/
theorem C82_noticed (hsc : Scene P polys) (hvox : P.raySpeed * P.timeStep ≤ P.gridStep) (fuel n : Nat) (a : Arrays ℝ)
    (rows : List (Row ℝ)) (hl : a.hits.length = P.absorbers.length)
    (hv : ∀ r ∈ a.rays, Vec3.norm r.2.1 ≤ P.raySpeed) (h : simulationLoop P fuel n a = some rows) (i : Nat)
    (ri rj : Row ℝ) (hi : rows[i]? = some ri) (hj : rows[i + 1]? = some rj) :
    List.Forall₂ (fun p q => Vec3.norm (q - p) ≤ P.raySpeed * P.timeStep ∧
      (q = p ∨ ∀ (region : Nat → Vec3 ℝ → Prop) (k : Nat) (x : Vec3 ℝ), OnSegment p q x → OnWall P polys region k x →
        ¬ Noticed P.geo p ((1 / P.timeStep) • (q - p)) k x)) ri.pos rj.pos := by
  obtain ⟨l, hs, rfl⟩ := simulationLoop_states h
  obtain ⟨s, h1, rfl⟩ := row_state hi
  obtain ⟨s', h2, rfl⟩ := row_state hj
  have hinv := steps_invariant hs (Paced P) (paced_start hl hv) fun _ _ hg hst => paced_step hsc.normals hg hst
  have hfate := C67_fate fuel n a l hsc.eps hl hs i s s' h1 h2
  simp only [rowOf]
  rw [List.forall₂_map_left_iff, List.forall₂_map_right_iff]
  refine forall₂_imp_mem hfate ?_
  intro r hr r' hr' hrr
  have hvel := ((hinv (i + 1) s' h2).rays r' hr').2
  by_cases hne : r'.pos = r.pos
  · refine ⟨?_, .inl hne⟩
    rw [hne, sub_self, Vec3.norm_eq_zero.2 rfl]
    exact mul_nonneg hsc.raySpeed hsc.timeStep.le
  · obtain ⟨hp, hfree⟩ := moves_free hsc hvox hrr hvel hne
    have e1 : r'.pos - r.pos = P.timeStep • r'.vel := by rw [hp]; abel
    refine ⟨?_, .inr ?_⟩
    · rw [e1, Vec3.norm_smul, abs_of_nonneg hsc.timeStep.le, mul_comm]
      exact mul_le_mul_of_nonneg_right hvel hsc.timeStep.le
    · have e2 : (1 / P.timeStep) • (r'.pos - r.pos) = r'.vel := by
        rw [e1]
        have := hsc.timeStep.ne'
        ext <;> simp <;> field_simp
      rw [e2]
      exact hfree

/-- **C82 with reliable tests.**  If the tests are right about the opaque polygons, no ray ever comes to a point of an
opaque polygon, not even to its edge: the straight way between the positions in two successive rows is free. -/
theorem C82_walls (hsc : Scene P polys) (hvox : P.raySpeed * P.timeStep ≤ P.gridStep) (region : Nat → Vec3 ℝ → Prop)
    (hrel : ∀ k : Nat, (k : Int) ∉ P.trans → Reliable P.geo region k) (fuel n : Nat) (a : Arrays ℝ)
    (rows : List (Row ℝ)) (hl : a.hits.length = P.absorbers.length)
    (hv : ∀ r ∈ a.rays, Vec3.norm r.2.1 ≤ P.raySpeed) (h : simulationLoop P fuel n a = some rows) (i : Nat)
    (ri rj : Row ℝ) (hi : rows[i]? = some ri) (hj : rows[i + 1]? = some rj) :
    List.Forall₂ (fun p q => q = p ∨ ∀ k x, OnSegment p q x → ¬ OnWall P polys region k x) ri.pos rj.pos := by
  refine (C82_noticed hsc hvox fuel n a rows hl hv h i ri rj hi hj).imp ?_
  rintro p q ⟨-, hpq | hpq⟩
  · exact .inl hpq
  · refine .inr fun k x hx hw => hpq region k x hx hw ?_
    obtain ⟨t, h0, h1, rfl⟩ := hx
    have e : t • (q - p) = (t * P.timeStep) • (1 / P.timeStep) • (q - p) := by
      have := hsc.timeStep.ne'
      ext <;> simp <;> field_simp
    have := hrel k hw.2.1 p ((1 / P.timeStep) • (q - p)) (t * P.timeStep) (mul_nonneg h0 hsc.timeStep.le)
    rw [← e] at this
    exact this hw.2.2

/-- Rays in a closed room stay there, in one batch. -/
theorem stays (hsc : Scene P polys) (hvox : P.raySpeed * P.timeStep ≤ P.gridStep) (region : Nat → Vec3 ℝ → Prop)
    (hrel : ∀ k : Nat, (k : Int) ∉ P.trans → Reliable P.geo region k) (room : Vec3 ℝ → Prop)
    (hroom : Closes room (OnWall P polys region)) (fuel n : Nat) (a : Arrays ℝ)
    (rows : List (Row ℝ)) (hl : a.hits.length = P.absorbers.length)
    (hv : ∀ r ∈ a.rays, Vec3.norm r.2.1 ≤ P.raySpeed) (hin : ∀ r ∈ a.rays, room r.1)
    (h : simulationLoop P fuel n a = some rows) : ∀ (i : Nat) (ri : Row ℝ), rows[i]? = some ri → ∀ p ∈ ri.pos, room p := by
  intro i
  induction i with
  | zero =>
    intro ri hi p hp
    obtain ⟨l, hs, rfl⟩ := simulationLoop_states h
    obtain ⟨s, h1, rfl⟩ := row_state hi
    rw [steps_head hs, Option.some.injEq] at h1
    subst h1
    simp only [rowOf, start, List.map_map, List.mem_map, Function.comp] at hp
    obtain ⟨r, hr, rfl⟩ := hp
    exact hin r hr
  | succ i ih =>
    intro rj hj q hq
    have hlt : i < rows.length := by
      have := (List.getElem?_eq_some_iff.1 hj).1
      omega
    have hi := List.getElem?_eq_getElem hlt
    have hf := C82_walls hsc hvox region hrel fuel n a rows hl hv h i _ rj hi hj
    obtain ⟨k, hk⟩ := List.mem_iff_getElem?.1 hq
    have hlen := hf.length_eq
    have hk' : k < rows[i].pos.length := by
      rw [hlen]; exact (List.getElem?_eq_some_iff.1 hk).1
    have hpk := List.getElem?_eq_getElem hk'
    have hroomp := ih _ hi _ (List.getElem_mem hk')
    rcases forall₂_getElem? hf hpk hk with e | hfree
    · rw [e]; exact hroomp
    · by_contra hout
      obtain ⟨x, k, hx, hw⟩ := hroom _ _ hroomp hout
      exact hfree k x hx hw

theorem rows_hits {fuel n : Nat} {a : Arrays ℝ} {rows : List (Row ℝ)} (hn : ∀ k, Vec3.normSq (P.geo.vn k) = 1)
    (hl : a.hits.length = P.absorbers.length) (hv : ∀ r ∈ a.rays, Vec3.norm r.2.1 ≤ P.raySpeed)
    (h : simulationLoop P fuel n a = some rows) {i : Nat} {ri : Row ℝ} (hi : rows[i]? = some ri) :
    ri.hits.length = P.absorbers.length := by
  obtain ⟨l, hs, rfl⟩ := simulationLoop_states h
  obtain ⟨s, h1, rfl⟩ := row_state hi
  exact (steps_invariant hs (Paced P) (paced_start hl hv) (fun _ _ hg hst => paced_step hn hg hst) i s h1).hits

/-- What is handed to the next batch: positions of the last row, and velocities no faster than the ray speed. -/
theorem nextArrays_paced (hsc : Scene P polys) (hvox : P.raySpeed * P.timeStep ≤ P.gridStep) {fuel n : Nat} {a a' : Arrays ℝ}
    {rows : List (Row ℝ)} (hl : a.hits.length = P.absorbers.length) (hv : ∀ r ∈ a.rays, Vec3.norm r.2.1 ≤ P.raySpeed)
    (h : simulationLoop P fuel n a = some rows) (hnext : nextArrays P rows = some a') :
    a'.hits.length = P.absorbers.length ∧ ∀ r ∈ a'.rays, Vec3.norm r.2.1 ≤ P.raySpeed ∧
      ∃ (i : Nat) (ri : Row ℝ), rows[i]? = some ri ∧ r.1 ∈ ri.pos := by
  unfold nextArrays at hnext
  split at hnext
  case h_2 => cases hnext
  rename_i last prev rest hrev
  have hrows : rows = rest.reverse ++ [prev, last] := by
    have := congrArg List.reverse hrev
    rw [List.reverse_reverse] at this
    rw [this]; simp
  have hprev : rows[rest.length]? = some prev := by
    rw [hrows, List.getElem?_append_right (by simp)]; simp
  have hlast : rows[rest.length + 1]? = some last := by
    rw [hrows, List.getElem?_append_right (by simp)]; simp
  rw [Option.some.injEq] at hnext
  subst hnext
  refine ⟨rows_hits hsc.normals hl hv h hlast, ?_⟩
  intro r hr
  simp only [List.mem_map] at hr
  obtain ⟨⟨q, p, e⟩, hmem, rfl⟩ := hr
  obtain ⟨k, hk⟩ := List.mem_iff_getElem?.1 hmem
  rw [List.getElem?_zip_eq_some, List.getElem?_zip_eq_some] at hk
  obtain ⟨hq, hp, -⟩ := hk
  have hstep := (forall₂_getElem? (C82_noticed hsc hvox fuel n a rows hl hv h _ prev last hprev hlast) hp hq).1
  refine ⟨?_, _, last, hlast, List.mem_of_getElem? hq⟩
  simp only []
  rw [Vec3.norm_smul, abs_of_nonneg (by have := hsc.timeStep; positivity), one_div, inv_mul_le_iff₀ hsc.timeStep, mul_comm]
  exact hstep

theorem batches_stay (hsc : Scene P polys) (hvox : P.raySpeed * P.timeStep ≤ P.gridStep) (region : Nat → Vec3 ℝ → Prop)
    (hrel : ∀ k : Nat, (k : Int) ∉ P.trans → Reliable P.geo region k) (room : Vec3 ℝ → Prop)
    (hroom : Closes room (OnWall P polys region)) (fuel B : Nat) : ∀ (b stepNo : Nat) (a : Arrays ℝ)
    (ws : List (Nat × Row ℝ)), a.hits.length = P.absorbers.length → (∀ r ∈ a.rays, Vec3.norm r.2.1 ≤ P.raySpeed) →
    (∀ r ∈ a.rays, room r.1) → runBatches P fuel B b stepNo a = some ws → ∀ w ∈ ws, ∀ p ∈ w.2.pos, room p := by
  intro b
  induction b with
  | zero =>
    intro stepNo a ws _ _ _ h
    simp only [runBatches, Option.some.injEq] at h
    subst h
    simp
  | succ b ih =>
    intro stepNo a ws hl hv hin h
    rw [runBatches] at h
    split at h
    case h_1 => cases h
    rename_i rows hrows
    split at h
    case h_1 => cases h
    rename_i a' ha'
    split at h
    case h_1 => cases h
    rename_i ws' hws'
    rw [Option.some.injEq] at h
    subst h
    have hst := stays hsc hvox region hrel room hroom fuel B a rows hl hv hin hrows
    obtain ⟨h1, h2⟩ := nextArrays_paced hsc hvox hl hv hrows ha'
    intro w hw
    rcases List.mem_append.1 hw with hw | hw
    · obtain ⟨i, -, hi⟩ := mem_dumpBuffers.1 hw
      exact hst i _ hi
    · refine ih _ a' ws' h1 (fun r hr => (h2 r hr).1) ?_ hws' w hw
      intro r hr
      obtain ⟨i, ri, hi, hm⟩ := (h2 r hr).2
      exact hst i ri hi _ hm

/-- **C82, closed rooms.**  Let the opaque polygons close a room, in the sense that every straight way out of it meets
one of them, let the source be in the room, and let the tests be right about the opaque polygons.  Then every position
in every file written by a run of the simulation, for all rays, steps and batches, is in the room. -/
theorem C82_room (hsc : Scene P polys) (hvox : P.raySpeed * P.timeStep ≤ P.gridStep) (region : Nat → Vec3 ℝ → Prop)
    (hrel : ∀ k : Nat, (k : Int) ∉ P.trans → Reliable P.geo region k) (room : Vec3 ℝ → Prop)
    (hroom : Closes room (OnWall P polys region)) (source : Vec3 ℝ) (hin : room source) (dirs : List (Vec3 ℝ))
    (hdirs : ∀ d ∈ dirs, Vec3.norm d = 1) (fuel batchSize batches : Nat) (ws : List (Nat × Row ℝ))
    (h : simulationRun P fuel batchSize batches source dirs = some ws) : ∀ w ∈ ws, ∀ p ∈ w.2.pos, room p := by
  refine batches_stay hsc hvox region hrel room hroom fuel batchSize batches 0 _ ws ?_ ?_ ?_ h
  · simp [initArrays]
  · intro r hr
    simp only [initArrays, List.mem_map] at hr
    obtain ⟨d, hd, rfl⟩ := hr
    simp only []
    rw [Vec3.norm_smul, hdirs d hd, mul_one, abs_of_nonneg hsc.raySpeed]
  · intro r hr
    simp only [initArrays, List.mem_map] at hr
    obtain ⟨d, hd, rfl⟩ := hr
    exact hin

end B3d.Sim
