import Verif.Model.SimGeoRounded
import Verif.Proofs.RoundedNear
import Verif.Props.SimRounded

/-! # Lemmas for the simulation with rounded geometry -/

namespace B3d.SimRounded

open Sim Rounded Spec

variable {P : Params ℝ}

/-- The numbers of all rays have 53 digits. -/
theorem stored_states {fuel n : Nat} {a : Arrays ℝ} {l : List (St ℝ)}
    (h0 : ∀ r ∈ a.rays, Stored r.1 ∧ Stored r.2.1)
    (h : steps binary64 P fuel n (start binary64 P a) = some l) :
    ∀ (i : Nat) (s : St ℝ), l[i]? = some s → ∀ r ∈ s.rays, Stored r.pos ∧ Stored r.vel := by
  refine steps_rays h (Q := fun r => Stored r.pos ∧ Stored r.vel) ?_ (fun r hr => hr)
    (fun r pn hr _ _ => ⟨hr.1, fl_fl _, fl_fl _, fl_fl _⟩) (fun r hr => ⟨⟨fl_fl _, fl_fl _, fl_fl _⟩, hr.2⟩)
  intro r hr
  simp only [start, List.mem_map] at hr
  obtain ⟨x, hx, rfl⟩ := hr
  exact h0 x hx

theorem stored_init {source : Vec3 ℝ} (hs : Stored source) (raw : List (Vec3 ℝ)) :
    ∀ r ∈ (initArrays binary64 P source raw).rays, Stored r.1 ∧ Stored r.2.1 := by
  intro r hr
  simp only [initArrays, List.mem_map] at hr
  obtain ⟨d, -, rfl⟩ := hr
  exact ⟨hs, fl_fl _, fl_fl _, fl_fl _⟩

theorem stored_along {f : Vec3 ℝ → Vec3 ℝ} (hf : AlongAxis f) {p : Vec3 ℝ} (h : Stored p) : Stored (f p) := by
  obtain ⟨h1, h2, h3⟩ := h
  rcases hf with rfl | rfl | rfl
  exacts [⟨h1, h2, h3⟩, ⟨h2, h3, h1⟩, ⟨h3, h1, h2⟩]

theorem along_sub {f : Vec3 ℝ → Vec3 ℝ} (hf : AlongAxis f) (p q : Vec3 ℝ) : f (p - q) = f p - f q := by
  rcases hf with rfl | rfl | rfl <;> rfl

theorem along_norm {f : Vec3 ℝ → Vec3 ℝ} (hf : AlongAxis f) (w : Vec3 ℝ) :
    |(f w).x| ≤ Vec3.norm w ∧ |(f w).y| ≤ Vec3.norm w ∧ |(f w).z| ≤ Vec3.norm w := by
  obtain ⟨_, X⟩ := axis_any isBinary_binary hf
  exact X.le w

/-- The error of one coordinate of a new position. -/
theorem move_err {q w R dt : ℝ} (hq : |q| ≤ R) (hw : |dt * w| ≤ R) :
    |fl (q + fl (dt * w)) - q - dt * w| ≤ 4 * (1 / 2 ^ 53 * R) := by
  generalize dt * w = d at *
  have k1 := fl_err d
  have k2 := fl_err (q + fl d)
  have e : fl (q + fl d) - q - d = (fl (q + fl d) - (q + fl d)) + (fl d - d) := by ring
  have k3 := abs_add_le (fl (q + fl d) - (q + fl d)) (fl d - d)
  have k4 := abs_add_le q (fl d)
  have k5 := abs_add_le (fl d - d) d
  rw [sub_add_cancel] at k5
  rw [e]
  have hR := (abs_nonneg _).trans hq
  norm_num at k1 k2 ⊢
  linarith

theorem shift_le {t ex ez wx wz E : ℝ} (ht : 0 ≤ t) (ht1 : t ≤ 1) (hz : wz ≠ 0) (hx : |wx| ≤ 10 ^ 6 * |wz|) (h1 : |ex| ≤ E)
    (h2 : |ez| ≤ E) : |t * (ez * (wx / wz) - ex)| ≤ (10 ^ 6 + 1) * E := by
  have hE := (abs_nonneg _).trans h1
  have hr : |wx / wz| ≤ 10 ^ 6 := by rw [abs_div, div_le_iff₀ (abs_pos.2 hz)]; exact hx
  have k1 : |ez * (wx / wz)| ≤ E * 10 ^ 6 := by
    rw [abs_mul]; exact mul_le_mul h2 hr (abs_nonneg _) hE
  have k2 := abs_sub (ez * (wx / wz)) ex
  have k3 : |ez * (wx / wz) - ex| ≤ (10 ^ 6 + 1) * E := by linarith
  rw [abs_mul, abs_of_nonneg ht]
  have := mul_le_mul ht1 k3 (abs_nonneg _) zero_le_one
  linarith

/-- Where the way between two positions meets a plane, the ray in the direction of the velocity meets it up to
rounding. -/
theorem cross_hit {q w q' : Vec3 ℝ} {R dt t z0 : ℝ}
    (hq' : q' = ⟨fl (q.x + fl (dt * w.x)), fl (q.y + fl (dt * w.y)), fl (q.z + fl (dt * w.z))⟩) (hdt : 0 ≤ dt)
    (ht : 0 ≤ t) (ht1 : t ≤ 1) (hq : Bounded R q) (hw : |dt * w.x| ≤ R ∧ |dt * w.y| ≤ R ∧ |dt * w.z| ≤ R)
    (hqz : fl q.z = q.z) (hz : (q + t • (q' - q)).z = z0) (hwz : w.z ≠ 0) (hx : |w.x| ≤ 10 ^ 6 * |w.z|)
    (hy : |w.y| ≤ 10 ^ 6 * |w.z|) :
    ∃ s0 : ℝ, 0 ≤ s0 ∧ (q + s0 • w).z = z0 ∧ |(q + s0 • w).x - (q + t • (q' - q)).x| ≤ 1 / 10 ^ 9 * R ∧
      |(q + s0 • w).y - (q + t • (q' - q)).y| ≤ 1 / 10 ^ 9 * R := by
  have hR := (abs_nonneg _).trans hq.1
  have ex := move_err hq.1 hw.1
  have ey := move_err hq.2.1 hw.2.1
  have ez := move_err hq.2.2 hw.2.2
  have hz' : z0 - q.z = t * (q'.z - q.z) := by
    simp only [Vec3.add_z, Vec3.smul_z, Vec3.sub_z] at hz
    linarith
  rw [hq'] at hz'
  simp only at hz'
  refine ⟨(z0 - q.z) / w.z, ?_, ?_, ?_, ?_⟩
  · rw [hz']
    rcases lt_or_gt_of_ne hwz with h1 | h1
    · refine div_nonneg_of_nonpos (mul_nonpos_of_nonneg_of_nonpos ht ?_) h1.le
      have k := fl_nonpos (mul_nonpos_of_nonneg_of_nonpos hdt h1.le)
      have := fl_mono (show q.z + fl (dt * w.z) ≤ q.z by linarith)
      rw [hqz] at this
      linarith
    · refine div_nonneg (mul_nonneg ht ?_) h1.le
      have k := fl_nonneg (mul_nonneg hdt h1.le)
      have := fl_mono (show q.z ≤ q.z + fl (dt * w.z) by linarith)
      rw [hqz] at this
      linarith
  · simp only [Vec3.add_z, Vec3.smul_z]
    rw [div_mul_cancel₀ _ hwz]
    ring
  · have e : (q + ((z0 - q.z) / w.z) • w).x - (q + t • (q' - q)).x =
        t * ((fl (q.z + fl (dt * w.z)) - q.z - dt * w.z) * (w.x / w.z) - (fl (q.x + fl (dt * w.x)) - q.x - dt * w.x)) := by
      simp only [Vec3.add_x, Vec3.smul_x, Vec3.sub_x, hq', hz']
      field_simp
      ring
    rw [e]
    refine (shift_le ht ht1 hwz hx ex ez).trans ?_
    norm_num
    linarith
  · have e : (q + ((z0 - q.z) / w.z) • w).y - (q + t • (q' - q)).y =
        t * ((fl (q.z + fl (dt * w.z)) - q.z - dt * w.z) * (w.y / w.z) - (fl (q.y + fl (dt * w.y)) - q.y - dt * w.y)) := by
      simp only [Vec3.add_y, Vec3.smul_y, Vec3.sub_y, hq', hz']
      field_simp
      ring
    rw [e]
    refine (shift_le ht ht1 hwz hy ey ez).trans ?_
    norm_num
    linarith

theorem DeepInside.move {h h' η : ℝ} {q : List (Vec3 ℝ)} {tri : List Triangles.Tri} {a b : Vec3 ℝ} (H : DeepInside h q tri a)
    (hx : |b.x - a.x| ≤ η) (hy : |b.y - a.y| ≤ η) (hη : h' + 2 * η ≤ h) : DeepInside h' q tri b := by
  obtain ⟨tr, htr, x, y, z, ex, ey, ez, k⟩ := H
  exact ⟨tr, htr, x, y, z, ex, ey, ez, DeepIn.move k hx hy hη⟩

/-- What a step in which a ray moves does, in the coordinates along an axis. -/
theorem step_facts (hP : Ordinary P) {fuel n : Nat} {source : Vec3 ℝ} (hsrc : Stored source) {raw : List (Vec3 ℝ)}
    (hraw : ∀ d ∈ raw, d ≠ 0) {l : List (St ℝ)}
    (hl : steps binary64 P fuel n (start binary64 P (initArrays binary64 P source raw)) = some l)
    {i : Nat} {s s' : St ℝ} (h1 : l[i]? = some s) (h2 : l[i + 1]? = some s')
    {k : Nat} {r r' : Ray ℝ} (hr : s.rays[k]? = some r) (hr' : s'.rays[k]? = some r') (hm : r'.pos ≠ r.pos)
    {f : Vec3 ℝ → Vec3 ℝ} (hf : AlongAxis f) :
    Stored r.pos ∧ Stored r'.vel ∧
    f r'.pos = ⟨fl ((f r.pos).x + fl (P.timeStep * (f r'.vel).x)), fl ((f r.pos).y + fl (P.timeStep * (f r'.vel).y)),
      fl ((f r.pos).z + fl (P.timeStep * (f r'.vel).z))⟩ ∧
    Vec3.norm (r'.pos - r.pos) - P.raySpeed * P.timeStep ≤ 1 / 10 ^ 5 * (P.raySpeed * P.timeStep) ∧
    Vec3.norm r'.vel - P.raySpeed ≤ 2 / 10 ^ 6 * P.raySpeed := by
  have h0 := started_init (A := binary64) hP.speed source raw hraw
  have mr := List.mem_of_getElem? hr
  have mr' := List.mem_of_getElem? hr'
  obtain ⟨sp, -⟩ := stored_states (stored_init hsrc raw) hl i s h1 r mr
  obtain ⟨-, sv⟩ := stored_states (stored_init hsrc raw) hl (i + 1) s' h2 r' mr'
  have hinv := inv_states hP h0 hl
  have hi := hinv i s h1 r mr
  have hi' := hinv (i + 1) s' h2 r' mr'
  have hst' := step_rays ((steps_chain hl).2.2 i s s' h1 h2)
  rw [List.forall₂_iff_get] at hst'
  have hmv : Moved binary64 P r r' := by
    obtain ⟨hk, ek⟩ := List.getElem?_eq_some_iff.1 hr
    obtain ⟨hk', ek'⟩ := List.getElem?_eq_some_iff.1 hr'
    have := hst'.2 k hk hk'
    simp only [List.get_eq_getElem, ek, ek'] at this
    rcases step_cases hP hi this with h3 | h3
    · exact absurd h3 hm
    · exact h3
  obtain ⟨Bd, b1, b2, b3, b4⟩ := hP.size
  have hone := (abs_le.1 (moved_dist hP.speed hP.time b1 b2 hP.eps b3 b4 hi' hmv)).2
  have hspeed := (abs_le.1 (hi'.near hP.speed)).2
  refine ⟨sp, sv, ?_, hone, hspeed⟩
  rw [hmv.pos, hi'.delta]
  rcases hf with rfl | rfl | rfl <;> rfl

end B3d.SimRounded
