import Verif.Props.SimRoundedRun
import Verif.Props.RoundedNear

/-! # Property C123 in whole runs of `Simulation.run`, with 64-bit numbers -/

namespace B3d.SimRounded

open Sim Rounded Spec

variable {P : Params ℝ} {f : Vec3 ℝ → Vec3 ℝ} {R z0 : ℝ} {pts : List (Vec3 ℝ)} {tri : List Triangles.Tri}

/-- **C123 (partial), whole runs.**  With 64-bit numbers, in the files of a run with any number of batches of any length for
which the building is of ordinary size: from one step to the next, if the way of a ray meets an opaque floor, ceiling or wall
that is near in the grid, the point where it does is not deeper inside a triangle than a 1900th of the size plus three times
the distance of one step.  Missing as in `C123_crossing_partial`; here the ray has to come nearer to or go away from the plane
by at least 2 mm/s, up to rounding. -/
theorem C123_run_partial {Ps : List (List (Vec3 ℝ) × List Triangles.Tri)} (hgeo : P.geo = geoRounded binary Ps)
    (hP : Ordinary P) (hs : 0 < P.raySpeed) (hs' : P.raySpeed ≤ 1000) (ht : 0 < P.timeStep) {B b : Nat} (hB : 0 < B)
    (hb : 0 < b) (hsize : SizeForBatches P b) {source : Vec3 ℝ} (hsrc : Stored source) {raw : List (Vec3 ℝ)}
    (hraw : ∀ d ∈ raw, d ≠ 0) {ws : List (Nat × Row ℝ)}
    (h : simulationRun binary64 P (2 * 10 ^ 6 + 1) B b source raw = some ws) {n k : Nat} {r r' : Row ℝ}
    (hr : fileOf ws n = some r) (hr' : fileOf ws (n + 1) = some r') {p q : Vec3 ℝ} (hp : r.pos[k]? = some p)
    (hq : r'.pos[k]? = some q)
    {pn : Nat} (hpn : Ps[pn]? = some (pts, tri)) (hnear : pn ∈ findNearby P.setIter (cellOf binary64 p P.gridStep) P.grid)
    (hop : (pn : Int) ∉ P.trans) (hf : AlongAxis f) (hR : 1 / 5 ≤ R) (hR' : R ≤ 100) (hD : P.raySpeed * P.timeStep ≤ R / 3)
    (hL : LevelPolygon R z0 (pts.map f) tri) (hst : ∀ q ∈ pts, Stored q) (hbd : Bounded R (f p))
    (hv : 2 / 1000 * P.timeStep + R / 10 ^ 15 ≤ |(f q).z - (f p).z|) {t : ℝ} (ht0 : 0 ≤ t) (ht1 : t ≤ 1)
    (hz : (f (p + t • (q - p))).z = z0) :
    ¬ DeepInside (R / 1900 + 3 * (P.raySpeed * P.timeStep)) (pts.map f) tri (f (p + t • (q - p))) := by
  have hm : q ≠ p := by
    rintro rfl
    rw [sub_self, abs_zero] at hv
    have : 0 < 2 / 1000 * P.timeStep + R / 10 ^ 15 := by positivity
    linarith
  obtain ⟨sp, v, sv, hspeed, hpos, hstop⟩ := C131_stops_short (A := binary64) hP hs ht hB hb hsize hsrc hraw h hr hr' hp hq hm
  have hone : Vec3.norm (q - p) - P.raySpeed * P.timeStep ≤ 1 / 10 ^ 5 * (P.raySpeed * P.timeStep) := by
    obtain ⟨ws', e1, -, -, -, f3⟩ := C131_run (A := binary64) hP hs ht hB hb hsize hsrc hraw
    obtain rfl : ws = ws' := Option.some.inj (h.symm.trans e1)
    rcases forall₂_getElem? (f3 n r r' hr hr').1 hp hq with h1 | h1
    · exact absurd h1 hm
    · exact (abs_le.1 h1).2
  have hsp := (abs_le.1 hspeed).2
  have hposf : f q = ⟨fl ((f p).x + fl (P.timeStep * (f v).x)), fl ((f p).y + fl (P.timeStep * (f v).y)),
      fl ((f p).z + fl (P.timeStep * (f v).z))⟩ := by
    rw [hpos]
    rcases hf with rfl | rfl | rfl <;> rfl
  have hvz : 2 / 1000 ≤ |(f v).z| := by
    have hvn := (along_norm hf v).2.2
    have hw : |P.timeStep * (f v).z| ≤ R := by
      rw [abs_mul, abs_of_pos ht]
      have h1 := mul_le_mul_of_nonneg_left hvn ht.le
      have h2 := mul_le_mul_of_nonneg_left (show Vec3.norm v ≤ 2 * P.raySpeed by norm_num at hsp; linarith) ht.le
      linarith
    have he := move_err hbd.2.2 hw
    have e : (f q).z = fl ((f p).z + fl (P.timeStep * (f v).z)) := by rw [hposf]
    rw [← e] at he
    have h3 : |(f q).z - (f p).z| ≤ |P.timeStep * (f v).z| + 4 * (1 / 2 ^ 53 * R) := by
      have e2 : (f q).z - (f p).z = P.timeStep * (f v).z + ((f q).z - (f p).z - P.timeStep * (f v).z) := by ring
      rw [e2]
      exact (abs_add_le _ _).trans (add_le_add le_rfl he)
    have h4 : 2 / 1000 * P.timeStep ≤ |P.timeStep * (f v).z| := by
      generalize |P.timeStep * (f v).z| = x at *
      generalize |(f q).z - (f p).z| = y at *
      norm_num at h3 hv ⊢
      linarith
    rw [abs_mul, abs_of_pos ht] at h4
    exact le_of_mul_le_mul_left (by linarith) ht
  refine crossing_core (r := ⟨p, 0, 0, 0⟩) (r' := ⟨q, v, 0, 0⟩) hgeo hs hs' ht hpn hop hf sp sv hposf hone ?_
    (fun h => hstop pn hnear h) hR hR' hD hL hst hbd hvz ht0 ht1 hz
  norm_num at hsp ⊢
  linarith

/-! ### The hypotheses can be met -/

/-- Two thousand batches of a hundred steps in the closed room: no ray passes the ceiling 27 cm or more away from the edges of its
triangles. -/
example : ∃ ws, simulationRun binary64 quiet (2 * 10 ^ 6 + 1) 100 2000 ⟨1, 1, 3 / 2⟩ [⟨0, 0, 1⟩, ⟨1, 2, 2⟩] = some ws ∧
    (∀ n ≤ 200000, ∃ row, fileOf ws n = some row ∧ row.pos.length = 2) ∧
    ∀ (n k : Nat) (r r' : Row ℝ) (p q : Vec3 ℝ) (t : ℝ), fileOf ws n = some r → fileOf ws (n + 1) = some r' →
      r.pos[k]? = some p → r'.pos[k]? = some q →
      1 ∈ findNearby quiet.setIter (cellOf binary64 p quiet.gridStep) quiet.grid → Bounded 4 p →
      1 / 10 ^ 6 ≤ |q.z - p.z| → 0 ≤ t → t ≤ 1 → (p + t • (q - p)).z = 2 →
      ¬ DeepInside (27 / 100) [⟨0, 0, 2⟩, ⟨4, 0, 2⟩, ⟨4, 4, 2⟩, ⟨0, 4, 2⟩] [(3, 0, 1), (3, 1, 2)] (p + t • (q - p)) := by
  have hs : 0 < quiet.raySpeed := by norm_num [quiet]
  have ht : 0 < quiet.timeStep := by norm_num [quiet]
  have hz : SizeForBatches quiet 2000 :=
    ⟨4, by norm_num [quiet], by norm_num [quiet, abs_le], by norm_num [quiet], by norm_num [quiet]⟩
  have hsrc : Stored ⟨1, 1, 3 / 2⟩ := ⟨Miss.g1, Miss.g1, g32⟩
  have hraw : ∀ d ∈ [(⟨0, 0, 1⟩ : Vec3 ℝ), ⟨1, 2, 2⟩], d ≠ 0 := by
    intro d hd
    simp only [List.mem_cons, List.not_mem_nil, or_false] at hd
    rcases hd with rfl | rfl <;> simp [Vec3.ext_iff]
  obtain ⟨ws, h1, h2, h3, h4, h5⟩ := C131_run (A := binary64) (B := 100) quiet_ordinary hs ht (by norm_num) (by norm_num) hz
    hsrc hraw
  refine ⟨ws, h1, fun n hn => ?_, ?_⟩
  · obtain ⟨row, k1, k2, -⟩ := h3 n (by omega)
    exact ⟨row, k1, k2⟩
  · intro n k r r' p q t hr hr' hp hq hnear hb hv ht0 ht1 hpl hd
    have hid : ∀ l : List (Vec3 ℝ), l.map id = l := fun l => List.map_id l
    refine C123_run_partial (P := quiet) (f := id) (R := 4) (z0 := 2) rfl quiet_ordinary hs (by norm_num [quiet]) ht (by norm_num)
      (by norm_num) hz hsrc hraw h1 hr hr' hp hq (pn := 1) rfl hnear (by simp [quiet, Params.trans]) (.inl rfl) (by norm_num)
      (by norm_num) (by norm_num [quiet]) (by rw [hid]; exact ceiling_level) ceiling_stored hb ?_ ht0 ht1 hpl ?_
    · refine le_trans ?_ hv
      norm_num [quiet]
    · rw [hid]
      refine DeepInside.move hd (η := 0) (by simp) (by simp) ?_
      norm_num [quiet]

end B3d.SimRounded
