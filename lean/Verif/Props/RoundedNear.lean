import Verif.Proofs.SimRoom
import Verif.Props.RoundedRays

/-! # Property C123: rays near floors, ceilings and walls, with 64-bit numbers -/

namespace B3d.SimRounded

open Sim Rounded Spec

variable {P : Params ℝ} {f : Vec3 ℝ → Vec3 ℝ} {R z0 h : ℝ} {pts : List (Vec3 ℝ)} {tri : List Triangles.Tri}

/-- **C123 (partial), rays are noticed.**  With 64-bit numbers, a ray with a position near a floor, ceiling or wall, not further
away than fifty times the margin `h`, that meets it deeper inside a triangle than `h` is noticed, where `h` is at least a
2000th of the size `R`.  The ray may be almost parallel to the polygon.  Missing: rays that meet a polygon near an edge or a
seam of its triangles, and slanted polygons. -/
theorem C123_noticed_partial (hf : AlongAxis f) {p v : Vec3 ℝ} {s0 : ℝ} (hR : R ≤ 1000) (h5 : 1 / 10 ^ 4 ≤ h) (hhR : h ≤ R)
    (hRh : R ≤ 2000 * h) (hP : LevelPolygon R z0 (pts.map f) tri) (hz : fl z0 = z0) (hp : Stored p) (hv : Stored v)
    (hb : |(f p).z| ≤ R) (hnear : |z0 - (f p).z| ≤ 50 * h) (hvz : 2 / 1000 ≤ |(f v).z|) (hvx : |(f v).x| ≤ 10 ^ 6 * |(f v).z|)
    (hvy : |(f v).y| ≤ 10 ^ 6 * |(f v).z|) (hs : 0 ≤ s0) (hpl : (f (p + s0 • v)).z = z0)
    (hd : DeepInside h (pts.map f) tri (f (p + s0 • v))) :
    isPointInsideProjection binary (1 / 1000) p v pts tri = .ok true := by
  obtain ⟨B, X⟩ := axis_any isBinary_binary hf
  obtain ⟨l, q, p1, p2, el, e0, e1, e2, hl, hc⟩ := hP.corners
  have m0 := List.mem_of_getElem? e0
  have hz0 : |z0| ≤ R := by rw [← hP.level q m0]; exact (hP.bounded q m0).2.2
  exact near_noticed X hR h5 hhR hRh hP hz (stored_along hf hp).2.2 (stored_along hf hv).2.2 ((abs_sub _ _).trans (by linarith)) hnear hvz hvx
    hvy hs hpl hd

/-- **C123 (partial), distances.**  With 64-bit numbers, the calculated distance of a point near a floor, ceiling or wall whose
foot is deeper inside a triangle than `h` is the rounded difference of the heights. -/
theorem C123_distance_partial (hf : AlongAxis f) {p : Vec3 ℝ} (hR : R ≤ 100) (h5 : 1 / 10 ^ 4 ≤ h) (hhR : h ≤ R)
    (hRh : R ≤ 2000 * h) (hP : LevelPolygon R z0 (pts.map f) tri) (hz : fl z0 = z0) (hq : ∀ q ∈ pts, Stored q) (hp : Stored p)
    (hb : |(f p).z| ≤ R) (hnear : |z0 - (f p).z| ≤ 50 * h) (hnear' : |z0 - (f p).z| ≤ R / 2)
    (hd : DeepInside h (pts.map f) tri (f p)) :
    distancePointToPolygon binary p pts tri = .ok (some |fl (z0 - (f p).z)|) := by
  obtain ⟨B, X⟩ := axis_any isBinary_binary hf
  exact near_distance X hR h5 hhR hRh hP hz (fun q hq' => stored_along hf (hq q hq')) (stored_along hf hp).2.2 hb hnear hnear' hd

/-- **C123, distances are never too small.**  With 64-bit numbers, the calculated distance of any point to a floor, ceiling or
wall is not smaller than the difference of the heights, up to one part in `10 ^ 14`. -/
theorem C123_distance_least (hf : AlongAxis f) {p : Vec3 ℝ} {d : ℝ} (hR : R ≤ 1000) (hP : LevelPolygon R z0 (pts.map f) tri)
    (hz : fl z0 = z0) (hp : Stored p) (hd : distancePointToPolygon binary p pts tri = .ok (some d)) :
    (1 - 1 / 10 ^ 14) * |z0 - (f p).z| ≤ d := by
  obtain ⟨B, X⟩ := axis_any isBinary_binary hf
  have h1 := distance_height X hR hP hz (stored_along hf hp).2.2 hd
  have h2 := (fl_rel (z0 - (f p).z)).abs (by norm_num) |>.le (abs_nonneg _)
  have h0 := abs_nonneg (z0 - (f p).z)
  norm_num at h1 h2 ⊢
  linarith [h2.1]

/-- The normals of the geometry are unit vectors up to rounding. -/
theorem geoRounded_normals (Ps : List (List (Vec3 ℝ) × List Triangles.Tri)) (k : Nat) :
    |Vec3.norm ((geoRounded binary Ps).vn k) - 1| ≤ 2 / 10 ^ 14 := by
  have h1 : |Vec3.norm (⟨1, 0, 0⟩ : Vec3 ℝ) - 1| ≤ 2 / 10 ^ 14 := by
    have : Vec3.norm (⟨1, 0, 0⟩ : Vec3 ℝ) = 1 := by rw [Vec3.norm, Vec3.normSq_def]; norm_num
    rw [this]; norm_num
  simp only [geoRounded]
  split
  · exact h1
  · unfold roundedNormal
    split
    · cases hn : Rounded.normal binary _ _ _ with
      | none => exact h1
      | some n => exact normal_unit binary64 hn
    · exact h1

/-- One step of a ray from `r.pos` to `r'.pos` with the velocity `r'.vel`, which stops short of the surfaces it notices: the way
does not meet a floor, ceiling or wall deep inside a triangle. -/
theorem crossing_core {Ps : List (List (Vec3 ℝ) × List Triangles.Tri)} (hgeo : P.geo = geoRounded binary Ps)
    (hs : 0 < P.raySpeed) (hs' : P.raySpeed ≤ 1000) (ht : 0 < P.timeStep) {r r' : Ray ℝ} {pn : Nat}
    (hpn : Ps[pn]? = some (pts, tri)) (hop : (pn : Int) ∉ P.trans) (hf : AlongAxis f) (sp : Stored r.pos) (sv : Stored r'.vel)
    (hpos : f r'.pos = ⟨fl ((f r.pos).x + fl (P.timeStep * (f r'.vel).x)), fl ((f r.pos).y + fl (P.timeStep * (f r'.vel).y)),
      fl ((f r.pos).z + fl (P.timeStep * (f r'.vel).z))⟩)
    (hone : Vec3.norm (r'.pos - r.pos) - P.raySpeed * P.timeStep ≤ 1 / 10 ^ 5 * (P.raySpeed * P.timeStep))
    (hspeed : Vec3.norm r'.vel - P.raySpeed ≤ 1 / 10 ^ 5 * P.raySpeed)
    (hstop : OpaqueHit P.geo P.trans r.pos r'.vel pn → 1008 / 1000 * Vec3.norm (r'.pos - r.pos) < P.geo.dist r.pos pn)
    (hR : 1 / 5 ≤ R) (hR' : R ≤ 100) (hD : P.raySpeed * P.timeStep ≤ R / 3)
    (hL : LevelPolygon R z0 (pts.map f) tri) (hst : ∀ q ∈ pts, Stored q) (hb : Bounded R (f r.pos))
    (hv : 2 / 1000 ≤ |(f r'.vel).z|) {t : ℝ} (ht0 : 0 ≤ t) (ht1 : t ≤ 1)
    (hz : (f (r.pos + t • (r'.pos - r.pos))).z = z0) :
    ¬ DeepInside (R / 1900 + 3 * (P.raySpeed * P.timeStep)) (pts.map f) tri (f (r.pos + t • (r'.pos - r.pos))) := by
  intro hd
  obtain ⟨B, X⟩ := axis_any isBinary_binary hf
  obtain ⟨D, hDD⟩ : ∃ D, D = P.raySpeed * P.timeStep := ⟨_, rfl⟩
  have hD0 : 0 < D := by rw [hDD]; exact mul_pos hs ht
  rw [← hDD] at hone hD hd
  have hz0r : fl z0 = z0 := by
    obtain ⟨_, q, _, _, -, e0, -⟩ := hL.corners
    rw [List.getElem?_map, Option.map_eq_some_iff] at e0
    obtain ⟨q', eq', rfl⟩ := e0
    have m := List.mem_of_getElem? eq'
    have := stored_along hf (hst q' m)
    rw [← hL.level (f q') (List.mem_map_of_mem m)]
    exact this.2.2
  have hlin : f (r.pos + t • (r'.pos - r.pos)) = f r.pos + t • (f r'.pos - f r.pos) := by
    rw [along_add hf, along_sub hf]
  have hvn := along_norm hf r'.vel
  have hdv : P.timeStep * Vec3.norm r'.vel ≤ R := by
    have := mul_le_mul_of_nonneg_left (show Vec3.norm r'.vel ≤ 2 * P.raySpeed by linarith) ht.le
    nlinarith
  have hw : ∀ c : ℝ, |c| ≤ Vec3.norm r'.vel → |P.timeStep * c| ≤ R := fun c hc => by
    rw [abs_mul, abs_of_pos ht]
    exact (mul_le_mul_of_nonneg_left hc ht.le).trans hdv
  have hvz : (f r'.vel).z ≠ 0 := by intro e; rw [e] at hv; norm_num at hv
  have hslope : ∀ c : ℝ, |c| ≤ Vec3.norm r'.vel → |c| ≤ 10 ^ 6 * |(f r'.vel).z| := fun c hc => by
    norm_num at hv ⊢
    linarith
  rw [hlin] at hz hd
  obtain ⟨s0, hs0, hit, hx, hy⟩ := cross_hit hpos ht.le ht0 ht1 hb ⟨hw _ hvn.1, hw _ hvn.2.1, hw _ hvn.2.2⟩ (stored_along hf sp).2.2 hz hvz
    (hslope _ hvn.1) (hslope _ hvn.2.1)
  -- the way is short
  have hmn := along_norm hf (r'.pos - r.pos)
  rw [along_sub hf] at hmn
  have short : ∀ c : ℝ, |c| ≤ Vec3.norm (r'.pos - r.pos) → |t * c| ≤ Vec3.norm (r'.pos - r.pos) := fun c hc => by
    rw [abs_mul, abs_of_nonneg ht0]
    have := mul_le_mul ht1 hc (abs_nonneg _) zero_le_one
    linarith
  have hF : |z0 - (f r.pos).z| ≤ Vec3.norm (r'.pos - r.pos) := by
    have e : z0 - (f r.pos).z = t * (f r'.pos - f r.pos).z := by
      rw [← hz]; simp only [Vec3.add_z, Vec3.smul_z]; ring
    rw [e]
    exact short _ hmn.2.2
  set N := Vec3.norm (r'.pos - r.pos) with hN
  have hF0 := abs_nonneg (z0 - (f r.pos).z)
  -- the surface is noticed
  have hnote : isPointInsideProjection binary (1 / 1000) r.pos r'.vel pts tri = .ok true := by
    refine near_noticed X (h := R / 1950 + 9 / 10 * D) (s0 := s0) (by linarith) (by norm_num; linarith) (by linarith) (by linarith) hL hz0r
      (stored_along hf sp).2.2 (stored_along hf sv).2.2 (by linarith) (by linarith) hv (hslope _ hvn.1) (hslope _ hvn.2.1) hs0
      (by rw [along_add hf]; exact hit) ?_
    rw [along_add hf]
    refine DeepInside.move hd hx hy ?_
    norm_num
    linarith
  have hdist : distancePointToPolygon binary r.pos pts tri = .ok (some |fl (z0 - (f r.pos).z)|) := by
    refine near_distance X (h := R / 1900 + 9 / 10 * D) hR' (by norm_num; linarith) (by linarith) (by linarith) hL hz0r
      (fun q hq => stored_along hf (hst q hq)) (stored_along hf sp).2.2 hb.2.2 (by linarith) (by linarith) ?_
    refine DeepInside.move hd (η := N) ?_ ?_ (by linarith)
    · have e : (f r.pos).x - (f r.pos + t • (f r'.pos - f r.pos)).x = -(t * (f r'.pos - f r.pos).x) := by
        simp only [Vec3.add_x, Vec3.smul_x]; ring
      rw [e, abs_neg]; exact short _ hmn.1
    · have e : (f r.pos).y - (f r.pos + t • (f r'.pos - f r.pos)).y = -(t * (f r'.pos - f r.pos).y) := by
        simp only [Vec3.add_y, Vec3.smul_y]; ring
      rw [e, abs_neg]; exact short _ hmn.2.1
  have hfar := hstop (by
    refine ⟨hop, ?_⟩
    rw [hgeo]
    simp only [geoRounded, hpn]
    exact decide_eq_true hnote)
  rw [hgeo] at hfar
  simp only [geoRounded, hpn, hdist] at hfar
  have k2 := (fl_rel (z0 - (f r.pos).z)).abs (by norm_num) |>.le (abs_nonneg _)
  have hN0 : 0 ≤ N := Vec3.norm_nonneg _
  norm_num at k2
  linarith [k2.2]

/-- **C123 (partial), a ray passes a surface only near its edges.**  With 64-bit numbers, in every step of a simulation of any
length in which a ray moves: if its way meets an opaque floor, ceiling or wall that is near in the grid, the point where it
does is not deeper inside a triangle than a 1900th of the size plus three times the distance of one step.  Missing: points near
the edges and seams (`C123_leak` shows that rays can pass through seams), slanted polygons, and velocities of less than 2 mm/s
towards the polygon. -/
theorem C123_crossing_partial {Ps : List (List (Vec3 ℝ) × List Triangles.Tri)} (hgeo : P.geo = geoRounded binary Ps)
    (hP : Ordinary P) (hs : 0 < P.raySpeed) (hs' : P.raySpeed ≤ 1000) (ht : 0 < P.timeStep) (fuel n : Nat) {source : Vec3 ℝ}
    (hsrc : Stored source) {raw : List (Vec3 ℝ)} (hraw : ∀ d ∈ raw, d ≠ 0) {l : List (St ℝ)}
    (hl : steps binary64 P fuel n (start binary64 P (initArrays binary64 P source raw)) = some l)
    {i : Nat} {s s' : St ℝ} (h1 : l[i]? = some s) (h2 : l[i + 1]? = some s')
    {k : Nat} {r r' : Ray ℝ} (hr : s.rays[k]? = some r) (hr' : s'.rays[k]? = some r') (hm : r'.pos ≠ r.pos)
    {pn : Nat} (hpn : Ps[pn]? = some (pts, tri)) (hnear : pn ∈ findNearby P.setIter (cellOf binary64 r.pos P.gridStep) P.grid)
    (hop : (pn : Int) ∉ P.trans) (hf : AlongAxis f) (hR : 1 / 5 ≤ R) (hR' : R ≤ 100) (hD : P.raySpeed * P.timeStep ≤ R / 3)
    (hL : LevelPolygon R z0 (pts.map f) tri) (hst : ∀ q ∈ pts, Stored q) (hb : Bounded R (f r.pos))
    (hv : 2 / 1000 ≤ |(f r'.vel).z|) {t : ℝ} (ht0 : 0 ≤ t) (ht1 : t ≤ 1)
    (hz : (f (r.pos + t • (r'.pos - r.pos))).z = z0) :
    ¬ DeepInside (R / 1900 + 3 * (P.raySpeed * P.timeStep)) (pts.map f) tri (f (r.pos + t • (r'.pos - r.pos))) := by
  have h0 := started_init (A := binary64) hP.speed source raw hraw
  obtain ⟨sp, sv, hpos, hone, hspeed⟩ := step_facts hP hsrc hraw hl h1 h2 hr hr' hm hf
  refine crossing_core hgeo hs hs' ht hpn hop hf sp sv hpos hone ?_
    (fun h => stops_short_margin fuel n _ l hP h0 hs ht hl i s s' h1 h2 k r r' hr hr' hm pn hnear h) hR hR' hD hL hst hb hv ht0 ht1 hz
  norm_num at hspeed ⊢
  linarith

/-- **C123 (partial), rays stay on their side.**  With 64-bit numbers, in every step of a simulation of any length in which a
ray moves: if, in the direction of its velocity after the reflections of this step, it meets an opaque floor, ceiling or wall
that is near in the grid deeper inside a triangle than an 1800th of the size plus three times the distance of one step, it is
on the same side of it before and after the step, and not in its plane.  Missing as in `C123_crossing_partial`. -/
theorem C123_not_crossed_partial {Ps : List (List (Vec3 ℝ) × List Triangles.Tri)} (hgeo : P.geo = geoRounded binary Ps)
    (hP : Ordinary P) (hs : 0 < P.raySpeed) (hs' : P.raySpeed ≤ 1000) (ht : 0 < P.timeStep) (fuel n : Nat) {source : Vec3 ℝ}
    (hsrc : Stored source) {raw : List (Vec3 ℝ)} (hraw : ∀ d ∈ raw, d ≠ 0) {l : List (St ℝ)}
    (hl : steps binary64 P fuel n (start binary64 P (initArrays binary64 P source raw)) = some l)
    {i : Nat} {s s' : St ℝ} (h1 : l[i]? = some s) (h2 : l[i + 1]? = some s')
    {k : Nat} {r r' : Ray ℝ} (hr : s.rays[k]? = some r) (hr' : s'.rays[k]? = some r') (hm : r'.pos ≠ r.pos)
    {pn : Nat} (hpn : Ps[pn]? = some (pts, tri)) (hnear : pn ∈ findNearby P.setIter (cellOf binary64 r.pos P.gridStep) P.grid)
    (hop : (pn : Int) ∉ P.trans) (hf : AlongAxis f) (hR : 1 / 5 ≤ R) (hR' : R ≤ 100) (hD : P.raySpeed * P.timeStep ≤ R / 3)
    (hL : LevelPolygon R z0 (pts.map f) tri) (hst : ∀ q ∈ pts, Stored q) (hb : Bounded R (f r.pos))
    (hv : 2 / 1000 ≤ |(f r'.vel).z|) {s0 : ℝ} (hz : (f (r.pos + s0 • r'.vel)).z = z0)
    (hd : DeepInside (R / 1800 + 3 * (P.raySpeed * P.timeStep)) (pts.map f) tri (f (r.pos + s0 • r'.vel))) :
    0 < (z0 - (f r.pos).z) * (z0 - (f r'.pos).z) := by
  by_contra hneg
  rw [not_lt] at hneg
  obtain ⟨t, ht0, ht1, htz⟩ : ∃ t : ℝ, 0 ≤ t ∧ t ≤ 1 ∧ t * ((f r'.pos).z - (f r.pos).z) = z0 - (f r.pos).z := by
    have hc : ((z0 - (f r.pos).z) - (z0 - (f r'.pos).z)) = (f r'.pos).z - (f r.pos).z := by ring
    rw [← hc]
    generalize z0 - (f r.pos).z = a at *
    generalize z0 - (f r'.pos).z = b at *
    rcases mul_nonpos_iff.1 hneg with ⟨ha, hb⟩ | ⟨ha, hb⟩
    · rcases eq_or_lt_of_le ha with ha | ha
      · exact ⟨0, le_rfl, zero_le_one, by rw [zero_mul, ha]⟩
      · have : 0 < a - b := by linarith
        exact ⟨a / (a - b), div_nonneg ha.le this.le, (div_le_one this).2 (by linarith), div_mul_cancel₀ _ this.ne'⟩
    · rcases eq_or_lt_of_le ha with ha | ha
      · exact ⟨0, le_rfl, zero_le_one, by rw [zero_mul, ha]⟩
      · have : 0 < b - a := by linarith
        have h' : a - b ≠ 0 := by linarith
        exact ⟨a / (a - b), div_nonneg_of_nonpos ha.le (by linarith), by rw [div_le_one_of_neg (by linarith)]; linarith,
          div_mul_cancel₀ _ h'⟩
  obtain ⟨sp, sv, hpos, hone, hspeed⟩ := step_facts hP hsrc hraw hl h1 h2 hr hr' hm hf
  have hlin : f (r.pos + t • (r'.pos - r.pos)) = f r.pos + t • (f r'.pos - f r.pos) := by
    rw [along_add hf, along_sub hf]
  have hz' : (f r.pos + t • (f r'.pos - f r.pos)).z = z0 := by
    simp only [Vec3.add_z, Vec3.smul_z, Vec3.sub_z]
    linarith
  have hvn := along_norm hf r'.vel
  have hdv : P.timeStep * Vec3.norm r'.vel ≤ R := by
    have := mul_le_mul_of_nonneg_left (show Vec3.norm r'.vel ≤ 2 * P.raySpeed by linarith) ht.le
    nlinarith
  have hw : ∀ c : ℝ, |c| ≤ Vec3.norm r'.vel → |P.timeStep * c| ≤ R := fun c hc => by
    rw [abs_mul, abs_of_pos ht]
    exact (mul_le_mul_of_nonneg_left hc ht.le).trans hdv
  have hvz : (f r'.vel).z ≠ 0 := by intro e; rw [e] at hv; norm_num at hv
  have hslope : ∀ c : ℝ, |c| ≤ Vec3.norm r'.vel → |c| ≤ 10 ^ 6 * |(f r'.vel).z| := fun c hc => by
    norm_num at hv ⊢
    linarith
  obtain ⟨s1, -, hit, hx, hy⟩ := cross_hit hpos ht.le ht0 ht1 hb ⟨hw _ hvn.1, hw _ hvn.2.1, hw _ hvn.2.2⟩ (stored_along hf sp).2.2
    hz' hvz (hslope _ hvn.1) (hslope _ hvn.2.1)
  rw [along_add hf] at hz hd
  have e : s1 = s0 := by
    simp only [Vec3.add_z, Vec3.smul_z] at hit hz
    exact mul_right_cancel₀ hvz (by linarith)
  rw [e] at hx hy
  refine C123_crossing_partial hgeo hP hs hs' ht fuel n hsrc hraw hl h1 h2 hr hr' hm hpn hnear hop hf hR hR' hD hL hst hb hv ht0 ht1
    (by rw [hlin]; exact hz') ?_
  rw [hlin]
  rw [abs_sub_comm] at hx hy
  refine DeepInside.move hd hx hy ?_
  norm_num
  linarith

/-- **C123, parallel rays.**  With 64-bit numbers, a ray whose velocity towards a floor, ceiling or wall is less than 0.9 mm/s
does not notice it when it is more than 11 mm away from its plane. -/
theorem C123_parallel (hf : AlongAxis f) {p v : Vec3 ℝ} (hR : R ≤ 1000) (hP : LevelPolygon R z0 (pts.map f) tri) (hz : fl z0 = z0)
    (hv : |(f v).z| ≤ 9 / 10 ^ 4) (hfar : 11 / 1000 ≤ |z0 - (f p).z|) :
    isPointInsideProjection binary (1 / 1000) p v pts tri = .ok false := by
  obtain ⟨B, X⟩ := axis_any isBinary_binary hf
  exact parallel_missed X hR hP hz hv hfar

/-- **C123, a ray leaves a closed room.**  With 64-bit numbers, in a closed room of 4 m by 4 m by 2 m, a ray straight up from
(2, 1025/512, 1/4) at the speed of sound is above the ceiling after one step of 1/128 s, with its whole energy, for every grid:
it does not notice the ceiling (`C122_missed`).  Without rounding errors it would be reflected. -/
theorem C123_leak (P : Params ℝ) (fuel : Nat) (hs : P.raySpeed = 343) (ht : P.timeStep = 1 / 128) (ha : P.absorbers = [])
    (hlo : P.lo = 0) (hhi : P.hi = ⟨4, 4, 2⟩) (he0 : 0 ≤ P.eps) (he : P.eps < 1) (hgeo : P.geo = geoRounded binary Room.room) :
    ∃ r r' : Ray ℝ, steps binary64 P (fuel + 1) 1 (start binary64 P (initArrays binary64 P ⟨2, 1025 / 512, 1 / 4⟩ [⟨0, 0, 1⟩])) =
        some [⟨[r], []⟩, ⟨[r'], []⟩] ∧
      r.pos = ⟨2, 1025 / 512, 1 / 4⟩ ∧ r'.pos = ⟨2, 1025 / 512, 375 / 128⟩ ∧ r'.energy = 1 := by
  have f1 : fl (1 / 128 * 343) = 343 / 128 := by dyadic (-51) 6034119813234688
  have f2 : fl (1 / 4 + 343 / 128) = 375 / 128 := by dyadic (-51) 6597069766656000
  rw [Room.start_up P hs ha]
  refine ⟨_, _, Room.one_step fuel ha he (Room.in_room hlo hhi he0 (by norm_num) (by norm_num) (by norm_num)) ?_, rfl, ?_, rfl⟩
  · intro m hm
    have hop := (C45_nearest _ _ _ _ _ _ hm).2.1.2
    rw [hgeo] at hop
    by_cases h1 : m = 1
    · subst h1
      have hmiss := Miss.missed
      simp only [geoRounded, Room.room, List.getElem?_cons_zero, List.getElem?_cons_succ, decide_eq_true_eq] at hop
      unfold Miss.corners at hmiss
      rw [hmiss] at hop
      simp at hop
    · rw [Room.upwards (by norm_num) (by norm_num) (by norm_num) h1] at hop
      simp at hop
  · change (⟨fl (2 + 0), fl (1025 / 512 + 0), fl (1 / 4 + fl (P.timeStep * 343))⟩ : Vec3 ℝ) = _
    rw [ht, f1, f2, add_zero, add_zero, Miss.g2, Miss.gy]

/-! ### The hypotheses can be met -/

/-- The closed room with steps of 1/16384 s (2 cm). -/
noncomputable def quiet : Params ℝ where
  raySpeed := 343
  timeStep := 1 / 16384
  gridStep := 1
  grid := [((1, 1, 1), [1])]
  absorbers := []
  absorberRadius := 1 / 5
  lo := 0
  hi := ⟨4, 4, 2⟩
  transparent := []
  absorption := fun _ => 1 / 10
  eps := 1 / 10 ^ 6
  geo := geoRounded binary Room.room
  setIter := List.dedup

theorem quiet_ordinary : Ordinary quiet where
  speed := by norm_num [quiet]
  time := by norm_num [quiet]
  eps := by norm_num [quiet]
  absorption := fun k => by norm_num [quiet]
  normals := geoRounded_normals Room.room
  size := ⟨4, by norm_num [quiet], by norm_num [quiet, abs_le], by norm_num [quiet], by norm_num [quiet]⟩

theorem quiet_near : 1 ∈ findNearby quiet.setIter (cellOf binary64 ⟨1, 1, 3 / 2⟩ quiet.gridStep) quiet.grid := by
  have f1 : ⌊fl (1 / 1)⌋ = 1 := by rw [div_one, Miss.g1]; norm_num
  have f2 : ⌊fl (3 / 2 / 1)⌋ = 1 := by
    have : fl (3 / 2) = 3 / 2 := by dyadic (-52) 6755399441055744
    rw [div_one, this]; norm_num [Int.floor_eq_iff]
  have e : cellOf binary64 ⟨1, 1, 3 / 2⟩ quiet.gridStep = (1, 1, 1) := by
    change (⌊fl (1 / 1)⌋, ⌊fl (1 / 1)⌋, ⌊fl (3 / 2 / 1)⌋) = _
    rw [f1, f2]
  rw [e]
  simp only [quiet]
  decide +kernel

theorem ceiling_stored : ∀ q ∈ ([⟨0, 0, 2⟩, ⟨4, 0, 2⟩, ⟨4, 4, 2⟩, ⟨0, 4, 2⟩] : List (Vec3 ℝ)), Stored q := by
  intro q hq
  simp only [List.mem_cons, List.not_mem_nil, or_false] at hq
  rcases hq with rfl | rfl | rfl | rfl
  exacts [⟨fl_zero, fl_zero, Miss.g2⟩, ⟨Miss.g4, fl_zero, Miss.g2⟩, ⟨Miss.g4, Miss.g4, Miss.g2⟩, ⟨fl_zero, Miss.g4, Miss.g2⟩]

/-- The point (1, 1) of the ceiling is 1/4 m deep inside a triangle. -/
theorem ceiling_deep (z : ℝ) : DeepInside (1 / 4) [⟨0, 0, 2⟩, ⟨4, 0, 2⟩, ⟨4, 4, 2⟩, ⟨0, 4, 2⟩] [(3, 0, 1), (3, 1, 2)] ⟨1, 1, z⟩ := by
  refine ⟨(3, 0, 1), by simp, ⟨0, 4, 2⟩, ⟨0, 0, 2⟩, ⟨4, 0, 2⟩, rfl, rfl, rfl, 1, .inl rfl, ?_, ?_, ?_⟩
  · have := levelLength_le (a := ⟨0, 4, 2⟩) (b := ⟨0, 0, 2⟩) (k := 4) (by norm_num) (by norm_num)
    norm_num [levelArea] at this ⊢
    linarith
  · have := levelLength_le (a := ⟨0, 0, 2⟩) (b := ⟨4, 0, 2⟩) (k := 4) (by norm_num) (by norm_num)
    norm_num [levelArea] at this ⊢
    linarith
  · have := levelLength_le (a := ⟨4, 0, 2⟩) (b := ⟨0, 4, 2⟩) (k := 6) (by norm_num) (by norm_num)
    norm_num [levelArea] at this ⊢
    linarith

theorem g32 : fl (3 / 2) = 3 / 2 := by dyadic (-52) 6755399441055744
theorem g12 : fl (1 / 2) = 1 / 2 := by dyadic (-53) 4503599627370496

/-- The distance from half a metre below the ceiling, with 64-bit numbers, is exact. -/
theorem quiet_distance : distancePointToPolygon binary ⟨1, 1, 3 / 2⟩ [⟨0, 0, 2⟩, ⟨4, 0, 2⟩, ⟨4, 4, 2⟩, ⟨0, 4, 2⟩]
    [(3, 0, 1), (3, 1, 2)] = .ok (some (1 / 2)) := by
  have hq : ∀ l : List (Vec3 ℝ), l.map id = l := fun l => List.map_id l
  have h := C123_distance_partial (f := id) (.inl rfl) (p := ⟨1, 1, 3 / 2⟩) (R := 4) (z0 := 2) (h := 1 / 4)
    (pts := [⟨0, 0, 2⟩, ⟨4, 0, 2⟩, ⟨4, 4, 2⟩, ⟨0, 4, 2⟩]) (tri := [(3, 0, 1), (3, 1, 2)]) (by norm_num) (by norm_num) (by norm_num)
    (by norm_num) (by rw [hq]; exact ceiling_level) Miss.g2 ceiling_stored ⟨Miss.g1, Miss.g1, g32⟩ (by norm_num [abs_le])
    (by norm_num [abs_le]) (by norm_num [abs_le]) (by rw [hq]; exact ceiling_deep _)
  rw [h]
  simp only [id]
  rw [show (2 : ℝ) - 3 / 2 = 1 / 2 by norm_num, g12]
  norm_num

/-- The distance at which the rays of `quiet` are reflected is less than half a metre. -/
theorem quiet_reflDist : reflDist binary64 quiet < 1 / 2 := by
  change fl (fl (343 * (1 / 16384)) * fl (101 / 100)) < 1 / 2
  have f1 : fl (343 * (1 / 16384)) = 343 / 16384 := by dyadic (-58) 6034119813234688
  have k1 := abs_le.1 (fl_err (101 / 100))
  rw [f1]
  have k3 : |343 / 16384 * fl (101 / 100)| ≤ 1 / 4 := by
    rw [abs_le]; norm_num at k1 ⊢; constructor <;> linarith [k1.1, k1.2]
  have k2 := abs_le.1 (fl_err (343 / 16384 * fl (101 / 100)))
  have k4 := abs_le.1 k3
  norm_num at k1 k2 k3 k4 ⊢
  linarith [k2.2]

/-- A ray straight up in the room, half a metre below the ceiling: the ceiling is near in the grid, the ray moves and stays
below the ceiling. -/
example : ∃ l s s' r r', steps binary64 quiet 1 1 (start binary64 quiet (initArrays binary64 quiet ⟨1, 1, 3 / 2⟩ [⟨0, 0, 1⟩])) =
      some l ∧ l[0]? = some s ∧ l[0 + 1]? = some s' ∧ s.rays[0]? = some r ∧ s'.rays[0]? = some r' ∧ r'.pos ≠ r.pos ∧
    0 < (2 - r.pos.z) * (2 - r'.pos.z) := by
  have f1 : fl (1 / 16384 * 343) = 343 / 16384 := by dyadic (-58) 6034119813234688
  have f2 : fl (3 / 2 + 343 / 16384) = 24919 / 16384 := by dyadic (-52) 6849682563137536
  have hp : addv binary64 ⟨1, 1, 3 / 2⟩ ⟨0, 0, fl (quiet.timeStep * 343)⟩ = ⟨1, 1, 24919 / 16384⟩ := by
    change (⟨fl (1 + 0), fl (1 + 0), fl (3 / 2 + fl (1 / 16384 * 343))⟩ : Vec3 ℝ) = _
    rw [f1, f2, add_zero, Miss.g1]
  have hst := Room.one_step (P := quiet) 0 rfl (by norm_num [quiet]) (p := ⟨1, 1, 3 / 2⟩) (v := ⟨0, 0, 343⟩)
    (d := ⟨0, 0, fl (quiet.timeStep * 343)⟩)
    (Room.in_room rfl rfl (by norm_num [quiet]) (by norm_num) (by norm_num) (by norm_num)) (by
      intro m hm
      have hop := (C45_nearest _ _ _ _ _ _ hm).2.1.2
      by_cases h1 : m = 1
      · subst h1
        refine lt_of_lt_of_eq quiet_reflDist ?_
        simp only [quiet, geoRounded, Room.room, List.getElem?_cons_zero, List.getElem?_cons_succ, quiet_distance]
      · have := Room.upwards (p := ⟨1, 1, 3 / 2⟩) (by norm_num) (by norm_num) (by norm_num) h1
        simp only [quiet] at hop
        rw [this] at hop
        simp at hop)
  rw [hp] at hst
  have hrun := Room.start_up quiet rfl rfl ⟨1, 1, 3 / 2⟩
  rw [hrun]
  have hm : (⟨1, 1, 24919 / 16384⟩ : Vec3 ℝ) ≠ ⟨1, 1, 3 / 2⟩ := by
    intro h
    have := congrArg Vec3.z h
    norm_num at this
  refine ⟨_, _, _, _, _, hst, rfl, rfl, rfl, rfl, hm, ?_⟩
  have e : (⟨1, 1, 3 / 2⟩ + (1 / 686 : ℝ) • ⟨0, 0, 343⟩ : Vec3 ℝ) = ⟨1, 1, 2⟩ := by ext <;> norm_num
  have hq : ∀ l : List (Vec3 ℝ), l.map id = l := fun l => List.map_id l
  rw [← hrun] at hst
  refine C123_not_crossed_partial (P := quiet) (f := id) (R := 4) (z0 := 2) (s0 := 1 / 686) rfl quiet_ordinary (by norm_num [quiet])
    (by norm_num [quiet]) (by norm_num [quiet]) 1 1 ⟨Miss.g1, Miss.g1, g32⟩ (by simp +contextual [Vec3.ext_iff]) hst (i := 0) rfl rfl (k := 0)
    (by rw [hrun]; rfl) rfl hm
    (pn := 1) rfl quiet_near (by simp [quiet, Params.trans]) (.inl rfl) (by norm_num) (by norm_num) (by norm_num [quiet])
    (by rw [hq]; exact ceiling_level) ceiling_stored (by norm_num [Bounded, abs_le]) (by norm_num) (by simp only [e]; rfl) ?_
  rw [hq]
  simp only [e, id]
  obtain ⟨tr, htr, x, y, z, ex, ey, ez, k⟩ := ceiling_deep 2
  exact ⟨tr, htr, x, y, z, ex, ey, ez, DeepIn.move k (η := 0) (by norm_num) (by norm_num) (by norm_num [quiet])⟩

/-- A ray almost parallel to the ceiling, a tenth of a millimetre below it, that meets it in (1, 1, 2). -/
example : isPointInsideProjection binary (1 / 1000) ⟨1, 1 - 1 / 2, 2 - 1 / 2 ^ 14⟩ ⟨0, 256, 1 / 2 ^ 5⟩
    [⟨0, 0, 2⟩, ⟨4, 0, 2⟩, ⟨4, 4, 2⟩, ⟨0, 4, 2⟩] [(3, 0, 1), (3, 1, 2)] = .ok true := by
  have e : (⟨1, 1 - 1 / 2, 2 - 1 / 2 ^ 14⟩ + (1 / 2 ^ 9 : ℝ) • ⟨0, 256, 1 / 2 ^ 5⟩ : Vec3 ℝ) = ⟨1, 1, 2⟩ := by ext <;> norm_num
  have hq : ∀ l : List (Vec3 ℝ), l.map id = l := fun l => List.map_id l
  have s1 : fl (1 - 1 / 2) = 1 - 1 / 2 := by dyadic (-53) 4503599627370496
  have s2 : fl (2 - 1 / 2 ^ 14) = 2 - 1 / 2 ^ 14 := by dyadic (-52) 9006924376834048
  have s3 : fl (1 / 2 ^ 5) = 1 / 2 ^ 5 := by dyadic (-57) 4503599627370496
  refine C123_noticed_partial (f := id) (.inl rfl) (R := 4) (z0 := 2) (h := 1 / 4) (s0 := 1 / 2 ^ 9) (by norm_num) (by norm_num) (by norm_num)
    (by norm_num) (by rw [hq]; exact ceiling_level) Miss.g2 ⟨Miss.g1, s1, s2⟩ ⟨fl_zero, Miss.g256, s3⟩ (by norm_num [abs_le])
    (by norm_num [abs_le]) (by norm_num) (by norm_num) (by norm_num) (by norm_num) (by rw [e]; rfl) (by rw [e, hq]; exact ceiling_deep 2)

/-- The calculated distance of a point beside the ceiling is not smaller than half a metre, up to rounding. -/
example (d : ℝ) (h : distancePointToPolygon binary ⟨-1, 1, 3 / 2⟩ [⟨0, 0, 2⟩, ⟨4, 0, 2⟩, ⟨4, 4, 2⟩, ⟨0, 4, 2⟩]
    [(3, 0, 1), (3, 1, 2)] = .ok (some d)) : 49 / 100 ≤ d := by
  have hq : ∀ l : List (Vec3 ℝ), l.map id = l := fun l => List.map_id l
  have s1 : fl (-1) = -1 := by rw [fl_neg, Miss.g1]
  have := C123_distance_least (f := id) (.inl rfl) (R := 4) (z0 := 2) (by norm_num) (by rw [hq]; exact ceiling_level) Miss.g2
    (p := ⟨-1, 1, 3 / 2⟩) ⟨s1, Miss.g1, g32⟩ h
  norm_num at this
  linarith

/-- A ray parallel to the ceiling, half a metre below it. -/
example : isPointInsideProjection binary (1 / 1000) ⟨1, 1, 3 / 2⟩ ⟨343, 0, 0⟩ [⟨0, 0, 2⟩, ⟨4, 0, 2⟩, ⟨4, 4, 2⟩, ⟨0, 4, 2⟩]
    [(3, 0, 1), (3, 1, 2)] = .ok false := by
  have hq : ∀ l : List (Vec3 ℝ), l.map id = l := fun l => List.map_id l
  exact C123_parallel (f := id) (.inl rfl) (R := 4) (z0 := 2) (by norm_num) (by rw [hq]; exact ceiling_level) Miss.g2 (by norm_num)
    (by norm_num [le_abs])

end B3d.SimRounded
