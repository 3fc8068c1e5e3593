import Verif.Props.SimGridRounded
import Verif.Props.RoundedNearRun

/-! # Property C133 in whole runs: the grid of the building and the rays, with 64-bit numbers -/

namespace B3d.SimRounded

open Sim Rounded Spec

variable {P : Params ℝ} {f : Vec3 ℝ → Vec3 ℝ} {R z0 : ℝ} {pts : List (Vec3 ℝ)} {tri : List Triangles.Tri}

/-- A point at the height of a level polygon that is seen inside a triangle is a point of the polygon. -/
theorem deep_point (hf : AlongAxis f) (hL : LevelPolygon R z0 (pts.map f) tri) {h : ℝ} (hh : 0 ≤ h) {q : Vec3 ℝ}
    (hz : (f q).z = z0) (hd : DeepInside h (pts.map f) tri (f q)) : PointOf pts q := by
  obtain ⟨t, ht, a, b, c, ha, hb, hc, s, hs, d1, d2, d3⟩ := hd
  obtain ⟨a', b', c', ha', hb', hc', hne⟩ := hL.triangles t ht
  obtain rfl : a = a' := Option.some.inj (ha.symm.trans ha')
  obtain rfl : b = b' := Option.some.inj (hb.symm.trans hb')
  obtain rfl : c = c' := Option.some.inj (hc.symm.trans hc')
  have za := hL.level a (List.mem_of_getElem? ha)
  have zb := hL.level b (List.mem_of_getElem? hb)
  have zc := hL.level c (List.mem_of_getElem? hc)
  rw [List.getElem?_map, Option.map_eq_some_iff] at ha hb hc
  obtain ⟨a0, ha0, rfl⟩ := ha
  obtain ⟨b0, hb0, rfl⟩ := hb
  obtain ⟨c0, hc0, rfl⟩ := hc
  have l1 : 0 ≤ s * levelArea (f a0) (f b0) (f q) := (mul_nonneg hh (Real.sqrt_nonneg _)).trans d1
  have l2 : 0 ≤ s * levelArea (f b0) (f c0) (f q) := (mul_nonneg hh (Real.sqrt_nonneg _)).trans d2
  have l3 : 0 ≤ s * levelArea (f c0) (f a0) (f q) := (mul_nonneg hh (Real.sqrt_nonneg _)).trans d3
  have hsum : s * levelArea (f a0) (f b0) (f q) + s * levelArea (f b0) (f c0) (f q) + s * levelArea (f c0) (f a0) (f q) =
      s * levelArea (f a0) (f b0) (f c0) := by unfold levelArea; ring
  have hne0 : levelArea (f a0) (f b0) (f c0) ≠ 0 := by
    intro h0
    rw [h0, abs_zero] at hne
    norm_num at hne
  have hs0 : s ≠ 0 := by rcases hs with rfl | rfl <;> norm_num
  have hpos : 0 < s * levelArea (f a0) (f b0) (f c0) :=
    lt_of_le_of_ne (by linarith) (Ne.symm (mul_ne_zero hs0 hne0))
  refine ⟨a0, List.mem_of_getElem? ha0, b0, List.mem_of_getElem? hb0, c0, List.mem_of_getElem? hc0,
    s * levelArea (f b0) (f c0) (f q) / (s * levelArea (f a0) (f b0) (f c0)),
    s * levelArea (f c0) (f a0) (f q) / (s * levelArea (f a0) (f b0) (f c0)),
    s * levelArea (f a0) (f b0) (f q) / (s * levelArea (f a0) (f b0) (f c0)),
    div_nonneg l2 hpos.le, div_nonneg l3 hpos.le, div_nonneg l1 hpos.le, ?_, ?_⟩
  · rw [← add_div, ← add_div, div_eq_one_iff_eq hpos.ne']
    linarith
  · rw [mul_div_mul_left _ _ hs0, mul_div_mul_left _ _ hs0, mul_div_mul_left _ _ hs0]
    have ex : (f q).x = levelArea (f b0) (f c0) (f q) / levelArea (f a0) (f b0) (f c0) * (f a0).x +
        levelArea (f c0) (f a0) (f q) / levelArea (f a0) (f b0) (f c0) * (f b0).x +
        levelArea (f a0) (f b0) (f q) / levelArea (f a0) (f b0) (f c0) * (f c0).x := by
      field_simp
      unfold levelArea
      ring
    have ey : (f q).y = levelArea (f b0) (f c0) (f q) / levelArea (f a0) (f b0) (f c0) * (f a0).y +
        levelArea (f c0) (f a0) (f q) / levelArea (f a0) (f b0) (f c0) * (f b0).y +
        levelArea (f a0) (f b0) (f q) / levelArea (f a0) (f b0) (f c0) * (f c0).y := by
      field_simp
      unfold levelArea
      ring
    have ez : (f q).z = levelArea (f b0) (f c0) (f q) / levelArea (f a0) (f b0) (f c0) * (f a0).z +
        levelArea (f c0) (f a0) (f q) / levelArea (f a0) (f b0) (f c0) * (f b0).z +
        levelArea (f a0) (f b0) (f q) / levelArea (f a0) (f b0) (f c0) * (f c0).z := by
      rw [hz, za, zb, zc]
      field_simp
      unfold levelArea
      ring
    rcases hf with rfl | rfl | rfl
    · exact Vec3.ext ex ey ez
    · exact Vec3.ext ez ex ey
    · exact Vec3.ext ey ez ex

/-- **C133 (partial), whole runs.**  With 64-bit numbers, the voxel grid made from the polygons themselves, a stored cell size
greater than 1.00002 times the distance of one step, and a building of ordinary size: in the files of a run with any number of
batches, from one step to the next, if the way of a ray meets an opaque floor, ceiling or wall of the building, the point where it
does is not deeper inside a triangle than a 1900th of the size plus three times the distance of one step.  (`C123_run_partial`
without the hypothesis that the surface is near in the grid.)  Missing as in `C133_lookup_partial` and `C123_run_partial`. -/
theorem C133_run_partial {Ps : List (List (Vec3 ℝ) × List Triangles.Tri)} (hgeo : P.geo = geoRounded binary Ps)
    (hset : IteratesSet P.setIter) {eps : ℝ} (hbox : OrdinaryBox P.lo P.hi P.gridStep eps)
    (hgrid : makeVoxelGrid binary64 P.lo P.hi (Ps.map Prod.fst) P.gridStep eps = .ok P.grid) (hgs : fl P.gridStep = P.gridStep)
    (hstep : 100002 / 10 ^ 5 * (P.raySpeed * P.timeStep) ≤ P.gridStep)
    (hP : Ordinary P) (hs : 0 < P.raySpeed) (hs' : P.raySpeed ≤ 1000) (ht : 0 < P.timeStep) {B b : Nat} (hB : 0 < B)
    (hb : 0 < b) (hsize : SizeForBatches P b) {source : Vec3 ℝ} (hsrc : Stored source) {raw : List (Vec3 ℝ)}
    (hraw : ∀ d ∈ raw, d ≠ 0) {ws : List (Nat × Row ℝ)}
    (h : simulationRun binary64 P (2 * 10 ^ 6 + 1) B b source raw = some ws) {n k : Nat} {r r' : Row ℝ}
    (hr : fileOf ws n = some r) (hr' : fileOf ws (n + 1) = some r') {p q : Vec3 ℝ} (hp : r.pos[k]? = some p)
    (hq : r'.pos[k]? = some q)
    {pn : Nat} (hpn : Ps[pn]? = some (pts, tri)) (hw : Within P.lo P.hi pts)
    (hop : (pn : Int) ∉ P.trans) (hf : AlongAxis f) (hR : 1 / 5 ≤ R) (hR' : R ≤ 100) (hD : P.raySpeed * P.timeStep ≤ R / 3)
    (hL : LevelPolygon R z0 (pts.map f) tri) (hst : ∀ q ∈ pts, Stored q) (hbd : Bounded R (f p))
    (hv : 2 / 1000 * P.timeStep + R / 10 ^ 15 ≤ |(f q).z - (f p).z|) {t : ℝ} (ht0 : 0 ≤ t) (ht1 : t ≤ 1)
    (hz : (f (p + t • (q - p))).z = z0) :
    ¬ DeepInside (R / 1900 + 3 * (P.raySpeed * P.timeStep)) (pts.map f) tri (f (p + t • (q - p))) := by
  intro hd
  have hDpos : 0 < P.raySpeed * P.timeStep := mul_pos hs ht
  have hpo := deep_point hf hL (by positivity) hz hd
  have hne : pts ≠ [] := by
    rintro rfl
    obtain ⟨p1, m1, -⟩ := hpo
    simp at m1
  have hgpos : 0 < P.gridStep := lt_of_lt_of_le (by positivity) hstep
  have hmove : Vec3.norm (q - p) ≤ (1 + 1 / 10 ^ 5) * (P.raySpeed * P.timeStep) := by
    obtain ⟨ws', e1, -, -, -, f3⟩ := C131_run (A := binary64) hP hs ht hB hb hsize hsrc hraw
    obtain rfl : ws = ws' := Option.some.inj (h.symm.trans e1)
    rcases forall₂_getElem? (f3 n r r' hr hr').1 hp hq with h1 | h1
    · rw [h1, sub_self, Vec3.norm_eq_zero.2 rfl]; positivity
    · have := (abs_le.1 h1).2
      linarith
  have hcoord : ∀ w : ℝ, |w| ≤ Vec3.norm (q - p) → |t * w| ≤ (1 - 1 / 10 ^ 6) * P.gridStep := by
    intro w hw
    rw [abs_mul, abs_of_nonneg ht0]
    have h1 := mul_le_mul ht1 hw (abs_nonneg _) zero_le_one
    linarith
  have hnear : Near ((1 - 1 / 10 ^ 6) * P.gridStep) p (p + t • (q - p)) := by
    obtain ⟨n1, n2, n3⟩ := along_norm (.inl rfl : AlongAxis id) (q - p)
    simp only [id_eq] at n1 n2 n3
    refine ⟨?_, ?_, ?_⟩
    · rw [Vec3.add_x, add_sub_cancel_left, Vec3.smul_x]; exact hcoord _ n1
    · rw [Vec3.add_y, add_sub_cancel_left, Vec3.smul_y]; exact hcoord _ n2
    · rw [Vec3.add_z, add_sub_cancel_left, Vec3.smul_z]; exact hcoord _ n3
  have hfound := C133_lookup_partial hset hgpos hbox hgrid (pn := pn) (pts := pts) (by rw [List.getElem?_map, hpn]; rfl) hw
    (noGaps_binary64 hgpos hgs hne hst) hpo hnear
  exact C123_run_partial hgeo hP hs hs' ht hB hb hsize hsrc hraw h hr hr' hp hq hpn hfound hop hf hR hR' hD hL hst hbd hv ht0 ht1
    hz hd

/-! ### The hypotheses can be met -/

/-- The room with the default cell size and a grid. -/
noncomputable def quietWith (g : Grid) : Params ℝ := { quiet with gridStep := tenth, grid := g }

theorem quietWith_ordinary (g : Grid) : Ordinary (quietWith g) where
  speed := by norm_num [quietWith, quiet]
  time := by norm_num [quietWith, quiet]
  eps := by norm_num [quietWith, quiet]
  absorption := fun k => by norm_num [quietWith, quiet]
  normals := geoRounded_normals Room.room
  size := ⟨4, by norm_num [quietWith, quiet], by norm_num [quietWith, quiet, abs_le], by norm_num [quietWith, quiet],
    by norm_num [quietWith, quiet]⟩

theorem quiet_box : OrdinaryBox quiet.lo quiet.hi tenth margin := by
  have hs : |tenth - 1 / 10| ≤ 1 / 10 ^ 16 := by unfold tenth; rw [abs_le]; constructor <;> norm_num
  have he : |margin - 1 / 10 ^ 4| ≤ 1 / 10 ^ 18 := by unfold margin; rw [abs_le]; constructor <;> norm_num
  refine ⟨?_, ?_, ?_⟩ <;>
    exact C133_millimetres hs he (j := 0) (by norm_num [quiet]) (by norm_num [quiet]) (by norm_num [quiet])

/-- Every polygon of the room is in the box of the room and has stored coordinates. -/
theorem room_polygons : ∀ pts ∈ Room.room.map Prod.fst, pts ≠ [] ∧ Within quiet.lo quiet.hi pts ∧ ∀ v ∈ pts, Stored v := by
  intro pts hp
  simp only [Room.room, List.map_cons, List.map_nil, List.mem_cons, List.not_mem_nil, or_false] at hp
  rcases hp with rfl | rfl | rfl | rfl | rfl | rfl
  all_goals
    refine ⟨by simp, ?_, ?_⟩
    all_goals
      intro v hv
      simp only [List.mem_cons, List.not_mem_nil, or_false] at hv
      rcases hv with rfl | rfl | rfl | rfl <;> norm_num [quiet, Stored, Miss.g2, Miss.g4, fl_zero]

/-- Two thousand batches of a hundred steps in the closed room, with the grid of the program: no ray in the room passes the ceiling
27 cm or more away from the edges of its triangles. -/
example : ∃ g ws, makeVoxelGrid binary64 quiet.lo quiet.hi (Room.room.map Prod.fst) tenth margin = .ok g ∧
    simulationRun binary64 (quietWith g) (2 * 10 ^ 6 + 1) 100 2000 ⟨1, 1, 3 / 2⟩ [⟨0, 0, 1⟩, ⟨1, 2, 2⟩] = some ws ∧
    (∀ n ≤ 200000, ∃ row, fileOf ws n = some row ∧ row.pos.length = 2) ∧
    ∀ (n k : Nat) (r r' : Row ℝ) (p q : Vec3 ℝ) (t : ℝ), fileOf ws n = some r → fileOf ws (n + 1) = some r' →
      r.pos[k]? = some p → r'.pos[k]? = some q → Bounded 4 p →
      1 / 10 ^ 6 ≤ |q.z - p.z| → 0 ≤ t → t ≤ 1 → (p + t • (q - p)).z = 2 →
      ¬ DeepInside (27 / 100) [⟨0, 0, 2⟩, ⟨4, 0, 2⟩, ⟨4, 4, 2⟩, ⟨0, 4, 2⟩] [(3, 0, 1), (3, 1, 2)] (p + t • (q - p)) := by
  have hroom : ∀ pts ∈ Room.room.map Prod.fst, pts ≠ [] ∧ Within quiet.lo quiet.hi pts ∧ NoGaps binary64 tenth pts :=
    fun pts hm => ⟨(room_polygons pts hm).1, (room_polygons pts hm).2.1,
      noGaps_binary64 tenth_pos tenth_stored (room_polygons pts hm).1 (room_polygons pts hm).2.2⟩
  obtain ⟨g, hg, -⟩ := C133_made_partial (A := binary64) tenth_pos quiet_box hroom
  have hs : 0 < (quietWith g).raySpeed := by norm_num [quietWith, quiet]
  have ht : 0 < (quietWith g).timeStep := by norm_num [quietWith, quiet]
  have hz : SizeForBatches (quietWith g) 2000 :=
    ⟨4, by norm_num [quietWith, quiet], by norm_num [quietWith, quiet, abs_le], by norm_num [quietWith, quiet],
      by norm_num [quietWith, quiet]⟩
  have hsrc : Stored ⟨1, 1, 3 / 2⟩ := ⟨Miss.g1, Miss.g1, g32⟩
  have hraw : ∀ d ∈ [(⟨0, 0, 1⟩ : Vec3 ℝ), ⟨1, 2, 2⟩], d ≠ 0 := by
    intro d hd
    simp only [List.mem_cons, List.not_mem_nil, or_false] at hd
    rcases hd with rfl | rfl <;> simp [Vec3.ext_iff]
  obtain ⟨ws, h1, h2, h3, h4, h5⟩ := C131_run (A := binary64) (B := 100) (quietWith_ordinary g) hs ht (by norm_num) (by norm_num)
    hz hsrc hraw
  refine ⟨g, ws, hg, h1, fun n hn => ?_, ?_⟩
  · obtain ⟨row, k1, k2, -⟩ := h3 n (by omega)
    exact ⟨row, k1, k2⟩
  · intro n k r r' p q t hr hr' hp hq hb hv ht0 ht1 hpl hd
    have hid : ∀ l : List (Vec3 ℝ), l.map id = l := fun l => List.map_id l
    have hceil : ([⟨0, 0, 2⟩, ⟨4, 0, 2⟩, ⟨4, 4, 2⟩, ⟨0, 4, 2⟩] : List (Vec3 ℝ)) ∈ Room.room.map Prod.fst := by simp [Room.room]
    refine C133_run_partial (P := quietWith g) (f := id) (R := 4) (z0 := 2) rfl
      (fun l => ⟨List.nodup_dedup l, fun x => List.mem_dedup⟩) quiet_box hg tenth_stored
      (by norm_num [quietWith, quiet, tenth]) (quietWith_ordinary g) hs (by norm_num [quietWith, quiet]) ht (by norm_num)
      (by norm_num) hz hsrc hraw h1 hr hr' hp hq (pn := 1) rfl (room_polygons _ hceil).2.1
      (by simp [quietWith, quiet, Params.trans]) (.inl rfl) (by norm_num)
      (by norm_num) (by norm_num [quietWith, quiet]) (by rw [hid]; exact ceiling_level) ceiling_stored hb ?_ ht0 ht1 hpl ?_
    · refine le_trans ?_ hv
      norm_num [quietWith, quiet]
    · rw [hid]
      refine DeepInside.move hd (η := 0) (by simp) (by simp) ?_
      norm_num [quietWith, quiet]

end B3d.SimRounded
