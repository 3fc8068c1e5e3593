import Verif.Props.Walls

/-!
# C82: convex rooms, an example, and a failure with small voxels
-/

namespace B3d.Sim

open Spec

/-! ### Convex rooms -/

/-- On a straight way out of an intersection of half spaces there is a point on its surface. -/
theorem surface_point (p q : Vec3 ℝ) : ∀ faces : List (Vec3 ℝ × ℝ), (∀ f ∈ faces, Vec3.dot f.1 p < f.2) →
    (∃ f ∈ faces, f.2 ≤ Vec3.dot f.1 q) → ∃ t : ℝ, 0 ≤ t ∧ t ≤ 1 ∧
      (∀ f ∈ faces, Vec3.dot f.1 (p + t • (q - p)) ≤ f.2) ∧ ∃ f ∈ faces, Vec3.dot f.1 (p + t • (q - p)) = f.2 := by
  have hlin : ∀ (n : Vec3 ℝ) (t : ℝ), Vec3.dot n (p + t • (q - p)) = (1 - t) * Vec3.dot n p + t * Vec3.dot n q := by
    intro n t
    rw [Vec3.dot_add_right, Vec3.dot_smul_right, Vec3.dot_sub_right]
    ring
  simp only [hlin]
  intro faces
  induction faces with
  | nil => rintro - ⟨f, hf, -⟩; simp at hf
  | cons f fs ih =>
    intro hp hq
    have hf := hp f (by simp)
    have hfs : ∀ g ∈ fs, Vec3.dot g.1 p < g.2 := fun g hg => hp g (by simp [hg])
    -- up to `t1` the others are satisfied
    obtain ⟨t1, h0, h1, hle, hend⟩ : ∃ t1 : ℝ, 0 ≤ t1 ∧ t1 ≤ 1 ∧
        (∀ g ∈ fs, (1 - t1) * Vec3.dot g.1 p + t1 * Vec3.dot g.1 q ≤ g.2) ∧
        ((∃ g ∈ fs, (1 - t1) * Vec3.dot g.1 p + t1 * Vec3.dot g.1 q = g.2) ∨
          f.2 ≤ (1 - t1) * Vec3.dot f.1 p + t1 * Vec3.dot f.1 q) := by
      by_cases hq' : ∃ g ∈ fs, g.2 ≤ Vec3.dot g.1 q
      · obtain ⟨t, h0, h1, hle, heq⟩ := ih hfs hq'
        exact ⟨t, h0, h1, hle, .inl heq⟩
      · refine ⟨1, zero_le_one, le_refl _, ?_, .inr ?_⟩
        · intro g hg
          by_contra hc
          exact hq' ⟨g, hg, by linarith [not_le.1 hc]⟩
        · obtain ⟨g, hg, hle⟩ := hq
          rcases List.mem_cons.1 hg with rfl | hg
          · linarith
          · exact absurd ⟨g, hg, hle⟩ hq'
    by_cases hft : (1 - t1) * Vec3.dot f.1 p + t1 * Vec3.dot f.1 q < f.2
    · rcases hend with ⟨g, hg, heq⟩ | hend
      · refine ⟨t1, h0, h1, ?_, g, by simp [hg], heq⟩
        rw [List.forall_mem_cons]
        exact ⟨hft.le, hle⟩
      · linarith
    · -- `f` is reached first
      have hft' := not_lt.1 hft
      have hD : 0 < (1 - t1) * Vec3.dot f.1 p + t1 * Vec3.dot f.1 q - Vec3.dot f.1 p := by linarith
      obtain ⟨u, hu⟩ : ∃ u : ℝ, u = (f.2 - Vec3.dot f.1 p) /
          ((1 - t1) * Vec3.dot f.1 p + t1 * Vec3.dot f.1 q - Vec3.dot f.1 p) := ⟨_, rfl⟩
      have hu0 : 0 ≤ u := by rw [hu]; exact div_nonneg (by linarith) hD.le
      have hu1 : u ≤ 1 := by rw [hu, div_le_one hD]; linarith
      have hueq : u * ((1 - t1) * Vec3.dot f.1 p + t1 * Vec3.dot f.1 q - Vec3.dot f.1 p) = f.2 - Vec3.dot f.1 p := by
        rw [hu, div_mul_cancel₀ _ hD.ne']
      have hmix : ∀ a b : ℝ, (1 - u * t1) * a + u * t1 * b = (1 - u) * a + u * ((1 - t1) * a + t1 * b) := by
        intro a b; ring
      have hthis : (1 - u * t1) * Vec3.dot f.1 p + u * t1 * Vec3.dot f.1 q = f.2 := by
        linarith [hmix (Vec3.dot f.1 p) (Vec3.dot f.1 q)]
      refine ⟨u * t1, mul_nonneg hu0 h0, mul_le_one₀ hu1 h0 h1, ?_, f, by simp, hthis⟩
      rw [List.forall_mem_cons]
      refine ⟨hthis.le, ?_⟩
      intro g hg
      rw [hmix]
      have a1 := mul_le_mul_of_nonneg_left (hfs g hg).le (sub_nonneg.2 hu1)
      have a2 := mul_le_mul_of_nonneg_left (hle g hg) hu0
      linarith

/-- **C82, convex rooms.**  A room bounded by half spaces is closed by walls that cover its surface. -/
theorem C82_convex_closes (faces : List (Vec3 ℝ × ℝ)) (wall : Nat → Vec3 ℝ → Prop)
    (hcov : ∀ x, (∀ f ∈ faces, Vec3.dot f.1 x ≤ f.2) → (∃ f ∈ faces, Vec3.dot f.1 x = f.2) → ∃ k, wall k x) :
    Closes (fun x => ∀ f ∈ faces, Vec3.dot f.1 x < f.2) wall := by
  intro p q hp hq
  obtain ⟨t, h0, h1, h2, h3⟩ := surface_point p q faces hp (by
    by_contra hc
    exact hq fun f hf => not_le.1 fun hle => hc ⟨f, hf, hle⟩)
  obtain ⟨k, hk⟩ := hcov _ h2 h3
  exact ⟨_, k, ⟨t, h0, h1, rfl⟩, hk⟩

/-! ### Tests that are always right -/

/-- The points spanned by the corners of the polygon. -/
def Covered (polys : List (List (Vec3 ℝ))) (k : Nat) (x : Vec3 ℝ) : Prop := ∃ pts, polys[k]? = some pts ∧ PointOf pts x

open Classical in
/-- The truth about convex polygons. -/
noncomputable def trueGeo (polys : List (List (Vec3 ℝ))) (normals : Nat → Vec3 ℝ) : Geo ℝ where
  hit p v k := decide (∃ s : ℝ, 0 ≤ s ∧ Covered polys k (p + s • v))
  dist p k := sInf {d | ∃ x, Covered polys k x ∧ d = Vec3.norm (x - p)}
  vn := normals

theorem trueGeo_reliable (polys : List (List (Vec3 ℝ))) (normals : Nat → Vec3 ℝ) (k : Nat) :
    Reliable (trueGeo polys normals) (Covered polys) k := by
  intro p v s hs hx
  refine ⟨?_, ?_⟩
  · simp only [trueGeo, decide_eq_true_eq]
    exact ⟨s, hs, hx⟩
  · simp only [trueGeo]
    refine csInf_le ⟨0, ?_⟩ ⟨_, hx, rfl⟩
    rintro d ⟨x, -, rfl⟩
    exact Vec3.norm_nonneg _

/-! ### A box -/

/-- The six faces of the box from the origin to `(a, b, c)`. -/
def boxPolys (a b c : ℝ) : List (List (Vec3 ℝ)) :=
  [[⟨0, 0, 0⟩, ⟨0, b, 0⟩, ⟨0, b, c⟩, ⟨0, 0, c⟩], [⟨a, 0, 0⟩, ⟨a, b, 0⟩, ⟨a, b, c⟩, ⟨a, 0, c⟩],
    [⟨0, 0, 0⟩, ⟨a, 0, 0⟩, ⟨a, 0, c⟩, ⟨0, 0, c⟩], [⟨0, b, 0⟩, ⟨a, b, 0⟩, ⟨a, b, c⟩, ⟨0, b, c⟩],
    [⟨0, 0, 0⟩, ⟨a, 0, 0⟩, ⟨a, b, 0⟩, ⟨0, b, 0⟩], [⟨0, 0, c⟩, ⟨a, 0, c⟩, ⟨a, b, c⟩, ⟨0, b, c⟩]]

/-- The half spaces of the box. -/
def boxFaces (a b c : ℝ) : List (Vec3 ℝ × ℝ) :=
  [(⟨-1, 0, 0⟩, 0), (⟨1, 0, 0⟩, a), (⟨0, -1, 0⟩, 0), (⟨0, 1, 0⟩, b), (⟨0, 0, -1⟩, 0), (⟨0, 0, 1⟩, c)]

/-- Unit normals of the faces. -/
def boxNormals (k : Nat) : Vec3 ℝ := if k < 2 then ⟨1, 0, 0⟩ else if k < 4 then ⟨0, 1, 0⟩ else ⟨0, 0, 1⟩

theorem rect_pointOf {o p q r x : Vec3 ℝ} {s t : ℝ} (hq : q = p + r - o) (hs : 0 ≤ s ∧ s ≤ 1) (ht : 0 ≤ t ∧ t ≤ 1)
    (hx : x = o + s • (p - o) + t • (r - o)) : PointOf [o, p, q, r] x := by
  obtain ⟨hs0, hs1⟩ := hs
  obtain ⟨ht0, ht1⟩ := ht
  by_cases h : s + t ≤ 1
  · refine ⟨o, by simp, p, by simp, r, by simp, 1 - s - t, s, t, by linarith, hs0, ht0, by ring, ?_⟩
    rw [hx]; ext <;> simp <;> ring
  · refine ⟨q, by simp, r, by simp, p, by simp, s + t - 1, 1 - s, 1 - t, by linarith, by linarith,
      by linarith, by ring, ?_⟩
    rw [hx, hq]; ext <;> simp <;> ring

theorem boxRoom_iff {a b c : ℝ} (x : Vec3 ℝ) : (∀ f ∈ boxFaces a b c, Vec3.dot f.1 x < f.2) ↔
    0 < x.x ∧ x.x < a ∧ 0 < x.y ∧ x.y < b ∧ 0 < x.z ∧ x.z < c := by
  simp [boxFaces, Vec3.dot]

theorem box_covers {a b c : ℝ} (ha : 0 < a) (hb : 0 < b) (hc : 0 < c) (x : Vec3 ℝ)
    (h1 : ∀ f ∈ boxFaces a b c, Vec3.dot f.1 x ≤ f.2) (h2 : ∃ f ∈ boxFaces a b c, Vec3.dot f.1 x = f.2) :
    ∃ k, Covered (boxPolys a b c) k x := by
  obtain ⟨x, y, z⟩ := x
  simp [boxFaces, Vec3.dot] at h1 h2
  obtain ⟨x0, x1, y0, y1, z0, z1⟩ := h1
  have hx : 0 ≤ x / a ∧ x / a ≤ 1 := ⟨div_nonneg x0 ha.le, by rw [div_le_one ha]; exact x1⟩
  have hy : 0 ≤ y / b ∧ y / b ≤ 1 := ⟨div_nonneg y0 hb.le, by rw [div_le_one hb]; exact y1⟩
  have hz : 0 ≤ z / c ∧ z / c ≤ 1 := ⟨div_nonneg z0 hc.le, by rw [div_le_one hc]; exact z1⟩
  have px := div_mul_cancel₀ x ha.ne'
  have py := div_mul_cancel₀ y hb.ne'
  have pz := div_mul_cancel₀ z hc.ne'
  rcases h2 with h | h | h | h | h | h
  · exact ⟨0, _, rfl, rect_pointOf (by ext <;> simp) hy hz (by ext <;> simp [h, py, pz])⟩
  · exact ⟨1, _, rfl, rect_pointOf (by ext <;> simp) hy hz (by ext <;> simp [h, py, pz])⟩
  · exact ⟨2, _, rfl, rect_pointOf (by ext <;> simp) hx hz (by ext <;> simp [h, px, pz])⟩
  · exact ⟨3, _, rfl, rect_pointOf (by ext <;> simp) hx hz (by ext <;> simp [h, px, pz])⟩
  · exact ⟨4, _, rfl, rect_pointOf (by ext <;> simp) hx hy (by ext <;> simp [h, px, py])⟩
  · exact ⟨5, _, rfl, rect_pointOf (by ext <;> simp) hx hy (by ext <;> simp [h, px, py])⟩

/-- The room of the box, with a grid `g`. -/
noncomputable def boxParams (a b c speed dt voxel : ℝ) (g : Grid) : Params ℝ where
  raySpeed := speed
  timeStep := dt
  gridStep := voxel
  grid := g
  absorbers := []
  absorberRadius := 1 / 10
  lo := ⟨0, 0, 0⟩
  hi := ⟨a, b, c⟩
  transparent := [-1]
  absorption _ := 1 / 5
  eps := 1 / 10 ^ 6
  geo := trueGeo (boxPolys a b c) boxNormals
  setIter := List.dedup

theorem box_scene {a b c speed dt voxel : ℝ} (ha : 0 < a) (hb : 0 < b) (hc : 0 < c) (hs : 0 < speed) (ht : 0 < dt)
    (hv : 0 < voxel) : ∃ g, makeVoxelGrid ⟨0, 0, 0⟩ ⟨a, b, c⟩ (boxPolys a b c) voxel (1 / 10 ^ 6) = .ok g ∧
      Scene (boxParams a b c speed dt voxel g) (boxPolys a b c) := by
  have hw : ∀ pts ∈ boxPolys a b c, Within ⟨0, 0, 0⟩ ⟨a, b, c⟩ pts := by
    intro pts hpts v hv
    simp only [boxPolys, List.mem_cons, List.not_mem_nil, or_false] at hpts
    rcases hpts with rfl | rfl | rfl | rfl | rfl | rfl <;>
      (simp only [List.mem_cons, List.not_mem_nil, or_false] at hv
       rcases hv with rfl | rfl | rfl | rfl <;> simp [ha.le, hb.le, hc.le])
  obtain ⟨g, hg, -⟩ := C44_complete ⟨0, 0, 0⟩ ⟨a, b, c⟩ (boxPolys a b c) voxel (1 / 10 ^ 6) hv (by norm_num)
    (fun pts hpts => ⟨by
      simp only [boxPolys, List.mem_cons, List.not_mem_nil, or_false] at hpts
      rcases hpts with rfl | rfl | rfl | rfl | rfl | rfl <;> simp, hw pts hpts⟩)
  refine ⟨g, hg, ⟨⟨_, by norm_num, hg⟩, hw, ?_, ?_, hv, hs.le, ht, by norm_num [boxParams]⟩⟩
  · exact fun l => ⟨List.nodup_dedup l, fun x => List.mem_dedup⟩
  · intro k
    simp only [boxParams, trueGeo, boxNormals]
    split
    · simp [Vec3.normSq, Vec3.dot]
    · split <;> simp [Vec3.normSq, Vec3.dot]

theorem box_trans (a b c speed dt voxel : ℝ) (g : Grid) (k : Nat) : (k : Int) ∉ (boxParams a b c speed dt voxel g).trans := by
  have h : (boxParams a b c speed dt voxel g).trans = [-1] := by
    unfold Params.trans
    rw [if_neg (by simp [boxParams])]
    rfl
  rw [h]
  simp

theorem box_closes {a b c : ℝ} (ha : 0 < a) (hb : 0 < b) (hc : 0 < c) (speed dt voxel : ℝ) (g : Grid) :
    Closes (fun x => ∀ f ∈ boxFaces a b c, Vec3.dot f.1 x < f.2)
      (OnWall (boxParams a b c speed dt voxel g) (boxPolys a b c) (Covered (boxPolys a b c))) :=
  C82_convex_closes _ _ fun x h1 h2 => by
    obtain ⟨k, hk⟩ := box_covers ha hb hc x h1 h2
    exact ⟨k, hk, box_trans _ _ _ _ _ _ _ _, hk⟩

/-- **C82, box-shaped rooms** of every size, with tests that are right: every run with cells of at least the length of a
step exists, and all positions of all rays are strictly inside the room. -/
theorem C82_box {a b c speed dt voxel : ℝ} (ha : 0 < a) (hb : 0 < b) (hc : 0 < c) (hs : 0 < speed) (ht : 0 < dt)
    (hv : 0 < voxel) (hvox : speed * dt ≤ voxel) (source : Vec3 ℝ) (hx : 0 < source.x ∧ source.x < a)
    (hy : 0 < source.y ∧ source.y < b) (hz : 0 < source.z ∧ source.z < c) (dirs : List (Vec3 ℝ))
    (hdirs : ∀ d ∈ dirs, Vec3.norm d = 1) (batchSize : Nat) (hB : 0 < batchSize) :
    ∃ g, makeVoxelGrid ⟨0, 0, 0⟩ ⟨a, b, c⟩ (boxPolys a b c) voxel (1 / 10 ^ 6) = .ok g ∧
      ∃ ws, simulationRun (boxParams a b c speed dt voxel g) 6 batchSize 1 source dirs = some ws ∧
        (∀ n ≤ batchSize, ∃ row, (n, row) ∈ ws ∧ row.pos.length = dirs.length) ∧
        ∀ w ∈ ws, ∀ p ∈ w.2.pos, 0 < p.x ∧ p.x < a ∧ 0 < p.y ∧ p.y < b ∧ 0 < p.z ∧ p.z < c := by
  obtain ⟨g, hg, hsc⟩ := box_scene ha hb hc hs ht hv
  refine ⟨g, hg, ?_⟩
  obtain ⟨rows, hrows⟩ := C51_terminates (P := boxParams a b c speed dt voxel g) (1 / 5) 1 (by norm_num)
    (fun _ => le_refl _) (by norm_num [boxParams]) batchSize (initArrays (boxParams a b c speed dt voxel g) source dirs) (by simp [initArrays])
    (by simp [initArrays])
  have hfuel : (⌈(1 : ℝ) / (1 / 5)⌉.toNat + 1) = 6 := by
    have : (1 : ℝ) / (1 / 5) = ((5 : ℤ) : ℝ) := by norm_num
    rw [this, Int.ceil_intCast]
    rfl
  rw [hfuel] at hrows
  obtain ⟨l, hl, hlr⟩ := simulationLoop_states hrows
  have hlen : rows.length = batchSize + 1 := by rw [hlr, List.length_map, steps_length hl]
  obtain ⟨a', ha'⟩ : ∃ a', nextArrays (boxParams a b c speed dt voxel g) rows = some a' := by
    unfold nextArrays
    rcases hr : rows.reverse with - | ⟨x, - | ⟨y, r⟩⟩
    · have := congrArg List.length hr; rw [List.length_reverse, hlen] at this; simp at this; try omega
    · have := congrArg List.length hr; rw [List.length_reverse, hlen] at this; simp at this; try omega
    · exact ⟨_, rfl⟩
  have hrun : simulationRun (boxParams a b c speed dt voxel g) 6 batchSize 1 source dirs =
      some (dumpBuffers 0 rows ++ []) := by
    unfold simulationRun
    rw [runBatches, hrows]
    simp only [ha']
    rfl
  refine ⟨_, hrun, ?_, ?_⟩
  · intro n hn
    have hlt : n < rows.length := by omega
    refine ⟨rows[n], ?_, ?_⟩
    · rw [List.append_nil]
      exact mem_dumpBuffers.2 ⟨n, by simp, List.getElem?_eq_getElem hlt⟩
    · have key : ∀ (i : Nat) (s : St ℝ), l[i]? = some s → s.rays.length = dirs.length ∧ s.hits.length = 0 := by
        refine steps_invariant hl (fun s => s.rays.length = dirs.length ∧ s.hits.length = 0) ?_ ?_
        · simp [start, initArrays, boxParams]
        · intro s s' hh hst
          have := ((step_iff (P := boxParams a b c speed dt voxel g) (by rw [hh.2]; rfl)).1 hst).1.length_eq
          exact ⟨by rw [← this, hh.1], by rw [step_hits_length hst, hh.2]⟩
      subst hlr
      have hlt' : n < l.length := by simpa using hlt
      have := (key n l[n] (List.getElem?_eq_getElem hlt')).1
      simp [rowOf, this]
  · intro w hw p hp
    rw [← boxRoom_iff]
    exact C82_room hsc hvox (Covered (boxPolys a b c)) (fun k _ => trueGeo_reliable _ _ k) _
      (box_closes ha hb hc speed dt voxel g) source ((boxRoom_iff _).2 ⟨hx.1, hx.2, hy.1, hy.2, hz.1, hz.2⟩) dirs hdirs
      6 batchSize 1 _ hrun w hw p hp

/-- The hypotheses of `C82_box` and of the theorems it uses are met by a room of 4 by 3 by 2.5 metres, with the default
parameters of the configuration. -/
example : (0 : ℝ) < 343 ∧ (0 : ℝ) < 1 / 40000 ∧ (343 : ℝ) * (1 / 40000) ≤ 1 / 10 ∧
    Vec3.norm (⟨3 / 5, 0, 4 / 5⟩ : Vec3 ℝ) = 1 ∧ (0 : ℝ) < 1 ∧ (1 : ℝ) < 4 := by
  refine ⟨by norm_num, by norm_num, by norm_num, ?_, by norm_num, by norm_num⟩
  rw [Vec3.norm, show Vec3.normSq (⟨3 / 5, 0, 4 / 5⟩ : Vec3 ℝ) = 1 by norm_num [Vec3.normSq, Vec3.dot], Real.sqrt_one]

/-! ### Small voxels -/

/-- One step of one ray that hits nothing. -/
theorem run_once {P : Params ℝ} (habs : P.absorbers = []) (he : P.eps < 1) {source d : Vec3 ℝ}
    (hin : leftBox P source = false)
    (hfree : ∀ k ∈ polygonsAround P source, ¬ OpaqueHit P.geo P.trans source (P.raySpeed • d) k) (fuel : Nat) :
    ∃ row, simulationRun P (fuel + 1) 1 1 source [d] =
        some [(0, ⟨[source], [1], []⟩), (1, row)] ∧ row.pos = [source + P.timeStep • P.raySpeed • d] := by
  have ht : findTarget P.geo P.trans (findNearby P.setIter (cellOf source P.gridStep) P.grid) source (P.raySpeed • d) =
      none := (C45_found_iff _ _ _ _ _).2 hfree
  refine ⟨⟨[source + P.timeStep • P.raySpeed • d], [1], []⟩, ?_, rfl⟩
  have hloop : simulationLoop P (fuel + 1) 1 (initArrays P source [d]) =
      some [⟨[source], [1], []⟩, ⟨[source + P.timeStep • P.raySpeed • d], [1], []⟩] := by
    simp [simulationLoop, steps, step, start, initArrays, habs, absorbAll, absorbRay, absorbLoop, not_le.2 he, moveAll,
      moveRay, checkLeft, hin, target, ht, reflectLoop, advance, farEnough, he, rowOf, Ray.withEnergy]
  unfold simulationRun
  rw [runBatches, hloop]
  rfl

/-- **C82 fails with small voxels.**  Nothing keeps the cells of the grid from being smaller than a step of a ray.  Then
a wall may be missed, even if the tests are right about it: a ray in the middle of a room of one cubic metre, with cells
of a tenth of a metre and steps of one metre, is outside after one step. -/
theorem C82_small_voxels : ∃ (P : Params ℝ) (polys : List (List (Vec3 ℝ))) (region : Nat → Vec3 ℝ → Prop)
    (room : Vec3 ℝ → Prop) (source d : Vec3 ℝ), Scene P polys ∧ (∀ k : Nat, Reliable P.geo region k) ∧
    Closes room (OnWall P polys region) ∧ room source ∧ Vec3.norm d = 1 ∧ P.gridStep < P.raySpeed * P.timeStep ∧
    ∃ ws, simulationRun P 1 1 1 source [d] = some ws ∧ ∃ w ∈ ws, ∃ p ∈ w.2.pos, ¬ room p := by
  obtain ⟨g, hg, hsc⟩ := box_scene (a := 1) (b := 1) (c := 1) (speed := 1) (dt := 1) (voxel := 1 / 10) one_pos one_pos
    one_pos one_pos one_pos (by norm_num)
  have hset := hsc.set
  have hcell : cellOf (⟨1 / 2, 1 / 2, 1 / 2⟩ : Vec3 ℝ) (1 / 10) = (5, 5, 5) := by
    have : ⌊(1 : ℝ) / 2 / (1 / 10)⌋ = 5 := by rw [Int.floor_eq_iff]; norm_num
    simp only [cellOf, this]
  have hnone : ∀ k, k ∉ polygonsAround (boxParams 1 1 1 1 1 (1 / 10) g) ⟨1 / 2, 1 / 2, 1 / 2⟩ := by
    intro k hk
    unfold polygonsAround at hk
    rw [show (boxParams 1 1 1 1 1 (1 / 10) g).gridStep = 1 / 10 from rfl, hcell] at hk
    obtain ⟨i, j, m, hi, hj, hm, l, hl, hkl⟩ := C44_lookup_sound _ hset g _ k hk
    obtain ⟨pts, hpts, ⟨v1, m1, a1⟩, ⟨v2, m2, a2⟩, ⟨v3, m3, a3⟩, ⟨v4, m4, a4⟩, ⟨v5, m5, a5⟩, ⟨v6, m6, a6⟩⟩ :=
      C44_sound _ _ _ _ _ g hg _ l hl k hkl
    have hb : ∀ i : ℤ, |i| ≤ 1 → (4 : ℝ) ≤ ((5 + i : ℤ) : ℝ) ∧ ((5 + i : ℤ) : ℝ) ≤ 6 := by
      intro i hi
      rw [abs_le] at hi
      exact ⟨by exact_mod_cast (by omega : (4 : ℤ) ≤ 5 + i), by exact_mod_cast (by omega : (5 + i : ℤ) ≤ 6)⟩
    obtain ⟨b1, b2⟩ := hb i hi
    obtain ⟨b3, b4⟩ := hb j hj
    obtain ⟨b5, b6⟩ := hb m hm
    simp only [] at a1 a2 a3 a4 a5 a6
    have hk6 : k < 6 := (List.getElem?_eq_some_iff.1 hpts).1
    have hcases : k = 0 ∨ k = 1 ∨ k = 2 ∨ k = 3 ∨ k = 4 ∨ k = 5 := by omega
    rcases hcases with rfl | rfl | rfl | rfl | rfl | rfl <;>
      simp only [boxPolys, List.getElem?_cons_zero, List.getElem?_cons_succ, Option.some.injEq] at hpts <;>
      subst hpts
    · have : v1.x = 0 := by simp at m1; rcases m1 with rfl | rfl | rfl | rfl <;> rfl
      linarith
    · have : v2.x = 1 := by simp at m2; rcases m2 with rfl | rfl | rfl | rfl <;> rfl
      linarith
    · have : v3.y = 0 := by simp at m3; rcases m3 with rfl | rfl | rfl | rfl <;> rfl
      linarith
    · have : v4.y = 1 := by simp at m4; rcases m4 with rfl | rfl | rfl | rfl <;> rfl
      linarith
    · have : v5.z = 0 := by simp at m5; rcases m5 with rfl | rfl | rfl | rfl <;> rfl
      linarith
    · have : v6.z = 1 := by simp at m6; rcases m6 with rfl | rfl | rfl | rfl <;> rfl
      linarith
  obtain ⟨row, hrun, hrow⟩ := run_once (P := boxParams 1 1 1 1 1 (1 / 10) g) rfl (by norm_num [boxParams])
    (source := ⟨1 / 2, 1 / 2, 1 / 2⟩) (d := ⟨1, 0, 0⟩) (by
      simp only [leftBox, boxParams]
      norm_num) (fun k hk => absurd hk (hnone k)) 0
  refine ⟨_, _, _, _, ⟨1 / 2, 1 / 2, 1 / 2⟩, ⟨1, 0, 0⟩, hsc, fun k => trueGeo_reliable _ _ k,
    box_closes one_pos one_pos one_pos 1 1 (1 / 10) g, ?_, ?_, ?_, _, hrun, (1, row), by simp, ⟨3 / 2, 1 / 2, 1 / 2⟩, ?_, ?_⟩
  · rw [boxRoom_iff]; norm_num
  · rw [Vec3.norm, show Vec3.normSq (⟨1, 0, 0⟩ : Vec3 ℝ) = 1 by norm_num [Vec3.normSq, Vec3.dot], Real.sqrt_one]
  · norm_num [boxParams]
  · simp only [hrow, boxParams, List.mem_singleton]
    ext <;> norm_num
  · rw [boxRoom_iff]
    norm_num

end B3d.Sim
