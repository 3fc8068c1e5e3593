import Verif.Props.WallsReal
import Verif.Props.WallsRoom
import Verif.Props.PointInPolygonCases

/-!
# C82: a ray passes through a wall

`C82_code_partial` leaves out the points close to the edges of the triangles of a polygon.  Here a ray passes through
such a point, with the parameters of the configuration.
-/

namespace B3d.Sim

open Spec Polygon Triangles

/-- The test of the ray for a polygon in a horizontal plane and a ray straight down onto the plane. -/
theorem projection_down {pts : List (Vec3 ℝ)} {tri : List Tri} {z : ℝ} (hw : CornerNormal pts ⟨0, 0, 1⟩)
    (hz : ∀ p ∈ pts, p.z = z) (p : Vec3 ℝ) {c atol : ℝ} (hc : atol ≤ c) (hc0 : 0 < c)
    (h : isPointInside ⟨p.x, p.y, z⟩ pts tri true atol = .ok false) :
    isPointInsideProjection p ⟨0, 0, -c⟩ pts tri true atol = .ok false := by
  obtain ⟨o, ho, hpc⟩ := planeCoefficients_eq hw
  unfold isPointInsideProjection
  rw [hpc]
  simp only [Vec3.dot, hz o ho]
  rw [if_neg (by rw [show (0 : ℝ) * 0 + 0 * 0 + 1 * -c = -c by ring, abs_neg, abs_of_pos hc0]; linarith)]
  split
  · rfl
  · rw [← h]
    congr 1
    ext <;> simp
    field_simp
    ring

theorem outside_bbox_x {pts : List (Vec3 ℝ)} {tri : List Tri} (hne : pts ≠ []) {x : Vec3 ℝ}
    (h : ∀ p ∈ pts, x.x + 1 / 100 < p.x) (atol : ℝ) : isPointInside x pts tri true atol = .ok false := by
  obtain ⟨lo, hi, r, hb, hr, hir, -⟩ := Bboxes.C25_inside_bbox pts hne x (1 / 100)
  have hf : r = false := by
    rw [← Bool.not_eq_true, hir]
    rintro ⟨h1, -⟩
    obtain ⟨lo', hi', hb', -, ⟨p, hp, e⟩, -⟩ := Bboxes.boundingBox_spec hne
    rw [hb] at hb'
    obtain ⟨rfl, rfl⟩ := Prod.mk.inj (Except.ok.inj hb')
    have := h p hp
    simp only [] at h1
    linarith
  unfold Polygon.isPointInside
  rw [hr, hf]

/-- **C82 fails near the edges of a polygon.**  A ray in a scene of three opaque triangles, with the sound speed, time
step, tolerance and voxel size of the configuration, starts a millimetre above a triangle and moves straight down onto
a point of the inside of the triangle.  The test of the code says that it does not hit the triangle, and after the step
the ray is on the other side. -/
theorem C82_leak : ∃ (P : Params ℝ) (Ps : List Poly) (source d : Vec3 ℝ), P.geo = geoOf Ps ∧
    Scene P (Ps.map Poly.pts) ∧ P.raySpeed * P.timeStep ≤ P.gridStep ∧ (∀ k : Nat, (k : Int) ∉ P.trans) ∧
    Vec3.norm d = 1 ∧ (∀ Q ∈ Ps, (∃ e, FlatPoly Q ⟨0, 0, 1⟩ e ⟨0, 0, 1⟩) ∧
      ¬ Grazing ⟨0, 0, 1⟩ (P.raySpeed • d)) ∧
    ∃ (row : Row ℝ) (q : Vec3 ℝ) (Q : Poly) (x : Vec3 ℝ),
      simulationRun P 6 1 1 source [d] = some [(0, ⟨[source], [1], []⟩), (1, row)] ∧ row.pos = [q] ∧ Q ∈ Ps ∧
      (∀ p ∈ Q.pts, p.z = 0) ∧ 0 < source.z ∧ q.z < 0 ∧ OnSegment source q x ∧
      ∃ t ∈ Q.tri, TriangleWith Q.pts t fun a b c => InsideTriangle a b c x := by
  obtain ⟨A, hA, x, hin, hxz, hx1, hx2, hrej⟩ := inner_rejected
  obtain ⟨A', hA', hAp, hAv, hAt⟩ := triangle_z (x1 := -6) (y1 := -8) (x2 := 0) (y2 := 0) (x3 := 0) (y3 := 10) 0
    (by norm_num)
  obtain rfl : A = A' := by rw [hA] at hA'; exact Except.ok.inj hA'
  obtain ⟨B, hB, hBp, hBv, hBt⟩ := triangle_z (x1 := 100) (y1 := 0) (x2 := 101) (y2 := 0) (x3 := 100) (y3 := 1) (-10)
    (by norm_num)
  obtain ⟨C, hC, hCp, hCv, hCt⟩ := triangle_z (x1 := 100) (y1 := 0) (x2 := 101) (y2 := 0) (x3 := 100) (y3 := 1) 10
    (by norm_num)
  have cA : CornerNormal A.pts ⟨0, 0, 1⟩ := by
    rw [hAp]
    exact cornerNormal_z (.inl rfl) rfl rfl rfl (by norm_num)
  have cB : CornerNormal B.pts ⟨0, 0, 1⟩ := by
    rw [hBp]
    exact cornerNormal_z (.inl rfl) rfl rfl rfl (by norm_num)
  have cC : CornerNormal C.pts ⟨0, 0, 1⟩ := by
    rw [hCp]
    exact cornerNormal_z (.inl rfl) rfl rfl rfl (by norm_num)
  have hw : ∀ pts ∈ [A, B, C].map Poly.pts, Within ⟨-6, -8, -10⟩ ⟨101, 10, 10⟩ pts := by
    intro pts hpts v hv
    simp only [List.map_cons, List.map_nil, List.mem_cons, List.not_mem_nil, or_false] at hpts
    rcases hpts with rfl | rfl | rfl
    · rw [hAp] at hv
      simp only [List.mem_cons, List.not_mem_nil, or_false] at hv
      rcases hv with rfl | rfl | rfl <;> norm_num
    · rw [hBp] at hv
      simp only [List.mem_cons, List.not_mem_nil, or_false] at hv
      rcases hv with rfl | rfl | rfl <;> norm_num
    · rw [hCp] at hv
      simp only [List.mem_cons, List.not_mem_nil, or_false] at hv
      rcases hv with rfl | rfl | rfl <;> norm_num
  obtain ⟨g, hg, -⟩ := C44_complete ⟨-6, -8, -10⟩ ⟨101, 10, 10⟩ ([A, B, C].map Poly.pts) (1 / 10) (1 / 10 ^ 6)
    (by norm_num) (by norm_num) (fun pts hpts => ⟨by
      simp only [List.map_cons, List.map_nil, List.mem_cons, List.not_mem_nil, or_false] at hpts
      rcases hpts with rfl | rfl | rfl
      · rw [hAp]; simp
      · rw [hBp]; simp
      · rw [hCp]; simp, hw pts hpts⟩)
  obtain ⟨P, hP⟩ : ∃ P : Params ℝ, P = ⟨343, 1 / 40000, 1 / 10, g, [], 1 / 10, ⟨-6, -8, -10⟩, ⟨101, 10, 10⟩, [-1],
    fun _ => 1 / 5, 1 / 10 ^ 6, geoOf [A, B, C], List.dedup⟩ := ⟨_, rfl⟩
  have htrans : P.trans = [-1] := by
    unfold Params.trans
    rw [if_neg (by simp [hP])]
    rw [hP]
  have hcor : ∀ Q ∈ [A, B, C], CornerNormal Q.pts ⟨0, 0, 1⟩ := by
    intro Q hQ
    simp only [List.mem_cons, List.not_mem_nil, or_false] at hQ
    rcases hQ with rfl | rfl | rfl <;> assumption
  have hsc : Scene P ([A, B, C].map Poly.pts) := by
    rw [hP]
    refine ⟨⟨1 / 10 ^ 6, by norm_num, hg⟩, hw, ?_, ?_, by norm_num, by norm_num, by norm_num, by norm_num⟩
    · exact fun l => ⟨List.nodup_dedup l, fun x => List.mem_dedup⟩
    · exact geoOf_normals fun Q hQ => ⟨_, hcor Q hQ⟩
  have hvel : (343 : ℝ) • (⟨0, 0, -1⟩ : Vec3 ℝ) = ⟨0, 0, -343⟩ := by ext <;> norm_num
  obtain ⟨source, hsrc⟩ : ∃ s : Vec3 ℝ, s = ⟨x.x, x.y, 1 / 1000⟩ := ⟨_, rfl⟩
  have bx := abs_le.1 hx1
  have by' := abs_le.1 hx2
  have hnohit : ∀ k, (geoOf [A, B, C]).hit source ⟨0, 0, -343⟩ k = false := by
    intro k
    have key : ∀ Q ∈ [A, B, C], isPointInsideProjection source ⟨0, 0, -343⟩ Q.pts Q.tri true (1 / 1000) = .ok false := by
      intro Q hQ
      simp only [List.mem_cons, List.not_mem_nil, or_false] at hQ
      rcases hQ with rfl | rfl | rfl
      · refine projection_down (z := 0) cA ?_ _ (by norm_num) (by norm_num) ?_
        · rw [hAp]; simp
        · rw [← hrej (1 / 1000)]
          congr 1
          rw [hsrc]
          ext <;> simp [hxz]
      · refine projection_down (z := -10) cB ?_ _ (by norm_num) (by norm_num) (outside_bbox_x ?_ ?_ _)
        · rw [hBp]; simp
        · rw [hBp]; simp
        · rw [hBp, hsrc]
          intro p hp
          simp only [List.mem_cons, List.not_mem_nil, or_false] at hp
          rcases hp with rfl | rfl | rfl <;> (simp only []; linarith)
      · refine projection_down (z := 10) cC ?_ _ (by norm_num) (by norm_num) (outside_bbox_x ?_ ?_ _)
        · rw [hCp]; simp
        · rw [hCp]; simp
        · rw [hCp, hsrc]
          intro p hp
          simp only [List.mem_cons, List.not_mem_nil, or_false] at hp
          rcases hp with rfl | rfl | rfl <;> (simp only []; linarith)
    simp only [geoOf]
    cases hk : [A, B, C][k]? with
    | none => rfl
    | some Q =>
      simp only []
      rw [key Q (List.mem_of_getElem? hk)]
      simp
  have hin' : leftBox P source = false := by
    rw [← Bool.not_eq_true, leftBox_iff, hP, hsrc]
    simp only [Outside]
    rintro (h | h | h | h | h | h) <;> linarith
  obtain ⟨row, hrun, hrow⟩ := run_once (P := P) (by rw [hP]) (by rw [hP]; norm_num) (source := source)
    (d := ⟨0, 0, -1⟩) hin' (by
      intro k hk ho
      have h1 := hnohit k
      rw [← hvel] at h1
      rw [hP] at ho
      have := ho.2
      rw [h1] at this
      exact Bool.false_ne_true this) 5
  refine ⟨P, [A, B, C], source, ⟨0, 0, -1⟩, by rw [hP], hsc, by rw [hP]; norm_num, ?_, ?_, ?_, row, _, A, x, hrun, hrow,
    by simp, ?_, ?_, ?_, ?_, hin⟩
  · intro k
    rw [htrans]
    simp
  · rw [Vec3.norm, show Vec3.normSq (⟨0, 0, -1⟩ : Vec3 ℝ) = 1 by norm_num [Vec3.normSq, Vec3.dot], Real.sqrt_one]
  · intro Q hQ
    refine ⟨?_, ?_⟩
    · simp only [List.mem_cons, List.not_mem_nil, or_false] at hQ
      rcases hQ with rfl | rfl | rfl
      · exact ⟨0, ⟨_, _, hA⟩, hAv, by rw [hAp]; simp [Vec3.dot], cA⟩
      · exact ⟨-10, ⟨_, _, hB⟩, hBv, by rw [hBp]; simp [Vec3.dot], cB⟩
      · exact ⟨10, ⟨_, _, hC⟩, hCv, by rw [hCp]; simp [Vec3.dot], cC⟩
    · rw [hP]
      simp only [Grazing, hvel, Vec3.dot]
      norm_num
  · rw [hAp]; simp
  · rw [hsrc]; norm_num
  · rw [hsrc, hP]; norm_num
  · refine ⟨(1 / 1000) / (343 / 40000), by norm_num, by norm_num, ?_⟩
    rw [hsrc, hP]
    ext
    · simp
    · simp
    · simp [hxz]; norm_num

end B3d.Sim
