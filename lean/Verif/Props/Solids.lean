import Verif.Proofs.Box

/-! # Solids: C31 (box), C63 (volume) -/

namespace B3d.Solids

open Triangles Polygon Spec Points

/-! ### C63: volume -/

/-- The polygon was made by the constructor, without triangles given, from points that lie exactly in a
plane orthogonal to its normal. -/
def FromFlat (P : Poly) : Prop :=
  ∃ pts vn v, polygonNew pts none vn = .ok P ∧ P.vn = some v ∧ ∀ p ∈ pts, ∀ q ∈ pts, Vec3.dot v p = Vec3.dot v q

/-- Every polygon of every wall. -/
def facesOf (S : SolidG) : List Poly := S.flatMap fun w => w.polys.map Prod.snd

theorem allPolys_eq (S : SolidG) : allPolys S = facesOf S := rfl

/-- The number of triangles of a solid. -/
def numTriangles (S : SolidG) : Nat := ((facesOf S).map fun P => P.tri.length).sum

theorem solidVolume_aux {S : SolidG} (h : ∀ P ∈ allPolys S, P.pts ≠ [] ∧ ∃ v, Proper P v) :
    ∃ V, solidVolume S = .ok V ∧
      |V - abs (signedVolume 0 ((allPolys S).map Poly.pts))| ≤ numTriangles S * tetraTol := by
  obtain ⟨r, hr, hb⟩ := addPolygons_spec (allPolys S) h 0
  rw [allPolys_eq] at hb
  refine ⟨|r|, by simp only [solidVolume, hr], ?_⟩
  rw [zero_add] at hb
  exact (abs_abs_sub_abs_le_abs_sub _ _).trans hb

/-- **C63.**  The volume of a solid made of flat polygons is the absolute value of the sum of the signed
cones over its outlines, up to `1e-6/12` for every triangle (the regularisation of the tetrahedron formula).
If the surface is closed, the apex of the cones does not matter. -/
theorem C63_volume {S : SolidG} (h : ∀ P ∈ facesOf S, FromFlat P) :
    (∃ V, solidVolume S = .ok V ∧
      |V - abs (signedVolume 0 ((facesOf S).map Poly.pts))| ≤ numTriangles S * (1 / 10 ^ 6 / 12)) ∧
    (Closed ((facesOf S).map Poly.pts) → ∀ o o',
      signedVolume o ((facesOf S).map Poly.pts) = signedVolume o' ((facesOf S).map Poly.pts)) := by
  rw [← allPolys_eq] at *
  constructor
  · apply solidVolume_aux
    intro P hP
    obtain ⟨pts, vn, v, h1, h2, h3⟩ := h P hP
    obtain ⟨a, b⟩ := proper_of_new h1 h2 h3
    exact ⟨a, v, b⟩
  · intro hc o o'
    rw [signedVolume_shift o o', closed_areaVector hc]
    simp

/-- A polygon moved by `t`: the points, and what depends on them. -/
def Moved (t : Vec3 ℝ) (P Q : Poly) : Prop := Q.pts = P.pts.map (· + t) ∧ Q.vn = P.vn ∧ Q.tri = P.tri

theorem Proper.moved {P Q : Poly} {v t : Vec3 ℝ} (h : Proper P v) (m : Moved t P Q) : Proper Q v := by
  obtain ⟨m1, m2, m3⟩ := m
  have hs : ∀ w tr, signedArea2 Q.pts w tr = signedArea2 P.pts w tr := by
    intro w tr
    obtain ⟨i, j, k⟩ := tr
    simp only [signedArea2, m1, List.getElem?_map]
    cases P.pts[i]? <;> cases P.pts[j]? <;> cases P.pts[k]? <;> simp
  refine ⟨by rw [m2]; exact h.vn, h.ne, ?_, ?_, ?_, ?_⟩
  · intro p hp q hq
    rw [m1, List.mem_map] at hp hq
    obtain ⟨p', hp', rfl⟩ := hp
    obtain ⟨q', hq', rfl⟩ := hq
    rw [Vec3.dot_add_right, Vec3.dot_add_right, h.flat p' hp' q' hq']
  · intro tr htr
    rw [m3] at htr
    obtain ⟨a, b, c, ha, hb, hc⟩ := h.index tr htr
    refine ⟨a + t, b + t, c + t, ?_, ?_, ?_⟩ <;> rw [m1, List.getElem?_map] <;> simp [ha, hb, hc]
  · intro tr htr
    rw [m3] at htr
    rw [hs]
    exact h.pos tr htr
  · intro w
    rw [m3, m1, cycSum_cross_translate, ← h.sum w]
    congr 1
    apply List.map_congr_left
    intro tr _
    rw [← m1, hs]

theorem signedVolume_moved (t : Vec3 ℝ) : ∀ {Ps Qs : List Poly}, List.Forall₂ (Moved t) Ps Qs →
    (∀ P ∈ Ps, P.pts ≠ []) →
    signedVolume t (Qs.map Poly.pts) = signedVolume 0 (Ps.map Poly.pts)
  | [], [], .nil, _ => rfl
  | P :: Ps, Q :: Qs, .cons m ms, hne => by
    have ih := signedVolume_moved t ms fun P hP => hne P (List.mem_cons_of_mem _ hP)
    simp only [signedVolume, List.map_cons, List.sum_cons] at ih ⊢
    rw [ih]
    congr 1
    have hP := hne P List.mem_cons_self
    rw [m.1]
    obtain ⟨p, l, e⟩ := List.exists_cons_of_ne_nil hP
    rw [coneVolume, coneVolume, areaVector2, areaVector2, cycSum_cross_translate, e]
    simp

/-- **C63, translation.**  Moving a closed solid of flat polygons changes its volume by at most the
tolerances. -/
theorem C63_translation {S S' : SolidG} {t : Vec3 ℝ} (h : ∀ P ∈ facesOf S, FromFlat P)
    (hc : Closed ((facesOf S).map Poly.pts)) (hm : List.Forall₂ (Moved t) (facesOf S) (facesOf S')) :
    ∃ V V', solidVolume S = .ok V ∧ solidVolume S' = .ok V' ∧
      |V' - V| ≤ 2 * (numTriangles S * (1 / 10 ^ 6 / 12)) := by
  rw [← allPolys_eq] at h hc
  rw [← allPolys_eq, ← allPolys_eq] at hm
  have hp : ∀ P ∈ allPolys S, P.pts ≠ [] ∧ ∃ v, Proper P v := by
    intro P hP
    obtain ⟨pts, vn, v, h1, h2, h3⟩ := h P hP
    obtain ⟨a, b⟩ := proper_of_new h1 h2 h3
    exact ⟨a, v, b⟩
  have hp' : ∀ (Ps Qs : List Poly), List.Forall₂ (Moved t) Ps Qs → (∀ P ∈ Ps, P.pts ≠ [] ∧ ∃ v, Proper P v) →
      (∀ Q ∈ Qs, Q.pts ≠ [] ∧ ∃ v, Proper Q v) ∧
      Qs.map (fun P => P.tri.length) = Ps.map (fun P => P.tri.length) ∧
      Qs.map Poly.pts = (Ps.map Poly.pts).map (List.map (· + t)) := by
    intro Ps Qs hm
    induction hm with
    | nil => intro _; exact ⟨by simp, rfl, rfl⟩
    | @cons P Q Ps Qs m ms ih =>
      intro h
      obtain ⟨i1, i2, i3⟩ := ih fun P hP => h P (List.mem_cons_of_mem _ hP)
      refine ⟨?_, ?_, ?_⟩
      · intro R hR
        rcases List.mem_cons.1 hR with rfl | hR
        · obtain ⟨a, v, b⟩ := h P List.mem_cons_self
          refine ⟨?_, v, b.moved m⟩
          rw [m.1]
          simpa using a
        · exact i1 R hR
      · rw [List.map_cons, List.map_cons, i2, m.2.2]
      · rw [List.map_cons, List.map_cons, List.map_cons, i3, m.1]
  obtain ⟨q1, q2, q3⟩ := hp' _ _ hm hp
  obtain ⟨V, hV, hb⟩ := solidVolume_aux hp
  obtain ⟨V', hV', hb'⟩ := solidVolume_aux q1
  refine ⟨V, V', hV, hV', ?_⟩
  have hn : numTriangles S' = numTriangles S := by rw [numTriangles, ← allPolys_eq, q2]; rfl
  have hc' : Closed ((allPolys S').map Poly.pts) := by rw [q3]; exact Solids.Closed.map hc _
  have e : signedVolume 0 ((allPolys S').map Poly.pts) = signedVolume 0 ((allPolys S).map Poly.pts) := by
    rw [signedVolume_shift 0 t, closed_areaVector hc', signedVolume_moved t hm fun P hP => (hp P hP).1]
    simp
  rw [hn, e] at hb'
  unfold tetraTol at hb hb'
  rw [abs_le] at hb hb' ⊢
  constructor <;> linarith [hb.1, hb.2, hb'.1, hb'.2]

/-- **C63, parts.**  The volume of a zone is the sum over its solids, that of a building the sum over all
solids of all zones. -/
theorem C63_sum (vs : List ℝ) (zones : List (List ℝ)) :
    zoneVolume vs = vs.sum ∧ buildingVolume zones = zones.flatten.sum := by
  have h1 : ∀ (l : List ℝ) a, l.foldl (· + ·) a = a + l.sum := by
    intro l
    induction l with
    | nil => simp
    | cons b l ih => intro a; rw [List.foldl_cons, ih, List.sum_cons]; ring
  have h2 : ∀ (l : List (List ℝ)) a, l.foldl (fun v z => v + zoneVolume z) a = a + l.flatten.sum := by
    intro l
    induction l with
    | nil => simp
    | cons b l ih =>
      intro a
      rw [List.foldl_cons, ih, List.flatten_cons, List.sum_append, zoneVolume, h1]; ring
  exact ⟨by rw [zoneVolume, h1, zero_add], by rw [buildingVolume, h2, zero_add]⟩

/-! ### C31: boxes -/

/-- Sizes for which `box` is shown to work: at least a millimetre, and no side is shorter than a ten
thousandth of the largest distance from the origin along an axis (points are compared with a tolerance relative to
their coordinates). -/
def BoxSize (x y z : ℝ) (mv : Vec3 ℝ) : Prop :=
  1 / 1000 ≤ x ∧ 1 / 1000 ≤ y ∧ 1 / 1000 ≤ z ∧
  ∃ M, |mv.x| + x ≤ M ∧ |mv.y| + y ≤ M ∧ |mv.z| + z ≤ M ∧ M ≤ 10000 * x ∧ M ≤ 10000 * y ∧ M ≤ 10000 * z

theorem face_ok {wname pname : Str} {pts : List (Vec3 ℝ)} {a u w e : Vec3 ℝ} {A : ℝ}
    (hw : validateName wname = .ok wname) (hp : validateName pname = .ok pname)
    (hpts : pts = [a, a + u, a + u + w, a + w]) (hg : GoodRect a u w)
    (he : rectNormal u w = e) (hA : Vec3.norm u * Vec3.norm w = A) :
    ∃ P, faceWall (wname, pname, pts) = .ok ⟨wname, [(pname, P)]⟩ ∧
        polygonNew pts none none = .ok P ∧ P.pts = pts ∧ P.vn = some e ∧ P.area = some A ∧ P.tri = [(3, 0, 1), (3, 1, 2)] := by
  obtain ⟨P, h1, h2, h3, h4, h5⟩ := hg.new
  rw [← hpts] at h1 h2
  refine ⟨P, ?_, h1, h2, by rw [h3, he], by rw [h4, hA], h5⟩
  simp [faceWall, namedPolygon, hp, h1, oneWall, hw]

/-- The corner of a box: `i`, `j`, `k` say for every axis whether it is the far one. -/
def corner (x y z : ℝ) (mv : Vec3 ℝ) (i j k : Bool) : Vec3 ℝ :=
  ⟨if i then mv.x + x else mv.x, if j then mv.y + y else mv.y, if k then mv.z + z else mv.z⟩

/-- **C31.**  For sizes within the range in which points can be told apart, `box` has six walls with one
polygon each, whose outlines are the six faces; all normals are unit vectors pointing away from the centre;
every edge belongs to exactly two faces, which run through it in opposite directions; the areas add up to
the surface; the bounding box and (up to `1e-6`) the volume are as requested.
Missing: boxes outside this range, see `C31_far`. -/
theorem C31_box_partial {x y z : ℝ} {mv : Vec3 ℝ} (h : BoxSize x y z mv) : ∃ S, box x y z mv = .ok S ∧
    S.map WallG.name = ["floor", "wall_0", "wall_1", "wall_2", "wall_3", "ceiling"].map String.toList ∧
    S.map (fun w => w.polys.map Prod.fst) =
      ["floor", "poly_0", "poly_1", "poly_2", "poly_3", "ceiling"].map (fun n => [n.toList]) ∧
    (let c := corner x y z mv
     (allPolys S).map Poly.pts =
      [[c false false false, c false true false, c true true false, c true false false],
       [c false false false, c true false false, c true false true, c false false true],
       [c true false false, c true true false, c true true true, c true false true],
       [c false true false, c false true true, c true true true, c true true false],
       [c false false false, c false false true, c false true true, c false true false],
       [c false false true, c true false true, c true true true, c false true true]]) ∧
    (allPolys S).map Poly.vn = [some ⟨0, 0, -1⟩, some ⟨0, -1, 0⟩, some ⟨1, 0, 0⟩, some ⟨0, 1, 0⟩,
      some ⟨-1, 0, 0⟩, some ⟨0, 0, 1⟩] ∧
    (∀ P ∈ allPolys S, ∃ v, P.vn = some v ∧ Vec3.normSq v = 1 ∧
      ∀ p ∈ P.pts, 0 < Vec3.dot v (p - (mv + (1 / 2 : ℝ) • ⟨x, y, z⟩)) ∧ ∀ q ∈ P.pts, Vec3.dot v p = Vec3.dot v q) ∧
    Closed ((allPolys S).map Poly.pts) ∧ (allEdges ((allPolys S).map Poly.pts)).Nodup ∧
    (∀ P ∈ allPolys S, P.area.isSome ∧ FromFlat P ∧ P.tri = [(3, 0, 1), (3, 1, 2)]) ∧
    ((allPolys S).map fun P => P.area.getD 0).sum = 2 * (x * y + y * z + z * x) ∧
    solidBbox S = .ok (mv, mv + ⟨x, y, z⟩) ∧
    ∃ V, solidVolume S = .ok V ∧ |V - x * y * z| ≤ 1 / 10 ^ 6 := by
  obtain ⟨hx, hy, hz, M, hMx, hMy, hMz, hxM, hyM, hzM⟩ := h
  have hx0 : 0 < x := by linarith
  have hy0 : 0 < y := by linarith
  have hz0 : 0 < z := by linarith
  have ax := abs_nonneg mv.x
  have ay := abs_nonneg mv.y
  have az := abs_nonneg mv.z
  have bx : |mv.x| ≤ M := by linarith
  have by' : |mv.y| ≤ M := by linarith
  have bz : |mv.z| ≤ M := by linarith
  have fx : ¬ isClose (mv.x + x) mv.x NP_RTOL GEOM_ATOL :=
    far_of_size hx hxM bx (by rw [add_sub_cancel_left, abs_of_pos hx0])
  have fy : ¬ isClose (mv.y + y) mv.y NP_RTOL GEOM_ATOL :=
    far_of_size hy hyM by' (by rw [add_sub_cancel_left, abs_of_pos hy0])
  have fz : ¬ isClose (mv.z + z) mv.z NP_RTOL GEOM_ATOL :=
    far_of_size hz hzM bz (by rw [add_sub_cancel_left, abs_of_pos hz0])
  have nx : Vec3.norm (⟨x, 0, 0⟩ : Vec3 ℝ) = x := norm_axis hx0.le (by simp [Vec3.normSq_def])
  have ny : Vec3.norm (⟨0, y, 0⟩ : Vec3 ℝ) = y := norm_axis hy0.le (by simp [Vec3.normSq_def])
  have nz : Vec3.norm (⟨0, 0, z⟩ : Vec3 ℝ) = z := norm_axis hz0.le (by simp [Vec3.normSq_def])
  obtain ⟨P0, f0, g0, p0, v0, a0, t0⟩ := face_ok (wname := "floor".toList)
    (pname := "floor".toList)
    (pts := [corner x y z mv false false false,
      corner x y z mv false true false,
      corner x y z mv true true false,
      corner x y z mv true false false])
    (a := corner x y z mv false false false) (u := ⟨0, y, 0⟩) (w := ⟨x, 0, 0⟩) (e := ⟨0, 0, -1⟩) (A := y * x)
    (by decide +kernel) (by decide +kernel) (by simp [corner, Vec3.ext_iff])
    (goodRect_of_size (k := y) (l := x) (M := M) (by simp [Vec3.dot]) (by simp [Vec3.normSq_def])
      (by simp [Vec3.normSq_def]) hy hx (by linarith) (by linarith) hyM hxM
      (pointsEqual_false_y (by simpa [corner] using fy)) (pointsEqual_false_y (by simpa [corner] using fy))
      (pointsEqual_false_x (by simpa [corner] using fx)))
    (rectNormal_eq (k := y * x) (by positivity) (by simp [Vec3.normSq_def])
      (by ext <;> simp [Vec3.cross])) (by rw [ny, nx])
  obtain ⟨P1, f1, g1, p1, v1, a1, t1⟩ := face_ok (wname := "wall_0".toList)
    (pname := "poly_0".toList)
    (pts := [corner x y z mv false false false,
      corner x y z mv true false false,
      corner x y z mv true false true,
      corner x y z mv false false true])
    (a := corner x y z mv false false false) (u := ⟨x, 0, 0⟩) (w := ⟨0, 0, z⟩) (e := ⟨0, -1, 0⟩) (A := x * z)
    (by decide +kernel) (by decide +kernel) (by simp [corner, Vec3.ext_iff])
    (goodRect_of_size (k := x) (l := z) (M := M) (by simp [Vec3.dot]) (by simp [Vec3.normSq_def])
      (by simp [Vec3.normSq_def]) hx hz (by linarith) (by linarith) hxM hzM
      (pointsEqual_false_x (by simpa [corner] using fx)) (pointsEqual_false_x (by simpa [corner] using fx))
      (pointsEqual_false_z (by simpa [corner] using fz)))
    (rectNormal_eq (k := x * z) (by positivity) (by simp [Vec3.normSq_def])
      (by ext <;> simp [Vec3.cross])) (by rw [nx, nz])
  obtain ⟨P2, f2, g2, p2, v2, a2, t2⟩ := face_ok (wname := "wall_1".toList)
    (pname := "poly_1".toList)
    (pts := [corner x y z mv true false false,
      corner x y z mv true true false,
      corner x y z mv true true true,
      corner x y z mv true false true])
    (a := corner x y z mv true false false) (u := ⟨0, y, 0⟩) (w := ⟨0, 0, z⟩) (e := ⟨1, 0, 0⟩) (A := y * z)
    (by decide +kernel) (by decide +kernel) (by simp [corner, Vec3.ext_iff])
    (goodRect_of_size (k := y) (l := z) (M := M) (by simp [Vec3.dot]) (by simp [Vec3.normSq_def])
      (by simp [Vec3.normSq_def]) hy hz (by linarith) (by linarith) hyM hzM
      (pointsEqual_false_y (by simpa [corner] using fy)) (pointsEqual_false_y (by simpa [corner] using fy))
      (pointsEqual_false_z (by simpa [corner] using fz)))
    (rectNormal_eq (k := y * z) (by positivity) (by simp [Vec3.normSq_def])
      (by ext <;> simp [Vec3.cross])) (by rw [ny, nz])
  obtain ⟨P3, f3, g3, p3, v3, a3, t3⟩ := face_ok (wname := "wall_2".toList)
    (pname := "poly_2".toList)
    (pts := [corner x y z mv false true false,
      corner x y z mv false true true,
      corner x y z mv true true true,
      corner x y z mv true true false])
    (a := corner x y z mv false true false) (u := ⟨0, 0, z⟩) (w := ⟨x, 0, 0⟩) (e := ⟨0, 1, 0⟩) (A := z * x)
    (by decide +kernel) (by decide +kernel) (by simp [corner, Vec3.ext_iff])
    (goodRect_of_size (k := z) (l := x) (M := M) (by simp [Vec3.dot]) (by simp [Vec3.normSq_def])
      (by simp [Vec3.normSq_def]) hz hx (by linarith) (by linarith) hzM hxM
      (pointsEqual_false_z (by simpa [corner] using fz)) (pointsEqual_false_z (by simpa [corner] using fz))
      (pointsEqual_false_x (by simpa [corner] using fx)))
    (rectNormal_eq (k := z * x) (by positivity) (by simp [Vec3.normSq_def])
      (by ext <;> simp [Vec3.cross])) (by rw [nz, nx])
  obtain ⟨P4, f4, g4, p4, v4, a4, t4⟩ := face_ok (wname := "wall_3".toList)
    (pname := "poly_3".toList)
    (pts := [corner x y z mv false false false,
      corner x y z mv false false true,
      corner x y z mv false true true,
      corner x y z mv false true false])
    (a := corner x y z mv false false false) (u := ⟨0, 0, z⟩) (w := ⟨0, y, 0⟩) (e := ⟨-1, 0, 0⟩) (A := z * y)
    (by decide +kernel) (by decide +kernel) (by simp [corner, Vec3.ext_iff])
    (goodRect_of_size (k := z) (l := y) (M := M) (by simp [Vec3.dot]) (by simp [Vec3.normSq_def])
      (by simp [Vec3.normSq_def]) hz hy (by linarith) (by linarith) hzM hyM
      (pointsEqual_false_z (by simpa [corner] using fz)) (pointsEqual_false_z (by simpa [corner] using fz))
      (pointsEqual_false_y (by simpa [corner] using fy)))
    (rectNormal_eq (k := z * y) (by positivity) (by simp [Vec3.normSq_def])
      (by ext <;> simp [Vec3.cross])) (by rw [nz, ny])
  obtain ⟨P5, f5, g5, p5, v5, a5, t5⟩ := face_ok (wname := "ceiling".toList)
    (pname := "ceiling".toList)
    (pts := [corner x y z mv false false true,
      corner x y z mv true false true,
      corner x y z mv true true true,
      corner x y z mv false true true])
    (a := corner x y z mv false false true) (u := ⟨x, 0, 0⟩) (w := ⟨0, y, 0⟩) (e := ⟨0, 0, 1⟩) (A := x * y)
    (by decide +kernel) (by decide +kernel) (by simp [corner, Vec3.ext_iff])
    (goodRect_of_size (k := x) (l := y) (M := M) (by simp [Vec3.dot]) (by simp [Vec3.normSq_def])
      (by simp [Vec3.normSq_def]) hx hy (by linarith) (by linarith) hxM hyM
      (pointsEqual_false_x (by simpa [corner] using fx)) (pointsEqual_false_x (by simpa [corner] using fx))
      (pointsEqual_false_y (by simpa [corner] using fy)))
    (rectNormal_eq (k := x * y) (by positivity) (by simp [Vec3.normSq_def])
      (by ext <;> simp [Vec3.cross])) (by rw [nx, ny])
  have hall : allPolys [⟨"floor".toList, [("floor".toList, P0)]⟩, ⟨"wall_0".toList, [("poly_0".toList, P1)]⟩,
      ⟨"wall_1".toList, [("poly_1".toList, P2)]⟩, ⟨"wall_2".toList, [("poly_2".toList, P3)]⟩,
      ⟨"wall_3".toList, [("poly_3".toList, P4)]⟩, ⟨"ceiling".toList, [("ceiling".toList, P5)]⟩] =
      [P0, P1, P2, P3, P4, P5] := rfl
  have hbf : boxFaces x y z mv = [("floor".toList, "floor".toList, P0.pts), ("wall_0".toList, "poly_0".toList, P1.pts),
      ("wall_1".toList, "poly_1".toList, P2.pts), ("wall_2".toList, "poly_2".toList, P3.pts),
      ("wall_3".toList, "poly_3".toList, P4.pts), ("ceiling".toList, "ceiling".toList, P5.pts)] := by
    rw [p0, p1, p2, p3, p4, p5]
    simp [boxFaces, boxPoint, corner, add_comm]
  have hnum : [P0, P1, P2, P3, P4, P5].map Poly.pts = boxNumbers.map (List.map (boxCorner x y z mv)) := by
    rw [← boxFaces_numbers, hbf]; rfl
  have hout : ∀ P ∈ [P0, P1, P2, P3, P4, P5], ∃ v, P.vn = some v ∧ Vec3.normSq v = 1 ∧
      ∀ p ∈ P.pts, 0 < Vec3.dot v (p - (mv + (1 / 2 : ℝ) • ⟨x, y, z⟩)) ∧
        ∀ q ∈ P.pts, Vec3.dot v p = Vec3.dot v q := by
    intro P hP
    simp only [List.mem_cons, List.not_mem_nil, or_false] at hP
    rcases hP with rfl | rfl | rfl | rfl | rfl | rfl
    · refine ⟨_, v0, by simp [Vec3.normSq_def], ?_⟩
      rw [p0]
      intro p hp
      simp only [List.mem_cons, List.not_mem_nil, or_false] at hp
      constructor
      · rcases hp with rfl | rfl | rfl | rfl <;> simp [corner, Vec3.dot] <;> linarith
      · intro q hq
        simp only [List.mem_cons, List.not_mem_nil, or_false] at hq
        rcases hp with rfl | rfl | rfl | rfl <;> rcases hq with rfl | rfl | rfl | rfl <;> simp [corner, Vec3.dot]
    · refine ⟨_, v1, by simp [Vec3.normSq_def], ?_⟩
      rw [p1]
      intro p hp
      simp only [List.mem_cons, List.not_mem_nil, or_false] at hp
      constructor
      · rcases hp with rfl | rfl | rfl | rfl <;> simp [corner, Vec3.dot] <;> linarith
      · intro q hq
        simp only [List.mem_cons, List.not_mem_nil, or_false] at hq
        rcases hp with rfl | rfl | rfl | rfl <;> rcases hq with rfl | rfl | rfl | rfl <;> simp [corner, Vec3.dot]
    · refine ⟨_, v2, by simp [Vec3.normSq_def], ?_⟩
      rw [p2]
      intro p hp
      simp only [List.mem_cons, List.not_mem_nil, or_false] at hp
      constructor
      · rcases hp with rfl | rfl | rfl | rfl <;> simp [corner, Vec3.dot] <;> linarith
      · intro q hq
        simp only [List.mem_cons, List.not_mem_nil, or_false] at hq
        rcases hp with rfl | rfl | rfl | rfl <;> rcases hq with rfl | rfl | rfl | rfl <;> simp [corner, Vec3.dot]
    · refine ⟨_, v3, by simp [Vec3.normSq_def], ?_⟩
      rw [p3]
      intro p hp
      simp only [List.mem_cons, List.not_mem_nil, or_false] at hp
      constructor
      · rcases hp with rfl | rfl | rfl | rfl <;> simp [corner, Vec3.dot] <;> linarith
      · intro q hq
        simp only [List.mem_cons, List.not_mem_nil, or_false] at hq
        rcases hp with rfl | rfl | rfl | rfl <;> rcases hq with rfl | rfl | rfl | rfl <;> simp [corner, Vec3.dot]
    · refine ⟨_, v4, by simp [Vec3.normSq_def], ?_⟩
      rw [p4]
      intro p hp
      simp only [List.mem_cons, List.not_mem_nil, or_false] at hp
      constructor
      · rcases hp with rfl | rfl | rfl | rfl <;> simp [corner, Vec3.dot] <;> linarith
      · intro q hq
        simp only [List.mem_cons, List.not_mem_nil, or_false] at hq
        rcases hp with rfl | rfl | rfl | rfl <;> rcases hq with rfl | rfl | rfl | rfl <;> simp [corner, Vec3.dot]
    · refine ⟨_, v5, by simp [Vec3.normSq_def], ?_⟩
      rw [p5]
      intro p hp
      simp only [List.mem_cons, List.not_mem_nil, or_false] at hp
      constructor
      · rcases hp with rfl | rfl | rfl | rfl <;> simp [corner, Vec3.dot] <;> linarith
      · intro q hq
        simp only [List.mem_cons, List.not_mem_nil, or_false] at hq
        rcases hp with rfl | rfl | rfl | rfl <;> rcases hq with rfl | rfl | rfl | rfl <;> simp [corner, Vec3.dot]
  have hff : ∀ P ∈ [P0, P1, P2, P3, P4, P5], FromFlat P := by
    intro P hP
    obtain ⟨v, h1, -, h3⟩ := hout P hP
    have hnew : polygonNew P.pts none none = .ok P := by
      simp only [List.mem_cons, List.not_mem_nil, or_false] at hP
      rcases hP with rfl | rfl | rfl | rfl | rfl | rfl
      · rw [p0]; exact g0
      · rw [p1]; exact g1
      · rw [p2]; exact g2
      · rw [p3]; exact g3
      · rw [p4]; exact g4
      · rw [p5]; exact g5
    exact ⟨P.pts, none, v, hnew, h1, fun p hp q hq => (h3 p hp).2 q hq⟩
  have hclosed : Closed ([P0, P1, P2, P3, P4, P5].map Poly.pts) := by
    rw [hnum]; exact Solids.Closed.map boxNumbers_closed _
  refine ⟨[⟨"floor".toList, [("floor".toList, P0)]⟩, ⟨"wall_0".toList, [("poly_0".toList, P1)]⟩,
      ⟨"wall_1".toList, [("poly_1".toList, P2)]⟩, ⟨"wall_2".toList, [("poly_2".toList, P3)]⟩,
      ⟨"wall_3".toList, [("poly_3".toList, P4)]⟩, ⟨"ceiling".toList, [("ceiling".toList, P5)]⟩],
    ?_, rfl, rfl, ?_, ?_, ?_, ?_, ?_, ?_, ?_, ?_, ?_⟩
  · unfold box
    rw [hbf, p0, p1, p2, p3, p4, p5]
    simp only [mapExcept, f0, f1, f2, f3, f4, f5, makeSolid]
    rw [if_pos (by simp only [List.map_cons, List.map_nil]; decide +kernel)]
  · rw [hall]
    simp only [List.map_cons, List.map_nil, p0, p1, p2, p3, p4, p5]
  · rw [hall]
    simp only [List.map_cons, List.map_nil, v0, v1, v2, v3, v4, v5]
  · rw [hall]; exact hout
  · rw [hall]; exact hclosed
  · rw [hall, hnum, allEdges_map]
    exact boxNumbers_nodup.map ((boxCorner_injective hx0 hy0 hz0 mv).prodMap (boxCorner_injective hx0 hy0 hz0 mv))
  · rw [hall]
    intro P hP
    simp only [List.mem_cons, List.not_mem_nil, or_false] at hP
    refine ⟨?_, hff P (by simpa using hP), ?_⟩
    · rcases hP with rfl | rfl | rfl | rfl | rfl | rfl <;> simp [a0, a1, a2, a3, a4, a5]
    · rcases hP with rfl | rfl | rfl | rfl | rfl | rfl <;> assumption
  · rw [hall]
    simp only [List.map_cons, List.map_nil, a0, a1, a2, a3, a4, a5, List.sum_cons, List.sum_nil, Option.getD_some]
    ring
  · rw [solidBbox, hall]
    have hpts : [P0, P1, P2, P3, P4, P5].flatMap Poly.pts =
        P0.pts ++ (P1.pts ++ (P2.pts ++ (P3.pts ++ (P4.pts ++ (P5.pts ++ []))))) := rfl
    rw [hpts, p0, p1, p2, p3, p4, p5]
    have ex : mv.x ≤ mv.x + x := by linarith
    have ey : mv.y ≤ mv.y + y := by linarith
    have ez : mv.z ≤ mv.z + z := by linarith
    simp [Bboxes.boundingBox, Bboxes.npMin, Bboxes.npMax, corner, ex, ey, ez, bind, Except.bind, pure, Except.pure,
      Vec3.ext_iff]
  · obtain ⟨V, hV, hb⟩ := solidVolume_aux (S := [⟨"floor".toList, [("floor".toList, P0)]⟩,
      ⟨"wall_0".toList, [("poly_0".toList, P1)]⟩,
      ⟨"wall_1".toList, [("poly_1".toList, P2)]⟩, ⟨"wall_2".toList, [("poly_2".toList, P3)]⟩,
      ⟨"wall_3".toList, [("poly_3".toList, P4)]⟩, ⟨"ceiling".toList, [("ceiling".toList, P5)]⟩]) (by
        rw [hall]
        intro P hP
        obtain ⟨_, _, v, h1, h2, h3⟩ := hff P hP
        obtain ⟨i, j⟩ := proper_of_new h1 h2 h3
        exact ⟨i, v, j⟩)
    refine ⟨V, hV, ?_⟩
    have e : signedVolume 0 ([P0, P1, P2, P3, P4, P5].map Poly.pts) = x * y * z := by
      simp only [List.map_cons, List.map_nil, p0, p1, p2, p3, p4, p5, signedVolume, List.sum_cons, List.sum_nil,
        coneVolume, areaVector2, cycSum, pathSum, List.cons_append, List.nil_append, corner, Vec3.dot,
        Vec3.cross, List.headD_cons, Vec3.add_x, Vec3.add_y, Vec3.add_z, Vec3.sub_x, Vec3.sub_y, Vec3.sub_z,
        Vec3.zero_x, Vec3.zero_y, Vec3.zero_z, if_true, Bool.false_eq_true, if_false]
      ring
    have hpos : 0 < x * y * z := by positivity
    rw [hall, e, abs_of_pos hpos, numTriangles, ← allPolys_eq, hall] at hb
    simp only [List.map_cons, List.map_nil, t0, t1, t2, t3, t4, t5, List.sum_cons, List.sum_nil, tetraTol] at hb
    norm_num at hb ⊢
    exact hb

/-- Two boxes, one of them moved, meet the hypotheses of `C63_volume` and `C63_translation`. -/
example : ∃ S S', box 2 3 1 0 = .ok S ∧ box 2 3 1 ⟨5, 0, 0⟩ = .ok S' ∧ (∀ P ∈ allPolys S, FromFlat P) ∧
    Closed ((allPolys S).map Poly.pts) ∧ List.Forall₂ (Moved ⟨5, 0, 0⟩) (allPolys S) (allPolys S') := by
  obtain ⟨S, h1, -, -, h2, h3, -, h4, -, h5, -⟩ := C31_box_partial (x := 2) (y := 3) (z := 1) (mv := 0)
    ⟨by norm_num, by norm_num, by norm_num, 10, by norm_num⟩
  obtain ⟨S', h1', -, -, h2', h3', -, h4', -, h5', -⟩ := C31_box_partial (x := 2) (y := 3) (z := 1) (mv := ⟨5, 0, 0⟩)
    ⟨by norm_num, by norm_num, by norm_num, 10, by norm_num⟩
  refine ⟨S, S', h1, h1', fun P hP => (h5 P hP).2.1, h4, ?_⟩
  have hv := h3.trans h3'.symm
  have hp : (allPolys S').map Poly.pts = ((allPolys S).map Poly.pts).map (List.map (· + ⟨5, 0, 0⟩)) := by
    rw [h2, h2']
    simp [corner, Vec3.ext_iff, add_comm]
  have ht : ∀ P ∈ allPolys S, P.tri = [(3, 0, 1), (3, 1, 2)] := fun P hP => (h5 P hP).2.2
  have ht' : ∀ P ∈ allPolys S', P.tri = [(3, 0, 1), (3, 1, 2)] := fun P hP => (h5' P hP).2.2
  generalize allPolys S = A at hv hp ht
  generalize allPolys S' = B at hv hp ht'
  clear h1 h2 h3 h4 h5 h1' h2' h3' h4' h5'
  induction A generalizing B with
  | nil => cases B with
    | nil => exact .nil
    | cons b B => simp at hv
  | cons a A ih => cases B with
    | nil => simp at hv
    | cons b B =>
      simp only [List.map_cons, List.cons.injEq] at hv hp
      refine .cons ⟨hp.1, hv.1.symm, ?_⟩ (ih (fun P hP => ht P (List.mem_cons_of_mem _ hP)) B
        hv.2 hp.2 fun P hP => ht' P (List.mem_cons_of_mem _ hP))
      rw [ht a List.mem_cons_self, ht' b List.mem_cons_self]

/-- Sizes and positions within the range of `C31_box_partial`. -/
example : BoxSize 1 1 1 0 ∧ BoxSize 3 (5 / 2) (1 / 5) ⟨100, -20, 7⟩ := by
  refine ⟨⟨by norm_num, by norm_num, by norm_num, 2, ?_⟩, ⟨by norm_num, by norm_num, by norm_num, 1000, ?_⟩⟩ <;>
    norm_num [abs_of_pos, abs_of_neg]

theorem inside_equal {t a b c : Vec3 ℝ} (hb : Bboxes.isPointInsideBbox t [a, b, c] (1 / 100) = .ok true)
    (he : Points.pointsEqual t b = true) : isPointInside t a b c = .ok true := by
  rw [isPointInside, hb]
  simp [he, bind, Except.bind, pure, Except.pure]

theorem triangulate_fails {a b c d v : Vec3 ℝ} (h0 : ¬ isClose (Vec3.norm v) 0 NP_RTOL NP_ATOL)
    (h1 : isCornerConvex v d a b = .ok true) (h2 : isCornerConvex v a b c = .ok true)
    (h3 : isCornerConvex v b c d = .ok true) (h4 : isCornerConvex v c d a = .ok true)
    (i1 : isPointInside c d a b = .ok true) (i2 : isPointInside d a b c = .ok true)
    (i3 : isPointInside a b c d = .ok true) (i4 : isPointInside b c d a = .ok true)
    (g1 : isCornerConvex v b a d = .ok false) (g2 : isCornerConvex v c b a = .ok false)
    (g3 : isCornerConvex v d c b = .ok false) (g4 : isCornerConvex v a d c = .ok false) :
    triangulate 10 [a, b, c, d] v = some (.error .triangulationError) := by
  simp [triangulate, triangulateTries, h0, run, step, initState, List.range, List.range.loop, h1, h2, h3, h4,
    i1, i2, i3, i4, g1, g2, g3, g4, anyPointInside]

/-- **C31, boxes far away.**  A room of 4 m x 4 m x 3 m at UTM coordinates cannot be made: the corners of its
floor are equal for `points_equal`, so no ear is found. -/
theorem C31_far : box 4 4 3 ⟨500000, 5000000, 0⟩ = .error .triangulationError := by
  have c0 := coplanar_z [(500000, 5000000), (500000, 5000004), (500004, 5000004),
    (500004, 5000000)]
  simp only [List.map_cons, List.map_nil] at c0
  have far : polygonNew [⟨500000, 5000000, 0⟩, ⟨500000, 5000004, 0⟩, ⟨500004, 5000004, 0⟩,
      ⟨500004, 5000000, 0⟩] none none = .error .triangulationError := by
    have hn : normal (⟨500004, 5000000, 0⟩ : Vec3 ℝ) ⟨500000, 5000000, 0⟩ ⟨500000, 5000004, 0⟩ =
        some ⟨0, 0, -1⟩ := normal_z (s := -1) (.inr rfl) (by norm_num)
    have ht := triangulate_fails (a := ⟨500000, 5000000, 0⟩) (b := ⟨500000, 5000004, 0⟩)
      (c := ⟨500004, 5000004, 0⟩) (d := ⟨500004, 5000000, 0⟩) (v := ⟨0, 0, -1⟩)
      (unit_z (.inr rfl)) (isCornerConvex_z (.inr rfl) (by norm_num)) (isCornerConvex_z (.inr rfl) (by norm_num))
      (isCornerConvex_z (.inr rfl) (by norm_num)) (isCornerConvex_z (.inr rfl) (by norm_num))
      (inside_equal (by norm_num [Bboxes.isPointInsideBbox, Bboxes.boundingBox, Bboxes.npMin, Bboxes.npMax, bind,
        Except.bind, pure, Except.pure, Bboxes.anyLt, Bboxes.addScalar])
        (by norm_num [Points.pointsEqual, allClose, isClose, NP_RTOL, GEOM_ATOL, abs_of_pos, abs_of_neg]))
      (inside_equal (by norm_num [Bboxes.isPointInsideBbox, Bboxes.boundingBox, Bboxes.npMin, Bboxes.npMax, bind,
        Except.bind, pure, Except.pure, Bboxes.anyLt, Bboxes.addScalar])
        (by norm_num [Points.pointsEqual, allClose, isClose, NP_RTOL, GEOM_ATOL, abs_of_pos, abs_of_neg]))
      (inside_equal (by norm_num [Bboxes.isPointInsideBbox, Bboxes.boundingBox, Bboxes.npMin, Bboxes.npMax, bind,
        Except.bind, pure, Except.pure, Bboxes.anyLt, Bboxes.addScalar])
        (by norm_num [Points.pointsEqual, allClose, isClose, NP_RTOL, GEOM_ATOL, abs_of_pos, abs_of_neg]))
      (inside_equal (by norm_num [Bboxes.isPointInsideBbox, Bboxes.boundingBox, Bboxes.npMin, Bboxes.npMax, bind,
        Except.bind, pure, Except.pure, Bboxes.anyLt, Bboxes.addScalar])
        (by norm_num [Points.pointsEqual, allClose, isClose, NP_RTOL, GEOM_ATOL, abs_of_pos, abs_of_neg]))
      (isCornerConvex_z (.inr rfl) (by norm_num)) (isCornerConvex_z (.inr rfl) (by norm_num))
      (isCornerConvex_z (.inr rfl) (by norm_num)) (isCornerConvex_z (.inr rfl) (by norm_num))
    simp [polygonNew, c0, chooseNormal, hn, chooseTriangles, ht]
  have hname : validateName "floor".toList = .ok "floor".toList := by decide +kernel
  have hp : [boxPoint 4 4 3 ⟨500000, 5000000, 0⟩ 0 0 0, boxPoint 4 4 3 ⟨500000, 5000000, 0⟩ 0 1 0,
      boxPoint 4 4 3 ⟨500000, 5000000, 0⟩ 1 1 0, boxPoint 4 4 3 ⟨500000, 5000000, 0⟩ 1 0 0] =
      [(⟨500000, 5000000, 0⟩ : Vec3 ℝ), ⟨500000, 5000004, 0⟩, ⟨500004, 5000004, 0⟩, ⟨500004, 5000000, 0⟩] := by
    norm_num [boxPoint]
  rw [box, boxFaces]
  simp only [mapExcept, faceWall, namedPolygon, hname, hp, far]

end B3d.Solids
