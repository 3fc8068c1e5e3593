import Verif.Model.Reload
import Verif.Props.DistanceCases
import Verif.Props.Files
import Verif.Proofs.Solids

/-! # C100: polygons that are saved and read again -/

namespace B3d.Polygon

open Spec Triangles Points

/-- The normal at the first vertex of an outline (`none`: the corner is straight). -/
noncomputable def firstCornerNormal (pts : List (Vec3 ℝ)) : Option (Vec3 ℝ) :=
  match pts.getLast?, pts[0]?, pts[1]? with
  | some l, some o, some q => normal l o q
  | _, _, _ => none

theorem chooseNormal_first {pts : List (Vec3 ℝ)} (hn : 3 ≤ pts.length) :
    chooseNormal pts none = .ok (firstCornerNormal pts) := by
  match pts, hn with
  | a :: b :: c :: l, _ =>
    obtain ⟨x, hx⟩ : ∃ x, (a :: b :: c :: l).getLast? = some x :=
      Option.isSome_iff_exists.1 (by simp)
    simp [chooseNormal, firstCornerNormal, hx]

theorem firstCornerNormal_of {pts : List (Vec3 ℝ)} {w : Vec3 ℝ} (h : CornerNormal pts w) :
    firstCornerNormal pts = some w := by
  obtain ⟨-, l, o, q, hl, ho, hq, hb, hc⟩ := h
  have h0 : 0 < Vec3.norm (Vec3.cross (o - l) (q - l)) := lt_trans (by positivity) hb
  simp only [firstCornerNormal, hl, ho, hq, normal]
  rw [if_neg]
  · rw [Option.some.injEq, hc, Vec3.norm_smul, abs_of_pos h0]
    have hw : Vec3.norm w = 1 := by
      have := congrArg Vec3.norm hc
      rw [Vec3.norm_smul, abs_of_pos h0] at this
      exact mul_left_cancel₀ h0.ne' (by rw [mul_one]; exact this.symm)
    rw [hw, mul_one, smul_smul, one_div, inv_mul_cancel₀ h0.ne', one_smul]
  · simp only [isClose, NP_ATOL, sub_zero, abs_zero, mul_zero, add_zero, not_le, abs_of_pos h0]
    exact hb

/-- What the constructor has computed, completed. -/
theorem polygonNew_rest {pts : List (Vec3 ℝ)} {vn : Option (Vec3 ℝ)} {P : Poly}
    (h : polygonNew pts none vn = .ok P) : Points.arePointsCoplanar pts = true ∧
      polygonCentroid P.pts P.tri = .ok P.ctr := by
  simp only [polygonNew] at h
  split at h
  · cases h
  rename_i hcop
  split at h
  · cases h
  split at h
  · cases h
  split at h
  · cases h
  split at h
  · cases h
  rename_i ctr hctr
  split at h
  · cases h
  rw [Except.ok.injEq] at h
  subst h
  exact ⟨by simpa using hcop, hctr⟩

/-- **C100, what is read.**  A polygon that was made from points (with or without a normal) is saved and read again.  If its
vertices pass the test for coplanarity, the reader accepts it, and the result has the same vertices, triangles, centroid and
plane coefficients.  Its normal is the one at the first vertex. -/
theorem C100_read {pts : List (Vec3 ℝ)} {vn : Option (Vec3 ℝ)} {P : Poly} (h : polygonNew pts none vn = .ok P)
    (hc : arePointsCoplanar P.pts = true) :
    ∃ Q, readPolygon P.pts P.tri = .ok Q ∧ Q.pts = P.pts ∧ Q.tri = P.tri ∧ Q.ctr = P.ctr ∧ Q.plane = P.plane ∧
      Q.vn = firstCornerNormal P.pts ∧ Q.area = (firstCornerNormal P.pts).map (polygonArea P.pts) := by
  obtain ⟨hn, v, hv, hcv, ht, ha, hpl⟩ := polygonNew_ok h
  obtain ⟨-, hctr⟩ := polygonNew_rest h
  obtain ⟨-, -, -, hp, hl, -⟩ := C70_orientation h
  have hlen : P.pts.length = pts.length := by
    rcases hp with e | e <;> rw [e]
    rw [List.length_reverse]
  refine ⟨⟨P.pts, firstCornerNormal P.pts, P.tri, P.ctr, (firstCornerNormal P.pts).map (polygonArea P.pts), P.plane⟩,
    ?_, rfl, rfl, rfl, rfl, rfl, rfl⟩
  have h3 : 3 ≤ P.pts.length := by omega
  simp only [readPolygon, polygonNew, hc, chooseNormal_first h3, chooseTriangles]
  rw [if_neg (by simp), if_neg (by simpa using h3), if_pos (by omega)]
  simp [hctr, hpl]

/-- **C100, the usual case.**  A polygon that was made from points without a normal and kept their order comes back exactly as it
was, in every attribute. -/
theorem C100_same {pts : List (Vec3 ℝ)} {P : Poly} (h : polygonNew pts none none = .ok P) (hk : P.pts = pts) :
    readPolygon P.pts P.tri = .ok P := by
  obtain ⟨hn, v, hv, hcv, ht, ha, hpl⟩ := polygonNew_ok h
  obtain ⟨hc, -⟩ := polygonNew_rest h
  obtain ⟨Q, hQ, h1, h2, h3, h4, h5, h6⟩ := C100_read h (by rw [hk]; exact hc)
  rw [hQ]
  rw [chooseNormal_first hn, Except.ok.injEq] at hcv
  rw [hk, hcv] at h5 h6
  rw [Option.map_some, ← hk, ← ha] at h6
  obtain ⟨a, b, c, d, e, f⟩ := Q
  obtain ⟨a', b', c', d', e', f'⟩ := P
  simp only at *
  subst h1 h2 h3 h4 h5 h6 hv
  rfl

/-- **C100, from then on.**  What has been read once is read the same ever after. -/
theorem C100_stable {pts : List (Vec3 ℝ)} {tri : List Tri} {Q : Poly} (h : readPolygon pts tri = .ok Q) :
    readPolygon Q.pts Q.tri = .ok Q := by
  obtain ⟨h1, h2, -⟩ := C70_given.1 Q h
  rw [h1, h2]
  exact h

theorem exact_coplanar {pts : List (Vec3 ℝ)} {v : Vec3 ℝ} {e : ℝ} (hv : Vec3.norm v = 1)
    (hpl : ∀ p ∈ pts, Vec3.dot v p = e) : arePointsCoplanar pts = true :=
  C36_coplanar_complete pts v e _ (by rintro rfl; rw [Vec3.norm_eq_zero.2 rfl] at hv; norm_num at hv)
    GEOM_ATOL_pos hpl

/-- In an exactly plane outline the first corner turns left, turns right or is straight. -/
theorem corner_cases {pts : List (Vec3 ℝ)} {v : Vec3 ℝ} {e : ℝ} (hn : 3 ≤ pts.length) (hu : Vec3.norm v = 1)
    (hpl : ∀ p ∈ pts, Vec3.dot v p = e) :
    CornerNormal pts v ∨ CornerNormal pts (-v) ∨ firstCornerNormal pts = none := by
  obtain ⟨l, hl⟩ : ∃ l, pts.getLast? = some l :=
    ⟨pts.getLast (by rintro rfl; simp at hn), List.getLast?_eq_some_getLast _⟩
  obtain ⟨o, ho⟩ : ∃ o, pts[0]? = some o := ⟨_, List.getElem?_eq_getElem (by omega)⟩
  obtain ⟨q, hq⟩ : ∃ q, pts[1]? = some q := ⟨_, List.getElem?_eq_getElem (by omega)⟩
  have el := hpl l (List.mem_of_getLast? hl)
  have eo := hpl o (List.mem_of_getElem? ho)
  have eq := hpl q (List.mem_of_getElem? hq)
  have hv0 : v ≠ 0 := by rintro rfl; rw [Vec3.norm_eq_zero.2 rfl] at hu; norm_num at hu
  have hp := B3d.Solids.cross_parallel hv0 (u := o - l) (w := q - l) (by rw [Vec3.dot_sub_right, eo, el, sub_self])
    (by rw [Vec3.dot_sub_right, eq, el, sub_self])
  obtain ⟨t, ht⟩ : ∃ t : ℝ, Vec3.cross (o - l) (q - l) = t • v := ⟨_, hp⟩
  have hnt : Vec3.norm (Vec3.cross (o - l) (q - l)) = |t| := by rw [ht, Vec3.norm_smul, hu, mul_one]
  by_cases hb : 1 / 10 ^ 8 < |t|
  · rcases le_total 0 t with h0 | h0
    · refine .inl ⟨hu, l, o, q, hl, ho, hq, by rw [hnt]; exact hb, ?_⟩
      rw [hnt, ht, abs_of_nonneg h0]
    · refine .inr (.inl ⟨?_, l, o, q, hl, ho, hq, by rw [hnt]; exact hb, ?_⟩)
      · rw [show -v = (-1 : ℝ) • v by ext <;> simp, Vec3.norm_smul, hu]; norm_num
      · rw [hnt, ht, abs_of_nonpos h0]; ext <;> simp
  · refine .inr (.inr ?_)
    simp only [firstCornerNormal, hl, ho, hq, normal]
    rw [if_pos]
    simp only [isClose, NP_ATOL, sub_zero, abs_zero, mul_zero, add_zero, hnt, abs_abs]
    exact not_lt.1 hb

/-- **C100, the normal that is read.**  For a polygon with a unit normal, whose vertices lie exactly in a plane across that
normal: the reader accepts it.  If the stored outline turns to the left at its first vertex, the polygon comes back exactly as it
was.  If it turns to the right there, it comes back with the opposite normal and is otherwise the same.  If it is straight there,
the normal and the area come back as NaN. -/
theorem C100_normal {pts : List (Vec3 ℝ)} {vn : Option (Vec3 ℝ)} {P : Poly} {v : Vec3 ℝ} {e : ℝ}
    (h : polygonNew pts none vn = .ok P) (hv : P.vn = some v) (hu : Vec3.norm v = 1)
    (hpl : ∀ p ∈ P.pts, Vec3.dot v p = e) :
    (CornerNormal P.pts v → readPolygon P.pts P.tri = .ok P) ∧
    (CornerNormal P.pts (-v) → readPolygon P.pts P.tri = .ok { P with vn := some (-v) }) ∧
    (¬ CornerNormal P.pts v → ¬ CornerNormal P.pts (-v) →
      readPolygon P.pts P.tri = .ok { P with vn := none, area := none }) := by
  obtain ⟨hn, v', hv', -, -, ha, -⟩ := polygonNew_ok h
  obtain rfl : v = v' := by rw [hv, Option.some.injEq] at hv'; exact hv'
  obtain ⟨-, -, -, hp, -⟩ := C70_orientation h
  have hlen : P.pts.length = pts.length := by
    rcases hp with e | e <;> rw [e]
    rw [List.length_reverse]
  obtain ⟨Q, hQ, h1, h2, h3, h4, h5, h6⟩ := C100_read h (exact_coplanar hu hpl)
  obtain ⟨a, b, c, d, f, g⟩ := Q
  obtain ⟨a', b', c', d', f', g'⟩ := P
  simp only at *
  subst h1 h2 h3 h4 hv
  refine ⟨fun hc => ?_, fun hc => ?_, fun hc hc' => ?_⟩
  · rw [firstCornerNormal_of hc] at h5 h6
    rw [hQ, h5, h6, Option.map_some, ← ha]
  · rw [firstCornerNormal_of hc] at h5 h6
    rw [hQ, h5, h6, Option.map_some, ha]
    congr 3
    rw [C23_polygon_area_spec, C23_polygon_area_spec, specArea, specArea, Vec3.dot_neg_right, abs_neg]
  · rcases corner_cases (by omega) hu hpl with hx | hx | hx
    · exact absurd hx hc
    · exact absurd hx hc'
    · rw [hx] at h5 h6
      rw [hQ, h5, h6]
      rfl

/-! ### Concrete polygons -/

/-- A tilted square comes back as it was: it meets the hypotheses of `C100_read`, `C100_same`, `C100_stable`. -/
theorem square_read : ∃ P, polygonNew [⟨0, 0, 0⟩, ⟨3, 1, 0⟩, ⟨2, 4, 0⟩, ⟨-1, 3, 0⟩] none none = .ok P ∧
    P.pts = [⟨0, 0, 0⟩, ⟨3, 1, 0⟩, ⟨2, 4, 0⟩, ⟨-1, 3, 0⟩] ∧ arePointsCoplanar P.pts = true ∧
    readPolygon P.pts P.tri = .ok P := by
  have c0 := coplanar_z [(0, 0), (3, 1), (2, 4), (-1, 3)]
  simp only [List.map_cons, List.map_nil] at c0
  obtain ⟨P, h1, h2, h3⟩ := polygonNew_quad (vn := none) (v := ⟨0, 0, 1⟩) c0
    (by simp only [chooseNormal, List.getLast?_cons_cons, List.getLast?_singleton, List.getElem?_cons_zero,
          List.getElem?_cons_succ]
        rw [normal_z (s := 1) (.inl rfl) (by norm_num)])
    (triangulate_quad (unit_z (.inl rfl))
      (isCornerConvex_z (.inl rfl) (by norm_num))
      (isPointInside_far (m := 3) Vec3.y (.inr rfl) (.inr (by norm_num)))
      (isCornerConvex_z (.inl rfl) (by norm_num)))
  exact ⟨P, h1, h2, by rw [h2]; exact c0, C100_same h1 h2⟩

/-- **C100 fails.**  An arrow head, given with its normal because its first corner is reflex (as the documentation of `Polygon`
asks for): it is made with the normal `(0, 0, 1)`, saved, and read with the normal `(0, 0, -1)`.  The vertices, the triangles and
all the rest come back as they were, so its triangles now run clockwise around its normal. -/
theorem C100_reflex_first_corner (z : ℝ) : ∃ P : Poly,
    polygonNew [⟨1, 1, z⟩, ⟨1, 4, z⟩, ⟨0, 0, z⟩, ⟨4, 1, z⟩] none (some ⟨0, 0, 1⟩) = .ok P ∧
    P.pts = [⟨1, 1, z⟩, ⟨1, 4, z⟩, ⟨0, 0, z⟩, ⟨4, 1, z⟩] ∧ P.vn = some ⟨0, 0, 1⟩ ∧
    readPolygon P.pts P.tri = .ok { P with vn := some ⟨0, 0, -1⟩ } := by
  have hc := coplanar_z [(1, 1), (1, 4), (0, 0), (4, 1)] z
  simp only [List.map_cons, List.map_nil] at hc
  obtain ⟨P, h, hp, hv, ht⟩ := polygonNew_intro (vn := some ⟨0, 0, 1⟩) hc (by simp) rfl
    (triangulate_reflex (v := ⟨0, 0, 1⟩) (unit_z (.inl rfl))
      (isCornerConvex_z (.inl rfl) (by norm_num)) (isCornerConvex_z (.inl rfl) (by norm_num))
      (isPointInside_far (m := 1) Vec3.x (.inl rfl) (.inr (by norm_num)))
      (isCornerConvex_z (.inl rfl) (by norm_num)))
  have hpl : ∀ p ∈ P.pts, Vec3.dot ⟨0, 0, 1⟩ p = z := by rw [hp]; simp [Vec3.dot]
  have e : -(⟨0, 0, 1⟩ : Vec3 ℝ) = ⟨0, 0, -1⟩ := by ext <;> simp
  have hw : CornerNormal P.pts (-⟨0, 0, 1⟩) := by
    rw [hp, e]
    exact cornerNormal_z (x1 := 4) (y1 := 1) (x2 := 1) (y2 := 1) (x3 := 1) (y3 := 4) (z := z) (.inr rfl) rfl rfl rfl
      (by norm_num)
  refine ⟨P, h, hp, hv, ?_⟩
  rw [(C100_normal h hv (by rw [norm_z]; simp) hpl).2.1 hw, e]

end B3d.Polygon

namespace B3d.Files

open B3d.Polygon B3d.Tree
open B3d.Triangles (Tri)

/-- Every polygon of the building was made by the constructor from points, with or without a normal, and its vertices pass the
test for coplanarity. -/
def Made (b : Bldg (Vec3 ℝ)) : Prop :=
  ∀ z ∈ b.zones, ∀ s ∈ z.solids, ∀ w ∈ s.walls, ∀ p ∈ w.polygons, ∃ pts vn P,
    polygonNew pts none vn = .ok P ∧ p.pts = P.pts ∧ p.tri = P.tri ∧ Points.arePointsCoplanar P.pts = true

theorem accepted_of_made {b : Bldg (Vec3 ℝ)} (h : Made b) : Accepted readOutcome b := by
  intro z hz s hs w hw p hp
  obtain ⟨pts, vn, P, hP, e1, e2, hc⟩ := h z hz s hs w hw p hp
  obtain ⟨Q, hQ, -⟩ := C100_read hP hc
  rw [readOutcome, e1, e2, hQ]

/-- **C100, B3D files.**  A building whose polygons were made from points, with distinct names in each container, is written to a
B3D file and read again: with the real constructor of `Polygon`, reading succeeds, and every polygon is where it was, with its
name, uid, vertices and triangles; the constructor has given it the other attributes. -/
theorem C100_b3d (uid : Str) (b : Bldg (Vec3 ℝ)) (hd : Distinct b) (hv : ValidNames b) (hm : Made b)
    (hne : leaves b ≠ []) :
    ∃ b', readB3d readOutcome uid (writeB3d b) = .ok b' ∧ b'.name = b.name ∧ leaves b' = leaves b ∧
      ∀ e ∈ leaves b', ∃ Q, readPolygon e.2.2.2.2.2.1 e.2.2.2.2.2.2 = .ok Q ∧ Q.pts = e.2.2.2.2.2.1 ∧ Q.tri = e.2.2.2.2.2.2 := by
  obtain ⟨b', h1, h2, h3, -⟩ := C16_every_polygon readOutcome uid b hd hv (accepted_of_made hm) hne
  refine ⟨b', h1, h2, h3, ?_⟩
  intro e he
  rw [h3] at he
  simp only [leaves, List.mem_flatMap, List.mem_map] at he
  obtain ⟨z, hz, s, hs, w, hw, p, hp, rfl⟩ := he
  obtain ⟨pts, vn, P, hP, e1, e2, hc⟩ := hm z hz s hs w hw p hp
  obtain ⟨Q, hQ, q1, q2, -⟩ := C100_read hP hc
  exact ⟨Q, by rw [e1, e2]; exact hQ, by rw [e1]; exact q1, by rw [e2]; exact q2⟩

/-- A building with one tilted square meets the hypotheses of `C100_b3d`. -/
example : ∃ b : Bldg (Vec3 ℝ), Distinct b ∧ ValidNames b ∧ Made b ∧ leaves b ≠ [] := by
  obtain ⟨P, h1, h2, h3, -⟩ := square_read
  refine ⟨⟨['b'], [], [⟨['z'], [], [⟨['s'], [], [⟨['w'], [], [⟨['p'], [], P.pts, P.tri, none⟩], none⟩], none⟩], none⟩]⟩,
    ?_, ?_, ?_, ?_⟩
  · constructor <;> simp
  · constructor <;> simp [PATH_SEP]
  · simp only [Made, List.forall_mem_singleton]
    exact ⟨_, none, P, h1, rfl, rfl, h3⟩
  · simp [leaves]

/-- A triple of numbers as a point. -/
def ofTriple (t : ℝ × ℝ × ℝ) : Vec3 ℝ := ⟨t.1, t.2.1, t.2.2⟩

/-- The same for vertices stored as triples of numbers. -/
def MadeTriples (b : Bldg (ℝ × ℝ × ℝ)) : Prop :=
  ∀ z ∈ b.zones, ∀ s ∈ z.solids, ∀ w ∈ s.walls, ∀ p ∈ w.polygons, ∃ pts vn P,
    polygonNew pts none vn = .ok P ∧ p.pts.map ofTriple = P.pts ∧ p.tri = P.tri ∧ Points.arePointsCoplanar P.pts = true

/-- **C100, dotbim files.**  The same for dotbim files, which keep the uids of the containers, too. -/
theorem C100_dotbim (b : Bldg (ℝ × ℝ × ℝ)) (hd : Distinct b) (hv : ValidNames b) (hm : MadeTriples b) :
    ∃ b', readDotbim (fun pts tri => readOutcome (pts.map ofTriple) tri) (writeDotbim b) = .ok b' ∧ b'.name = b.name ∧
      b'.uid = b.uid ∧ leaves b' = leaves b := by
  have ha : Accepted (fun pts tri => readOutcome (pts.map ofTriple) tri) b := by
    intro z hz s hs w hw p hp
    obtain ⟨pts, vn, P, hP, e1, e2, hc⟩ := hm z hz s hs w hw p hp
    obtain ⟨Q, hQ, -⟩ := C100_read hP hc
    simp only [readOutcome, e1, e2, hQ]
  obtain ⟨b', h1, h2, h3, h4, -⟩ := C17_every_polygon _ b hd hv ha
  exact ⟨b', h1, h2, h3, h4⟩

/-- The same building with its vertices as triples meets the hypotheses of `C100_dotbim`. -/
example : ∃ b : Bldg (ℝ × ℝ × ℝ), Distinct b ∧ ValidNames b ∧ MadeTriples b ∧ leaves b ≠ [] := by
  obtain ⟨P, h1, h2, h3, -⟩ := square_read
  refine ⟨⟨['b'], [], [⟨['z'], [], [⟨['s'], [], [⟨['w'], [], [⟨['p'], [], P.pts.map fun v => (v.x, v.y, v.z), P.tri, none⟩],
    none⟩], none⟩], none⟩]⟩, ?_, ?_, ?_, ?_⟩
  · constructor <;> simp
  · constructor <;> simp [PATH_SEP]
  · simp only [MadeTriples, List.forall_mem_singleton]
    refine ⟨_, none, P, h1, ?_, rfl, h3⟩
    rw [List.map_map]
    exact List.map_id _
  · simp [leaves]

end B3d.Files
