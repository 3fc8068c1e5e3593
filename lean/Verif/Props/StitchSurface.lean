import Verif.Props.Stitch
import Verif.Props.Solids

/-!
# C81: stitching and the surface of the solid
-/

namespace B3d.Solids

open Spec Polygon Slice Points Triangles

/-- What is assumed of a cut: the part of the slicing line that is kept is good (see C41), no part is larger than the
polygon, and the polygon and its parts are exactly in one plane. -/
def Cut.Good (c : Cut) : Prop :=
  (∀ o s1 s2, addIntersectionPoints c.whole.2.pts c.line = .ok (o, s1) →
    removeRedundantPoints s1 c.whole.2.pts c.whole.2.tri = .ok s2 → GoodLine c.whole.2.pts c.whole.2.tri s2) ∧
  (∀ a a1 a2, c.whole.2.area = some a → c.part1.2.area = some a1 → c.part2.2.area = some a2 → a1 ≤ a ∧ a2 ≤ a) ∧
  ∀ v, c.whole.2.vn = some v → ∃ e : ℝ, ∀ p ∈ c.whole.2.pts ++ c.part1.2.pts ++ c.part2.2.pts, Vec3.dot v p = e

/-- The sum of the areas of all polygons. -/
noncomputable def totalArea (S : SolidG) : ℝ := ((facesOf S).map fun P => P.area.getD 0).sum

/-- How many triangles of the solid the point is inside of. -/
noncomputable def totalCover (S : SolidG) (x : Vec3 ℝ) : Nat := ((facesOf S).map fun P => cover P x).sum

/-- The cone over a flat polygon is a third of its area times the height. -/
theorem cone_flat {P : Poly} {v : Vec3 ℝ} {e : ℝ} (hP : Proper P v) (hne : P.pts ≠ [])
    (he : ∀ p ∈ P.pts, Vec3.dot v p = e) :
    coneVolume 0 P.pts = Vec3.dot (cycSum Vec3.cross P.pts) v / 2 * (e / (3 * Vec3.normSq v)) := by
  obtain ⟨p0, rest, hpts⟩ := List.exists_cons_of_ne_nil hne
  have hp0 : p0 ∈ P.pts := by rw [hpts]; exact List.mem_cons_self
  have hcone : coneVolume 0 P.pts = Vec3.dot (cycSum Vec3.cross P.pts) p0 / 6 := by
    simp only [coneVolume, areaVector2, sub_zero]
    rw [show P.pts.headD 0 = p0 by rw [hpts]; rfl]
  have hnn : Vec3.normSq v ≠ 0 := (Vec3.normSq_pos hP.ne).ne'
  have key : ∀ t ∈ P.tri, signedArea2 P.pts p0 t = e / Vec3.normSq v * signedArea2 P.pts v t := by
    intro t ht
    obtain ⟨a, b, c, ha, hb, hc⟩ := hP.index t ht
    obtain ⟨i, j, k⟩ := t
    simp only at ha hb hc
    simp only [signedArea2, ha, hb, hc]
    have := cross_parallel (v := v) (u := b - a) (w := c - a) hP.ne
      (by rw [Vec3.dot_sub_right, hP.flat b (List.mem_of_getElem? hb) a (List.mem_of_getElem? ha), sub_self])
      (by rw [Vec3.dot_sub_right, hP.flat c (List.mem_of_getElem? hc) a (List.mem_of_getElem? ha), sub_self])
    have h2 := congrArg (fun w => Vec3.dot w p0) this
    simp only [Vec3.dot_smul_left, he p0 hp0] at h2
    rw [h2]
    ring
  have hsum : Vec3.dot (cycSum Vec3.cross P.pts) p0 = e / Vec3.normSq v * Vec3.dot (cycSum Vec3.cross P.pts) v := by
    rw [← hP.sum p0, ← hP.sum v, ← List.sum_map_mul_left]
    exact congrArg List.sum (List.map_congr_left key)
  rw [hcone, hsum]
  field_simp
  ring

/-- A direction orthogonal to `v`. -/
theorem exists_orth (v : Vec3 ℝ) : ∃ u : Vec3 ℝ, u ≠ 0 ∧ Vec3.dot v u = 0 := by
  by_cases h : v.x = 0 ∧ v.y = 0
  · exact ⟨⟨1, 0, 0⟩, fun h => by simpa using congrArg Vec3.x h, by simp [Vec3.dot, h.1]⟩
  · refine ⟨⟨-v.y, v.x, 0⟩, fun hz => h ⟨?_, ?_⟩, by simp [Vec3.dot]; ring⟩
    · simpa using congrArg Vec3.y hz
    · simpa using congrArg Vec3.x hz

open Classical in
/-- How many times the outline of a polygon runs around a point of its plane. -/
noncomputable def around (x : Vec3 ℝ) (P : Poly) : ℤ :=
  match P.vn with
  | some v => if ∀ p ∈ P.pts, Vec3.dot v p = Vec3.dot v x then winding v (exists_orth v).choose x P.pts else 0
  | none => 0

theorem around_eq {x v : Vec3 ℝ} {P : Poly} (hv : P.vn = some v) (h : ∀ p ∈ P.pts, Vec3.dot v p = Vec3.dot v x) :
    around x P = winding v (exists_orth v).choose x P.pts := by
  unfold around
  simp only [hv]
  rw [if_pos h]

theorem around_off {x v p : Vec3 ℝ} {P : Poly} (hv : P.vn = some v) (hp : p ∈ P.pts)
    (h : Vec3.dot v p ≠ Vec3.dot v x) : around x P = 0 := by
  unfold around
  simp only [hv]
  rw [if_neg fun k => h (k p hp)]

theorem around_cover {x : Vec3 ℝ} {P : Poly} (h : FromFlat P) (hx : OffEdges P x) : around x P = cover P x := by
  obtain ⟨pts, vn, v, hn, hv, hf⟩ := h
  obtain ⟨hlen, w, hw, -, ht, -⟩ := polygonNew_ok hn
  rw [hv, Option.some.injEq] at hw
  subst hw
  obtain ⟨hne, hp⟩ := proper_of_new hn hv hf
  obtain ⟨p0, rest, hpts⟩ := List.exists_cons_of_ne_nil hne
  have hp0 : p0 ∈ P.pts := by rw [hpts]; exact List.mem_cons_self
  obtain ⟨_, _, _, d, _⟩ := C70_orientation hn
  have hsub : ∀ q ∈ pts, q ∈ P.pts := by
    rcases d with d | d <;> simp [d]
  by_cases hx' : Vec3.dot v p0 = Vec3.dot v x
  · rw [around_eq hv fun p hpp => (hp.flat p hpp p0 hp0).trans hx']
    exact (C20_winding hlen ht (fun q hq => (hp.flat q (hsub q hq) p0 hp0).trans hx')
      (exists_orth v).choose_spec.1 (exists_orth v).choose_spec.2 rfl).2 hx
  · rw [around_off hv hp0 hx', cover, List.countP_eq_zero.2]
    · rfl
    intro t ht' hh
    simp only [decide_eq_true_eq] at hh
    obtain ⟨a, b, c, ha, hb, hc, r, s, q, -, -, -, hsum, rfl⟩ := hh
    apply hx'
    rw [Vec3.dot_add_right, Vec3.dot_add_right, Vec3.dot_smul_right, Vec3.dot_smul_right, Vec3.dot_smul_right,
      hp.flat a (List.mem_of_getElem? ha) p0 hp0, hp.flat b (List.mem_of_getElem? hb) p0 hp0,
      hp.flat c (List.mem_of_getElem? hc) p0 hp0, ← add_mul, ← add_mul, hsum, one_mul]

/-- A good cut keeps area, cone and winding. -/
theorem cut_keeps {c : Cut} (hP : FromFlat c.whole.2) (hm : c.Made) (hg : c.Good) :
    FromFlat c.part1.2 ∧ FromFlat c.part2.2 ∧
      c.part1.2.area.getD 0 + c.part2.2.area.getD 0 = c.whole.2.area.getD 0 ∧
      coneVolume 0 c.part1.2.pts + coneVolume 0 c.part2.2.pts = coneVolume 0 c.whole.2.pts ∧
      ∀ x, around x c.part1.2 + around x c.part2.2 = around x c.whole.2 := by
  obtain ⟨pts, vn, v, hn, hv, hf⟩ := hP
  obtain ⟨rnd, hm⟩ := hm
  obtain ⟨g1, g2, g3⟩ := hg
  obtain ⟨e, he⟩ := g3 v hv
  obtain ⟨v0, hv0, -, -, hlen, -, ⟨a, ha, apos, harea⟩, -⟩ := C70_orientation hn
  rw [hv, Option.some.injEq] at hv0
  subst hv0
  obtain ⟨-, -, ⟨pts1, n1⟩, ⟨pts2, n2⟩, e1, e2⟩ := slice_named hv hm
  obtain ⟨v1, hv1, -, d1, -, -, ⟨a1, ha1, a1pos, harea1⟩, -⟩ := C70_orientation n1
  obtain ⟨v2, hv2, -, d2, -, -, ⟨a2, ha2, a2pos, harea2⟩, -⟩ := C70_orientation n2
  rw [e1, Option.some.injEq] at hv1
  rw [e2, Option.some.injEq] at hv2
  subst hv1 hv2
  have s1 : ∀ q ∈ pts1, q ∈ c.part1.2.pts := by
    rcases d1 with d | d <;> simp [d]
  have s2 : ∀ q ∈ pts2, q ∈ c.part2.2.pts := by
    rcases d2 with d | d <;> simp [d]
  have he0 : ∀ p ∈ c.whole.2.pts, Vec3.dot v p = e := fun p hp => he p (by simp [hp])
  have he1 : ∀ p ∈ c.part1.2.pts, Vec3.dot v p = e := fun p hp => he p (by simp [hp])
  have he2 : ∀ p ∈ c.part2.2.pts, Vec3.dot v p = e := fun p hp => he p (by simp [hp])
  have f1 : FromFlat c.part1.2 :=
    ⟨pts1, _, v, n1, e1, fun p hp q hq => by rw [he1 p (s1 p hp), he1 q (s1 q hq)]⟩
  have f2 : FromFlat c.part2.2 :=
    ⟨pts2, _, v, n2, e2, fun p hp q hq => by rw [he2 p (s2 p hp), he2 q (s2 q hq)]⟩
  obtain ⟨le1, le2⟩ := g2 a a1 a2 ha ha1 ha2
  obtain ⟨o, l1, l2, q1, q2, k1, k2, k3, hh⟩ := C41_slice hv hm
  obtain ⟨d, m1, m2⟩ := g1 o l1 l2 k1 k2
  have hn2 : 2 ≤ c.whole.2.pts.length := by
    obtain ⟨hn', -⟩ := polygonNew_ok hn
    obtain ⟨_, _, _, d, _⟩ := C70_orientation hn
    rcases d with d | d
    · rw [d]; omega
    · rw [d, List.length_reverse]; omega
  have hc := C41_cut_partial hn2 d m1 m2 k3
  obtain ⟨hadd, hw⟩ : a1 + a2 = a ∧
      ∀ u x, winding v u x c.part1.2.pts + winding v u x c.part2.2.pts = winding v u x c.whole.2.pts := by
    rcases hh with ⟨b1, b2⟩ | ⟨b1, b2⟩
    · obtain ⟨r1, -, -, r2⟩ := C41_polygons_partial hn b1 b2 hc ha ha1 ha2 le1 le2
      exact ⟨r1, r2 v hv⟩
    · obtain ⟨r1, -, -, r2⟩ := C41_polygons_partial hn b2 b1 hc ha ha2 ha1 le2 le1
      exact ⟨by rw [add_comm]; exact r1, fun u x => by rw [add_comm]; exact r2 v hv u x⟩
  obtain ⟨z0, p0⟩ := proper_of_new hn hv hf
  obtain ⟨z1, p1⟩ := proper_of_new n1 e1 fun p hp q hq => by rw [he1 p (s1 p hp), he1 q (s1 q hq)]
  obtain ⟨z2, p2⟩ := proper_of_new n2 e2 fun p hp q hq => by rw [he2 p (s2 p hp), he2 q (s2 q hq)]
  refine ⟨f1, f2, by simp only [ha, ha1, ha2, Option.getD_some, hadd], ?_, fun x => ?_⟩
  · rw [cone_flat p0 z0 he0, cone_flat p1 z1 he1, cone_flat p2 z2 he2, ← harea, ← harea1, ← harea2, ← hadd]
    ring
  · by_cases hx : e = Vec3.dot v x
    · rw [around_eq hv fun p hp => (he0 p hp).trans hx, around_eq e1 fun p hp => (he1 p hp).trans hx,
        around_eq e2 fun p hp => (he2 p hp).trans hx]
      exact hw _ x
    · obtain ⟨r0, _, t0⟩ := List.exists_cons_of_ne_nil z0
      obtain ⟨r1, _, t1⟩ := List.exists_cons_of_ne_nil z1
      obtain ⟨r2, _, t2⟩ := List.exists_cons_of_ne_nil z2
      rw [around_off hv (p := r0) (by rw [t0]; simp) (by rw [he0 r0 (by rw [t0]; simp)]; exact hx),
        around_off e1 (p := r1) (by rw [t1]; simp) (by rw [he1 r1 (by rw [t1]; simp)]; exact hx),
        around_off e2 (p := r2) (by rw [t2]; simp) (by rw [he2 r2 (by rw [t2]; simp)]; exact hx), add_zero]

/-- Good cuts keep the sums over the faces. -/
theorem cuts_keep {S S' : SolidG} {cs : List Cut} (h : CutInto S cs S') (hS : ∀ P ∈ facesOf S, FromFlat P)
    (hg : ∀ c ∈ cs, c.Good) : (∀ P ∈ facesOf S', FromFlat P) ∧ totalArea S' = totalArea S ∧
      signedVolume 0 ((facesOf S').map Poly.pts) = signedVolume 0 ((facesOf S).map Poly.pts) ∧
      ∀ x, ((facesOf S').map (around x)).sum = ((facesOf S).map (around x)).sum := by
  induction h with
  | done => exact ⟨hS, rfl, rfl, fun _ => rfl⟩
  | @cut S S' S'' c cs hm hr _ ih =>
    obtain ⟨l, p1, p2⟩ := replaced_polys hr
    rw [allPolys_eq] at p1 p2
    have hw : FromFlat c.whole.2 := hS _ (p1.symm.subset (by simp))
    obtain ⟨f1, f2, ka, kv, kw⟩ := cut_keeps hw hm (hg c (by simp))
    have hS' : ∀ P ∈ facesOf S', FromFlat P := by
      intro P hP
      rcases List.mem_cons.1 (p2.subset hP) with rfl | hP
      · exact f1
      rcases List.mem_cons.1 hP with rfl | hP
      · exact f2
      · exact hS P (p1.symm.subset (by simp [hP]))
    obtain ⟨r1, r2, r3, r4⟩ := ih hS' fun c hc => hg c (by simp [hc])
    refine ⟨r1, r2.trans ?_, r3.trans ?_, fun x => (r4 x).trans ?_⟩
    · unfold totalArea
      rw [(p2.map _).sum_eq, (p1.map _).sum_eq]
      simp only [List.map_cons, List.sum_cons]
      linarith
    · unfold signedVolume
      rw [List.map_map, List.map_map, (p2.map _).sum_eq, (p1.map _).sum_eq]
      simp only [List.map_cons, List.sum_cons, Function.comp]
      linarith
    · rw [(p2.map _).sum_eq, (p1.map _).sum_eq]
      simp only [List.map_cons, List.sum_cons]
      have := kw x
      linarith

/-- **C81, the surface.**  If all cuts are good, then stitching keeps the total area of a solid of flat polygons and
what its surface covers (a point on no edge of a triangle is in as many triangles as before), and the computed volume
changes by no more than the regularisation of the tetrahedra, `1e-6/12` for each triangle before and after. -/
theorem C81_surface_partial {S S' : SolidG} {cs : List Cut} (h : CutInto S cs S') (hS : ∀ P ∈ facesOf S, FromFlat P)
    (hg : ∀ c ∈ cs, c.Good) : totalArea S' = totalArea S ∧
      (∀ x, (∀ P ∈ facesOf S ++ facesOf S', OffEdges P x) → totalCover S' x = totalCover S x) ∧
      ∃ V V', solidVolume S = .ok V ∧ solidVolume S' = .ok V' ∧
        |V' - V| ≤ (numTriangles S + numTriangles S') * (1 / 10 ^ 6 / 12) := by
  obtain ⟨r1, r2, r3, r4⟩ := cuts_keep h hS hg
  refine ⟨r2, fun x hx => ?_, ?_⟩
  · have one : ∀ T : SolidG, (∀ P ∈ facesOf T, FromFlat P) → (∀ P ∈ facesOf T, OffEdges P x) →
        ((facesOf T).map (around x)).sum = (totalCover T x : ℤ) := by
      intro T hT ho
      unfold totalCover
      rw [Nat.cast_list_sum, List.map_map]
      exact congrArg List.sum (List.map_congr_left fun P hP => around_cover (hT P hP) (ho P hP))
    have := r4 x
    rw [one S hS fun P hP => hx P (by simp [hP]), one S' r1 fun P hP => hx P (by simp [hP])] at this
    exact_mod_cast this
  · obtain ⟨⟨V, hV, bV⟩, -⟩ := C63_volume hS
    obtain ⟨⟨V', hV', bV'⟩, -⟩ := C63_volume r1
    refine ⟨V, V', hV, hV', ?_⟩
    rw [r3] at bV'
    rw [abs_le] at bV bV' ⊢
    constructor <;> linarith [bV.1, bV.2, bV'.1, bV'.2]

end B3d.Solids
