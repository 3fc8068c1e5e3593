import Verif.Proofs.InTriangle
import Verif.Model.PointInPolygon
import Verif.Props.Region
import Verif.Props.Points

/-! # Lemmas about points and polygons -/

namespace B3d.Polygon

open Spec Triangles Points

/-- The triangles refer to existing points and are not degenerate. -/
def Sturdy (pts : List (Vec3 ℝ)) (tri : List Tri) : Prop :=
  pts ≠ [] ∧ ∀ t ∈ tri, TriangleWith pts t fun a b c => ¬ Vec3.norm (Vec3.cross (b - a) (c - b)) < GEOM_ATOL

theorem atBoundary_eq {pts : List (Vec3 ℝ)} (h : pts ≠ []) (x : Vec3 ℝ) (atol : ℝ) :
    isPointAtBoundary x pts atol = .ok (boundaryLoop x atol (cycEdges pts)) := by
  unfold isPointAtBoundary
  rw [polygonEdges_eq 0 pts h]

theorem boundaryLoop_iff {x : Vec3 ℝ} {atol : ℝ} : ∀ es : List (Vec3 ℝ × Vec3 ℝ),
    boundaryLoop x atol es = true ↔ ∃ e ∈ es, isPointOnSegment x e.1 e.2 atol = true
  | [] => by simp [boundaryLoop]
  | (p, q) :: es => by
    unfold boundaryLoop
    rw [List.exists_mem_cons_iff]
    split
    · rename_i h; simp [h]
    · rename_i h; rw [boundaryLoop_iff es]; simp [h]

theorem triangleWith_eq {pts : List (Vec3 ℝ)} {t : Tri} {a b c : Vec3 ℝ} {R : Vec3 ℝ → Vec3 ℝ → Vec3 ℝ → Prop}
    (ha : pts[t.1]? = some a) (hb : pts[t.2.1]? = some b) (hc : pts[t.2.2]? = some c) :
    TriangleWith pts t R ↔ R a b c := by
  constructor
  · rintro ⟨a', b', c', ha', hb', hc', h⟩
    rw [ha, Option.some.injEq] at ha'
    rw [hb, Option.some.injEq] at hb'
    rw [hc, Option.some.injEq] at hc'
    subst ha' hb' hc'
    exact h
  · exact fun h => ⟨a, b, c, ha, hb, hc, h⟩

theorem triangleLoop_iff {x : Vec3 ℝ} {pts : List (Vec3 ℝ)} {b : Bool} {atol : ℝ} (hp : pts ≠ []) :
    ∀ tri : List Tri,
    (∀ t ∈ tri, TriangleWith pts t fun a b c => ¬ Vec3.norm (Vec3.cross (b - a) (c - b)) < GEOM_ATOL) →
    ∃ r, triangleLoop x pts b atol tri = .ok r ∧
      (r = true ↔ (∃ t ∈ tri, TriangleWith pts t fun a b c => Triangles.isPointInside x a b c = .ok true) ∧
        (b = false → isPointAtBoundary x pts atol = .ok false))
  | [], _ => ⟨false, rfl, by simp⟩
  | (i, j, k) :: rest, h => by
    obtain ⟨r, hr, hir⟩ := triangleLoop_iff (x := x) (b := b) (atol := atol) hp rest
      (fun t ht => h t (List.mem_cons_of_mem _ ht))
    obtain ⟨p, q, s, ep, eq, es, hlen⟩ := h _ List.mem_cons_self
    obtain ⟨ri, hi⟩ := isPointInside_ok_of_len hlen x
    simp only at ep eq es
    have hw : (TriangleWith pts (i, j, k) fun a b c => Triangles.isPointInside x a b c = .ok true) ↔ ri = true := by
      rw [triangleWith_eq (t := (i, j, k)) ep eq es, hi]
      simp
    unfold triangleLoop
    simp only [ep, eq, es, hi]
    rw [atBoundary_eq hp] at *
    simp only [List.exists_mem_cons_iff, hw]
    cases ri with
    | false => exact ⟨r, hr, by rw [hir]; simp⟩
    | true =>
      cases b with
      | true => exact ⟨true, rfl, by simp⟩
      | false =>
        cases hb : boundaryLoop x atol (cycEdges pts) with
        | true => exact ⟨false, rfl, by simp⟩
        | false => exact ⟨true, rfl, by simp⟩

/-- The test as a whole, when nothing raises. -/
theorem isPointInside_iff {x : Vec3 ℝ} {pts : List (Vec3 ℝ)} {tri : List Tri} (b : Bool) (atol : ℝ)
    (h : Sturdy pts tri) : ∃ r, isPointInside x pts tri b atol = .ok r ∧
      (r = true ↔ Bboxes.isPointInsideBbox x pts (1 / 100) = .ok true ∧
        arePointsCoplanar (pts ++ [x]) atol = true ∧
        (∃ t ∈ tri, TriangleWith pts t fun a b c => Triangles.isPointInside x a b c = .ok true) ∧
        (b = false → isPointAtBoundary x pts atol = .ok false)) := by
  obtain ⟨hp, h⟩ := h
  obtain ⟨-, -, rb, -, hb, -⟩ := Bboxes.C25_inside_bbox pts hp x (1 / 100)
  obtain ⟨r, hr, hir⟩ := triangleLoop_iff (x := x) (b := b) (atol := atol) hp tri h
  unfold isPointInside
  rw [hb]
  cases rb with
  | false => exact ⟨false, rfl, by simp⟩
  | true =>
    cases hc : arePointsCoplanar (pts ++ [x]) atol with
    | false => exact ⟨false, rfl, by simp⟩
    | true => exact ⟨r, hr, by rw [hir]; simp⟩

theorem polygonNew_sturdy {pts : List (Vec3 ℝ)} {vn : Option (Vec3 ℝ)} {P : Poly}
    (h : polygonNew pts none vn = .ok P) : Sturdy P.pts P.tri := by
  obtain ⟨hn, v, hv, hc, ht, -⟩ := polygonNew_ok h
  obtain ⟨h1, h2, h3⟩ := C20_triangulate_valid _ _ _ _ _ _ _ hn ht
  refine ⟨?_, ?_⟩
  · rintro e
    rcases h1 with h1 | h1 <;> rw [e] at h1
    · rw [← h1] at hn; simp at hn
    · have := congrArg List.length h1
      rw [List.length_reverse] at this
      rw [← this] at hn; simp at hn
  · rintro ⟨i, j, k⟩ hm
    obtain ⟨-, -, -, -, -, -, -, a, b, c, ha, hb, hc, hconv⟩ := h3 i j k hm
    refine ⟨a, b, c, ha, hb, hc, ?_⟩
    unfold isCornerConvex at hconv
    split at hconv
    · cases hconv
    · simp only [] at hconv
      split at hconv
      · cases hconv
      · assumption

theorem polygonNew_flat {pts : List (Vec3 ℝ)} {vn : Option (Vec3 ℝ)} {P : Poly} {v : Vec3 ℝ} {e : ℝ}
    (h : polygonNew pts none vn = .ok P) (hv : P.vn = some v) (hpl : ∀ p ∈ P.pts, Vec3.dot v p = e) :
    Flat P.pts P.tri v e := by
  obtain ⟨hn, v', hv', hc, ht, -⟩ := polygonNew_ok h
  obtain rfl : v = v' := by rw [hv, Option.some.injEq] at hv'; exact hv'
  obtain ⟨h1, -⟩ := C20_triangulate_valid _ _ _ _ _ _ _ hn ht
  refine triangulate_flat hn ht fun p hp => hpl p ?_
  rcases h1 with h1 | h1 <;> rw [h1]
  · exact hp
  · exact List.mem_reverse.2 hp

theorem polygonNew_vertex {pts : List (Vec3 ℝ)} {vn : Option (Vec3 ℝ)} {P : Poly}
    (h : polygonNew pts none vn = .ok P) {x : Vec3 ℝ} (hx : x ∈ P.pts) :
    ∃ t ∈ P.tri, TriangleWith P.pts t fun a b c => x = a ∨ x = b ∨ x = c := by
  obtain ⟨hn, v', hv', hc, ht, -⟩ := polygonNew_ok h
  obtain ⟨h1, -⟩ := C20_triangulate_valid _ _ _ _ _ _ _ hn ht
  have hlen : P.pts.length = pts.length := by rcases h1 with h1 | h1 <;> rw [h1]; simp
  obtain ⟨-, hst⟩ := polygonNew_sturdy h
  obtain ⟨i, hi, rfl⟩ := List.mem_iff_getElem.1 hx
  obtain ⟨t, htm, hti⟩ := C20_triangulate_uses_every_vertex _ _ _ _ _ _ _ hn ht i (by omega)
  obtain ⟨a, b, c, ha, hb, hc', -⟩ := hst t htm
  refine ⟨t, htm, a, b, c, ha, hb, hc', ?_⟩
  have e : P.pts[i]? = some P.pts[i] := List.getElem?_eq_getElem hi
  rcases hti with rfl | rfl | rfl
  · left; rw [e, Option.some.injEq] at ha; exact ha
  · right; left; rw [e, Option.some.injEq] at hb; exact hb
  · right; right; rw [e, Option.some.injEq] at hc'; exact hc'

theorem inTriangle_plane {n a b c x : Vec3 ℝ} {e : ℝ} (ha : Vec3.dot n a = e) (hb : Vec3.dot n b = e)
    (hc : Vec3.dot n c = e) (h : InTriangle a b c x) : Vec3.dot n x = e := by
  obtain ⟨r, s, t, -, -, -, h1, rfl⟩ := h
  rw [Vec3.dot_add_right, Vec3.dot_add_right, Vec3.dot_smul_right, Vec3.dot_smul_right, Vec3.dot_smul_right,
    ha, hb, hc, ← add_mul, ← add_mul, h1, one_mul]

/-- Membership in a triangle of the list is enough, apart from the tests of the triangle. -/
theorem isPointInside_of_triangle {x n : Vec3 ℝ} {e atol : ℝ} {pts : List (Vec3 ℝ)} {tri : List Tri}
    (hs : Sturdy pts tri) (hf : Flat pts tri n e) (hat : 0 < atol) {t : Tri} (ht : t ∈ tri)
    (h : TriangleWith pts t fun a b c => InTriangle a b c x ∧ Triangles.isPointInside x a b c = .ok true) :
    isPointInside x pts tri true atol = .ok true := by
  obtain ⟨r, hr, hir⟩ := isPointInside_iff (x := x) true atol hs
  obtain ⟨a, b, c, ha, hb, hc, hin, hok⟩ := h
  have ma := List.mem_of_getElem? ha
  have mb := List.mem_of_getElem? hb
  have mc := List.mem_of_getElem? hc
  have hx := inTriangle_plane (hf.plane a ma) (hf.plane b mb) (hf.plane c mc) hin
  have : r = true := by
    rw [hir]
    refine ⟨inTriangle_bbox hin pts ma mb mc, ?_, ⟨t, ht, a, b, c, ha, hb, hc, hok⟩, by simp⟩
    apply C36_coplanar_complete _ n e atol hf.ne hat
    intro p hp
    rcases List.mem_append.1 hp with hp | hp
    · exact hf.plane p hp
    · rw [List.mem_singleton.1 hp]; exact hx
  rw [hr, this]

/-! ## The coplanarity test -/

theorem firstNormal_append {w : Vec3 ℝ} (x : Vec3 ℝ) : ∀ l, firstNormal l = some w → firstNormal (l ++ [x]) = some w
  | [], h => by simp [firstNormal] at h
  | [_], h => by simp [firstNormal] at h
  | [_, _], h => by simp [firstNormal] at h
  | a :: b :: c :: t, h => by
    cases hn : normal a b c with
    | some vn =>
      simp only [List.cons_append, firstNormal, hn] at h ⊢
      exact h
    | none =>
      rw [firstNormal, hn] at h
      have := firstNormal_append x (b :: c :: t) h
      rw [List.cons_append, List.cons_append, List.cons_append, firstNormal, hn]
      exact this

theorem firstNormal_some : ∀ (l : List (Vec3 ℝ)) (k : Nat) (a b c : Vec3 ℝ), l[k]? = some a → l[k + 1]? = some b →
    l[k + 2]? = some c → 1 / 10 ^ 8 < Vec3.norm (Vec3.cross (b - a) (c - a)) → ∃ w, firstNormal l = some w
  | [], k, a, b, c, ha, _, _, _ => by simp at ha
  | [_], k, a, b, c, _, hb, _, _ => by simp at hb
  | [_, _], k, a, b, c, _, _, hc, _ => by simp at hc
  | p :: q :: r :: t, k, a, b, c, ha, hb, hc, h => by
    unfold firstNormal
    split
    · exact ⟨_, rfl⟩
    · rename_i hn
      cases k with
      | zero =>
        exfalso
        simp at ha hb hc
        subst ha hb hc
        unfold normal at hn
        simp only [] at hn
        split at hn
        · rename_i hcl
          simp only [isClose, sub_zero, abs_zero, mul_zero, add_zero, NP_ATOL] at hcl
          rw [abs_of_nonneg (Vec3.norm_nonneg _)] at hcl
          norm_num at hcl h
          linarith
        · cases hn
      | succ k =>
        exact firstNormal_some (q :: r :: t) k a b c (by simpa using ha) (by simpa using hb) (by simpa using hc) h

theorem collinearLoop_false {atol : ℝ} : ∀ (l : List (Vec3 ℝ)) (k : Nat) (a b : Vec3 ℝ), l[k]? = some a →
    l[k + 1]? = some b → ¬ (allClose b a NP_RTOL atol ∨ allClose b ((-1 : ℝ) • a) NP_RTOL atol) →
    collinearLoop atol l = false
  | [], k, a, b, ha, _, _ => by simp at ha
  | [_], k, a, b, _, hb, _ => by simp at hb
  | p :: q :: t, 0, a, b, ha, hb, h => by
    simp at ha hb
    subst ha hb
    unfold collinearLoop
    rw [if_neg h]
  | p :: q :: t, k + 1, a, b, ha, hb, h => by
    unfold collinearLoop
    split
    · exact collinearLoop_false (q :: t) k a b (by simpa using ha) (by simpa using hb) h
    · rfl

theorem parallel_cross {n u w : Vec3 ℝ} (hu : Vec3.dot n u = 0) (hw : Vec3.dot n w = 0) :
    Vec3.normSq n • Vec3.cross u w = Vec3.dot n (Vec3.cross u w) • n := by
  have e : Vec3.normSq n • Vec3.cross u w - Vec3.dot n (Vec3.cross u w) • n =
      Vec3.dot n w • Vec3.cross u n - Vec3.dot n u • Vec3.cross w n := by
    ext <;> simp only [Vec3.normSq, Vec3.dot, Vec3.cross_x, Vec3.cross_y, Vec3.cross_z, Vec3.sub_x, Vec3.sub_y,
      Vec3.sub_z, Vec3.smul_x, Vec3.smul_y, Vec3.smul_z] <;> ring
  rw [hu, hw, zero_smul, zero_smul, sub_self] at e
  exact sub_eq_zero.1 e

/-- The computed normal of three points of a plane is a unit normal of the plane. -/
theorem normal_plane {n a b c w : Vec3 ℝ} {e : ℝ} (hn : n ≠ 0) (ha : Vec3.dot n a = e) (hb : Vec3.dot n b = e)
    (hc : Vec3.dot n c = e) (h : normal a b c = some w) :
    ∃ k : ℝ, w = k • n ∧ |k| * Vec3.norm n = 1 ∧ (0 < k ↔ 0 < Vec3.dot n (Vec3.cross (b - a) (c - a))) := by
  obtain ⟨h1, h2, h3⟩ := normal_spec h
  have hN := Vec3.normSq_pos hn
  have d : ∀ {p q : Vec3 ℝ}, Vec3.dot n p = e → Vec3.dot n q = e → Vec3.dot n (p - q) = 0 := by
    intro p q hp hq
    rw [Vec3.dot_sub_right, hp, hq, sub_self]
  have hp := parallel_cross (d hb ha) (d hc ha)
  have hc0 := norm_pos' h3
  obtain ⟨v, hv⟩ : ∃ v, v = Vec3.cross (b - a) (c - a) := ⟨_, rfl⟩
  rw [← hv] at h2 h3 hp hc0 ⊢
  have e2 : v = (Vec3.dot n v / Vec3.normSq n) • n := by
    rw [div_eq_inv_mul, ← smul_smul, ← hp, smul_smul, inv_mul_cancel₀ hN.ne', one_smul]
  have e3 : w = (1 / Vec3.norm v * (Vec3.dot n v / Vec3.normSq n)) • n := by
    rw [h2, ← smul_smul, ← e2]
  refine ⟨_, e3, ?_, ?_⟩
  · rw [← Vec3.norm_smul, ← e3]
    have := Vec3.norm_sq w
    rw [h1] at this
    nlinarith [Vec3.norm_nonneg w]
  · constructor
    · intro hk
      by_contra hcc
      have := mul_nonpos_of_nonneg_of_nonpos (one_div_pos.2 hc0).le
        (div_nonpos_of_nonpos_of_nonneg (not_lt.1 hcc) hN.le)
      linarith
    · intro hk
      exact mul_pos (one_div_pos.2 hc0) (div_pos hk hN)

/-- A point accepted by the coplanarity test together with points that span a plane is close to the plane. -/
theorem coplanar_near {n x : Vec3 ℝ} {e : ℝ} {pts : List (Vec3 ℝ)} (hn : n ≠ 0)
    (hpl : ∀ p ∈ pts, Vec3.dot n p = e) (hs : SpansPlane pts) {atol : ℝ} (hat : atol ≤ GEOM_ATOL)
    (h : arePointsCoplanar (pts ++ [x]) atol = true) : |Vec3.dot n x - e| < atol * Vec3.norm n := by
  obtain ⟨⟨k, a, b, c, ha, hb, hc, hcr⟩, k', o, p, q, ho, hp, hq, hop, hoq, hdot⟩ := hs
  obtain ⟨w, hw⟩ := firstNormal_some pts k a b c ha hb hc hcr
  obtain ⟨a', ma, b', mb, c', mc, hnn⟩ := firstNormal_mem _ _ hw
  obtain ⟨κ, hκ, hκ1, -⟩ := normal_plane hn (hpl _ ma) (hpl _ mb) (hpl _ mc) hnn
  have hw' := firstNormal_append x pts hw
  match pts, ho with
  | o' :: rest, ho =>
    simp only [List.getElem?_cons_zero, Option.some.injEq] at ho
    subst ho
    have hlen : 2 ≤ rest.length := by
      have := (List.getElem?_eq_some_iff.1 hq).1
      simp at this
      omega
    rw [List.cons_append] at hw' h
    have hncol : arePointsCollinear (o' :: (rest ++ [x])) atol = .ok false := by
      match rest, hlen with
      | p1 :: p2 :: rest, _ =>
        simp only [List.cons_append, arePointsCollinear, Except.ok.injEq]
        have h3 := notCollinear (o := o') (p := p) (q := q) (lt_of_lt_of_le (by norm_num [EPSILON]) hop)
          (lt_of_lt_of_le (by norm_num [EPSILON]) hoq) hdot
        simp only [arePointsCollinear, List.map_cons, List.map_nil, Except.ok.injEq, collinearLoop] at h3
        refine collinearLoop_false _ k' (unitFrom o' p) (unitFrom o' q) ?_ ?_ ?_
        · have := hp
          rw [List.getElem?_cons_succ] at this
          rw [List.getElem?_map, ← List.cons_append, ← List.cons_append, List.getElem?_append_left
            (List.getElem?_eq_some_iff.1 this).1, this]
          rfl
        · have := hq
          rw [List.getElem?_cons_succ] at this
          rw [List.getElem?_map, ← List.cons_append, ← List.cons_append, List.getElem?_append_left
            (List.getElem?_eq_some_iff.1 this).1, this]
          rfl
        · intro hcl
          have mono : ∀ {f g : Vec3 ℝ}, allClose f g NP_RTOL atol → allClose f g NP_RTOL GEOM_ATOL := by
            rintro f g ⟨h1, h2, h3⟩
            simp only [allClose, isClose] at *
            refine ⟨?_, ?_, ?_⟩ <;> linarith
          rw [if_pos (hcl.imp mono mono)] at h3
          cases h3
    unfold arePointsCoplanar at h
    simp only [hncol, hw'] at h
    rw [if_neg (by simp; omega)] at h
    rw [List.all_eq_true] at h
    have h4 := h x (by simp)
    rw [decide_eq_true_eq] at h4
    have h5 : -1 * Vec3.dot w o' + Vec3.dot w x = κ * (Vec3.dot n x - e) := by
      rw [hκ, Vec3.dot_smul_left, Vec3.dot_smul_left, hpl o' List.mem_cons_self]
      ring
    rw [h5, abs_mul] at h4
    have hN := norm_pos' hn
    have := mul_lt_mul_of_pos_right h4 hN
    calc |Vec3.dot n x - e| = |κ| * Vec3.norm n * |Vec3.dot n x - e| := by rw [hκ1, one_mul]
      _ = |κ| * |Vec3.dot n x - e| * Vec3.norm n := by ring
      _ < _ := this

end B3d.Polygon
