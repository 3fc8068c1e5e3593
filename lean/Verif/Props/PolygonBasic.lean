import Verif.Proofs.PolygonBasic
import Verif.Proofs.Tactics

/-!
# C22 (polygon edges), C23 (polygon area), C64 (plane coefficients)
-/

set_option linter.unusedSectionVars false

namespace B3d.Polygon
open B3d.Spec

/-- C22: for every non-empty list of points, `polygon_edges` returns one edge per point, the `k`-th
from point `k` to the cyclically next one. -/
theorem C22_polygon_edges {α : Type} (zero : α) (pts : List α) (h : pts ≠ []) :
    ∃ es, polygonEdges zero pts = .ok es ∧ es.length = pts.length ∧
      ∀ k (hk : k < pts.length),
        es[k]? = some (pts[k], pts[(k + 1) % pts.length]'(Nat.mod_lt _ (by omega))) := by
  refine ⟨_, polygonEdges_eq zero pts h, length_cycEdges pts, fun k hk => ?_⟩
  exact cycEdges_getElem? pts k hk

/-- C22: every point starts exactly one edge and ends exactly one edge (as lists, in order, and
up to rotation), and consecutive edges chain end to end. -/
theorem C22_polygon_edges_chain {α : Type} (zero : α) (pts : List α) (h : pts ≠ [])
    (es : List (α × α)) (hes : polygonEdges zero pts = .ok es) :
    es.map Prod.fst = pts ∧ es.map Prod.snd = pts.rotate 1 ∧
      ∀ k a b c d, es[k]? = some (a, b) → es[k + 1]? = some (c, d) → b = c := by
  rw [polygonEdges_eq zero pts h] at hes
  cases hes
  obtain ⟨a, l, rfl⟩ := List.exists_cons_of_ne_nil h
  refine ⟨?_, ?_, ?_⟩
  · simp only [cycEdges]
    rw [List.map_fst_zip (by simp)]
  · simp only [cycEdges]
    rw [List.map_snd_zip (by simp)]
    simp
  · intro k a' b c d h1 h2
    have hk1 : k + 1 < (cycEdges (a :: l)).length := (List.getElem?_eq_some_iff.1 h2).1
    rw [length_cycEdges] at hk1
    rw [cycEdges_getElem? _ k (by omega)] at h1
    rw [cycEdges_getElem? _ (k + 1) hk1] at h2
    cases h1
    cases h2
    simp only [Nat.mod_eq_of_lt hk1]

/-- C22: the edge vectors of a closed outline add up to zero. -/
theorem C22_polygon_edge_vectors_sum_zero {K : Type} [Field K] (pts : List (Vec3 K))
    (h : pts ≠ []) (es : List (Vec3 K × Vec3 K)) (hes : polygonEdges 0 pts = .ok es) :
    (es.map fun e => e.2 - e.1).sum = 0 := by
  rw [polygonEdges_eq 0 pts h] at hes
  cases hes
  rw [← cycSum_eq_edges (fun a b : Vec3 K => b - a)]
  exact cycSum_telescope (fun a => a) pts

/-- C22: an empty array has no edges to return (the code indexes `pts[-1]`). -/
theorem C22_polygon_edges_empty {α : Type} (zero : α) :
    polygonEdges zero ([] : List α) = .error .indexError := rfl

example : polygonEdges 0 [10, 20, 30] = .ok [(10, 20), (20, 30), (30, 10)] :=
  polygonEdges_eq 0 _ (by simp)

section
variable {K : Type} [Field K] [LinearOrder K] [IsStrictOrderedRing K]

/-- Specification of the area of a planar outline: half the closed sum of cross products,
measured along the normal. -/
def specArea (pts : List (Vec3 K)) (vn : Vec3 K) : K :=
  |Vec3.dot (cycSum Vec3.cross pts) vn| / 2

/-- C23: `polygon_area` is the Stokes (shoelace) area, for every number of points. -/
theorem C23_polygon_area_spec (pts : List (Vec3 K)) (vn : Vec3 K) :
    polygonArea pts vn = specArea pts vn := by
  unfold polygonArea specArea
  split
  · next h =>
    have h0 : cycSum Vec3.cross pts = (0 : Vec3 K) := by
      match pts, h with
      | [], _ => rfl
      | [a], _ => simp [cycSum_cons]
      | [a, b], _ => exact cycSum_pair _ cross_antisymm a b
    simp [h0]
  · rw [areaTotal_eq, abs_div, abs_of_pos (by norm_num : (0 : K) < 2)]

/-- C23: the area is never negative and is zero for fewer than three points. -/
theorem C23_polygon_area_nonneg (pts : List (Vec3 K)) (vn : Vec3 K) :
    0 ≤ polygonArea pts vn ∧ (pts.length < 3 → polygonArea pts vn = 0) := by
  unfold polygonArea
  split
  · simp
  · exact ⟨abs_nonneg _, fun h => absurd h ‹_›⟩

/-- C23: translation does not change the area. -/
theorem C23_polygon_area_translate (pts : List (Vec3 K)) (vn t : Vec3 K) :
    polygonArea (pts.map (· + t)) vn = polygonArea pts vn := by
  rw [C23_polygon_area_spec, C23_polygon_area_spec, specArea, specArea, cycSum_cross_translate]

/-- C23: neither the choice of the first vertex nor the orientation changes the area. -/
theorem C23_polygon_area_renumber (pts pts' : List (Vec3 K)) (vn : Vec3 K)
    (h : pts ~r pts') :
    polygonArea pts' vn = polygonArea pts vn ∧
    polygonArea pts.reverse vn = polygonArea pts vn ∧
    polygonArea pts (-vn) = polygonArea pts vn := by
  simp only [C23_polygon_area_spec, specArea]
  refine ⟨by rw [cycSum_isRotated _ h], ?_, ?_⟩
  · rw [cycSum_reverse _ cross_antisymm, Vec3.dot_neg_left, abs_neg]
  · rw [Vec3.dot_neg_right, abs_neg]

/-- C23: an extra vertex on an edge (also outside it, on the same line) does not change the area. -/
theorem C23_polygon_area_insert_vertex (l r : List (Vec3 K)) (a b vn : Vec3 K) (t : K) :
    polygonArea (l ++ a :: (a + t • (b - a)) :: b :: r) vn = polygonArea (l ++ a :: b :: r) vn := by
  simp only [C23_polygon_area_spec, specArea]
  rw [cycSum_cross_insert]

/-- C23: scaling by `c` scales the area by `c²`. -/
theorem C23_polygon_area_scale (pts : List (Vec3 K)) (vn : Vec3 K) (c : K) :
    polygonArea (pts.map (c • ·)) vn = c ^ 2 * polygonArea pts vn := by
  simp only [C23_polygon_area_spec, specArea]
  rw [cycSum_cross_smul, Vec3.dot_smul_left, abs_mul, abs_mul_self]
  ring

/-- C23: for a planar polygon and a unit normal of its plane, the shoelace vector is parallel to
the normal, so the area is half the length of the shoelace vector (stated as squares to stay in
`K`) and does not depend on which of the two unit normals is used. -/
theorem C23_polygon_area_is_half_vector_length (pts : List (Vec3 K)) (vn : Vec3 K) (d : K)
    (hunit : Vec3.normSq vn = 1) (hplane : ∀ p ∈ pts, Vec3.dot vn p = d) :
    (2 * polygonArea pts vn) ^ 2 = Vec3.normSq (cycSum Vec3.cross pts) := by
  -- the closed sum of cross products is parallel to the normal
  have key : ∀ l : List (Vec3 K), (∀ p ∈ l, Vec3.dot vn p = 0) →
      ∃ c : K, pathSum Vec3.cross l = c • vn := by
    intro l
    induction l with
    | nil => intro _; exact ⟨0, by simp⟩
    | cons a l ih =>
      intro hl
      cases l with
      | nil => exact ⟨0, by simp⟩
      | cons b l =>
        obtain ⟨c, hc⟩ := ih (fun p hp => hl p (List.mem_cons_of_mem _ hp))
        have ha : Vec3.dot vn a = 0 := hl a (by simp)
        have hb : Vec3.dot vn b = 0 := hl b (by simp)
        refine ⟨Vec3.dot vn (Vec3.cross a b) + c, ?_⟩
        rw [pathSum_cons_cons, hc, add_smul]
        congr 1
        have hu : vn.x * vn.x + vn.y * vn.y + vn.z * vn.z = 1 := hunit
        simp only [Vec3.dot] at ha hb
        ext
        · simp only [Vec3.cross_x, Vec3.smul_x, Vec3.dot, Vec3.cross_y, Vec3.cross_z]
          linear_combination (-(a.y * b.z - a.z * b.y)) * hu +
            (vn.y * b.z - vn.z * b.y) * ha - (vn.y * a.z - vn.z * a.y) * hb
        · simp only [Vec3.cross_y, Vec3.smul_y, Vec3.dot, Vec3.cross_x, Vec3.cross_z]
          linear_combination (-(a.z * b.x - a.x * b.z)) * hu +
            (vn.z * b.x - vn.x * b.z) * ha - (vn.z * a.x - vn.x * a.z) * hb
        · simp only [Vec3.cross_z, Vec3.smul_z, Vec3.dot, Vec3.cross_x, Vec3.cross_y]
          linear_combination (-(a.x * b.y - a.y * b.x)) * hu +
            (vn.x * b.y - vn.y * b.x) * ha - (vn.x * a.y - vn.y * a.x) * hb
  have key2 : ∃ c : K, cycSum Vec3.cross pts = c • vn := by
    rw [← cycSum_cross_translate pts (-(d • vn))]
    have hz : ∀ p ∈ pts.map (· + -(d • vn)), Vec3.dot vn p = 0 := by
      intro p hp
      obtain ⟨q, hq, rfl⟩ := List.mem_map.1 hp
      rw [Vec3.dot_add_right, hplane q hq, Vec3.dot_neg_right, Vec3.dot_smul_right]
      have : Vec3.dot vn vn = 1 := hunit
      rw [this]; ring
    match hm : pts.map (· + -(d • vn)), hz with
    | [], _ => exact ⟨0, by simp⟩
    | a :: l, hz =>
      rw [cycSum_cons]
      apply key
      intro p hp
      rcases List.mem_append.1 hp with h | h
      · exact hz p h
      · rw [List.mem_singleton] at h; subst h; exact hz p (by simp)
  obtain ⟨c, hc⟩ := key2
  rw [C23_polygon_area_spec, specArea, hc, Vec3.dot_smul_left]
  have hu : Vec3.dot vn vn = 1 := hunit
  rw [hu, mul_one, mul_div_cancel₀ _ (two_ne_zero), sq_abs, Vec3.normSq, Vec3.dot_smul_left,
    Vec3.dot_smul_right, hu]
  ring

/-- The unit square in a tilted plane, with a unit normal, meets the hypotheses above and has the
expected area: a `2 × 3` rectangle spanned by `(4/5, 3/5, 0)` and `(0, 0, 1)`. -/
example :
    let pts : List (Vec3 ℚ) := [⟨0, 0, 0⟩, ⟨8 / 5, 6 / 5, 0⟩, ⟨8 / 5, 6 / 5, 3⟩, ⟨0, 0, 3⟩]
    let vn : Vec3 ℚ := ⟨3 / 5, -4 / 5, 0⟩
    polygonArea pts vn = 6 ∧ Vec3.normSq vn = 1 ∧ ∀ p ∈ pts, Vec3.dot vn p = 0 := by
  decide +kernel

/-- C64: the plane returned by `projection_coefficients` goes through the given point, and a point
satisfies its equation iff it differs from the given point by a vector orthogonal to the normal;
scaling the normal by a non-zero factor gives the same plane. -/
theorem C64_projection_plane (pt vn q : Vec3 K) (s : K) (hs : s ≠ 0) :
    let (a, b, c, d) := projectionCoefficients pt vn
    let (a', b', c', d') := projectionCoefficients pt (s • vn)
    (⟨a, b, c⟩ : Vec3 K) = vn ∧
    a * pt.x + b * pt.y + c * pt.z + d = 0 ∧
    (a * q.x + b * q.y + c * q.z + d = 0 ↔ Vec3.dot vn (q - pt) = 0) ∧
    (a' * q.x + b' * q.y + c' * q.z + d' = 0 ↔ a * q.x + b * q.y + c * q.z + d = 0) := by
  simp only [projectionCoefficients, Vec3.dot, Vec3.sub_x, Vec3.sub_y, Vec3.sub_z, Vec3.smul_x,
    Vec3.smul_y, Vec3.smul_z]
  refine ⟨trivial, by ring, ⟨fun h => by linear_combination h, fun h => by linear_combination h⟩,
    ⟨fun h => ?_, fun h => by linear_combination s * h⟩⟩
  apply mul_left_cancel₀ hs
  linear_combination h

end

/-- C64: for every polygon whose points lie in some plane (`m · p = e`, `m ≠ 0`), if the corner at
the first vertex is not degenerate then `plane_coefficients` returns a plane equation with a unit
normal satisfied by every vertex, and the normal is orthogonal to every edge. -/
theorem C64_plane_coefficients (pts : List (Vec3 ℝ)) (m : Vec3 ℝ) (e : ℝ) (hm : m ≠ 0)
    (hpl : ∀ p ∈ pts, Vec3.dot m p = e) (a b c d : ℝ)
    (h : planeCoefficients pts = .ok (some (a, b, c, d))) :
    a ^ 2 + b ^ 2 + c ^ 2 = 1 ∧ (∀ p ∈ pts, a * p.x + b * p.y + c * p.z + d = 0) ∧
    (∀ p ∈ pts, ∀ q ∈ pts, Vec3.dot ⟨a, b, c⟩ (q - p) = 0) := by
  unfold planeCoefficients at h
  split at h
  case h_2 => cases h
  case h_1 l p0 p1 hl h0 h1 =>
  have hlm : l ∈ pts := List.mem_of_getLast? hl
  have h0m : p0 ∈ pts := List.mem_of_getElem? h0
  have h1m : p1 ∈ pts := List.mem_of_getElem? h1
  injection h with h
  rw [Option.map_eq_some_iff] at h
  obtain ⟨vn, hvn, hco⟩ := h
  unfold normal at hvn
  simp only [] at hvn
  split at hvn
  · cases hvn
  · next hcl =>
    injection hvn with hvn
    set w := Vec3.cross (p0 - l) (p1 - l) with hw
    have hlen : Vec3.norm w ≠ 0 := by
      intro h0
      apply hcl
      rw [h0]
      simp [isClose, NP_ATOL]
    have hsq : Vec3.norm w ^ 2 = Vec3.normSq w := Vec3.norm_sq w
    -- every difference of two vertices is orthogonal to `w`
    have horth : ∀ r : Vec3 ℝ, Vec3.dot m r = 0 → Vec3.dot w r = 0 := by
      intro r hr
      have hu : Vec3.dot m (p0 - l) = 0 := by
        rw [Vec3.dot_sub_right, hpl _ h0m, hpl _ hlm, sub_self]
      have hv : Vec3.dot m (p1 - l) = 0 := by
        rw [Vec3.dot_sub_right, hpl _ h1m, hpl _ hlm, sub_self]
      have hmm : 0 < Vec3.normSq m := Vec3.normSq_pos hm
      have : Vec3.normSq m * Vec3.dot w r = 0 := by
        rw [hw]
        simp only [Vec3.dot, Vec3.normSq, Vec3.cross_x, Vec3.cross_y, Vec3.cross_z] at hu hv hr ⊢
        generalize p0 - l = u at hu ⊢
        generalize p1 - l = v at hv ⊢
        linear_combination (m.x * (u.y * v.z - u.z * v.y) + m.y * (u.z * v.x - u.x * v.z) +
          m.z * (u.x * v.y - u.y * v.x)) * hr
          - (m.y * (r.z * v.x - r.x * v.z) + m.x * (r.y * v.z - r.z * v.y) +
            m.z * (r.x * v.y - r.y * v.x)) * hu
          + (m.y * (r.z * u.x - r.x * u.z) + m.x * (r.y * u.z - r.z * u.y) +
            m.z * (r.x * u.y - r.y * u.x)) * hv
      exact (mul_eq_zero.1 this).resolve_left hmm.ne'
    have hdiff : ∀ p ∈ pts, ∀ q ∈ pts, Vec3.dot vn (q - p) = 0 := by
      intro p hp q hq
      rw [← hvn, Vec3.dot_smul_left, horth, mul_zero]
      rw [Vec3.dot_sub_right, hpl p hp, hpl q hq, sub_self]
    have hco' : vn.x = a ∧ vn.y = b ∧ vn.z = c ∧ -1 * Vec3.dot vn p0 = d := by
      simpa [projectionCoefficients] using hco
    obtain ⟨ha, hb, hc, hd⟩ := hco'
    have hvn' : (⟨a, b, c⟩ : Vec3 ℝ) = vn := by rw [← ha, ← hb, ← hc]
    refine ⟨?_, ?_, ?_⟩
    · rw [← ha, ← hb, ← hc, ← hvn]
      simp only [Vec3.smul_x, Vec3.smul_y, Vec3.smul_z]
      rw [Vec3.normSq_def] at hsq
      field_simp
      linarith
    · intro p hp
      have := hdiff p0 h0m p hp
      rw [Vec3.dot_sub_right] at this
      rw [← hd, ← ha, ← hb, ← hc]
      simp only [Vec3.dot] at this ⊢
      linarith
    · intro p hp q hq
      rw [hvn']; exact hdiff p hp q hq

/-- Non-vacuity for `C64_plane_coefficients`: a triangle in the plane `z = 2`. -/
example : ∃ a b c d, planeCoefficients [⟨1, 0, 2⟩, ⟨0, 1, 2⟩, ⟨0, 0, 2⟩] =
    .ok (some (a, b, c, d)) := by
  unfold planeCoefficients
  simp only [List.getLast?_cons_cons, List.getLast?_singleton, List.getElem?_cons_zero,
    List.getElem?_cons_succ]
  have hn : Vec3.norm (Vec3.cross ((⟨1, 0, 2⟩ : Vec3 ℝ) - ⟨0, 0, 2⟩) (⟨0, 1, 2⟩ - ⟨0, 0, 2⟩)) = 1 := by
    unfold Vec3.norm
    norm_num [Vec3.normSq, Vec3.dot]
  have : normal (⟨0, 0, 2⟩ : Vec3 ℝ) ⟨1, 0, 2⟩ ⟨0, 1, 2⟩ ≠ none := by
    unfold normal
    simp only [hn]
    rw [if_neg (by norm_num [isClose, NP_ATOL])]
    exact Option.some_ne_none _
  obtain ⟨v, hv⟩ := Option.ne_none_iff_exists'.1 this
  rw [hv]
  exact ⟨_, _, _, _, rfl⟩

end B3d.Polygon
