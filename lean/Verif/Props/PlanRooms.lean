import Verif.Props.RegionWinding
import Verif.Props.Plan

/-! # C96: what a room over a floor plan encloses -/

namespace B3d.Solids

open Spec Polygon Triangles Points Enclose Tiling Filter Topology

/-! ### Surfaces made of flat polygons -/

theorem flat_poly {P : Poly} (h : FromFlat P) : ∃ v e, P.vn = some v ∧ Fills v e P.pts (trianglesOf P.pts P.tri) := by
  obtain ⟨pts, vn, v, hn, hv, hpl⟩ := h
  obtain ⟨h3, v', hv', -, ht, -, -⟩ := polygonNew_ok hn
  rw [hv, Option.some.injEq] at hv'
  subst hv'
  obtain ⟨p, hp⟩ : ∃ p, p ∈ pts := List.exists_mem_of_length_pos (by omega)
  exact ⟨v, Vec3.dot v p, hv, fills h3 ht fun q hq => hpl q hq p hp⟩

theorem facets_ne_flat {S : SolidG} (hf : ∀ P ∈ facesOf S, FromFlat P) :
    ∀ t ∈ facets S, Vec3.cross (t.2.1 - t.1) (t.2.2 - t.1) ≠ 0 := by
  intro T hT h0
  obtain ⟨P, hP, hT⟩ := List.mem_flatMap.1 hT
  obtain ⟨v, e, -, hF⟩ := flat_poly (hf P hP)
  have := (hF.tris T hT).2
  rw [area, h0, Vec3.dot_zero_right] at this
  exact lt_irrefl _ this

/-- One ray decides whether a point is enclosed. -/
theorem enclosed_of_ray {S : SolidG} (hf : ∀ P ∈ facesOf S, FromFlat P) (hc : Closed ((facesOf S).map Poly.pts))
    {x u : Vec3 ℝ} (hx : OffSurface (facets S) x) (hu : ClearRay (facets S) x u) :
    Enclosed (facets S) x ↔ Odd (Spec.crossings (facets S) x u) :=
  ⟨fun h => h u hu, fun h _ hu' => (crossings_parity (facets_closed (fun P hP => by
    obtain ⟨pts, vn, v, hn, -⟩ := hf P hP
    exact ⟨pts, vn, hn⟩) hc) (facets_ne_flat hf) hx hu hu').1 h⟩

/-! ### Points of the faces -/

theorem orient_mem {α : Type} {ccw : Bool} {l : List α} {a : α} : a ∈ orient ccw l ↔ a ∈ l := by
  cases ccw <;> simp [orient]

theorem region_level {pts : List (Vec3 ℝ)} {tri : List Tri} {z : ℝ} (h : ∀ p ∈ pts, p.z = z) {y : Vec3 ℝ}
    (hy : Region pts tri y) : y.z = z := by
  obtain ⟨t, -, a, b, c, ha, hb, hc, r, s, q, -, -, -, hsum, rfl⟩ := hy
  simp only [Vec3.add_z, Vec3.smul_z, h a (List.mem_of_getElem? ha), h b (List.mem_of_getElem? hb),
    h c (List.mem_of_getElem? hc)]
  linear_combination z * hsum

theorem region_side {pts : List (Vec3 ℝ)} {tri : List Tri} {z0 z1 : ℝ} (hz : z0 ≤ z1) {e : (ℝ × ℝ) × (ℝ × ℝ)}
    (h : ∀ p ∈ pts, p ∈ side z0 z1 e) {y : Vec3 ℝ} (hy : Region pts tri y) :
    z0 ≤ y.z ∧ y.z ≤ z1 ∧ ∀ z : ℝ, OnSegment (level z e.1) (level z e.2) ⟨y.x, y.y, z⟩ := by
  have one : ∀ p ∈ pts, z0 ≤ p.z ∧ p.z ≤ z1 ∧ ∃ t : ℝ, 0 ≤ t ∧ t ≤ 1 ∧ p.x = e.1.1 + t * (e.2.1 - e.1.1) ∧
      p.y = e.1.2 + t * (e.2.2 - e.1.2) := by
    intro p hp
    have := h p hp
    simp only [side, List.mem_cons, List.not_mem_nil, or_false] at this
    rcases this with rfl | rfl | rfl | rfl
    · exact ⟨le_rfl, hz, 0, le_rfl, zero_le_one, by simp [level], by simp [level]⟩
    · exact ⟨le_rfl, hz, 1, zero_le_one, le_rfl, by simp [level], by simp [level]⟩
    · exact ⟨hz, le_rfl, 1, zero_le_one, le_rfl, by simp [level], by simp [level]⟩
    · exact ⟨hz, le_rfl, 0, le_rfl, zero_le_one, by simp [level], by simp [level]⟩
  obtain ⟨t, -, a, b, c, ha, hb, hc, r, s, q, hr, hs, hq, hsum, rfl⟩ := hy
  obtain ⟨a1, a2, ta, a3, a4, a5, a6⟩ := one a (List.mem_of_getElem? ha)
  obtain ⟨b1, b2, tb, b3, b4, b5, b6⟩ := one b (List.mem_of_getElem? hb)
  obtain ⟨c1, c2, tc, c3, c4, c5, c6⟩ := one c (List.mem_of_getElem? hc)
  have lo : ∀ m A B C : ℝ, m ≤ A → m ≤ B → m ≤ C → m ≤ r * A + s * B + q * C := by
    intro m A B C hA hB hC
    have := mul_le_mul_of_nonneg_left hA hr
    have := mul_le_mul_of_nonneg_left hB hs
    have := mul_le_mul_of_nonneg_left hC hq
    have em : m = r * m + s * m + q * m := by linear_combination (-m) * hsum
    linarith
  have hi : ∀ m A B C : ℝ, A ≤ m → B ≤ m → C ≤ m → r * A + s * B + q * C ≤ m := by
    intro m A B C hA hB hC
    have := lo (-m) (-A) (-B) (-C) (by linarith) (by linarith) (by linarith)
    linarith
  refine ⟨lo _ _ _ _ a1 b1 c1, hi _ _ _ _ a2 b2 c2, fun z => ⟨r * ta + s * tb + q * tc, lo _ _ _ _ a3 b3 c3,
    hi _ _ _ _ a4 b4 c4, ?_⟩⟩
  ext
  · simp only [Vec3.add_x, Vec3.smul_x, Vec3.sub_x, level, a5, b5, c5]
    linear_combination e.1.1 * hsum
  · simp only [Vec3.add_y, Vec3.smul_y, Vec3.sub_y, level, a6, b6, c6]
    linear_combination e.1.2 * hsum
  · simp [level]

/-! ### Winding numbers at different heights -/

theorem winding_shift (n u x c : Vec3 ℝ) (pts : List (Vec3 ℝ)) :
    winding n u (x + c) (pts.map (· + c)) = winding n u x pts := by
  have e : ∀ p q : Vec3 ℝ, crossing n u (x + c) (p + c) (q + c) = crossing n u x p q := by
    intro p q
    unfold crossing
    simp only [add_sub_add_right_eq_sub]
  unfold winding
  rw [cycEdges_map, List.map_map]
  congr 1
  apply List.map_congr_left
  intro f _
  exact e f.1 f.2

theorem winding_level {n u : Vec3 ℝ} {x y : ℝ} (g : List (ℝ × ℝ)) (z z' : ℝ) :
    winding n u ⟨x, y, z⟩ (g.map (level z)) = winding n u ⟨x, y, z'⟩ (g.map (level z')) := by
  rw [← winding_shift n u ⟨x, y, z⟩ ⟨0, 0, z' - z⟩ (g.map (level z)), List.map_map]
  congr 1
  · ext <;> simp
  · apply List.map_congr_left
    intro p _
    ext <;> simp [level]

theorem winding_reverse (n u x : Vec3 ℝ) (pts : List (Vec3 ℝ)) : winding n u x pts.reverse = -winding n u x pts := by
  unfold winding
  rw [((cycEdges_reverse_perm pts).map _).sum_eq, List.map_map]
  induction cycEdges pts with
  | nil => rfl
  | cons f l ih =>
    rw [List.map_cons, List.map_cons, List.sum_cons, List.sum_cons, ih, neg_add]
    congr 1
    exact crossing_antisymm n u x f.2 f.1

theorem onOutline_reverse {x : Vec3 ℝ} {pts : List (Vec3 ℝ)} (h : OnOutline pts.reverse x) : OnOutline pts x := by
  obtain ⟨f, hf, hx⟩ := h
  rw [(cycEdges_reverse_perm pts).mem_iff] at hf
  obtain ⟨f, hf', rfl⟩ := List.mem_map.1 hf
  exact ⟨f, hf', onSegment_symm hx⟩

theorem onOutline_level {x y : ℝ} {g : List (ℝ × ℝ)} {z z' : ℝ} (h : OnOutline (g.map (level z)) ⟨x, y, z⟩) :
    OnOutline (g.map (level z')) ⟨x, y, z'⟩ := by
  obtain ⟨f, hf, t, h0, h1, ht⟩ := h
  rw [cycEdges_map] at hf
  obtain ⟨f, hf', rfl⟩ := List.mem_map.1 hf
  refine ⟨(level z' f.1, level z' f.2), by rw [cycEdges_map]; exact List.mem_map.2 ⟨f, hf', rfl⟩, t, h0, h1, ?_⟩
  have hx := congrArg Vec3.x ht
  have hy := congrArg Vec3.y ht
  ext
  · simpa [level] using hx
  · simpa [level] using hy
  · simp [level]

/-! ### The room -/

/-- A closed surface over a plan: walls over its edges, floor and ceiling. -/
structure Shell (S : SolidG) (g : List (ℝ × ℝ)) (z0 z1 : ℝ) (ccw : Bool) : Prop where
  height : z0 < z1
  pts : (facesOf S).map Poly.pts = (prism z0 z1 g).map (orient ccw)
  up : ∃ W C, facesOf S = W ++ [C] ∧ C.vn = some ⟨0, 0, 1⟩
  flat : ∀ P ∈ facesOf S, FromFlat P
  closed : Closed ((facesOf S).map Poly.pts)

theorem Shell.parts {S : SolidG} {g : List (ℝ × ℝ)} {z0 z1 : ℝ} {ccw : Bool} (h : Shell S g z0 z1 ccw) :
    ∃ W F C, facesOf S = W ++ [F, C] ∧ (∀ P ∈ W, ∃ e ∈ cycEdges g, ∀ p ∈ P.pts, p ∈ side z0 z1 e) ∧
      (∀ p ∈ F.pts, p.z = z0) ∧ (∀ p ∈ C.pts, p.z = z1) ∧ C.pts = orient ccw (g.map (level z1)) ∧
      C.vn = some ⟨0, 0, 1⟩ := by
  have hp := h.pts
  obtain ⟨U, C', hU, hv⟩ := h.up
  rw [prism, List.map_append, List.map_eq_append_iff] at hp
  obtain ⟨W, R, e, h1, h2⟩ := hp
  rw [List.map_cons, List.map_cons, List.map_nil] at h2
  obtain ⟨F, R, rfl, h3, h4⟩ := List.map_eq_cons_iff.1 h2
  obtain ⟨C, R, rfl, h5, h6⟩ := List.map_eq_cons_iff.1 h4
  obtain rfl := List.map_eq_nil_iff.1 h6
  have hC : C = C' := by
    rw [hU] at e
    have := congrArg List.getLast? e
    simpa using this.symm
  subst hC
  refine ⟨W, F, C, e, ?_, ?_, ?_, h5, hv⟩
  · intro P hP
    have : P.pts ∈ W.map Poly.pts := List.mem_map_of_mem hP
    rw [h1, List.map_map] at this
    obtain ⟨f, hf, hfe⟩ := List.mem_map.1 this
    refine ⟨f, hf, fun p hp => ?_⟩
    rw [← hfe] at hp
    exact orient_mem.1 hp
  · intro p hp
    rw [h3, orient_mem, List.mem_reverse] at hp
    obtain ⟨q, -, rfl⟩ := List.mem_map.1 hp
    rfl
  · intro p hp
    rw [h5, orient_mem] at hp
    obtain ⟨q, -, rfl⟩ := List.mem_map.1 hp
    rfl

/-- Where the faces are. -/
theorem Shell.where {S : SolidG} {g : List (ℝ × ℝ)} {z0 z1 : ℝ} {ccw : Bool} (h : Shell S g z0 z1 ccw) {P : Poly}
    (hP : P ∈ facesOf S) {y : Vec3 ℝ} (hy : Region P.pts P.tri y) : z0 ≤ y.z ∧ y.z ≤ z1 ∧
      (y.z = z0 ∨ y.z = z1 ∨ ∀ z : ℝ, OnOutline (g.map (level z)) ⟨y.x, y.y, z⟩) := by
  obtain ⟨W, F, C, e, hW, hF, hC, -, -⟩ := h.parts
  rw [e, List.mem_append] at hP
  rcases hP with hP | hP
  · obtain ⟨f, hf, hs⟩ := hW P hP
    obtain ⟨h1, h2, h3⟩ := region_side h.height.le hs hy
    exact ⟨h1, h2, .inr (.inr fun z => ⟨(level z f.1, level z f.2), by
      rw [cycEdges_map]; exact List.mem_map.2 ⟨f, hf, rfl⟩, h3 z⟩)⟩
  · simp only [List.mem_cons, List.not_mem_nil, or_false] at hP
    rcases hP with rfl | rfl
    · have := region_level hF hy
      exact ⟨this.ge, this.le.trans h.height.le, .inl this⟩
    · have := region_level hC hy
      exact ⟨h.height.le.trans this.ge, this.le, .inr (.inl this)⟩

theorem Shell.off {S : SolidG} {g : List (ℝ × ℝ)} {z0 z1 : ℝ} {ccw : Bool} (h : Shell S g z0 z1 ccw) {x : Vec3 ℝ}
    (hz : x.z ≠ z0 ∧ x.z ≠ z1) (hx : ¬ OnOutline (g.map (level x.z)) x) : OffSurface (facets S) x := by
  intro T hT hin
  obtain ⟨P, hP, hr⟩ := mem_region hT hin
  rcases (h.where hP hr).2.2 with h1 | h1 | h1
  · exact hz.1 h1
  · exact hz.2 h1
  · exact hx (h1 x.z)

/-- Nothing above or below is enclosed. -/
theorem Shell.outside {S : SolidG} {g : List (ℝ × ℝ)} {z0 z1 : ℝ} {ccw : Bool} (h : Shell S g z0 z1 ccw) {x : Vec3 ℝ}
    (hz : x.z < z0 ∨ z1 < x.z) (hoff : OffSurface (facets S) x) : ¬ Enclosed (facets S) x := by
  classical
  obtain ⟨k, hk, hkz⟩ : ∃ k : ℝ, k ≠ 0 ∧ ∀ y : Vec3 ℝ, z0 ≤ y.z → y.z ≤ z1 → k * y.z < k * x.z := by
    rcases hz with hz | hz
    · exact ⟨-1, by norm_num, fun y h1 _ => by linarith⟩
    · exact ⟨1, by norm_num, fun y _ h2 => by linarith⟩
  obtain ⟨d, hd⟩ := Enclose.exists_clear (facets_ne_flat h.flat) hoff ⟨0, 0, k⟩
  obtain ⟨η, hη, hst⟩ := sign_stable (k * k) (k * d.z)
  obtain ⟨δ, d0, d1, hclear⟩ := hd η hη
  rw [enclosed_of_ray h.flat h.closed hoff hclear]
  have : Spec.crossings (facets S) x (⟨0, 0, k⟩ + δ • d) = 0 := by
    unfold Spec.crossings
    rw [List.countP_eq_zero]
    intro T hT hcr
    obtain ⟨s, hs, hin⟩ := of_decide_eq_true hcr
    obtain ⟨P, hP, hr⟩ := mem_region hT (inside_in hin)
    obtain ⟨h1, h2, -⟩ := h.where hP hr
    have h3 := hkz _ h1 h2
    simp only [Vec3.add_z, Vec3.smul_z] at h3
    have h4 := mul_pos hs ((hst δ d0 d1).1 (mul_self_pos.2 hk))
    linarith
  rw [this]
  decide

theorem inside_of_edges {a b c y : Vec3 ℝ} (hin : InTriangle a b c y)
    (h : ¬ OnSegment a b y ∧ ¬ OnSegment b c y ∧ ¬ OnSegment c a y) : InsideTriangle a b c y := by
  obtain ⟨r, s, t, hr, hs, ht, hsum, rfl⟩ := hin
  refine ⟨r, s, t, lt_of_le_of_ne hr fun h0 => h.2.1 ⟨t, ht, by linarith, ?_⟩,
    lt_of_le_of_ne hs fun h0 => h.2.2 ⟨r, hr, by linarith, ?_⟩,
    lt_of_le_of_ne ht fun h0 => h.1 ⟨s, hs, by linarith, ?_⟩, hsum, rfl⟩
  · obtain rfl : s = 1 - t := by linarith
    rw [← h0]; ext <;> simp <;> ring
  · obtain rfl : t = 1 - r := by linarith
    rw [← h0]; ext <;> simp <;> ring
  · obtain rfl : r = 1 - s := by linarith
    rw [← h0]; ext <;> simp <;> ring

/-- What is enclosed between floor and ceiling. -/
theorem Shell.between {S : SolidG} {g : List (ℝ × ℝ)} {z0 z1 : ℝ} {ccw : Bool} (h : Shell S g z0 z1 ccw) {x : Vec3 ℝ}
    (hz0 : z0 < x.z) (hz1 : x.z < z1) (hx : ¬ OnOutline (g.map (level x.z)) x) :
    Enclosed (facets S) x ↔ Odd (winding ⟨0, 0, 1⟩ ⟨1, 0, 0⟩ x (g.map (level x.z))) := by
  classical
  have hoff := h.off ⟨hz0.ne', hz1.ne⟩ hx
  obtain ⟨W, F, C, e, hW, hF, hC, hCp, hCv⟩ := h.parts
  have hCm : C ∈ facesOf S := by rw [e]; simp
  obtain ⟨v, c, hv, hFill⟩ := flat_poly (h.flat C hCm)
  rw [hCv, Option.some.injEq] at hv
  subst hv
  have hpl : ∀ y : Vec3 ℝ, Vec3.dot ⟨0, 0, 1⟩ y = y.z := by intro y; simp [Vec3.dot]
  obtain ⟨x', hx'⟩ : ∃ x' : Vec3 ℝ, x' = ⟨x.x, x.y, z1⟩ := ⟨_, rfl⟩
  have hc : c = z1 := by
    obtain ⟨q, hq⟩ : ∃ q, q ∈ C.pts := by
      obtain ⟨pts, vn, v, hn, -⟩ := h.flat C hCm
      exact List.exists_mem_of_ne_nil _ (polygonNew_sturdy hn).1
    rw [← hFill.plane q hq, hpl, hC q hq]
  subst hc
  have hxo : ¬ OnOutline C.pts x' := by
    intro ho
    apply hx
    have : OnOutline (g.map (level c)) x' := by
      rw [hCp] at ho
      cases ccw
      · exact onOutline_reverse ho
      · exact ho
    rw [hx'] at this
    exact onOutline_level this
  have hx'z : Vec3.dot ⟨0, 0, 1⟩ x' = c := by rw [hpl, hx']
  -- the winding number, seen at the ceiling
  have hodd : Odd (winding ⟨0, 0, 1⟩ ⟨1, 0, 0⟩ x (g.map (level x.z))) ↔ Odd (winding ⟨0, 0, 1⟩ ⟨1, 0, 0⟩ x' C.pts) := by
    have e1 : winding ⟨0, 0, 1⟩ ⟨1, 0, 0⟩ x (g.map (level x.z)) = winding ⟨0, 0, 1⟩ ⟨1, 0, 0⟩ x' (g.map (level c)) := by
      rw [hx']; exact winding_level g x.z c
    rw [e1, hCp]
    cases ccw
    · rw [orient, if_neg (by decide), winding_reverse, odd_neg]
    · rfl
  rw [hodd]
  -- a ray which goes up
  obtain ⟨d, hd⟩ := Enclose.exists_clear (facets_ne_flat h.flat) hoff ⟨0, 0, 1⟩
  obtain ⟨dh, hdh⟩ : ∃ dh : Vec3 ℝ, dh = ⟨d.x, d.y, 0⟩ := ⟨_, rfl⟩
  obtain ⟨u, hu0, hu, hup⟩ : ∃ u : Vec3 ℝ, u ≠ 0 ∧ Vec3.dot ⟨0, 0, 1⟩ u = 0 ∧
      0 ≤ Vec3.dot (Vec3.cross ⟨0, 0, 1⟩ u) dh := by
    rcases le_total 0 d.y with hy | hy
    · exact ⟨⟨1, 0, 0⟩, by simp [Vec3.ext_iff], by simp [Vec3.dot], by simpa [hdh, Vec3.dot] using hy⟩
    · exact ⟨⟨-1, 0, 0⟩, by simp [Vec3.ext_iff], by simp [Vec3.dot], by simpa [hdh, Vec3.dot] using hy⟩
  have hev := (outline_step (d := dh) hx).and (winding_step hFill.ne hu hFill.plane hx'z hup hxo)
  obtain ⟨η, hη, hsmall⟩ := mem_nhdsGT_iff_exists_Ioo_subset.1 hev
  have hη : 0 < η := hη
  obtain ⟨η1, hη1, hst⟩ := sign_stable (1 / 2) d.z
  obtain ⟨δ, d0, d1, hclear⟩ := hd (min η1 (η / (2 * (c - x.z)))) (lt_min hη1 (div_pos hη (by linarith)))
  have hup2 : 1 / 2 < 1 + δ * d.z := by
    have := (hst δ d0 (d1.trans_le (min_le_left _ _))).1 (by norm_num)
    linarith
  have hδ : δ * (2 * (c - x.z)) < η := by
    have := d1.trans_le (min_le_right _ _)
    rwa [lt_div_iff₀ (by linarith)] at this
  have hmove : ∀ s : ℝ, x + s • ((⟨0, 0, 1⟩ : Vec3 ℝ) + δ • d) =
      ⟨(x + (s * δ) • dh).x, (x + (s * δ) • dh).y, x.z + s * (1 + δ * d.z)⟩ := by
    intro s; rw [hdh]; ext <;> simp <;> ring
  -- how far it can go below the ceiling
  have hfar : ∀ s : ℝ, 0 < s → x.z + s * (1 + δ * d.z) ≤ c → s * δ ∈ Set.Ioo 0 η := by
    intro s hs hle
    refine ⟨mul_pos hs d0, ?_⟩
    have h1 : s * (1 / 2) ≤ c - x.z := by
      have := mul_le_mul_of_nonneg_left hup2.le hs.le
      linarith
    have h2 := mul_le_mul_of_nonneg_left h1 d0.le
    linarith
  rw [enclosed_of_ray h.flat h.closed hoff hclear]
  -- only the ceiling is crossed
  have hsplit : Spec.crossings (facets S) x (⟨0, 0, 1⟩ + δ • d) =
      Spec.crossings (trianglesOf C.pts C.tri) x (⟨0, 0, 1⟩ + δ • d) := by
    have e1 : facets S = ((W ++ [F]).flatMap fun P => trianglesOf P.pts P.tri) ++ trianglesOf C.pts C.tri := by
      rw [facets, e]; simp
    rw [e1, crossings_append]
    have : Spec.crossings ((W ++ [F]).flatMap fun P => trianglesOf P.pts P.tri) x (⟨0, 0, 1⟩ + δ • d) = 0 := by
      unfold Spec.crossings
      rw [List.countP_eq_zero]
      intro T hT hcr
      obtain ⟨s, hs, hin⟩ := of_decide_eq_true hcr
      obtain ⟨P, hP, hT'⟩ := List.mem_flatMap.1 hT
      have hr : Region P.pts P.tri (x + s • ((⟨0, 0, 1⟩ : Vec3 ℝ) + δ • d)) :=
        mem_triangles_iff.1 ⟨T, hT', inside_in hin⟩
      rw [hmove] at hr
      have hpos : 0 < s * (1 + δ * d.z) := mul_pos hs (by linarith)
      rcases List.mem_append.1 hP with hP | hP
      · obtain ⟨f, hf, hsd⟩ := hW P hP
        obtain ⟨-, h2, h3⟩ := region_side h.height.le hsd hr
        have ho := (hsmall (hfar s hs h2)).1
        refine ho ⟨(level x.z f.1, level x.z f.2), by rw [cycEdges_map]; exact List.mem_map.2 ⟨f, hf, rfl⟩, ?_⟩
        have h4 := h3 x.z
        have : (⟨(x + (s * δ) • dh).x, (x + (s * δ) • dh).y, x.z⟩ : Vec3 ℝ) = x + (s * δ) • dh := by
          rw [hdh]; ext <;> simp
        rwa [this] at h4
      · rw [List.mem_singleton] at hP
        subst hP
        have := region_level hF hr
        simp only at this
        linarith
    rw [this, zero_add]
  rw [hsplit]
  -- the crossing of the ceiling
  obtain ⟨s1, hs1⟩ : ∃ s1 : ℝ, s1 = (c - x.z) / (1 + δ * d.z) := ⟨_, rfl⟩
  have hs1' : s1 * (1 + δ * d.z) = c - x.z := by rw [hs1]; exact div_mul_cancel₀ _ (by linarith)
  have hs1p : 0 < s1 := by rw [hs1]; exact div_pos (by linarith) (by linarith)
  obtain ⟨y, hy⟩ : ∃ y : Vec3 ℝ, y = x' + (s1 * δ) • dh := ⟨_, rfl⟩
  have hy' : x + s1 • ((⟨0, 0, 1⟩ : Vec3 ℝ) + δ • d) = y := by
    rw [hmove, hs1', hy, hx', hdh]; ext <;> simp
  have hyz : Vec3.dot ⟨0, 0, 1⟩ y = c := by rw [hpl, hy, hx', hdh]; simp
  have hw := (hsmall (hfar s1 hs1p (by rw [hs1']; linarith))).2
  rw [← hy] at hw
  have hcount : (Spec.crossings (trianglesOf C.pts C.tri) x (⟨0, 0, 1⟩ + δ • d) : ℤ) = winding ⟨0, 0, 1⟩ u y C.pts := by
    rw [hFill.count hu0 hu hyz]
    · unfold Spec.crossings
      congr 1
      apply List.countP_congr
      intro T hT
      rw [decide_eq_true_eq, decide_eq_true_eq]
      constructor
      · rintro ⟨s, hs, hin⟩
        have hz := region_level hC (mem_triangles_iff.1 ⟨T, hT, inside_in hin⟩)
        rw [hmove] at hz
        simp only at hz
        have : s = s1 := by
          have : s * (1 + δ * d.z) = s1 * (1 + δ * d.z) := by rw [hs1']; linarith
          exact mul_right_cancel₀ (by linarith) this
        rw [this, hy'] at hin
        exact hin
      · intro hin
        exact ⟨s1, hs1p, by rw [hy']; exact hin⟩
    · intro T hT hin
      have hTm : T ∈ facets S := List.mem_flatMap.2 ⟨C, hCm, hT⟩
      have := hclear.2 T hTm s1 hs1p.le
      rw [hy'] at this
      exact inside_of_edges hin this
  have hind := hFill.indep (u := u) (u' := ⟨1, 0, 0⟩) hu0 (by simp [Vec3.ext_iff]) hu (by simp [Vec3.dot]) hx'z hxo
  rw [← hind, ← hw, ← hcount, Int.odd_coe_nat]

/-! ### The rooms made by `floor_plan` -/

theorem floorPlan_shell {plan : List (ℝ × ℝ)} {height phi : ℝ} {t : Vec3 ℝ} {wallNames : Option (List Str)}
    {fn cn rnd1 rnd2 : Str} {S : SolidG} {p0 p1 q l : ℝ × ℝ} {r1 r2 : List (ℝ × ℝ)} {ccw : Bool} {sg : ℝ}
    (h : floorPlan plan height t phi wallNames fn cn rnd1 rnd2 = .ok S)
    (hh : 0 < height) (h1 : plan = p0 :: p1 :: r1) (h2 : plan = r2 ++ [q, l])
    (hsg : sg = if ccw then 1 else -1)
    (hA : 0 < sg * area2 plan) (hf : 0 < sg * turn l p0 p1) (hl : 0 < sg * turn q l p0)
    (hs : Separated ((placed plan t phi).map (level (planShift t).z))) :
    Shell S (placed plan t phi) (planShift t).z ((planShift t).z + height) ccw := by
  obtain ⟨k1, k2, -, k4, -⟩ := C32_prism_partial h hh h1 h2 hsg hA hf hl hs
  refine ⟨by linarith, k1, ?_, ?_, k4⟩
  · rw [allPolys_eq] at k2
    obtain ⟨W, R, e, -, e2⟩ := List.map_eq_append_iff.1 k2
    obtain ⟨F, R, rfl, -, h4⟩ := List.map_eq_cons_iff.1 e2
    obtain ⟨C, R, rfl, h5, h6⟩ := List.map_eq_cons_iff.1 h4
    obtain rfl := List.map_eq_nil_iff.1 h6
    exact ⟨W ++ [F], C, by rw [e]; simp, h5⟩
  · obtain ⟨g, hg⟩ : ∃ g, g = placed plan t phi := ⟨_, rfl⟩
    obtain ⟨z0, hz0⟩ : ∃ z0, z0 = (planShift t).z := ⟨_, rfl⟩
    rw [← hg, ← hz0] at hs
    have hsg' : sg = 1 ∨ sg = -1 := by cases ccw <;> simp_all
    have hp : plan ≠ [] := by rw [h1]; simp
    have hA0 : area2 plan ≠ 0 := by intro e; rw [e, mul_zero] at hA; exact lt_irrefl _ hA
    have hn3 : 3 ≤ plan.length := by rw [h1] at hA0 ⊢; exact three_of_area hA0
    have hlg : g.length = plan.length := by simp [hg, placed]
    have hAg : area2 g = area2 plan := by rw [hg]; exact area2_place _ _ _
    have hg1 : g = place (planAngle phi) (planShift t) p0 :: place (planAngle phi) (planShift t) p1 ::
        r1.map (place (planAngle phi) (planShift t)) := by simp [hg, placed, h1]
    have hg2 : g = r2.map (place (planAngle phi) (planShift t)) ++
        [place (planAngle phi) (planShift t) q, place (planAngle phi) (planShift t) l] := by simp [hg, placed, h2]
    have hz : z0 < z0 + height := by linarith
    cases hnm : planNames plan.length wallNames with
    | error e =>
      unfold floorPlan at h
      rw [hnm] at h
      cases h
    | ok names' =>
    have hlen' : names'.length = plan.length := by
      unfold planNames at hnm
      split at hnm
      · cases hnm; simp
      · split at hnm
        · cases hnm
        · rename_i hl'
          split at hnm
          · cases hnm
          · cases hnm; exact not_not.1 hl'
    rw [floorPlan_eq hp hnm, ← hg, ← hz0] at h
    obtain ⟨F, C, walls, walls', hF, hC, hw1, hw2, rfl, -⟩ := planSolid_parts h
    obtain ⟨⟨Fp, fb1, fb2⟩, -, -, fS, -⟩ := levelPolygon_spec hg1 hg2 hsg' (.inr rfl) (by rw [hAg]; exact hA) hF
    obtain ⟨⟨Cp, cb1, cb2⟩, -, -, cS, -⟩ := levelPolygon_spec hg1 hg2 hsg' (.inl rfl) (by rw [hAg]; exact hA) hC
    rw [turn_place, turn_place] at fS cS
    obtain ⟨fv, fp, -⟩ := fS hf hl
    obtain ⟨cv, -, -⟩ := cS hf hl
    have hfp : F.2.pts = if ccw then (g.map (level z0)).reverse else g.map (level z0) := by
      rw [fp, hsg]; cases ccw <;> norm_num
    have hlm : (g.map (level z0)).length = g.length := by simp
    rw [hlm, sideOutlines_eq] at hw1
    obtain ⟨-, -, w3⟩ := walls_spec hz (by rw [hlg]; exact hn3) hs hfp (fun e he => he)
      (by rw [length_cycEdges, hlg, hlen']) hw1 hw2
    have hall : allPolys (walls' ++ [(⟨fn, [F]⟩ : WallG), ⟨cn, [C]⟩]) = allPolys walls' ++ [F.2, C.2] := by
      simp [allPolys]
    intro P hP
    rw [← allPolys_eq, hall, List.mem_append] at hP
    rcases hP with hP | hP
    · exact w3 P hP
    · simp only [List.mem_cons, List.not_mem_nil, or_false] at hP
      rcases hP with rfl | rfl
      · exact fromFlat_level fb1 fb2 fv
      · exact fromFlat_level cb1 cb2 cv

/-- **C96.**  A room made by `floor_plan` encloses exactly the points above its floor and below its ceiling around which
the plan runs an odd number of times (for a plan which does not cross itself: once).  This is for all points which are
not at the height of the floor or the ceiling and not above or below the outline of the plan; they are off the surface.
The plan is turned and moved as requested, and lifted to the height of the point.

Missing: plans whose first or last corner is not convex; their rooms have no closed surface, see `C32_reflex`. -/
theorem C96_encloses_partial {plan : List (ℝ × ℝ)} {height phi : ℝ} {t : Vec3 ℝ} {wallNames : Option (List Str)}
    {fn cn rnd1 rnd2 : Str} {S : SolidG} {p0 p1 q l : ℝ × ℝ} {r1 r2 : List (ℝ × ℝ)} {ccw : Bool} {sg : ℝ}
    (h : floorPlan plan height t phi wallNames fn cn rnd1 rnd2 = .ok S)
    (hh : 0 < height) (h1 : plan = p0 :: p1 :: r1) (h2 : plan = r2 ++ [q, l])
    (hsg : sg = if ccw then 1 else -1)
    (hA : 0 < sg * area2 plan) (hf : 0 < sg * turn l p0 p1) (hl : 0 < sg * turn q l p0)
    (hs : Separated ((placed plan t phi).map (level (planShift t).z))) (x : Vec3 ℝ)
    (hx : ¬ OnOutline ((placed plan t phi).map (level x.z)) x) :
    let z0 := (planShift t).z
    x.z ≠ z0 → x.z ≠ z0 + height → OffSurface (facets S) x ∧
      (Enclosed (facets S) x ↔ z0 < x.z ∧ x.z < z0 + height ∧
        Odd (winding ⟨0, 0, 1⟩ ⟨1, 0, 0⟩ x ((placed plan t phi).map (level x.z)))) := by
  intro z0 hz0 hz1
  have hS := floorPlan_shell h hh h1 h2 hsg hA hf hl hs
  have hoff := hS.off ⟨hz0, hz1⟩ hx
  refine ⟨hoff, ?_⟩
  by_cases hlo : z0 < x.z
  · by_cases hhi : x.z < z0 + height
    · rw [hS.between hlo hhi hx]
      exact ⟨fun h => ⟨hlo, hhi, h⟩, fun h => h.2.2⟩
    · refine iff_of_false (hS.outside (.inr (lt_of_le_of_ne (not_lt.1 hhi) hz1.symm)) hoff) fun h => hhi h.2.1
  · exact iff_of_false (hS.outside (.inl (lt_of_le_of_ne (not_lt.1 hlo) hz0)) hoff) fun h => hlo h.1

/-- **C96, the answer of the code.**  If the ray of `is_point_inside` meets the faces of such a room as required by
`C74_enclosed_partial`, the answer is whether the point is over the plan, above the floor and below the ceiling. -/
theorem C96_inside_partial {plan : List (ℝ × ℝ)} {height phi M : ℝ} {t : Vec3 ℝ} {wallNames : Option (List Str)}
    {fn cn rnd1 rnd2 : Str} {S : SolidG} {p0 p1 q l : ℝ × ℝ} {r1 r2 : List (ℝ × ℝ)} {ccw : Bool} {sg : ℝ}
    (h : floorPlan plan height t phi wallNames fn cn rnd1 rnd2 = .ok S)
    (hh : 0 < height) (h1 : plan = p0 :: p1 :: r1) (h2 : plan = r2 ++ [q, l])
    (hsg : sg = if ccw then 1 else -1)
    (hA : 0 < sg * area2 plan) (hf : 0 < sg * turn l p0 p1) (hl : 0 < sg * turn q l p0)
    (hs : Separated ((placed plan t phi).map (level (planShift t).z))) (x : Vec3 ℝ)
    (hx : ¬ OnOutline ((placed plan t phi).map (level x.z)) x)
    (hM : ∀ P ∈ facesOf S, ∀ p ∈ P.pts, Vec3.norm p ≤ M)
    (hr : ∀ P ∈ facesOf S, SpansPlane P.pts ∧ ∃ v w e, Face P v w e ∧ GEOM_ATOL ≤ |Vec3.dot w rayDir| ∧
      (RayHits P x rayDir ∨ RayMisses P v e x rayDir (1 / 10 ^ 4 * M + 1 / 10 ^ 7)))
    (hn : ∀ P ∈ facesOf S, ¬ Near (Region P.pts P.tri) x (1 / 10 ^ 4 * M + 2 / 10 ^ 7)) :
    let z0 := (planShift t).z
    x.z ≠ z0 → x.z ≠ z0 + height → ∃ r, isPointInside S x = .ok r ∧ (r = true ↔ z0 < x.z ∧ x.z < z0 + height ∧
        Odd (winding ⟨0, 0, 1⟩ ⟨1, 0, 0⟩ x ((placed plan t phi).map (level x.z)))) := by
  intro z0 hz0 hz1
  have hS := floorPlan_shell h hh h1 h2 hsg hA hf hl hs
  have hne : facesOf S ≠ [] := by
    obtain ⟨W, F, C, e, -⟩ := hS.parts
    rw [e]; simp
  obtain ⟨r, hr1, hr2⟩ := C74_enclosed_partial hne hS.closed hM hr hn
  exact ⟨r, hr1, hr2.trans (C96_encloses_partial h hh h1 h2 hsg hA hf hl hs x hx hz0 hz1).2⟩

end B3d.Solids
