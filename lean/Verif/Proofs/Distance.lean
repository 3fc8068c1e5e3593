import Verif.Proofs.RegionOutline
import Verif.Props.PointInPolygon

/-! # Lemmas about projections to polygons and distances from polygons -/

namespace B3d.Polygon

open Spec Triangles Points

/-- Polygons made by the constructor: the triangles fit together. -/
theorem polygonNew_joined {pts : List (Vec3 ℝ)} {vn : Option (Vec3 ℝ)} {P : Poly}
    (h : polygonNew pts none vn = .ok P) : Joined P.pts P.tri := by
  obtain ⟨hn, v', hv', hc, ht, -⟩ := polygonNew_ok h
  obtain ⟨h1, -, hval⟩ := C20_triangulate_valid _ _ _ _ _ _ _ hn ht
  have hlen : P.pts.length = pts.length := by rcases h1 with h1 | h1 <;> rw [h1]; simp
  obtain ⟨-, hst⟩ := polygonNew_sturdy h
  obtain ⟨c1, c2⟩ := C20_triangulate_edges _ _ _ _ _ _ _ hn ht
  rw [← hlen] at c1 c2
  constructor
  · intro t htm
    obtain ⟨a, b, c, ha, hb, hc', -⟩ := hst t htm
    refine ⟨a, b, c, ha, hb, hc', ?_⟩
    -- in terms of the numbers
    have key : ∀ i j (p q : Vec3 ℝ), P.pts[i]? = some p → P.pts[j]? = some q →
        ((i, j) = (t.1, t.2.1) ∨ (i, j) = (t.2.1, t.2.2) ∨ (i, j) = (t.2.2, t.1)) →
        (p, q) ∈ cycEdges P.pts ∨ ∃ t' ∈ P.tri, TriangleWith P.pts t' fun a' b' c' =>
          (q, p) = (a', b') ∨ (q, p) = (b', c') ∨ (q, p) = (c', a') := by
      intro i j p q hp hq hij
      obtain ⟨hi, rfl⟩ := List.getElem?_eq_some_iff.1 hp
      obtain ⟨hj, rfl⟩ := List.getElem?_eq_some_iff.1 hq
      have hmem : (i, j) ∈ P.tri.flatMap fun t => [(t.1, t.2.1), (t.2.1, t.2.2), (t.2.2, t.1)] := by
        refine List.mem_flatMap.2 ⟨t, htm, ?_⟩
        simpa using hij
      by_cases k1 : j = (i + 1) % P.pts.length
      · left
        subst k1
        exact mem_cycEdges_iff.2 ⟨i, hi, rfl⟩
      by_cases k2 : i = (j + 1) % P.pts.length
      · exfalso
        have := (c1 j hj).2
        rw [← k2] at this
        exact absurd hmem (List.count_eq_zero.1 this)
      · right
        have h3 := (c2 i hi j hj k1 k2).1
        have h4 := List.count_pos_iff.2 hmem
        rw [h3] at h4
        obtain ⟨t', ht', hm⟩ := List.mem_flatMap.1 (List.count_pos_iff.1 h4)
        obtain ⟨a', b', c', ha', hb', hc'', -⟩ := hst t' ht'
        refine ⟨t', ht', a', b', c', ha', hb', hc'', ?_⟩
        simp only [List.mem_cons, Prod.mk.injEq, List.not_mem_nil, or_false] at hm
        rcases hm with ⟨i1, i2⟩ | ⟨i1, i2⟩ | ⟨i1, i2⟩
        · left; rw [← i1, hq, Option.some.injEq] at ha'; rw [← i2, hp, Option.some.injEq] at hb'; rw [ha', hb']
        · right; left; rw [← i1, hq, Option.some.injEq] at hb'; rw [← i2, hp, Option.some.injEq] at hc''
          rw [hb', hc'']
        · right; right; rw [← i1, hq, Option.some.injEq] at hc''; rw [← i2, hp, Option.some.injEq] at ha'
          rw [hc'', ha']
    intro p q hpq
    rcases hpq with hpq | hpq | hpq <;> rw [Prod.mk.injEq] at hpq <;> obtain ⟨rfl, rfl⟩ := hpq
    · exact key _ _ _ _ ha hb (.inl rfl)
    · exact key _ _ _ _ hb hc' (.inr (.inl rfl))
    · exact key _ _ _ _ hc' ha (.inr (.inr rfl))
  · intro p hp
    obtain ⟨i, hi, rfl⟩ := List.mem_iff_getElem.1 hp
    exact ⟨_, mem_cycEdges_iff.2 ⟨i, hi, rfl⟩, 0, le_refl _, zero_le_one, by simp⟩

/-- The outline belongs to the region. -/
theorem polygonNew_outline_region {pts : List (Vec3 ℝ)} {vn : Option (Vec3 ℝ)} {P : Poly}
    (h : polygonNew pts none vn = .ok P) {y : Vec3 ℝ} (hy : OnOutline P.pts y) : Region P.pts P.tri y := by
  obtain ⟨ed, he, hs⟩ := hy
  obtain ⟨t, ht, a, b, c, ha, hb, hc, hed⟩ := polygonNew_outline h he
  refine ⟨t, ht, a, b, c, ha, hb, hc, ?_⟩
  obtain ⟨s, h0, h1, rfl⟩ := hs
  have h1' : 0 ≤ 1 - s := by linarith
  show InTriangle a b c _
  rcases hed with rfl | rfl | rfl
  · exact ⟨1 - s, s, 0, h1', h0, le_refl _, by ring, by rw [sub_smul, one_smul, smul_sub, zero_smul]; abel⟩
  · exact ⟨0, 1 - s, s, le_refl _, h1', h0, by ring, by rw [sub_smul, one_smul, smul_sub, zero_smul]; abel⟩
  · exact ⟨s, 0, 1 - s, h0, le_refl _, h1', by ring, by rw [sub_smul, one_smul, smul_sub, zero_smul]; abel⟩

theorem region_plane {pts : List (Vec3 ℝ)} {tri : List Tri} {n y : Vec3 ℝ} {e : ℝ}
    (hpl : ∀ p ∈ pts, Vec3.dot n p = e) (hy : Region pts tri y) : Vec3.dot n y = e := by
  obtain ⟨t, ht, a, b, c, ha, hb, hc, hin⟩ := hy
  exact inTriangle_plane (hpl a (List.mem_of_getElem? ha)) (hpl b (List.mem_of_getElem? hb))
    (hpl c (List.mem_of_getElem? hc)) hin

/-- A point exactly in the plane that is reported inside is close to the region. -/
theorem near_of_inside {pts : List (Vec3 ℝ)} {tri : List Tri} {n x : Vec3 ℝ} {e M atol : ℝ} {b : Bool}
    (hst : Sturdy pts tri) (hf : Flat pts tri n e) (hM : ∀ p ∈ pts, Vec3.norm p ≤ M) (hx : Vec3.dot n x = e)
    (h : isPointInside x pts tri b atol = .ok true) : Near (Region pts tri) x (1 / 10 ^ 4 * M + 1 / 10 ^ 7) := by
  obtain ⟨r, hr, hir⟩ := isPointInside_iff (x := x) b atol hst
  rw [h, Except.ok.injEq] at hr
  obtain ⟨-, -, ⟨t, ht, a, b', c, ha, hb, hc, hin⟩, -⟩ := hir.1 hr.symm
  have ma := List.mem_of_getElem? ha
  have mb := List.mem_of_getElem? hb
  have mc := List.mem_of_getElem? hc
  have hM0 : 0 ≤ M := (Vec3.norm_nonneg a).trans (hM a ma)
  have hA := (triangleWith_eq ha hb hc).1 (hf.pos t ht)
  rcases Triangles.isPointInside_sound hf.ne (hf.plane a ma) (hf.plane b' mb) (hf.plane c mc) hA (hM a ma)
    (hM b' mb) (hM c mc) hin with ⟨y, hy, hd⟩ | hy
  · exact ⟨y, ⟨t, ht, a, b', c, ha, hb, hc, hy⟩, hd⟩
  · refine ⟨_, ⟨t, ht, a, b', c, ha, hb, hc, hy⟩, ?_⟩
    rw [norm_foot hf.ne, hx, sub_self, abs_zero, zero_div]
    positivity

/-- The corner normal gives the plane coefficients. -/
theorem planeCoefficients_eq {pts : List (Vec3 ℝ)} {w : Vec3 ℝ} (h : CornerNormal pts w) :
    ∃ o ∈ pts, planeCoefficients pts = .ok (some (w.x, w.y, w.z, -Vec3.dot w o)) := by
  obtain ⟨h1, l, o, q, hl, ho, hq, hlen, hcr⟩ := h
  refine ⟨o, List.mem_of_getElem? ho, ?_⟩
  unfold planeCoefficients normal
  simp only [hl, ho, hq]
  generalize Vec3.cross (o - l) (q - l) = c at *
  have h0 : 0 < Vec3.norm c := lt_trans (by positivity) hlen
  have h2 : ¬ isClose (Vec3.norm c) 0 NP_RTOL NP_ATOL := by
    simp only [isClose, sub_zero, abs_zero, mul_zero, add_zero, NP_ATOL]
    rw [abs_of_nonneg (Vec3.norm_nonneg _)]
    norm_num at hlen ⊢
    exact hlen
  have h3 : (1 / Vec3.norm c) • c = w := by
    conv_lhs => rw [hcr]
    have e1 : Vec3.norm (Vec3.norm c • w) = Vec3.norm c := by rw [← hcr]
    rw [e1, smul_smul, one_div, inv_mul_cancel₀ h0.ne', one_smul]
  rw [if_neg h2, h3]
  simp [projectionCoefficients]

/-- The corner normal is a multiple of every normal of the plane. -/
theorem cornerNormal_plane {pts : List (Vec3 ℝ)} {w n : Vec3 ℝ} {e : ℝ} (h : CornerNormal pts w) (hn : n ≠ 0)
    (hpl : ∀ p ∈ pts, Vec3.dot n p = e) : ∃ k : ℝ, k ≠ 0 ∧ n = k • w := by
  obtain ⟨h1, l, o, q, hl, ho, hq, hlen, hcr⟩ := h
  have d : ∀ {p q : Vec3 ℝ}, p ∈ pts → q ∈ pts → Vec3.dot n (p - q) = 0 := by
    intro p q hp hq
    rw [Vec3.dot_sub_right, hpl p hp, hpl q hq, sub_self]
  have ml := List.mem_of_getLast? hl
  have hp := parallel_cross (d (List.mem_of_getElem? ho) ml) (d (List.mem_of_getElem? hq) ml)
  generalize Vec3.cross (o - l) (q - l) = c at *
  have h0 : 0 < Vec3.norm c := lt_trans (by positivity) hlen
  have hN := Vec3.normSq_pos hn
  have hdc : Vec3.dot n c ≠ 0 := by
    intro hz
    rw [hz, zero_smul] at hp
    have : c = 0 := by
      have := congrArg (fun v => (1 / Vec3.normSq n) • v) hp
      simp only [smul_smul, smul_zero] at this
      rwa [one_div, inv_mul_cancel₀ hN.ne', one_smul] at this
    rw [this, Vec3.norm_eq_zero.2 rfl] at h0
    exact lt_irrefl _ h0
  refine ⟨Vec3.normSq n * Vec3.norm c / Vec3.dot n c, by positivity, ?_⟩
  have : n = (1 / Vec3.dot n c) • (Vec3.normSq n • c) := by
    rw [hp, smul_smul, one_div, inv_mul_cancel₀ hdc, one_smul]
  have h5 : Vec3.normSq n • c = (Vec3.normSq n * Vec3.norm c) • w := by rw [← smul_smul, ← hcr]
  rw [h5, smul_smul] at this
  rw [mul_div_assoc, mul_comm, div_mul_eq_mul_div, ← mul_comm (Vec3.normSq n), div_eq_mul_one_div, mul_comm]
  exact this

/-! ## Moving the polygon -/

theorem getElem?_moved {pts : List (Vec3 ℝ)} (u : Vec3 ℝ) {i : Nat} {a : Vec3 ℝ} (h : pts[i]? = some a) :
    (pts.map fun p => p + u)[i]? = some (a + u) := by
  rw [List.getElem?_map, h]; rfl

theorem sub_moved (p q u : Vec3 ℝ) : p + u - (q + u) = p - q := by abel

theorem triangleWith_moved {pts : List (Vec3 ℝ)} {u : Vec3 ℝ} {t : Tri} {R R' : Vec3 ℝ → Vec3 ℝ → Vec3 ℝ → Prop}
    (h : TriangleWith pts t R) (hR : ∀ a b c, R a b c → R' (a + u) (b + u) (c + u)) :
    TriangleWith (pts.map fun p => p + u) t R' := by
  obtain ⟨a, b, c, ha, hb, hc, h⟩ := h
  exact ⟨_, _, _, getElem?_moved u ha, getElem?_moved u hb, getElem?_moved u hc, hR a b c h⟩

theorem sturdy_moved {pts : List (Vec3 ℝ)} {tri : List Tri} (u : Vec3 ℝ) (h : Sturdy pts tri) :
    Sturdy (pts.map fun p => p + u) tri := by
  refine ⟨by simpa using h.1, fun t ht => triangleWith_moved (h.2 t ht) fun a b c hc => ?_⟩
  rwa [sub_moved, sub_moved]

theorem flat_moved {pts : List (Vec3 ℝ)} {tri : List Tri} {n : Vec3 ℝ} {e : ℝ} (u : Vec3 ℝ)
    (h : Flat pts tri n e) : Flat (pts.map fun p => p + u) tri n (e + Vec3.dot n u) := by
  refine ⟨h.ne, ?_, fun t ht => triangleWith_moved (h.pos t ht) fun a b c hc => ?_⟩
  · intro p hp
    obtain ⟨q, hq, rfl⟩ := List.mem_map.1 hp
    rw [Vec3.dot_add_right, h.plane q hq]
  · rwa [sub_moved, sub_moved]

theorem inTriangle_moved {a b c x u : Vec3 ℝ} (h : InTriangle a b c x) : InTriangle (a + u) (b + u) (c + u) (x + u) := by
  obtain ⟨r, s, t, hr, hs, ht, h1, rfl⟩ := h
  refine ⟨r, s, t, hr, hs, ht, h1, ?_⟩
  have : u = r • u + s • u + t • u := by rw [← add_smul, ← add_smul, h1, one_smul]
  conv_lhs => rw [this]
  rw [smul_add, smul_add, smul_add]
  abel

theorem wellInside_moved {a b c x u : Vec3 ℝ} (h : WellInside a b c x) :
    WellInside (a + u) (b + u) (c + u) (x + u) := by
  obtain ⟨h1, D, d1, d2, d3, w1, w2, w3⟩ := h
  have aw : ∀ {p q : Vec3 ℝ} {d : ℝ}, AwayFromLine p q x d → AwayFromLine (p + u) (q + u) (x + u) d := by
    intro p q d h t
    have := h t
    have e : x + u - (p + u + t • (q + u - (p + u))) = x - (p + t • (q - p)) := by
      rw [sub_moved]; abel
    rwa [e]
  refine ⟨inTriangle_moved h1, D, ?_, ?_, ?_, aw w1, aw w2, aw w3⟩ <;> rwa [sub_moved]

theorem region_moved {pts : List (Vec3 ℝ)} {tri : List Tri} {y u : Vec3 ℝ}
    (h : Region (pts.map fun p => p + u) tri y) : Region pts tri (y - u) := by
  obtain ⟨t, ht, h⟩ := h
  have := triangleWith_moved (u := -u) h (R' := fun a b c => InTriangle a b c (y - u)) fun a b c hin => by
    rw [sub_eq_add_neg]; exact inTriangle_moved hin
  rw [List.map_map] at this
  have e : ((fun p : Vec3 ℝ => p + -u) ∘ fun p => p + u) = id := by
    funext p; simp
  rw [e, List.map_id] at this
  exact ⟨t, ht, this⟩

/-! ## The distance from the outline -/

theorem edgeMin_spec {x : Vec3 ℝ} : ∀ (es : List (Vec3 ℝ × Vec3 ℝ)) (m : Option ℝ), (∀ e ∈ es, e.1 ≠ e.2) →
    ∃ r, edgeMin x es m = .ok r ∧
      (∀ m₀, m = some m₀ → ∃ r₀, r = some r₀ ∧ r₀ ≤ m₀) ∧
      (∀ e ∈ es, ∀ y, OnSegment e.1 e.2 y → ∃ r₀, r = some r₀ ∧ r₀ ≤ Vec3.norm (x - y)) ∧
      (∀ r₀, r = some r₀ → m = some r₀ ∨ ∃ e ∈ es, ∃ y, OnSegment e.1 e.2 y ∧ r₀ = Vec3.norm (x - y))
  | [], m, _ => ⟨m, rfl, fun m₀ h => ⟨m₀, h, le_refl _⟩, by simp, fun r₀ h => .inl h⟩
  | (p, q) :: es, m, h => by
    obtain ⟨d, hd, ⟨t, h0, h1, hdt⟩, hmin⟩ := (C27_distance_point_to_edge x p q).1 (h _ List.mem_cons_self)
    have hsw : ∀ y : Vec3 ℝ, Vec3.norm (x - y) = Vec3.norm (y - x) := fun y => by
      rw [← Vec3.norm_neg]; simp
    have h' : ∀ e ∈ es, e.1 ≠ e.2 := fun e he => h e (List.mem_cons_of_mem _ he)
    have att : ∃ y, OnSegment p q y ∧ d = Vec3.norm (x - y) := ⟨_, ⟨t, h0, h1, rfl⟩, by rw [hsw, hdt]⟩
    have low : ∀ y, OnSegment p q y → d ≤ Vec3.norm (x - y) := by
      rintro y ⟨t', h0', h1', rfl⟩
      rw [hsw]
      exact hmin t' h0' h1'
    unfold edgeMin
    simp only [hd]
    cases m with
    | none =>
      obtain ⟨r, hr, r1, r2, r3⟩ := edgeMin_spec (x := x) es (some d) h'
      refine ⟨r, hr, by simp, ?_, ?_⟩
      · rw [List.forall_mem_cons]
        refine ⟨fun y hy => ?_, r2⟩
        obtain ⟨r₀, e1, e2⟩ := r1 d rfl
        exact ⟨r₀, e1, e2.trans (low y hy)⟩
      · intro r₀ e1
        right
        rw [List.exists_mem_cons_iff]
        rcases r3 r₀ e1 with e2 | e2
        · rw [Option.some.injEq] at e2; subst e2; exact .inl att
        · exact .inr e2
    | some m₀ =>
      obtain ⟨r, hr, r1, r2, r3⟩ := edgeMin_spec (x := x) es (some (if d < m₀ then d else m₀)) h'
      obtain ⟨r₀, e1, e2⟩ := r1 _ rfl
      have l1 : (if d < m₀ then d else m₀) ≤ d := by split <;> linarith
      have l2 : (if d < m₀ then d else m₀) ≤ m₀ := by split <;> linarith
      refine ⟨r, hr, ?_, ?_, ?_⟩
      · intro m₁ hm
        rw [Option.some.injEq] at hm; subst hm
        exact ⟨r₀, e1, e2.trans l2⟩
      · rw [List.forall_mem_cons]
        exact ⟨fun y hy => ⟨r₀, e1, (e2.trans l1).trans (low y hy)⟩, r2⟩
      · intro r₁ e3
        rw [List.exists_mem_cons_iff]
        rcases r3 r₁ e3 with e4 | e4
        · rw [Option.some.injEq] at e4
          split at e4
          · subst e4; exact .inr (.inl att)
          · left; rw [e4]
        · exact .inr (.inr e4)

theorem edgeMin_outline {pts : List (Vec3 ℝ)} {x : Vec3 ℝ} (hp : pts ≠ []) (hne : ∀ e ∈ cycEdges pts, e.1 ≠ e.2) :
    ∃ r, edgeMin x (cycEdges pts) none = .ok (some r) ∧ (∀ y, OnOutline pts y → r ≤ Vec3.norm (x - y)) ∧
      ∃ y, OnOutline pts y ∧ r = Vec3.norm (x - y) := by
  obtain ⟨r, hr, -, r2, r3⟩ := edgeMin_spec (x := x) (cycEdges pts) none hne
  have hlen : 0 < pts.length := List.length_pos_iff.2 hp
  obtain ⟨r₀, e1, -⟩ := r2 _ (mem_cycEdges_iff.2 ⟨0, hlen, rfl⟩) _ ⟨0, le_refl _, zero_le_one, rfl⟩
  subst e1
  refine ⟨r₀, hr, ?_, ?_⟩
  · rintro y ⟨e, he, hy⟩
    obtain ⟨r₁, e1, e2⟩ := r2 e he y hy
    rw [Option.some.injEq] at e1
    rw [e1]; exact e2
  · rcases r3 r₀ rfl with e1 | ⟨e, he, y, hy, hr⟩
    · cases e1
    · exact ⟨y, ⟨e, he, hy⟩, hr⟩

end B3d.Polygon
