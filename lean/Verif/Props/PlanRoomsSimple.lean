import Verif.Props.PlanRooms
import Verif.Props.Tiling
import Verif.Props.PlanEll
import Verif.Props.PolygonErrors

/-! # C96: rooms over plans which do not cross themselves -/

namespace B3d.Solids

open Spec Polygon Triangles Points Tiling Planar

/-! ### Simple outlines after a change of place -/

theorem simple_of_map {f : Vec3 ℝ → Vec3 ℝ} (hinj : Function.Injective f)
    (haff : ∀ (a b : Vec3 ℝ) (t : ℝ), f (a + t • (b - a)) = f a + t • (f b - f a)) {pts : List (Vec3 ℝ)}
    (h : SimplePolygon (pts.map f)) : SimplePolygon pts := by
  have seg : ∀ {a b x : Vec3 ℝ}, OnSegment a b x → OnSegment (f a) (f b) (f x) := by
    rintro a b x ⟨t, h0, h1, rfl⟩
    exact ⟨t, h0, h1, haff a b t⟩
  intro i j a b c d hij hj ⟨s1, s2⟩ ⟨s3, s4⟩ x hx hy
  have e : (pts.map f).length = pts.length := by simp
  rcases h i j (f a) (f b) (f c) (f d) hij (by rw [e]; exact hj)
    ⟨by rw [List.getElem?_map, s1]; rfl, by rw [e, List.getElem?_map, s2]; rfl⟩
    ⟨by rw [List.getElem?_map, s3]; rfl, by rw [e, List.getElem?_map, s4]; rfl⟩ (f x) (seg hx) (seg hy) with h | h
  · exact .inl ⟨h.1, hinj h.2⟩
  · exact .inr ⟨h.1, by rw [← e]; exact h.2.1, hinj h.2.2⟩

/-- Back to the place where the plan was drawn. -/
noncomputable def unplace (phi z : ℝ) (t : Vec3 ℝ) (y : Vec3 ℝ) : Vec3 ℝ :=
  ⟨Real.cos phi * (y.x - t.x) + Real.sin phi * (y.y - t.y), -Real.sin phi * (y.x - t.x) + Real.cos phi * (y.y - t.y),
    y.z - z⟩

theorem unplace_level (phi z : ℝ) (t : Vec3 ℝ) (p : ℝ × ℝ) : unplace phi z t (level z (place phi t p)) = level 0 p := by
  have := Real.sin_sq_add_cos_sq phi
  ext
  · simp only [unplace, level, place]; linear_combination p.1 * this
  · simp only [unplace, level, place]; linear_combination p.2 * this
  · simp [unplace, level]

theorem unplace_inj (phi z : ℝ) (t : Vec3 ℝ) : Function.Injective (unplace phi z t) := by
  intro a b h
  have := Real.sin_sq_add_cos_sq phi
  have h1 := congrArg Vec3.x h
  have h2 := congrArg Vec3.y h
  have h3 := congrArg Vec3.z h
  simp only [unplace] at h1 h2 h3
  ext
  · linear_combination (b.x - a.x) * this + Real.cos phi * h1 - Real.sin phi * h2
  · linear_combination (b.y - a.y) * this + Real.sin phi * h1 + Real.cos phi * h2
  · linarith

theorem simple_placed {plan : List (ℝ × ℝ)} (h : SimplePolygon (plan.map (level 0))) (t : Vec3 ℝ) (phi z : ℝ) :
    SimplePolygon ((placed plan t phi).map (level z)) := by
  apply simple_of_map (unplace_inj (planAngle phi) z (planShift t))
  · intro a b s
    ext <;> simp [unplace] <;> ring
  · rw [placed, List.map_map, List.map_map]
    have : plan.map ((unplace (planAngle phi) z (planShift t) ∘ level z) ∘ place (planAngle phi) (planShift t)) =
        plan.map (level 0) := List.map_congr_left fun p _ => unplace_level _ _ _ p
    rwa [this]

/-! ### The rooms -/

/-- **C96, plans which do not cross themselves.**  A room made by `floor_plan` from such a plan encloses exactly the points
above its floor and below its ceiling around which the plan runs.  The sizes are as in C90: any two corners of the plan
are at least `m` apart, no point is on the line through two corners unless it is by `m` or more off it (`Crisp`), the
height is between `m` and `50 m`, and no corner is further than `10000 m` from the origin. -/
theorem C96_simple_partial {plan : List (ℝ × ℝ)} {m height phi : ℝ} {t : Vec3 ℝ} {wallNames : Option (List Str)}
    {fn cn rnd1 rnd2 : Str} {S : SolidG} {p0 p1 q l : ℝ × ℝ} {r1 r2 : List (ℝ × ℝ)} {ccw : Bool} {sg : ℝ}
    (h : floorPlan plan height t phi wallNames fn cn rnd1 rnd2 = .ok S) (hc : Crisp m plan)
    (hsim : SimplePolygon (plan.map (level 0))) (hh : m ≤ height ∧ height ≤ 50 * m)
    (hr : ∀ p ∈ placed plan t phi, Reach m (level (planShift t).z p) ∧ Reach m (level ((planShift t).z + height) p))
    (h1 : plan = p0 :: p1 :: r1) (h2 : plan = r2 ++ [q, l]) (hsg : sg = if ccw then 1 else -1)
    (hA : 0 < sg * area2 plan) (hf : 0 < sg * turn l p0 p1) (hl : 0 < sg * turn q l p0) (x : Vec3 ℝ)
    (hx : ¬ OnOutline ((placed plan t phi).map (level x.z)) x) :
    let z0 := (planShift t).z
    x.z ≠ z0 → x.z ≠ z0 + height → OffSurface (facets S) x ∧
      (Enclosed (facets S) x ↔ z0 < x.z ∧ x.z < z0 + height ∧
        winding ⟨0, 0, 1⟩ ⟨1, 0, 0⟩ x ((placed plan t phi).map (level x.z)) ≠ 0) := by
  intro z0 hz0 hz1
  have hnd := C106_plan h
  have hm := hc.pos
  have hA0 : area2 plan ≠ 0 := by intro e; rw [e, mul_zero] at hA; exact lt_irrefl _ hA
  have hn3 : 3 ≤ plan.length := by rw [h1] at hA0 ⊢; exact three_of_area hA0
  have hpl := place_of_reach hc hnd hn3 hh hr
  have hsep : Separated ((placed plan t phi).map (level (planShift t).z)) := by
    refine List.pairwise_map.2 (List.pairwise_iff_forall_sublist.2 fun {p q} hs => ?_)
    have := place_apart hc hnd hpl p q hs
    exact ⟨this.1.symm_ne, this.2.symm_ne⟩
  have hS := floorPlan_shell h (lt_of_lt_of_le hm hh.1) h1 h2 hsg hA hf hl hsep
  obtain ⟨hoff, hiff⟩ := C96_encloses_partial h (lt_of_lt_of_le hm hh.1) h1 h2 hsg hA hf hl hsep x hx hz0 hz1
  refine ⟨hoff, hiff.trans (and_congr_right fun _ => and_congr_right fun _ => ?_)⟩
  -- the ceiling
  obtain ⟨W, F, C, e, -, -, hC, hCp, hCv⟩ := hS.parts
  have hCm : C ∈ facesOf S := by rw [e]; simp
  obtain ⟨pts, vn, v, hn, hv, -⟩ := hS.flat C hCm
  rw [hCv, Option.some.injEq] at hv
  subst hv
  obtain ⟨h3, v', hv', -, ht, -, -⟩ := polygonNew_ok hn
  obtain ⟨hrev, -⟩ := triangulateTries_good _ _ _ _ _ pts h3 C.pts C.tri ht
  obtain ⟨L, hL⟩ : ∃ L, L = (placed plan t phi).map (level ((planShift t).z + height)) := ⟨_, rfl⟩
  rw [← hL] at hCp
  have hmem : ∀ p, p ∈ pts ↔ p ∈ L := by
    intro p
    have : p ∈ C.pts ↔ p ∈ L := by rw [hCp, orient_mem]
    rw [← this]
    rcases hrev with e | e <;> rw [e]
    rw [List.mem_reverse]
  have hLS : Simp L := by
    refine simp_of_simple ?_ (hL ▸ simple_placed hsim t phi _)
    rw [hL, placed, List.map_map]
    refine hnd.map fun a b hab => ?_
    have hx := congrArg Vec3.x hab
    have hy := congrArg Vec3.y hab
    exact placed_inj (Prod.ext hx hy)
  have hSp : Simp pts := by
    have hCS : Simp C.pts := by
      rw [hCp]
      cases ccw
      · exact hLS.reverse
      · exact hLS
    rcases hrev with e | e
    · rw [← e]; exact hCS
    · have : pts = C.pts.reverse := by rw [e, List.reverse_reverse]
      rw [this]; exact hCS.reverse
  have hex := exact_inPlane (axes_turned (planAngle phi)) hc (place_inPlane hpl).2
  rw [cross_turned, ← placed_level, ← hL] at hex
  obtain ⟨x', hx'⟩ : ∃ x' : Vec3 ℝ, x' = ⟨x.x, x.y, (planShift t).z + height⟩ := ⟨_, rfl⟩
  have hplane : ∀ y : Vec3 ℝ, Vec3.dot ⟨0, 0, 1⟩ y = y.z := by intro y; simp [Vec3.dot]
  have hxo : ¬ OnOutline C.pts x' := by
    intro ho
    apply hx
    have : OnOutline L x' := by
      rw [hCp] at ho
      cases ccw
      · exact onOutline_reverse ho
      · exact ho
    rw [hx', hL] at this
    exact onOutline_level this
  have hw := winding_simp hn hCv (e := (planShift t).z + height) (fun p hp => by
      rw [hplane]
      have := (hmem p).1 hp
      rw [hL] at this
      obtain ⟨q, -, rfl⟩ := List.mem_map.1 this
      rfl) hSp (fun a ha b hb c hc t ht => hex a ((hmem a).1 ha) b ((hmem b).1 hb) c ((hmem c).1 hc) t ((hmem t).1 ht))
    (u := ⟨1, 0, 0⟩) (x := x') (by simp [Vec3.ext_iff]) (by simp [Vec3.dot]) (by rw [hplane, hx']) hxo
  have e1 : winding ⟨0, 0, 1⟩ ⟨1, 0, 0⟩ x ((placed plan t phi).map (level x.z)) = winding ⟨0, 0, 1⟩ ⟨1, 0, 0⟩ x' L := by
    rw [hx', hL]; exact winding_level _ x.z _
  have e2 : winding ⟨0, 0, 1⟩ ⟨1, 0, 0⟩ x' L = winding ⟨0, 0, 1⟩ ⟨1, 0, 0⟩ x' C.pts ∨
      winding ⟨0, 0, 1⟩ ⟨1, 0, 0⟩ x' L = -winding ⟨0, 0, 1⟩ ⟨1, 0, 0⟩ x' C.pts := by
    rw [hCp]
    cases ccw
    · right
      rw [orient, if_neg (by decide), winding_reverse, neg_neg]
    · exact .inl rfl
  rw [e1]
  split at hw <;> rcases e2 with e2 | e2 <;> rw [e2, hw] <;> decide

/-- Non-vacuity: an L-shaped room of 10 m by 8 m, 3 m high, on the third floor.  It encloses a point of its narrow part and
not the point beside it in the notch, nor a point above it. -/
example : ∃ S, floorPlan (ellShape 10 3 4 8) 3 ⟨5, 5, 9⟩ 0 none "floor".toList "ceiling".toList
    "a".toList "b".toList = .ok S ∧ Enclosed (facets S) ⟨7, 12, 10⟩ ∧ ¬ Enclosed (facets S) ⟨12, 12, 10⟩ ∧
      ¬ Enclosed (facets S) ⟨7, 12, 13⟩ := by
  have e1 : planShift ⟨5, 5, 9⟩ = ⟨5, 5, 9⟩ := by norm_num [planShift]
  have e2 : planAngle 0 = 0 := by norm_num [planAngle]
  have ep : ellPlan 10 3 4 8 0 0 0 = ellShape 10 3 4 8 := by simp [ellPlan, ellShape, place]
  have epl : placed (ellShape 10 3 4 8) ⟨5, 5, 9⟩ 0 = [(5, 5), (15, 5), (15, 8), (9, 8), (9, 13), (5, 13)] := by
    rw [placed, e1, e2]
    norm_num [ellShape, place]
  have hr : ∀ p ∈ placed (ellShape 10 3 4 8) ⟨5, 5, 9⟩ 0, Reach 1 (level (planShift ⟨5, 5, 9⟩).z p) ∧
      Reach 1 (level ((planShift ⟨5, 5, 9⟩).z + 3) p) := by
    intro p hp
    rw [epl] at hp
    rw [e1]
    simp only [List.mem_cons, List.not_mem_nil, or_false] at hp
    rcases hp with rfl | rfl | rfl | rfl | rfl | rfl <;> norm_num [Reach, level, abs_le]
  obtain ⟨S, h, -, -⟩ := C32_ell (m := 1) (a := 10) (b := 3) (c := 4) (d := 8) (psi := 0) (s := 0) (k := 0)
    (height := 3) (t := ⟨5, 5, 9⟩) (phi := 0) (wallNames := none) (fn := "floor".toList) (cn := "ceiling".toList)
    (rnd1 := "a".toList) (rnd2 := "b".toList) (plan := ellShape 10 3 4 8)
    (names := ["wall-0", "wall-1", "wall-2", "wall-3", "wall-4", "wall-5"].map String.toList)
    (by constructor <;> norm_num) (by simp) (.inl ep.symm) (by norm_num) hr
    (show planNames 6 none = _ by decide +kernel) (by decide +kernel) (by decide +kernel)
  have hsim : SimplePolygon ((ellShape 10 3 4 8).map (level 0)) := by
    have := Grid.simple_emb (pts := [(0, 0), (10, 0), (10, 3), (4, 3), (4, 8), (0, 8)]) (by decide +kernel)
    simpa [Grid.emb, ellShape, level] using this
  have key := fun x => C96_simple_partial (m := 1) (ccw := true) (sg := 1) h (Ell.ell_crisp (by constructor <;> norm_num))
    hsim (by norm_num) hr rfl
    (r2 := [(0, 0), (10, 0), (10, 3), (4, 3)]) (q := (4, 8)) (l := (0, 8)) rfl rfl
    (by norm_num [area2, ellShape, cycSum, pathSum, cross2]) (by norm_num [turn, cross2]) (by norm_num [turn, cross2]) x
  simp only [epl, e1] at key
  have off : ∀ x : Vec3 ℝ, x.y = 12 → x.x = 7 ∨ x.x = 12 →
      ¬ OnOutline ([(5, 5), (15, 5), (15, 8), (9, 8), (9, 13), (5, 13)].map (level x.z)) x := by
    rintro x hy hx ⟨f, hf, t, h0, h1, ht⟩
    simp [cycEdges, level] at hf
    rcases hf with rfl | rfl | rfl | rfl | rfl | rfl <;> have hx' := congrArg Vec3.x ht <;>
      have hy' := congrArg Vec3.y ht <;> simp at hx' hy' <;> rcases hx with hx | hx <;> linarith
  have k1 := (key ⟨7, 12, 10⟩ (off _ rfl (.inl rfl)) (by norm_num) (by norm_num)).2
  have k2 := (key ⟨12, 12, 10⟩ (off _ rfl (.inr rfl)) (by norm_num) (by norm_num)).2
  have k3 := (key ⟨7, 12, 13⟩ (off _ rfl (.inl rfl)) (by norm_num) (by norm_num)).2
  refine ⟨S, h, k1.2 ?_, fun hc => (k2.1 hc).2.2 ?_, fun hc => ?_⟩
  · norm_num [winding, cycEdges, crossing, Vec3.dot, Vec3.cross, level]
  · norm_num [winding, cycEdges, crossing, Vec3.dot, Vec3.cross, level]
  · have := (k3.1 hc).2.1
    norm_num at this


/-! ### A point whose ray leaves through the ceiling -/

theorem ray_param {x : Vec3 ℝ} {s : ℝ} (hs : 0 ≤ s) :
    ∃ k : ℝ, 0 ≤ k ∧ x + s • rayDir = ⟨x.x + k * (739 / 1000), x.y + k * (239 / 1000), x.z + k * (113 / 1000)⟩ := by
  refine ⟨s * (1 / Vec3.norm (⟨739 / 1000, 239 / 1000, 113 / 1000⟩ : Vec3 ℝ)),
    mul_nonneg hs (div_nonneg zero_le_one (Vec3.norm_nonneg _)), ?_⟩
  ext <;> simp [rayDir] <;> ring

theorem ray_at {x : Vec3 ℝ} {k : ℝ} (hk : 0 ≤ k) : ∃ s : ℝ, 0 ≤ s ∧
    x + s • rayDir = ⟨x.x + k * (739 / 1000), x.y + k * (239 / 1000), x.z + k * (113 / 1000)⟩ := by
  have hp : 0 < Vec3.norm (⟨739 / 1000, 239 / 1000, 113 / 1000⟩ : Vec3 ℝ) :=
    Real.sqrt_pos.2 (by norm_num [Vec3.normSq, Vec3.dot])
  refine ⟨k * Vec3.norm (⟨739 / 1000, 239 / 1000, 113 / 1000⟩ : Vec3 ℝ), mul_nonneg hk hp.le, ?_⟩
  ext <;> simp [rayDir] <;> field_simp

theorem le_norm {v : Vec3 ℝ} {d : ℝ} (h : d ^ 2 ≤ v.x * v.x + v.y * v.y + v.z * v.z) : d ≤ Vec3.norm v :=
  Real.le_sqrt_of_sq_le (by simpa [Vec3.normSq, Vec3.dot] using h)

theorem norm_le {v : Vec3 ℝ} {d : ℝ} (hd : 0 ≤ d) (h : v.x * v.x + v.y * v.y + v.z * v.z ≤ d ^ 2) : Vec3.norm v ≤ d :=
  Real.sqrt_le_iff.2 ⟨hd, by simpa [Vec3.normSq, Vec3.dot] using h⟩

theorem abs_z_le {v : Vec3 ℝ} {d : ℝ} (h : Vec3.norm v ≤ d) : |v.z| ≤ d := by
  refine le_trans (Real.abs_le_sqrt ?_) h
  simp only [Vec3.normSq, Vec3.dot]
  nlinarith [sq_nonneg v.x, sq_nonneg v.y]

/-- A wall of the example, met by the ray neither before the ceiling nor after it. -/
theorem wall_misses {P : Poly} {v : Vec3 ℝ} {k : ℝ} {a b : ℝ × ℝ} (hP : FromFlat P) (hp : P.pts = side 9 12 (a, b))
    (hv : P.vn = some v) (hn : Vec3.norm v = 1) (hk : 1 / 10 ^ 8 < k)
    (hc : Vec3.cross (level 9 a - level 12 a) (level 9 b - level 12 a) = k • v)
    (hab : 1 ≤ (b.1 - a.1) ^ 2 + (b.2 - a.2) ^ 2 ∧ (b.1 - a.1) ^ 2 + (b.2 - a.2) ^ 2 ≤ 1000) (hray : GEOM_ATOL ≤ |Vec3.dot v rayDir|)
    (hm : ∀ j : ℝ, 0 ≤ j → Vec3.dot v ⟨6 + j * (739 / 1000), 10 + j * (239 / 1000), 11887 / 1000 + j * (113 / 1000)⟩ =
      Vec3.dot v (level 9 a) → 1 / 5 ≤ j * (113 / 1000)) : SpansPlane P.pts ∧ ∃ v w e, Face P v w e ∧
        GEOM_ATOL ≤ |Vec3.dot w rayDir| ∧ (RayHits P ⟨6, 10, 11887 / 1000⟩ rayDir ∨
          RayMisses P v e ⟨6, 10, 11887 / 1000⟩ rayDir (1 / 10 ^ 4 * 24 + 1 / 10 ^ 7)) := by
  obtain ⟨h1, h2⟩ := hab
  have hpl : ∀ p ∈ P.pts, Vec3.dot v p = Vec3.dot v (level 9 a) := by
    obtain ⟨pts, vn, v', hn', hv', hf⟩ := hP
    rw [hv, Option.some.injEq] at hv'
    subst hv'
    have hmem : ∀ p ∈ P.pts, p ∈ pts := by
      obtain ⟨h3, v', hv', -, ht, -, -⟩ := polygonNew_ok hn'
      obtain ⟨hrev, -⟩ := triangulateTries_good _ _ _ _ _ pts h3 P.pts P.tri ht
      intro p hp
      rcases hrev with e | e
      · rwa [← e]
      · rw [e] at hp; exact List.mem_reverse.1 hp
    exact fun p hp' => hf p (hmem p hp') _ (hmem _ (by rw [hp]; simp [side]))
  refine ⟨⟨⟨0, level 9 a, level 9 b, level 12 b, by rw [hp]; rfl, by rw [hp]; rfl, by rw [hp]; rfl, ?_⟩,
    0, level 9 a, level 9 b, level 12 b, by rw [hp]; rfl, by rw [hp]; rfl, by rw [hp]; rfl, ?_, ?_, ?_⟩, v, v,
    Vec3.dot v (level 9 a), ⟨?_, hv, hpl, hn, level 12 a, level 9 a, level 9 b, by rw [hp]; rfl, by rw [hp]; rfl, by rw [hp]; rfl, ?_⟩,
    hray, .inr ?_⟩
  · refine lt_of_lt_of_le (by norm_num : (1 : ℝ) / 10 ^ 8 < 1) (le_norm ?_)
    simp [level]
    nlinarith
  · refine le_trans (by norm_num : (1 : ℝ) / 10 ^ 11 ≤ 1) (le_norm ?_)
    simp [level]
    nlinarith
  · refine le_trans (by norm_num : (1 : ℝ) / 10 ^ 11 ≤ 1) (le_norm ?_)
    simp [level]
    nlinarith
  · obtain ⟨L, hL⟩ : ∃ L, L = (b.1 - a.1) ^ 2 + (b.2 - a.2) ^ 2 := ⟨_, rfl⟩
    rw [← hL] at h1 h2
    have e1 : Vec3.dot (level 9 b - level 9 a) (level 12 b - level 9 a) = L := by
      rw [hL]; simp [level, Vec3.dot]; ring
    have e2 : Vec3.normSq (level 9 b - level 9 a) = L := by rw [hL]; simp [level, Vec3.normSq, Vec3.dot]; ring
    have e3 : Vec3.normSq (level 12 b - level 9 a) = L + 9 := by
      rw [hL]; simp [level, Vec3.normSq, Vec3.dot]; ring
    rw [e1, e2, e3]
    nlinarith
  · obtain ⟨pts, vn, v', hn', -, -⟩ := hP
    exact ⟨pts, vn, hn'⟩
  · have e : Vec3.norm (k • v) = k := by
      rw [Vec3.norm_smul, hn, mul_one, abs_of_pos (lt_trans (by norm_num) hk)]
    rw [hc, e]
    exact ⟨hk, rfl⟩
  · rintro s hs hd ⟨y, hy, hyn⟩
    obtain ⟨j, hj, e⟩ := ray_param (x := ⟨6, 10, 11887 / 1000⟩) hs
    rw [e] at hd hyn
    have := hm j hj hd
    have hy2 := (region_side (z0 := 9) (z1 := 12) (e := (a, b)) (by norm_num) (fun p hp' => by rw [hp] at hp'; exact hp') hy).2.1
    have hz := abs_le.1 (abs_z_le hyn)
    simp at hz
    norm_num at hz
    linarith [hz.2]

theorem ray_comp : 1 / 10 ≤ rayDir.x ∧ 1 / 10 ≤ rayDir.y ∧ 1 / 10 ≤ rayDir.z := by
  have hp : 0 < Vec3.norm (⟨739 / 1000, 239 / 1000, 113 / 1000⟩ : Vec3 ℝ) :=
    Real.sqrt_pos.2 (by norm_num [Vec3.normSq, Vec3.dot])
  have hl : Vec3.norm (⟨739 / 1000, 239 / 1000, 113 / 1000⟩ : Vec3 ℝ) ≤ 1 := norm_le zero_le_one (by norm_num)
  have := one_le_one_div hp hl
  refine ⟨?_, ?_, ?_⟩ <;> simp only [rayDir, Vec3.smul_x, Vec3.smul_y, Vec3.smul_z] <;> nlinarith

/-- The plan of the example. -/
def ellRoom : List (ℝ × ℝ) := [(10, 0), (10, 3), (4, 3), (4, 8), (0, 8), (0, 0)]

/-- Non-vacuity of `C96_inside_partial`: the room over the L-shaped plan, a point of its narrow part, 113 mm below the
ceiling; the ray of `is_point_inside` leaves through the ceiling. -/
example : ∃ S, floorPlan ellRoom 3 ⟨5, 5, 9⟩ 0 none "floor".toList "ceiling".toList "a".toList "b".toList = .ok S ∧
    isPointInside S ⟨6, 10, 11887 / 1000⟩ = .ok true := by
  have e1 : planShift ⟨5, 5, 9⟩ = ⟨5, 5, 9⟩ := by norm_num [planShift]
  have e2 : planAngle 0 = 0 := by norm_num [planAngle]
  have ep : ellPlan 10 3 4 8 0 0 1 = ellRoom := by simp [ellPlan, ellShape, ellRoom, place]
  have epl : placed ellRoom ⟨5, 5, 9⟩ 0 = [(15, 5), (15, 8), (9, 8), (9, 13), (5, 13), (5, 5)] := by
    rw [placed, e1, e2]
    norm_num [ellRoom, place]
  have hr : ∀ p ∈ placed ellRoom ⟨5, 5, 9⟩ 0, Reach 1 (level (planShift ⟨5, 5, 9⟩).z p) ∧
      Reach 1 (level ((planShift ⟨5, 5, 9⟩).z + 3) p) := by
    intro p hp
    rw [epl] at hp
    rw [e1]
    simp only [List.mem_cons, List.not_mem_nil, or_false] at hp
    rcases hp with rfl | rfl | rfl | rfl | rfl | rfl <;> norm_num [Reach, level, abs_le]
  have hsize : EllSize 1 10 3 4 8 := by constructor <;> norm_num
  obtain ⟨S, h, -, -⟩ := C32_ell (m := 1) (a := 10) (b := 3) (c := 4) (d := 8) (psi := 0) (s := 0) (k := 1)
    (height := 3) (t := ⟨5, 5, 9⟩) (phi := 0) (wallNames := none) (fn := "floor".toList) (cn := "ceiling".toList)
    (rnd1 := "a".toList) (rnd2 := "b".toList) (plan := ellRoom)
    (names := ["wall-0", "wall-1", "wall-2", "wall-3", "wall-4", "wall-5"].map String.toList)
    hsize (by simp) (.inl ep.symm) (by norm_num) hr
    (show planNames 6 none = _ by decide +kernel) (by decide +kernel) (by decide +kernel)
  have hc : Crisp 1 ellRoom := by
    rw [← ep]
    unfold ellPlan
    exact ((Ell.ell_crisp hsize).subset fun p hp => List.mem_rotate.1 hp).place _ _
  have hnd : ellRoom.Nodup := by
    rw [← ep]
    unfold ellPlan
    exact (List.nodup_rotate.2 (ell_nodup (by norm_num) (by norm_num) (by norm_num) (by norm_num))).map
      fun x y h => placed_inj h
  have hsep : Separated ((placed ellRoom ⟨5, 5, 9⟩ 0).map (level (planShift ⟨5, 5, 9⟩).z)) := by
    refine List.pairwise_map.2 (List.pairwise_iff_forall_sublist.2 fun {p q} hs => ?_)
    have := place_apart hc hnd (place_of_reach hc hnd (by decide) (by norm_num : (1 : ℝ) ≤ 3 ∧ (3 : ℝ) ≤ 50 * 1) hr) p q hs
    exact ⟨this.1.symm_ne, this.2.symm_ne⟩
  -- the triangles of the ceiling
  obtain ⟨W, C, hW, hCt⟩ : ∃ W C, facesOf S = W ++ [C] ∧ C.tri = [(5, 0, 1), (5, 1, 2), (5, 2, 3), (5, 3, 4)] := by
    obtain ⟨P, near, h1, h2, h3, h4⟩ := Ell.ell_polygon (k := 1) (o := ⟨5, 5, 12⟩) hsize (axes_turned 0) (fun p hp => by
      have := (hr (place 0 ⟨5, 5, 9⟩ p) (by
        rw [placed, e1, e2, ← ep]
        refine List.mem_map.2 ⟨p, ?_, rfl⟩
        refine List.mem_map.2 ⟨p, List.mem_rotate.2 hp, by simp [place]⟩)).2
      rw [e1, level_place] at this
      norm_num at this
      exact this) (by simp)
    rw [cross_turned] at h3
    rw [floorPlan_eq (by simp [ellRoom]) (show planNames ellRoom.length none = .ok (["wall-0", "wall-1", "wall-2", "wall-3",
      "wall-4", "wall-5"].map String.toList) by decide +kernel)] at h
    obtain ⟨F, C, walls, walls', -, hC, -, -, hS, -⟩ := planSolid_parts h
    have el : (placed ellRoom ⟨5, 5, 9⟩ 0).map (level ((planShift ⟨5, 5, 9⟩).z + 3)) =
        ((ellShape 10 3 4 8).rotate 1).map (inPlane ⟨5, 5, 12⟩ (axisU 0) (axisW 0)) := by
      rw [placed_level, e1, e2, ← ep]
      unfold ellPlan
      rw [List.map_map]
      norm_num
      intro a b _
      simp [place]
    rw [el, level_ok (.inl rfl) (by decide +kernel) h1 h3] at hC
    refine ⟨facesOf (walls' ++ [⟨"floor".toList, [F]⟩]), P, ?_, h4⟩
    rw [hS, ← Except.ok.inj hC]
    simp [facesOf]
  obtain ⟨k1, k2, -⟩ := C32_prism_partial (ccw := true) (sg := 1) h (by norm_num) (p0 := (10, 0)) (p1 := (10, 3))
    (r1 := [(4, 3), (4, 8), (0, 8), (0, 0)]) rfl (r2 := [(10, 0), (10, 3), (4, 3), (4, 8)]) (q := (0, 8)) (l := (0, 0)) rfl rfl
    (by norm_num [area2, ellRoom, cycSum, pathSum, cross2]) (by norm_num [turn, cross2]) (by norm_num [turn, cross2]) hsep
  have hS := floorPlan_shell (ccw := true) (sg := 1) h (by norm_num) (p0 := (10, 0)) (p1 := (10, 3))
    (r1 := [(4, 3), (4, 8), (0, 8), (0, 0)]) rfl (r2 := [(10, 0), (10, 3), (4, 3), (4, 8)]) (q := (0, 8)) (l := (0, 0)) rfl rfl
    (by norm_num [area2, ellRoom, cycSum, pathSum, cross2]) (by norm_num [turn, cross2]) (by norm_num [turn, cross2]) hsep
  have hz12 : (9 : ℝ) + 3 = 12 := by norm_num
  simp only [allPolys_eq, epl, e1, hz12] at k1 k2
  simp only [prism, cycEdges, List.map_cons, List.map_nil, List.zip_cons_cons, List.zip_nil_right, List.cons_append,
    List.nil_append, orient, if_true, List.reverse_cons, List.reverse_nil] at k1 k2
  have right : ∀ {a b : ℝ × ℝ} {L : ℝ}, 0 < L → (b.2 - a.2) * (b.2 - a.2) + (b.1 - a.1) * (b.1 - a.1) = L ^ 2 →
      rightNormal (a, b) = (1 / L) • ⟨b.2 - a.2, -(b.1 - a.1), 0⟩ := by
    intro a b L hL h
    have : Vec3.norm (⟨b.2 - a.2, -(b.1 - a.1), 0⟩ : Vec3 ℝ) = L := by
      rw [Vec3.norm, Real.sqrt_eq_iff_mul_self_eq (by simp [Vec3.normSq, Vec3.dot]; nlinarith) hL.le]
      simp [Vec3.normSq, Vec3.dot]
      nlinarith
    rw [rightNormal, this]
  rw [right (a := (15, 5)) (b := (15, 8)) (L := 3) (by norm_num) (by norm_num),
    right (a := (15, 8)) (b := (9, 8)) (L := 6) (by norm_num) (by norm_num),
    right (a := (9, 8)) (b := (9, 13)) (L := 5) (by norm_num) (by norm_num),
    right (a := (9, 13)) (b := (5, 13)) (L := 4) (by norm_num) (by norm_num),
    right (a := (5, 13)) (b := (5, 5)) (L := 8) (by norm_num) (by norm_num),
    right (a := (5, 5)) (b := (15, 5)) (L := 10) (by norm_num) (by norm_num)] at k2
  have hflat := hS.flat
  obtain ⟨P0, R, hR, p0, k1⟩ := List.map_eq_cons_iff.1 k1
  obtain ⟨P1, R, rfl, p1, k1⟩ := List.map_eq_cons_iff.1 k1
  obtain ⟨P2, R, rfl, p2, k1⟩ := List.map_eq_cons_iff.1 k1
  obtain ⟨P3, R, rfl, p3, k1⟩ := List.map_eq_cons_iff.1 k1
  obtain ⟨P4, R, rfl, p4, k1⟩ := List.map_eq_cons_iff.1 k1
  obtain ⟨P5, R, rfl, p5, k1⟩ := List.map_eq_cons_iff.1 k1
  obtain ⟨P6, R, rfl, p6, k1⟩ := List.map_eq_cons_iff.1 k1
  obtain ⟨P7, R, rfl, p7, k1⟩ := List.map_eq_cons_iff.1 k1
  obtain rfl := List.map_eq_nil_iff.1 k1
  rw [hR] at k2 hW hflat
  obtain rfl : P7 = C := by simpa using congrArg List.getLast? hW
  simp only [List.map_cons, List.map_nil, List.cons.injEq, and_true] at k2
  obtain ⟨v0, v1, v2, v3, v4, v5, v6, v7⟩ := k2
  obtain ⟨r1, r2, r3⟩ := ray_comp
  have unit : ∀ v : Vec3 ℝ, v.x * v.x + v.y * v.y + v.z * v.z = 1 → Vec3.norm v = 1 := by
    intro v hv
    rw [Vec3.norm, Real.sqrt_eq_one]
    simpa [Vec3.normSq, Vec3.dot] using hv
  have key := C96_inside_partial (ccw := true) (sg := 1) (M := 24) h (by norm_num) (p0 := (10, 0)) (p1 := (10, 3))
    (r1 := [(4, 3), (4, 8), (0, 8), (0, 0)]) rfl (r2 := [(10, 0), (10, 3), (4, 3), (4, 8)]) (q := (0, 8)) (l := (0, 0)) rfl rfl
    (by norm_num [area2, ellRoom, cycSum, pathSum, cross2]) (by norm_num [turn, cross2]) (by norm_num [turn, cross2]) hsep
    ⟨6, 10, 11887 / 1000⟩ ?_ ?_ ?_ ?_ (by rw [e1]; norm_num) (by rw [e1]; norm_num)
  · obtain ⟨r, hr1, hr2⟩ := key
    refine ⟨S, h, ?_⟩
    rw [hr1, hr2.2 ?_]
    rw [e1, epl]
    norm_num [winding, cycEdges, crossing, Vec3.dot, Vec3.cross, level]
  · rw [epl]
    rintro ⟨f, hf, t, h0, h1, ht⟩
    simp [cycEdges, level] at hf
    rcases hf with rfl | rfl | rfl | rfl | rfl | rfl <;> have hx' := congrArg Vec3.x ht <;>
      have hy' := congrArg Vec3.y ht <;> simp at hx' hy'
  · intro P hP p hp
    rw [hR] at hP
    simp only [List.mem_cons, List.not_mem_nil, or_false] at hP
    rcases hP with rfl | rfl | rfl | rfl | rfl | rfl | rfl | rfl
    all_goals
      simp only [p0, p1, p2, p3, p4, p5, p6, p7, side, List.mem_cons, List.not_mem_nil, or_false] at hp
      rcases hp with rfl | rfl | rfl | rfl | rfl | rfl <;> exact norm_le (by norm_num) (by norm_num [level])
  · intro P hP
    have hfl := hflat P (hR ▸ hP)
    rw [hR] at hP
    simp only [List.mem_cons, List.not_mem_nil, or_false] at hP
    rcases hP with rfl | rfl | rfl | rfl | rfl | rfl | rfl | rfl
    · refine wall_misses (k := 9) hfl p0 v0 (unit _ (by norm_num)) (by norm_num) (by ext <;> norm_num [level]) (by norm_num)
        ?_ (fun j hj e => ?_)
      · norm_num [Vec3.dot, GEOM_ATOL]
        exact le_trans (by norm_num) (le_trans r1 (le_abs_self _))
      · norm_num [Vec3.dot, level] at e
        linarith
    · refine wall_misses (k := 18) hfl p1 v1 (unit _ (by norm_num)) (by norm_num) (by ext <;> norm_num [level]) (by norm_num)
        ?_ (fun j hj e => ?_)
      · norm_num [Vec3.dot, GEOM_ATOL]
        exact le_trans (by norm_num) (le_trans r2 (le_abs_self _))
      · norm_num [Vec3.dot, level] at e
        linarith
    · refine wall_misses (k := 15) hfl p2 v2 (unit _ (by norm_num)) (by norm_num) (by ext <;> norm_num [level]) (by norm_num)
        ?_ (fun j hj e => ?_)
      · norm_num [Vec3.dot, GEOM_ATOL]
        exact le_trans (by norm_num) (le_trans r1 (le_abs_self _))
      · norm_num [Vec3.dot, level] at e
        linarith
    · refine wall_misses (k := 12) hfl p3 v3 (unit _ (by norm_num)) (by norm_num) (by ext <;> norm_num [level]) (by norm_num)
        ?_ (fun j hj e => ?_)
      · norm_num [Vec3.dot, GEOM_ATOL]
        exact le_trans (by norm_num) (le_trans r2 (le_abs_self _))
      · norm_num [Vec3.dot, level] at e
        linarith
    · refine wall_misses (k := 24) hfl p4 v4 (unit _ (by norm_num)) (by norm_num) (by ext <;> norm_num [level]) (by norm_num)
        ?_ (fun j hj e => ?_)
      · norm_num [Vec3.dot, GEOM_ATOL]
        exact le_trans (by norm_num) (le_trans r1 (le_abs_self _))
      · norm_num [Vec3.dot, level] at e
        linarith
    · refine wall_misses (k := 30) hfl p5 v5 (unit _ (by norm_num)) (by norm_num) (by ext <;> norm_num [level]) (by norm_num)
        ?_ (fun j hj e => ?_)
      · norm_num [Vec3.dot, GEOM_ATOL]
        exact le_trans (by norm_num) (le_trans r2 (le_abs_self _))
      · norm_num [Vec3.dot, level] at e
        linarith
    · refine ⟨⟨⟨0, _, _, _, by rw [p6]; rfl, by rw [p6]; rfl, by rw [p6]; rfl, ?_⟩, 0, _, _, _, by rw [p6]; rfl, by rw [p6]; rfl,
        by rw [p6]; rfl, ?_, ?_, ?_⟩, ⟨0, 0, -1⟩, ⟨0, 0, -1⟩, -9, ⟨?_, v6, ?_, unit _ (by norm_num), level 9 (15, 5), level 9 (5, 5),
        level 9 (5, 13), by rw [p6]; rfl,
        by rw [p6]; rfl, by rw [p6]; rfl, ?_⟩, ?_, .inr ?_⟩
      · exact lt_of_lt_of_le (by norm_num : (1 : ℝ) / 10 ^ 8 < 1) (le_norm (by norm_num [level]))
      · exact le_trans (by norm_num : (1 : ℝ) / 10 ^ 11 ≤ 1) (le_norm (by norm_num [level]))
      · exact le_trans (by norm_num : (1 : ℝ) / 10 ^ 11 ≤ 1) (le_norm (by norm_num [level]))
      · norm_num [level, Vec3.dot, Vec3.normSq]
      · obtain ⟨pts, vn, v', hn', -, -⟩ := hfl
        exact ⟨pts, vn, hn'⟩
      · intro p hp
        rw [p6] at hp
        simp only [List.mem_cons, List.not_mem_nil, or_false] at hp
        rcases hp with rfl | rfl | rfl | rfl | rfl | rfl <;> simp [level, Vec3.dot]
      · have e : Vec3.cross (level 9 (5, 5) - level 9 (15, 5)) (level 9 (5, 13) - level 9 (15, 5)) =
            (80 : ℝ) • (⟨0, 0, -1⟩ : Vec3 ℝ) := by
          ext <;> norm_num [level]
        rw [e, Vec3.norm_smul, unit ⟨0, 0, -1⟩ (by norm_num)]
        norm_num
      · norm_num [Vec3.dot, GEOM_ATOL]
        exact le_trans (by norm_num) (le_trans r3 (le_abs_self _))
      · intro s hs hd
        obtain ⟨j, hj, e⟩ := ray_param (x := ⟨6, 10, 11887 / 1000⟩) hs
        rw [e] at hd
        norm_num [Vec3.dot] at hd
        linarith
    · refine ⟨⟨⟨0, _, _, _, by rw [p7]; rfl, by rw [p7]; rfl, by rw [p7]; rfl, ?_⟩, 0, _, _, _, by rw [p7]; rfl, by rw [p7]; rfl,
        by rw [p7]; rfl, ?_, ?_, ?_⟩, ⟨0, 0, 1⟩, ⟨0, 0, 1⟩, 12, ⟨?_, v7, ?_, unit _ (by norm_num), level 12 (5, 5), level 12 (15, 5),
        level 12 (15, 8), by rw [p7]; rfl,
        by rw [p7]; rfl, by rw [p7]; rfl, ?_⟩, ?_, .inl ?_⟩
      · exact lt_of_lt_of_le (by norm_num : (1 : ℝ) / 10 ^ 8 < 1) (le_norm (by norm_num [level]))
      · exact le_trans (by norm_num : (1 : ℝ) / 10 ^ 11 ≤ 1) (le_norm (by norm_num [level]))
      · exact le_trans (by norm_num : (1 : ℝ) / 10 ^ 11 ≤ 1) (le_norm (by norm_num [level]))
      · norm_num [level, Vec3.dot, Vec3.normSq]
      · obtain ⟨pts, vn, v', hn', -, -⟩ := hfl
        exact ⟨pts, vn, hn'⟩
      · intro p hp
        rw [p7] at hp
        simp only [List.mem_cons, List.not_mem_nil, or_false] at hp
        rcases hp with rfl | rfl | rfl | rfl | rfl | rfl <;> simp [level, Vec3.dot]
      · have e : Vec3.cross (level 12 (15, 5) - level 12 (5, 5)) (level 12 (15, 8) - level 12 (5, 5)) =
            (30 : ℝ) • (⟨0, 0, 1⟩ : Vec3 ℝ) := by
          ext <;> norm_num [level]
        rw [e, Vec3.norm_smul, unit ⟨0, 0, 1⟩ (by norm_num)]
        norm_num
      · norm_num [Vec3.dot, GEOM_ATOL]
        exact le_trans (by norm_num) (le_trans r3 (le_abs_self _))
      · obtain ⟨s, hs, e⟩ := ray_at (x := ⟨6, 10, 11887 / 1000⟩) (k := 1) zero_le_one
        refine ⟨s, hs, [(5, 0, 1), (5, 1, 2), (5, 2, 3)], (5, 3, 4), [], by rw [hCt]; rfl, ?_, ?_⟩
        · rw [p7, e]
          refine ⟨_, _, _, rfl, rfl, rfl, ⟨2761 / 8000, 1739 / 4000, 1761 / 8000, ?_⟩, 9, ?_⟩
          · norm_num [level, Vec3.ext_iff]
          · have m : max ((1 : ℝ) / 10 ^ 6) (1 / 10 ^ 4 * 9) ≤ 1 / 10 := by norm_num
            refine ⟨norm_le (by norm_num) (by norm_num [level]), norm_le (by norm_num) (by norm_num [level]),
              norm_le (by norm_num) (by norm_num [level]), fun t => m.trans (le_norm ?_), fun t => m.trans (le_norm ?_),
              fun t => m.trans (le_norm ?_)⟩
            · simp [level]
              nlinarith
            · simp [level]
              nlinarith
            · simp [level]
              nlinarith
        · rintro t ht ⟨a, b, c, ha, hb, hc', r, s', q, h1, h2, h3, h4, h5⟩
          rw [e] at h5
          have hx := congrArg Vec3.x h5
          have hy := congrArg Vec3.y h5
          rw [p7] at ha hb hc'
          simp only [List.append_nil, List.mem_cons, List.not_mem_nil, or_false] at ht
          rcases ht with rfl | rfl | rfl <;> simp [level] at ha hb hc' <;> subst ha hb hc' <;> simp at hx hy <;> linarith
  · intro P hP
    rintro ⟨y, hy, hn⟩
    have hw := hS.where hP hy
    rw [e1, epl, hz12] at hw
    have hn' : Vec3.norm ((⟨6, 10, 11887 / 1000⟩ : Vec3 ℝ) - y) < 1 / 10 := lt_of_le_of_lt hn (by norm_num)
    refine absurd hn' (not_lt.2 (le_norm ?_))
    rcases hw.2.2 with hz | hz | hz
    · rw [Vec3.sub_z, hz]
      nlinarith [mul_self_nonneg ((⟨6, 10, 11887 / 1000⟩ : Vec3 ℝ) - y).x, mul_self_nonneg ((⟨6, 10, 11887 / 1000⟩ : Vec3 ℝ) - y).y]
    · rw [Vec3.sub_z, hz]
      nlinarith [mul_self_nonneg ((⟨6, 10, 11887 / 1000⟩ : Vec3 ℝ) - y).x, mul_self_nonneg ((⟨6, 10, 11887 / 1000⟩ : Vec3 ℝ) - y).y]
    · obtain ⟨f, hf, t, h0, h1, ht⟩ := hz 0
      have hx := congrArg Vec3.x ht
      have hy := congrArg Vec3.y ht
      have hzz := mul_self_nonneg ((⟨6, 10, 11887 / 1000⟩ : Vec3 ℝ) - y).z
      simp only [Vec3.sub_x, Vec3.sub_y]
      simp [cycEdges, level] at hf
      rcases hf with rfl | rfl | rfl | rfl | rfl | rfl <;> simp at hx hy <;> nlinarith [sq_nonneg (6 - y.x), sq_nonneg (10 - y.y)]

end B3d.Solids
