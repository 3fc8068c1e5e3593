import Verif.Props.Reload
import Verif.Props.PlanConvex

/-! # C103: solids that are saved and read again -/

namespace B3d.Solids

open Spec Triangles Polygon Points

/-! ### Reading all faces -/

theorem mapExcept_same {α : Type} {f : α → Except PyErr α} : ∀ {l : List α}, (∀ a ∈ l, f a = .ok a) → mapExcept f l = .ok l
  | [], _ => rfl
  | a :: l, h => by
    rw [mapExcept, h a List.mem_cons_self]
    simp only [mapExcept_same fun b hb => h b (List.mem_cons_of_mem _ hb)]

/-- If every face comes back as it was, so does the solid. -/
theorem reread_same {S : SolidG} (hn : (S.map WallG.name).Nodup)
    (h : ∀ P ∈ facesOf S, readPolygon P.pts P.tri = .ok P) : rereadSolid S = .ok S := by
  have hw : ∀ w ∈ S, rereadWall w = .ok w := by
    intro w hw
    have hp : ∀ p ∈ w.polys, rereadPoly p = .ok p := by
      intro p hp
      rw [rereadPoly, h p.2 (List.mem_flatMap.2 ⟨w, hw, List.mem_map.2 ⟨p, hp, rfl⟩⟩)]
    rw [rereadWall, mapExcept_same hp]
  rw [rereadSolid, mapExcept_same hw]
  simp only [makeSolid, if_pos hn]

/-! ### Faces made without a normal -/

/-- If the last corner of the outline turns to the left around the normal, the constructor has kept the order of the points. -/
theorem kept_of_last {pts : List (Vec3 ℝ)} {P : Poly} {v A x y : Vec3 ℝ} {m : List (Vec3 ℝ)}
    (h : polygonNew pts none none = .ok P) (hv : P.vn = some v) (hA : P.pts.head? = some A) (hxy : P.pts = m ++ [x, y])
    (hpos : 0 < Vec3.dot (Vec3.cross (y - x) (A - x)) v) : P.pts = pts := by
  obtain ⟨hn, v', hv', hcv, -⟩ := polygonNew_ok h
  obtain rfl : v = v' := by rw [hv, Option.some.injEq] at hv'; exact hv'
  obtain ⟨-, -, -, hp, -⟩ := C70_orientation h
  rcases hp with e | e
  · exact e
  exfalso
  have hr : pts = P.pts.reverse := by rw [e, List.reverse_reverse]
  rw [chooseNormal_first hn, Except.ok.injEq] at hcv
  have hl : pts.getLast? = some A := by rw [hr, List.getLast?_reverse]; exact hA
  have h0 : pts[0]? = some y := by rw [hr, hxy]; simp
  have h1 : pts[1]? = some x := by rw [hr, hxy]; simp
  simp only [firstCornerNormal, hl, h0, h1, normal] at hcv
  split_ifs at hcv
  rw [Option.some.injEq] at hcv
  have hc : Vec3.cross (y - x) (A - x) = (-1 : ℝ) • Vec3.cross (y - A) (x - A) := by
    ext <;> simp [Vec3.cross] <;> ring
  rw [hc, ← hcv, Vec3.dot_smul_left, Vec3.dot_smul_right] at hpos
  have h2 : 0 ≤ Vec3.dot (Vec3.cross (y - A) (x - A)) (Vec3.cross (y - A) (x - A)) := Vec3.normSq_nonneg _
  have h3 : 0 ≤ 1 / Vec3.norm (Vec3.cross (y - A) (x - A)) := by
    have := Vec3.norm_nonneg (Vec3.cross (y - A) (x - A)); positivity
  have := mul_nonneg h3 h2
  linarith

theorem vn_ne_zero {pts : List (Vec3 ℝ)} {vn : Option (Vec3 ℝ)} {P : Poly} {v : Vec3 ℝ}
    (h : polygonNew pts none vn = .ok P) (hv : P.vn = some v) : v ≠ 0 := by
  obtain ⟨w, hw, -, -, -, -, ⟨a, -, h0, ha⟩, -⟩ := C70_orientation h
  rw [hv, Option.some.injEq] at hw
  rintro rfl
  rw [← hw] at ha
  simp at ha
  linarith

/-- The polygon was made from its points alone, without a normal. -/
def MadePlain (P : Poly) : Prop := ∃ pts, polygonNew pts none none = .ok P

theorem levelPolygon_made {pts : List (Vec3 ℝ)} {n r : Str} {w : Vec3 ℝ} {F : Str × Poly}
    (h : levelPolygon pts n r w = .ok F) : MadePlain F.2 := by
  unfold levelPolygon at h
  split at h
  · cases h
  rename_i nm P hP
  unfold namedPolygon at hP
  split at hP
  · cases hP
  split at hP
  · cases hP
  rename_i P' hP'
  cases hP
  split at h
  · split at h
    · cases h
    · rename_i Q hQ
      cases h
      exact ⟨_, hQ⟩
  · cases h
    exact ⟨_, hP'⟩

theorem walls_made {fpts : List (Vec3 ℝ)} {z0 : ℝ} : ∀ {l : List (List (Vec3 ℝ) × Str)} {walls walls' : List WallG},
    List.Forall₂ (fun a b => faceWall (a.2, a.2, a.1) = .ok b) l walls →
    List.Forall₂ (fun a b => fixWall fpts z0 a = .ok b) walls walls' → ∀ P ∈ facesOf walls', MadePlain P
  | [], _, _, .nil, .nil => by simp [facesOf]
  | a :: l, _, _, .cons h1 t1, .cons h2 t2 => by
    have ih := walls_made t1 t2
    obtain ⟨P, rfl, hP⟩ := faceWall_ok h1
    intro R hR
    simp only [facesOf, List.flatMap_cons, List.mem_append] at hR
    rcases hR with hR | hR
    · simp only [fixWall] at h2
      split at h2
      · cases h2
      · cases h2
        simp at hR
        subst hR
        exact ⟨_, hP⟩
      · split at h2
        · cases h2
        · rename_i Q hQ
          cases h2
          simp at hR
          subst hR
          exact ⟨_, hQ⟩
    · exact ih R hR

theorem floorPlan_made {plan : List (ℝ × ℝ)} {height phi : ℝ} {t : Vec3 ℝ} {wallNames : Option (List Str)}
    {fn cn r1 r2 : Str} {S : SolidG} (h : floorPlan plan height t phi wallNames fn cn r1 r2 = .ok S) :
    (S.map WallG.name).Nodup ∧ ∀ P ∈ facesOf S, MadePlain P := by
  have hp : plan ≠ [] := by
    rintro rfl
    simp only [floorPlan] at h
    split at h
    · cases h
    · simp at h
  cases hnm : planNames plan.length wallNames with
  | error e =>
    unfold floorPlan at h
    rw [hnm] at h
    cases h
  | ok names =>
    rw [floorPlan_eq hp hnm] at h
    obtain ⟨F, C, walls, walls', hF, hC, hw, hw', rfl, hnd⟩ := planSolid_parts h
    refine ⟨hnd, ?_⟩
    intro P hP
    simp only [facesOf, List.flatMap_append, List.mem_append] at hP
    rcases hP with hP | hP
    · exact walls_made hw hw' P hP
    · simp at hP
      rcases hP with rfl | rfl
      · exact levelPolygon_made hF
      · exact levelPolygon_made hC

/-- What is needed of a face: made from points alone, with a last corner that turns to the left. -/
def GoodFace (P : Poly) : Prop := MadePlain P ∧ ∃ v A x y m, P.vn = some v ∧ P.pts.head? = some A ∧ P.pts = m ++ [x, y] ∧
  0 < Vec3.dot (Vec3.cross (y - x) (A - x)) v

theorem GoodFace.same {P : Poly} (h : GoodFace P) : readPolygon P.pts P.tri = .ok P := by
  obtain ⟨⟨pts, h⟩, v, A, x, y, m, hv, hA, hxy, hpos⟩ := h
  exact C100_same h (kept_of_last h hv hA hxy hpos)

/-- The wall over an edge, in either direction. -/
theorem side_good {P : Poly} {z0 z1 : ℝ} {e : (ℝ × ℝ) × (ℝ × ℝ)} {ccw : Bool} {sg : ℝ} (hz : z0 < z1)
    (hsg : sg = if ccw then 1 else -1) (hm : MadePlain P) (hp : P.pts = orient ccw (side z0 z1 e))
    (hv : P.vn = some (sg • rightNormal e)) : GoodFace P := by
  have hne : sg • rightNormal e ≠ 0 := by
    obtain ⟨pts, h⟩ := hm
    exact vn_ne_zero h hv
  obtain ⟨⟨x1, y1⟩, ⟨x2, y2⟩⟩ := e
  have hn : 0 < Vec3.norm (⟨y2 - y1, -(x2 - x1), 0⟩ : Vec3 ℝ) := by
    rcases (Vec3.norm_nonneg (⟨y2 - y1, -(x2 - x1), 0⟩ : Vec3 ℝ)).lt_or_eq with h | h
    · exact h
    · exact absurd (by simp only [rightNormal]; rw [← h]; ext <;> simp) hne
  have hd : 0 < (y2 - y1) ^ 2 + (x2 - x1) ^ 2 := by
    rcases (add_nonneg (sq_nonneg (y2 - y1)) (sq_nonneg (x2 - x1))).lt_or_eq with h | h
    · exact h
    · exfalso
      have e1 : y2 - y1 = 0 := by nlinarith [sq_nonneg (y2 - y1), sq_nonneg (x2 - x1)]
      have e2 : x2 - x1 = 0 := by nlinarith [sq_nonneg (y2 - y1), sq_nonneg (x2 - x1)]
      rw [e1, e2, Vec3.norm_eq_zero.2 (by ext <;> simp)] at hn
      exact lt_irrefl _ hn
  have hk : 0 < (z1 - z0) * (1 / Vec3.norm (⟨y2 - y1, -(x2 - x1), 0⟩ : Vec3 ℝ)) * ((y2 - y1) ^ 2 + (x2 - x1) ^ 2) := by
    have : 0 < z1 - z0 := by linarith
    positivity
  refine ⟨hm, sg • rightNormal ((x1, y1), (x2, y2)), ?_⟩
  cases ccw with
  | true =>
    simp only [orient, if_true, side] at hp hsg
    subst hsg
    refine ⟨_, _, _, [level z0 (x1, y1), level z0 (x2, y2)], hv, by rw [hp]; rfl, hp, ?_⟩
    simp only [rightNormal]
    generalize 1 / Vec3.norm (⟨y2 - y1, -(x2 - x1), 0⟩ : Vec3 ℝ) = k at hk
    simp [level, Vec3.cross, Vec3.dot]
    linarith
  | false =>
    simp only [orient, Bool.false_eq_true, if_false, side, List.reverse_cons, List.reverse_nil, List.nil_append,
      List.cons_append] at hp hsg
    subst hsg
    refine ⟨_, _, _, [level z1 (x1, y1), level z1 (x2, y2)], hv, by rw [hp]; rfl, hp, ?_⟩
    simp only [rightNormal]
    generalize 1 / Vec3.norm (⟨y2 - y1, -(x2 - x1), 0⟩ : Vec3 ℝ) = k at hk
    simp [level, Vec3.cross, Vec3.dot]
    linarith

/-- Floor and ceiling: the outline in the direction which is counter-clockwise around the normal. -/
theorem level_good {P : Poly} {z s : ℝ} {g : List (ℝ × ℝ)} {p0 q l : ℝ × ℝ} {m r : List (ℝ × ℝ)} (hm : MadePlain P)
    (h1 : g = p0 :: r) (h2 : g = m ++ [q, l]) (hp : P.pts = g.map (level z)) (hv : P.vn = some ⟨0, 0, s⟩)
    (hs : 0 < s * turn q l p0) : GoodFace P := by
  refine ⟨hm, _, level z p0, level z q, level z l, m.map (level z), hv, by rw [hp, h1]; rfl, by rw [hp, h2]; simp, ?_⟩
  unfold turn cross2 at hs
  simp only [Prod.fst_sub, Prod.snd_sub] at hs
  simp [level, Vec3.cross, Vec3.dot]
  linarith

/-- **C103, floor plans.**  A solid made by `floor_plan` from a plan whose first and last corners are convex, whose corners are
apart, with a positive height, is saved and read: it comes back exactly as it was, in every attribute of every polygon. -/
theorem C103_floor_plan_partial {plan : List (ℝ × ℝ)} {height phi : ℝ} {t : Vec3 ℝ} {wallNames : Option (List Str)}
    {fn cn rnd1 rnd2 : Str} {S : SolidG} {p0 p1 q l : ℝ × ℝ} {r1 r2 : List (ℝ × ℝ)} {ccw : Bool} {sg : ℝ}
    (h : floorPlan plan height t phi wallNames fn cn rnd1 rnd2 = .ok S)
    (hh : 0 < height) (h1 : plan = p0 :: p1 :: r1) (h2 : plan = r2 ++ [q, l])
    (hsg : sg = if ccw then 1 else -1)
    (hA : 0 < sg * area2 plan) (hf : 0 < sg * turn l p0 p1) (hl : 0 < sg * turn q l p0)
    (hs : Separated ((placed plan t phi).map (level (planShift t).z))) : rereadSolid S = .ok S := by
  obtain ⟨hnd, hm⟩ := floorPlan_made h
  obtain ⟨hp, hv, -⟩ := C32_prism_partial h hh h1 h2 hsg hA hf hl hs
  apply reread_same hnd
  intro P hP
  apply GoodFace.same
  have hmP := hm P hP
  have hz : (planShift t).z < (planShift t).z + height := by linarith
  have hg1 : placed plan t phi = place (planAngle phi) (planShift t) p0 :: place (planAngle phi) (planShift t) p1 ::
      r1.map (place (planAngle phi) (planShift t)) := by simp [placed, h1]
  have hg2 : placed plan t phi = r2.map (place (planAngle phi) (planShift t)) ++
      [place (planAngle phi) (planShift t) q, place (planAngle phi) (planShift t) l] := by simp [placed, h2]
  rw [← turn_place (planAngle phi) (planShift t)] at hf hl
  generalize placed plan t phi = g at *
  generalize place (planAngle phi) (planShift t) p0 = P0 at *
  generalize place (planAngle phi) (planShift t) p1 = P1 at *
  generalize place (planAngle phi) (planShift t) q = Q at *
  generalize place (planAngle phi) (planShift t) l = L at *
  generalize r1.map (place (planAngle phi) (planShift t)) = R1 at *
  generalize r2.map (place (planAngle phi) (planShift t)) = R2 at *
  rw [← allPolys_eq] at hP
  obtain ⟨i, hi⟩ := List.getElem?_of_mem hP
  have hp' := congrArg (·[i]?) hp
  have hv' := congrArg (·[i]?) hv
  simp only [List.getElem?_map, hi, Option.map_some, prism] at hp' hv'
  rcases lt_or_ge i (cycEdges g).length with hlt | hge
  · rw [List.getElem?_append_left (by simpa using hlt), List.getElem?_map, List.getElem?_eq_getElem hlt] at hp' hv'
    simp only [Option.map_some, Option.some.injEq] at hp' hv'
    exact side_good hz hsg hmP hp' hv'
  · rw [List.getElem?_append_right (by simpa using hge)] at hp' hv'
    simp only [List.length_map] at hp' hv'
    have hrev1 : g.reverse = L :: Q :: R2.reverse := by rw [hg2]; simp
    have hrev2 : g.reverse = R1.reverse ++ [P1, P0] := by rw [hg1]; simp
    have hlr : turn P1 P0 L = -turn L P0 P1 := turn_reverse _ _ _
    match hk : i - (cycEdges g).length with
    | 0 =>
      rw [hk] at hp' hv'
      simp only [List.getElem?_cons_zero, Option.map_some, Option.some.injEq] at hp' hv'
      cases ccw with
      | true =>
        simp only [if_true, orient, ← List.map_reverse] at hsg hp'
        exact level_good hmP hrev1 hrev2 hp' hv' (by rw [hlr]; rw [hsg] at hf; linarith)
      | false =>
        simp only [Bool.false_eq_true, if_false, orient, List.reverse_reverse] at hsg hp'
        exact level_good hmP hg1 hg2 hp' hv' (by rw [hsg] at hl; exact hl)
    | 1 =>
      rw [hk] at hp' hv'
      simp only [List.getElem?_cons_zero, List.getElem?_cons_succ, Option.map_some, Option.some.injEq] at hp' hv'
      cases ccw with
      | true =>
        simp only [if_true, orient] at hsg hp'
        exact level_good hmP hg1 hg2 hp' hv' (by rw [hsg] at hl; exact hl)
      | false =>
        simp only [Bool.false_eq_true, if_false, orient, ← List.map_reverse] at hsg hp'
        exact level_good hmP hrev1 hrev2 hp' hv' (by rw [hlr]; rw [hsg] at hf; linarith)
    | n + 2 =>
      rw [hk] at hp'
      simp at hp'

/-- **C103, convex plans.**  Every convex plan with walls that are not too narrow gives a solid that comes back as it was. -/
theorem C103_convex {plan : List (ℝ × ℝ)} {height phi : ℝ} {t : Vec3 ℝ} {wallNames : Option (List Str)}
    {fn cn rnd1 rnd2 : Str} {names : List Str} {sg : ℝ} (hsg : sg = 1 ∨ sg = -1)
    (hnames : planNames plan.length wallNames = .ok names)
    (hnv : ∀ n ∈ names ++ [fn, cn], validateName n = .ok n) (hnd : (names ++ [fn, cn]).Nodup)
    (hc : ConvexOutline ⟨0, 0, sg⟩ ((placed plan t phi).map (level (planShift t).z)))
    (hz : 1 / 10 ^ 10 + 1 / 10 ^ 5 * |(planShift t).z| < height ∧
      1 / 10 ^ 10 + 1 / 10 ^ 5 * |(planShift t).z + height| < height)
    (hw : ∀ e ∈ cycEdges (placed plan t phi), WallFits height ((e.2.1 - e.1.1) ^ 2 + (e.2.2 - e.1.2) ^ 2)) :
    ∃ S, floorPlan plan height t phi wallNames fn cn rnd1 rnd2 = .ok S ∧ rereadSolid S = .ok S := by
  obtain ⟨S, hS, -⟩ := C32_convex (rnd1 := rnd1) (rnd2 := rnd2) hsg hnames hnv hnd hc hz hw
  refine ⟨S, hS, ?_⟩
  have hss : sg * sg = 1 := by rcases hsg with rfl | rfl <;> norm_num
  have hlen : (placed plan t phi).length = plan.length := by simp [placed]
  have h3 : 3 ≤ plan.length := by
    have := hc.corners
    rwa [List.length_map, hlen] at this
  have hA : 0 < sg * area2 plan := by
    have := convex_area hss hc
    rwa [show area2 (placed plan t phi) = area2 plan from area2_place _ _ _] at this
  obtain ⟨p0, p1, r1, h1⟩ : ∃ p0 p1 r1, plan = p0 :: p1 :: r1 := by
    match plan, h3 with
    | a :: b :: r, _ => exact ⟨a, b, r, rfl⟩
  obtain ⟨r2, q, l, h2⟩ : ∃ r2 q l, plan = r2 ++ [q, l] := by
    have h3' : 3 ≤ plan.reverse.length := by rwa [List.length_reverse]
    obtain ⟨a, b, r, e⟩ : ∃ a b r, plan.reverse = a :: b :: r := by
      match plan.reverse, h3' with
      | a :: b :: r, _ => exact ⟨a, b, r, rfl⟩
    exact ⟨r.reverse, b, a, by rw [← List.reverse_reverse plan, e]; simp⟩
  obtain ⟨f1, f2⟩ := convex_first_last hss hc
      (show placed plan t phi = place (planAngle phi) (planShift t) p0 :: place (planAngle phi) (planShift t) p1 ::
        r1.map (place (planAngle phi) (planShift t)) by simp [placed, h1])
      (show placed plan t phi = r2.map (place (planAngle phi) (planShift t)) ++
        [place (planAngle phi) (planShift t) q, place (planAngle phi) (planShift t) l] by simp [placed, h2])
  rw [turn_place] at f1 f2
  have hh : 0 < height := by
    have := abs_nonneg (planShift t).z
    linarith [hz.1]
  have hccw : sg = if decide (sg = 1) then 1 else -1 := by
    rcases hsg with rfl | rfl <;> norm_num
  exact C103_floor_plan_partial hS hh h1 h2 hccw hA f1 f2 (convex_separated hc)

theorem box_made {x y z : ℝ} {mv : Vec3 ℝ} {S : SolidG} (h : box x y z mv = .ok S) :
    (S.map WallG.name).Nodup ∧ ∀ P ∈ facesOf S, MadePlain P := by
  unfold box at h
  split at h
  · cases h
  rename_i walls hw
  unfold makeSolid at h
  split at h
  · rename_i hnd
    cases h
    refine ⟨hnd, ?_⟩
    have hf := mapExcept_forall hw
    clear hw hnd
    generalize boxFaces x y z mv = fs at hf
    induction hf with
    | nil => simp [facesOf]
    | cons h1 _ ih =>
      obtain ⟨P, rfl, hP⟩ := faceWall_ok h1
      intro R hR
      simp only [facesOf, List.flatMap_cons, List.mem_append] at hR
      rcases hR with hR | hR
      · simp at hR
        subst hR
        exact ⟨_, hP⟩
      · exact ih R hR
  · cases h

/-- **C103, boxes.**  Every box of ordinary size comes back as it was. -/
theorem C103_box {x y z : ℝ} {mv : Vec3 ℝ} (hb : BoxSize x y z mv) :
    ∃ S, box x y z mv = .ok S ∧ rereadSolid S = .ok S := by
  obtain ⟨S, hS, -, -, hp, hv, -⟩ := C31_box_partial hb
  refine ⟨S, hS, ?_⟩
  obtain ⟨hnd, hm⟩ := box_made hS
  have hx : 0 < x := by linarith [hb.1]
  have hy : 0 < y := by linarith [hb.2.1]
  have hz : 0 < z := by linarith [hb.2.2.1]
  have hxy := mul_pos hx hy
  have hyz := mul_pos hy hz
  have hzx := mul_pos hz hx
  apply reread_same hnd
  rw [← allPolys_eq] at hm ⊢
  have hl : (allPolys S).length = 6 := by simpa using congrArg List.length hv
  match hA : allPolys S, hl with
  | [P0, P1, P2, P3, P4, P5], _ =>
    rw [hA] at hm hp hv
    simp only [List.map_cons, List.map_nil, List.cons.injEq, and_true] at hp hv
    obtain ⟨p0, p1, p2, p3, p4, p5⟩ := hp
    obtain ⟨v0, v1, v2, v3, v4, v5⟩ := hv
    have key : ∀ (P : Poly) (v a b c d : Vec3 ℝ), P ∈ [P0, P1, P2, P3, P4, P5] → P.pts = [a, b, c, d] → P.vn = some v →
        0 < Vec3.dot (Vec3.cross (d - c) (a - c)) v → readPolygon P.pts P.tri = .ok P := by
      intro P v a b c d hP e1 e2 e3
      exact GoodFace.same ⟨hm P hP, v, a, c, d, [a, b], e2, by rw [e1]; rfl, e1, e3⟩
    intro P hP
    simp only [List.mem_cons, List.not_mem_nil, or_false] at hP
    rcases hP with rfl | rfl | rfl | rfl | rfl | rfl
    · refine key _ _ _ _ _ _ (by simp) p0 v0 ?_
      simp [corner, Vec3.dot, Vec3.cross]; nlinarith
    · refine key _ _ _ _ _ _ (by simp) p1 v1 ?_
      simp [corner, Vec3.dot, Vec3.cross]; nlinarith
    · refine key _ _ _ _ _ _ (by simp) p2 v2 ?_
      simp [corner, Vec3.dot, Vec3.cross]; nlinarith
    · refine key _ _ _ _ _ _ (by simp) p3 v3 ?_
      simp [corner, Vec3.dot, Vec3.cross]; nlinarith
    · refine key _ _ _ _ _ _ (by simp) p4 v4 ?_
      simp [corner, Vec3.dot, Vec3.cross]; nlinarith
    · refine key _ _ _ _ _ _ (by simp) p5 v5 ?_
      simp [corner, Vec3.dot, Vec3.cross]; nlinarith

/-! ### A room whose volume changes -/

/-- Reversing the normal of a face reverses what it adds to the volume, if the face is not in a plane through the origin. -/
theorem addTriangles_turned {P : Poly} {v : Vec3 ℝ} (hv : P.vn = some v) (h0 : ∀ p ∈ P.pts, Vec3.dot v p ≠ 0) :
    ∀ (ts : List Tri) (a b r : ℝ), addTriangles P ts a = .ok r →
      addTriangles { P with vn := some (-v) } ts b = .ok (b - (r - a))
  | [], a, b, r, h => by
    simp only [addTriangles, Except.ok.injEq] at h ⊢
    rw [h]; ring
  | (i, j, k) :: ts, a, b, r, h => by
    rw [addTriangles] at h ⊢
    simp only
    cases h1 : P.pts[i]? with
    | none => simp [h1] at h
    | some p1 =>
      cases h2 : P.pts[j]? with
      | none => simp [h1, h2] at h
      | some p2 =>
        cases h3 : P.pts[k]? with
        | none => simp [h1, h2, h3] at h
        | some p3 =>
          simp only [h1, h2, h3] at h ⊢
          have := addTriangles_turned hv h0 ts _
            (b + tetraSign (some (-v)) p1 p2 * tetrahedronVolume 0 p1 p2 p3) r h
          rw [this, hv]
          have hs : tetraSign (some (-v)) p1 p2 = -tetraSign (some v) p1 p2 := by
            have hp := h0 p1 (List.mem_of_getElem? h1)
            simp only [tetraSign, sub_zero, Vec3.dot_neg_left, neg_eq_zero, if_neg hp]
            rcases lt_or_gt_of_ne hp with hlt | hgt
            · rw [if_pos (by linarith), if_neg (by linarith), neg_neg]
            · rw [if_neg (by linarith), if_pos hgt]
          rw [hs]
          congr 1
          ring

/-- In a plane through the origin the normal does not matter. -/
theorem addTriangles_flat {P : Poly} {v : Vec3 ℝ} (hv : P.vn = some v) (h0 : ∀ p ∈ P.pts, Vec3.dot v p = 0) :
    ∀ (ts : List Tri) (a : ℝ), addTriangles { P with vn := some (-v) } ts a = addTriangles P ts a
  | [], a => rfl
  | (i, j, k) :: ts, a => by
    rw [addTriangles, addTriangles]
    simp only
    cases h1 : P.pts[i]? with
    | none => rfl
    | some p1 =>
      cases h2 : P.pts[j]? with
      | none => rfl
      | some p2 =>
        cases h3 : P.pts[k]? with
        | none => rfl
        | some p3 =>
          simp only
          have hs : tetraSign (some (-v)) p1 p2 = tetraSign (some v) p1 p2 := by
            have e1 := h0 p1 (List.mem_of_getElem? h1)
            have e2 := h0 p2 (List.mem_of_getElem? h2)
            simp [tetraSign, Vec3.dot_neg_left, e1, e2]
          rw [addTriangles_flat hv h0 ts, hv, hs]

theorem addPolygons_append : ∀ (A B : List Poly) (t : ℝ), addPolygons (A ++ B) t =
    match addPolygons A t with
    | .error e => .error e
    | .ok r => addPolygons B r
  | [], B, t => rfl
  | P :: A, B, t => by
    rw [List.cons_append, addPolygons, addPolygons]
    cases addTriangles P P.tri t with
    | error e => rfl
    | ok r => exact addPolygons_append A B r

/-- A wall of the arrow-head room. -/
theorem arrow_side (e : (ℝ × ℝ) × (ℝ × ℝ)) (hx : |e.1.1| ≤ 4 ∧ |e.2.1| ≤ 4) (hy : |e.1.2| ≤ 4 ∧ |e.2.2| ≤ 4)
    (hd : 1 ≤ |e.2.1 - e.1.1| ∨ 1 ≤ |e.2.2 - e.1.2|) :
    ∃ P, polygonNew (side 0 3 e) none none = .ok P ∧ P.pts = side 0 3 e ∧ P.vn = some (rightNormal e) ∧ P.tri.length = 2 := by
  have hk : 1 ≤ (e.2.1 - e.1.1) ^ 2 + (e.2.2 - e.1.2) ^ 2 := by
    rcases hd with hd | hd
    · nlinarith [sq_abs (e.2.1 - e.1.1), sq_nonneg (e.2.2 - e.1.2)]
    · nlinarith [sq_abs (e.2.2 - e.1.2), sq_nonneg (e.2.1 - e.1.1)]
  have hk2 : (e.2.1 - e.1.1) ^ 2 + (e.2.2 - e.1.2) ^ 2 ≤ 128 := by
    have a1 := abs_le.1 hx.1
    have a2 := abs_le.1 hx.2
    have a3 := abs_le.1 hy.1
    have a4 := abs_le.1 hy.2
    nlinarith
  have hA : Apart (level 0 e.1) (level 0 e.2) ∧ Apart (level 0 e.2) (level 0 e.1) := by
    unfold Apart
    simp only [level]
    rcases hd with hd | hd
    · exact ⟨.inl (by rw [abs_sub_comm]; linarith [hx.2]), .inl (by linarith [hx.1])⟩
    · exact ⟨.inr (.inl (by rw [abs_sub_comm]; linarith [hy.2])), .inr (.inl (by linarith [hy.1]))⟩
  obtain ⟨P, h1, h2, h3, h4⟩ := C84_convex_partial (side_convex (z0 := 0) (z1 := 3) (e := e)
    (by unfold WallFits; refine ⟨?_, ?_, ?_, ?_⟩ <;> norm_num <;> linarith) hA (by norm_num))
  exact ⟨P, h1, h2, h3, by rw [h4]; simp [side]⟩

/-- A room over an arrow head, made of its six polygons; floor and ceiling are given with their normals, because their first corner
is reflex. -/
theorem arrow_room : ∃ W0 W1 W2 W3 F C : Poly,
    (∀ P ∈ [W0, W1, W2, W3], MadePlain P ∧ readPolygon P.pts P.tri = .ok P) ∧
    polygonNew [⟨1, 1, 0⟩, ⟨4, 1, 0⟩, ⟨0, 0, 0⟩, ⟨1, 4, 0⟩] none (some ⟨0, 0, -1⟩) = .ok F ∧
    polygonNew [⟨1, 1, 3⟩, ⟨1, 4, 3⟩, ⟨0, 0, 3⟩, ⟨4, 1, 3⟩] none (some ⟨0, 0, 1⟩) = .ok C ∧
    [W0, W1, W2, W3, F, C].map Poly.pts = [side 0 3 ((1, 1), (1, 4)), side 0 3 ((1, 4), (0, 0)), side 0 3 ((0, 0), (4, 1)),
      side 0 3 ((4, 1), (1, 1)), [⟨1, 1, 0⟩, ⟨4, 1, 0⟩, ⟨0, 0, 0⟩, ⟨1, 4, 0⟩],
      [⟨1, 1, 3⟩, ⟨1, 4, 3⟩, ⟨0, 0, 3⟩, ⟨4, 1, 3⟩]] ∧
    (∀ P ∈ [W0, W1, W2, W3, F, C], FromFlat P ∧ P.tri.length = 2) ∧ F.vn = some ⟨0, 0, -1⟩ ∧ C.vn = some ⟨0, 0, 1⟩ ∧
    readPolygon F.pts F.tri = .ok { F with vn := some ⟨0, 0, 1⟩ } ∧
    readPolygon C.pts C.tri = .ok { C with vn := some ⟨0, 0, -1⟩ } := by
  obtain ⟨C, hC, pC, vC, rC⟩ := C100_reflex_first_corner 3
  have hc := coplanar_z [(1, 1), (4, 1), (0, 0), (1, 4)] 0
  simp only [List.map_cons, List.map_nil] at hc
  obtain ⟨F, hF, pF, vF, -⟩ := polygonNew_intro (vn := some ⟨0, 0, -1⟩) hc (by simp) rfl
    (triangulate_reflex (v := ⟨0, 0, -1⟩) (unit_z (.inr rfl))
      (isCornerConvex_z (.inr rfl) (by norm_num)) (isCornerConvex_z (.inr rfl) (by norm_num))
      (isPointInside_far (m := 1) Vec3.y (.inr rfl) (.inr (by norm_num)))
      (isCornerConvex_z (.inr rfl) (by norm_num)))
  have hplF : ∀ p ∈ F.pts, Vec3.dot ⟨0, 0, -1⟩ p = 0 := by rw [pF]; simp [Vec3.dot]
  have eF : -(⟨0, 0, -1⟩ : Vec3 ℝ) = ⟨0, 0, 1⟩ := by ext <;> simp
  have hwF : CornerNormal F.pts (-⟨0, 0, -1⟩) := by
    rw [pF, eF]
    exact cornerNormal_z (x1 := 1) (y1 := 4) (x2 := 1) (y2 := 1) (x3 := 4) (y3 := 1) (z := 0) (.inl rfl) rfl rfl rfl
      (by norm_num)
  have rF := (C100_normal hF vF (by rw [norm_z]; simp) hplF).2.1 hwF
  rw [eF] at rF
  obtain ⟨W0, a1, a2, a3, a4⟩ := arrow_side ((1, 1), (1, 4)) (by norm_num) (by norm_num) (by norm_num)
  obtain ⟨W1, b1, b2, b3, b4⟩ := arrow_side ((1, 4), (0, 0)) (by norm_num) (by norm_num) (by norm_num)
  obtain ⟨W2, c1, c2, c3, c4⟩ := arrow_side ((0, 0), (4, 1)) (by norm_num) (by norm_num) (by norm_num)
  obtain ⟨W3, d1, d2, d3, d4⟩ := arrow_side ((4, 1), (1, 1)) (by norm_num) (by norm_num) (by norm_num)
  have flat : ∀ e : (ℝ × ℝ) × (ℝ × ℝ), ∀ P, polygonNew (side 0 3 e) none none = .ok P → P.vn = some (rightNormal e) →
      FromFlat P := by
    intro e P h1 h2
    refine ⟨_, _, _, h1, h2, ?_⟩
    obtain ⟨⟨x1, y1⟩, x2, y2⟩ := e
    intro p hp q hq
    simp only [side, level, List.mem_cons, List.not_mem_nil, or_false] at hp hq
    simp only [rightNormal]
    generalize 1 / Vec3.norm (⟨y2 - y1, -(x2 - x1), 0⟩ : Vec3 ℝ) = k
    rcases hp with rfl | rfl | rfl | rfl <;> rcases hq with rfl | rfl | rfl | rfl <;> simp [Vec3.dot] <;> ring
  refine ⟨W0, W1, W2, W3, F, C, ?_, hF, hC, by simp [a2, b2, c2, d2, pF, pC], ?_, vF, vC, rF, rC⟩
  · simp only [List.forall_mem_cons, List.not_mem_nil, false_implies, implies_true, and_true]
    exact ⟨⟨⟨_, a1⟩, C100_same a1 a2⟩, ⟨⟨_, b1⟩, C100_same b1 b2⟩, ⟨⟨_, c1⟩, C100_same c1 c2⟩, ⟨_, d1⟩, C100_same d1 d2⟩
  · simp only [List.forall_mem_cons, List.not_mem_nil, false_implies, implies_true, and_true]
    obtain ⟨_, -, -, -, lF, -⟩ := C70_orientation hF
    obtain ⟨_, -, -, -, lC, -⟩ := C70_orientation hC
    refine ⟨⟨flat _ _ a1 a3, a4⟩, ⟨flat _ _ b1 b3, b4⟩, ⟨flat _ _ c1 c3, c4⟩, ⟨flat _ _ d1 d3, d4⟩, ⟨⟨_, _, _, hF, vF, ?_⟩, by
      rw [lF]; rfl⟩, ⟨_, _, _, hC, vC, ?_⟩, by rw [lC]; rfl⟩
    · simp [Vec3.dot]
    · simp [Vec3.dot]

/-- **C103 fails.**  A room of height 3 over an arrow head with the area 3, made of flat polygons with normals pointing outward: its
volume is 9.  Saved and read again it has the same outlines, but the volume 3. -/
theorem C103_volume_changes : ∃ S S' : SolidG, makeSolid S = .ok S ∧ (∀ P ∈ facesOf S, FromFlat P) ∧
    Closed ((facesOf S).map Poly.pts) ∧ rereadSolid S = .ok S' ∧ (facesOf S').map Poly.pts = (facesOf S).map Poly.pts ∧
    ∃ V V', solidVolume S = .ok V ∧ |V - 9| ≤ 1 / 10 ^ 5 ∧ solidVolume S' = .ok V' ∧ |V' - 3| ≤ 1 / 10 ^ 5 := by
  obtain ⟨W0, W1, W2, W3, F, C, hW, hF, hC, hp, hff, vF, vC, rF, rC⟩ := arrow_room
  obtain ⟨S, hS⟩ : ∃ S : SolidG, S = [⟨['a'], [(['a'], W0)]⟩, ⟨['b'], [(['b'], W1)]⟩, ⟨['c'], [(['c'], W2)]⟩,
    ⟨['d'], [(['d'], W3)]⟩, ⟨['f'], [(['f'], F)]⟩, ⟨['g'], [(['g'], C)]⟩] := ⟨_, rfl⟩
  obtain ⟨S', hS'⟩ : ∃ S' : SolidG, S' = [⟨['a'], [(['a'], W0)]⟩, ⟨['b'], [(['b'], W1)]⟩, ⟨['c'], [(['c'], W2)]⟩,
    ⟨['d'], [(['d'], W3)]⟩, ⟨['f'], [(['f'], { F with vn := some ⟨0, 0, 1⟩ })]⟩,
    ⟨['g'], [(['g'], { C with vn := some ⟨0, 0, -1⟩ })]⟩] := ⟨_, rfl⟩
  have fS : facesOf S = [W0, W1, W2, W3, F] ++ [C] := by rw [hS]; rfl
  have fS' : facesOf S' = [W0, W1, W2, W3] ++ [{ F with vn := some ⟨0, 0, 1⟩ }] ++ [{ C with vn := some ⟨0, 0, -1⟩ }] := by
    rw [hS']; rfl
  have hpr : ∀ P ∈ [W0, W1, W2, W3, F, C], P.pts ≠ [] ∧ ∃ v, Proper P v := by
    intro P hP
    obtain ⟨_, _, v, h1, h2, h3⟩ := (hff P hP).1
    obtain ⟨i, j⟩ := proper_of_new h1 h2 h3
    exact ⟨i, v, j⟩
  refine ⟨S, S', by rw [hS, makeSolid, if_pos (by simp only [List.map_cons, List.map_nil]; decide +kernel)], by rw [fS]; exact fun P hP => (hff P hP).1, ?_, ?_, ?_, ?_⟩
  · rw [fS]
    change Closed ([W0, W1, W2, W3, F, C].map Poly.pts)
    rw [hp]
    have hn : Closed [[0, 1, 5, 4], [1, 2, 6, 5], [2, 3, 7, 6], [3, 0, 4, 7], [0, 3, 2, 1], [4, 5, 6, 7]] := by
      unfold Closed; decide +kernel
    have := Solids.Closed.map hn fun i : Nat => ([⟨1, 1, 0⟩, ⟨1, 4, 0⟩, ⟨0, 0, 0⟩, ⟨4, 1, 0⟩, ⟨1, 1, 3⟩, ⟨1, 4, 3⟩, ⟨0, 0, 3⟩,
      ⟨4, 1, 3⟩] : List (Vec3 ℝ)).getD i 0
    simpa [side, level] using this
  · simp only [List.forall_mem_cons, List.not_mem_nil, false_implies, implies_true, and_true] at hW
    obtain ⟨⟨-, w0⟩, ⟨-, w1⟩, ⟨-, w2⟩, -, w3⟩ := hW
    rw [hS, hS']
    simp only [rereadSolid, mapExcept, rereadWall, rereadPoly, w0, w1, w2, w3, rF, rC, makeSolid]
    rw [if_pos (by simp only [List.map_cons, List.map_nil]; decide +kernel)]
  · rw [fS, fS']; rfl
  · obtain ⟨T, hT, -⟩ := addPolygons_spec [W0, W1, W2, W3, F] (fun P hP => hpr P (by
      simp only [List.mem_cons, List.not_mem_nil, or_false] at hP ⊢; tauto)) 0
    obtain ⟨r, hr, hb⟩ := addPolygons_spec [W0, W1, W2, W3, F, C] hpr 0
    obtain ⟨r', hr', hb'⟩ := addPolygons_spec [C] (fun P hP => hpr P (by simp at hP; simp [hP])) T
    have er : r' = r := by
      have := addPolygons_append [W0, W1, W2, W3, F] [C] 0
      rw [hT] at this
      simp only [List.cons_append, List.nil_append] at this
      rw [hr, hr', Except.ok.injEq] at this
      exact this.symm
    subst er
    have pC : C.pts = [⟨1, 1, 3⟩, ⟨1, 4, 3⟩, ⟨0, 0, 3⟩, ⟨4, 1, 3⟩] := by
      simp only [List.map_cons, List.map_nil, List.cons.injEq] at hp; exact hp.2.2.2.2.2.1
    have pF : F.pts = [⟨1, 1, 0⟩, ⟨4, 1, 0⟩, ⟨0, 0, 0⟩, ⟨1, 4, 0⟩] := by
      simp only [List.map_cons, List.map_nil, List.cons.injEq] at hp; exact hp.2.2.2.2.1
    have s1 : signedVolume 0 ([W0, W1, W2, W3, F, C].map Poly.pts) = 9 := by
      rw [hp]
      simp only [signedVolume, List.map_cons, List.map_nil, List.sum_cons, List.sum_nil, coneVolume, areaVector2, cycSum,
        pathSum, List.cons_append, List.nil_append, side, level, Vec3.dot, Vec3.cross, List.headD_cons, Vec3.add_x,
        Vec3.add_y, Vec3.add_z, Vec3.sub_x, Vec3.sub_y, Vec3.sub_z, Vec3.zero_x, Vec3.zero_y, Vec3.zero_z]
      norm_num
    have s2 : signedVolume 0 ([C].map Poly.pts) = 3 := by
      rw [List.map_cons, List.map_nil, pC]
      simp only [signedVolume, List.map_cons, List.map_nil, List.sum_cons, List.sum_nil, coneVolume, areaVector2, cycSum,
        pathSum, List.cons_append, List.nil_append, Vec3.dot, Vec3.cross, List.headD_cons, Vec3.add_x,
        Vec3.add_y, Vec3.add_z, Vec3.sub_x, Vec3.sub_y, Vec3.sub_z, Vec3.zero_x, Vec3.zero_y, Vec3.zero_z]
      norm_num
    simp only [List.forall_mem_cons, List.not_mem_nil, false_implies, implies_true, and_true] at hff
    obtain ⟨⟨-, l0⟩, ⟨-, l1⟩, ⟨-, l2⟩, ⟨-, l3⟩, ⟨-, l4⟩, -, l5⟩ := hff
    rw [s1] at hb
    rw [s2] at hb'
    simp only [List.map_cons, List.map_nil, l0, l1, l2, l3, l4, l5, List.sum_cons, List.sum_nil, tetraTol] at hb hb'
    have eC : -(⟨0, 0, 1⟩ : Vec3 ℝ) = ⟨0, 0, -1⟩ := by ext <;> simp
    have eF : -(⟨0, 0, -1⟩ : Vec3 ℝ) = ⟨0, 0, 1⟩ := by ext <;> simp
    have hadd : addTriangles C C.tri T = .ok r' := by
      rw [addPolygons] at hr'
      cases hc : addTriangles C C.tri T with
      | error e => rw [hc] at hr'; cases hr'
      | ok u => rw [hc] at hr'; exact hr'
    have tC := addTriangles_turned vC (by rw [pC]; simp [Vec3.dot]) C.tri T T r' hadd
    rw [eC] at tC
    have tF := addTriangles_flat vF (by rw [pF]; simp [Vec3.dot]) F.tri
    rw [eF] at tF
    have hT' : addPolygons ([W0, W1, W2, W3] ++ [{ F with vn := some ⟨0, 0, 1⟩ }]) 0 = .ok T := by
      rw [← hT, show [W0, W1, W2, W3, F] = [W0, W1, W2, W3] ++ [F] from rfl, addPolygons_append, addPolygons_append]
      cases addPolygons [W0, W1, W2, W3] 0 with
      | error e => rfl
      | ok u => simp only [addPolygons, tF]
    refine ⟨|r'|, |T - (r' - T)|, ?_, ?_, ?_, ?_⟩
    · simp only [solidVolume, allPolys_eq, fS, List.cons_append, List.nil_append, hr]
    · have := abs_abs_sub_abs_le_abs_sub r' 9
      rw [abs_of_pos (show (0 : ℝ) < 9 by norm_num)] at this
      refine this.trans ?_
      norm_num at hb ⊢
      refine hb.trans ?_
      norm_num
    · rw [solidVolume, allPolys_eq, fS', addPolygons_append, hT']
      simp only [addPolygons, tC]
    · have := abs_abs_sub_abs_le_abs_sub (T - (r' - T)) 3
      rw [abs_of_pos (show (0 : ℝ) < 3 by norm_num)] at this
      refine this.trans ?_
      norm_num at hb hb' ⊢
      rw [abs_le] at hb hb' ⊢
      constructor <;> linarith [hb.1, hb.2, hb'.1, hb'.2]

/-- The outline of a U, starting and ending with the corners at the bottom of the notch. -/
def notch : List (ℤ × ℤ) := [(4, 2), (4, 6), (6, 6), (6, 0), (0, 0), (0, 6), (2, 6), (2, 2)]

/-- **C103 fails, without a normal.**  A polygon in the shape of a U, made from its points alone, the first and the last of which are
the corners of the notch: it has the normal `(0, 0, 1)`, and is read with the normal `(0, 0, -1)`. -/
theorem C103_notch : ∃ P : Poly, polygonNew (notch.map Grid.emb) none none = .ok P ∧ P.vn = some ⟨0, 0, 1⟩ ∧
    readPolygon P.pts P.tri = .ok { P with vn := some ⟨0, 0, -1⟩ } := by
  obtain ⟨P, h, hp, hv, -⟩ := Grid.polygonNew_emb_ok (pts := notch) (pts' := notch.reverse) (l := (2, 2)) (p0 := (4, 2))
    (p1 := (4, 6)) (tri := (match Grid.gTriangulate 18 notch with | some (.ok (_, t)) => t | _ => []))
    (by decide +kernel) (by decide +kernel) rfl rfl rfl (by decide +kernel) (by decide +kernel)
  refine ⟨P, h, hv, ?_⟩
  have hpl : ∀ p ∈ P.pts, Vec3.dot ⟨0, 0, 1⟩ p = 0 := by rw [hp]; simp [Vec3.dot, notch, Grid.emb]
  have e : -(⟨0, 0, 1⟩ : Vec3 ℝ) = ⟨0, 0, -1⟩ := by ext <;> simp
  have hw : CornerNormal P.pts (-⟨0, 0, 1⟩) := by
    rw [hp, e]
    exact cornerNormal_z (x1 := 4) (y1 := 2) (x2 := 2) (y2 := 2) (x3 := 2) (y3 := 6) (z := 0) (.inr rfl)
      (by simp [notch, Grid.emb]) (by simp [notch, Grid.emb]) (by simp [notch, Grid.emb]) (by norm_num)
  rw [(C100_normal h hv (by rw [norm_z]; simp) hpl).2.1 hw, e]

/-! ### Concrete rooms -/

/-- The house with eight walls meets the hypotheses of `C103_convex`, and so of `C103_floor_plan_partial`. -/
example : ∃ S, floorPlan [(2, 0), (5, 0), (7, 2), (7, 6), (5, 8), (2, 8), (0, 6), (0, 2)] 3 0 0 none "floor".toList
    "ceiling".toList "a".toList "b".toList = .ok S ∧ rereadSolid S = .ok S := by
  have hpl : placed [(2, 0), (5, 0), (7, 2), (7, 6), (5, 8), (2, 8), (0, 6), (0, 2)] 0 0 =
      [(2, 0), (5, 0), (7, 2), (7, 6), (5, 8), (2, 8), (0, 6), (0, 2)] := by
    simp [placed, planAngle, planShift, place]
  have hsh : planShift (0 : Vec3 ℝ) = 0 := by simp [planShift]
  exact C103_convex (plan := [(2, 0), (5, 0), (7, 2), (7, 6), (5, 8), (2, 8), (0, 6), (0, 2)])
    (height := 3) (phi := 0) (t := 0) (wallNames := none) (fn := "floor".toList) (cn := "ceiling".toList)
    (rnd1 := "a".toList) (rnd2 := "b".toList) (sg := 1)
    (names := ["wall-0", "wall-1", "wall-2", "wall-3", "wall-4", "wall-5", "wall-6", "wall-7"].map String.toList)
    (.inl rfl) (show planNames 8 none = _ by decide +kernel) (by decide +kernel) (by decide +kernel)
    (by rw [hpl, hsh]; exact octagon_convex)
    (by rw [hsh]; norm_num)
    (by
      rw [hpl]
      simp only [cycEdges, List.cons_append, List.nil_append, List.zip_cons_cons, List.zip_nil_right, List.mem_cons,
        List.not_mem_nil, or_false, forall_eq_or_imp, forall_eq]
      norm_num [WallFits])

/-- A box meets the hypotheses of `C103_box`. -/
example : ∃ S, box 2 3 1 ⟨5, 0, 0⟩ = .ok S ∧ rereadSolid S = .ok S :=
  C103_box ⟨by norm_num, by norm_num, by norm_num, 10, by norm_num⟩

end B3d.Solids
