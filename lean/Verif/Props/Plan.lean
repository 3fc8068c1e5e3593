import Verif.Proofs.Prism

/-! # C32: floor plans -/

namespace B3d.Solids

open Triangles Polygon Spec Points

/-! ### What `floor_plan` is made of -/

theorem fixWall_names {fpts : List (Vec3 ℝ)} {z0 : ℝ} {n : Str} {P : Poly} {W' : WallG}
    (h : fixWall fpts z0 ⟨n, [(n, P)]⟩ = .ok W') : ∃ Q, W' = ⟨n, [(n, Q)]⟩ := by
  simp only [fixWall] at h
  split at h
  · cases h
  · cases h; exact ⟨P, rfl⟩
  · split at h
    · cases h
    · cases h; exact ⟨_, rfl⟩

theorem forall₂_zip_left {α β γ : Type} {R : α × β → γ → Prop} : ∀ {as : List α} {bs : List β} {cs : List γ},
    as.length = bs.length → List.Forall₂ R (as.zip bs) cs → cs.length = bs.length
  | _, _, _, hl, h => by rw [← h.length_eq]; simp [hl]

theorem oneWall_ok {P : Str × Poly} {n : Str} {W : WallG} (h : oneWall P n = .ok W) : W = ⟨n, [P]⟩ := by
  unfold oneWall at h
  split at h
  · cases h
  · rename_i m hm
    cases h
    rw [validateName_ok hm]

theorem planSolid_parts {f c : List (Vec3 ℝ)} {z0 : ℝ} {names : List Str} {fn cn r1 r2 : Str} {S : SolidG}
    (h : planSolid f c z0 names fn cn r1 r2 = .ok S) :
    ∃ F C walls walls', levelPolygon f fn r1 ⟨0, 0, -1⟩ = .ok F ∧ levelPolygon c cn r2 ⟨0, 0, 1⟩ = .ok C ∧
      List.Forall₂ (fun a b => faceWall (a.2, a.2, a.1) = .ok b) ((sideOutlines f c f.length).zip names) walls ∧
      List.Forall₂ (fun a b => fixWall F.2.pts z0 a = .ok b) walls walls' ∧
      S = walls' ++ [⟨fn, [F]⟩, ⟨cn, [C]⟩] ∧ (S.map WallG.name).Nodup := by
  unfold planSolid at h
  split at h
  · cases h
  rename_i walls hwalls
  split at h
  · cases h
  rename_i F hF
  split at h
  · cases h
  rename_i C hC
  split at h
  · cases h
  rename_i fl hfl
  split at h
  · cases h
  rename_i ce hce
  split at h
  · cases h
  rename_i walls' hwalls'
  unfold makeSolid at h
  split at h
  · rename_i hnd
    cases h
    rw [oneWall_ok hfl, oneWall_ok hce] at hnd ⊢
    exact ⟨F, C, walls, walls', hF, hC, mapExcept_forall hwalls, mapExcept_forall hwalls', rfl, hnd⟩
  · cases h

theorem walls_names {fpts : List (Vec3 ℝ)} {z0 : ℝ} : ∀ {l : List (List (Vec3 ℝ) × Str)} {walls walls' : List WallG},
    List.Forall₂ (fun a b => faceWall (a.2, a.2, a.1) = .ok b) l walls →
    List.Forall₂ (fun a b => fixWall fpts z0 a = .ok b) walls walls' →
    walls'.map WallG.name = l.map Prod.snd ∧ walls'.map (fun w => w.polys.map Prod.fst) = l.map (fun a => [a.2])
  | [], _, _, .nil, .nil => ⟨rfl, rfl⟩
  | a :: l, _, _, .cons h1 t1, .cons h2 t2 => by
    obtain ⟨i1, i2⟩ := walls_names t1 t2
    obtain ⟨P, rfl, -⟩ := faceWall_ok h1
    obtain ⟨Q, rfl⟩ := fixWall_names h2
    simp [i1, i2]

/-- The angle by which the plan is turned: angles up to `1e-8` count as zero. -/
noncomputable def planAngle (rotAngle : ℝ) : ℝ := if |rotAngle| ≤ 1 / 10 ^ 8 then 0 else rotAngle

/-- The vector by which the plan is moved: vectors with coordinates up to `1e-8` count as zero. -/
noncomputable def planShift (t : Vec3 ℝ) : Vec3 ℝ :=
  if |t.x| ≤ 1 / 10 ^ 8 ∧ |t.y| ≤ 1 / 10 ^ 8 ∧ |t.z| ≤ 1 / 10 ^ 8 then 0 else t

/-- The plan as it is built: turned around the origin, then moved. -/
noncomputable def placed (plan : List (ℝ × ℝ)) (translate : Vec3 ℝ) (rotAngle : ℝ) : List (ℝ × ℝ) :=
  plan.map (place (planAngle rotAngle) (planShift translate))

theorem planRotate_eq (plan : List (ℝ × ℝ)) (z phi : ℝ) :
    planRotate (plan.map (level z)) phi = .ok ((plan.map (place (planAngle phi) 0)).map (level z)) := by
  have hc : isClose phi 0 NP_RTOL NP_ATOL ↔ |phi| ≤ 1 / 10 ^ 8 := by
    simp [isClose, NP_ATOL]
  unfold planRotate planAngle
  by_cases h : |phi| ≤ 1 / 10 ^ 8
  · rw [if_neg (not_not.2 (hc.2 h)), if_pos h]
    congr 1
    rw [List.map_map]
    apply List.map_congr_left
    intro p _
    simp [place, level]
  · rw [if_pos (fun h' => h (hc.1 h')), if_neg h]
    have hu : Vec3.norm (⟨0, 0, 1⟩ : Vec3 ℝ) = 1 := by rw [norm_z]; simp
    obtain ⟨R, hR, e⟩ := Rotation.C28_points (plan.map (level z)) ⟨0, 0, 1⟩ phi hu (by
      have : (GEOM_ATOL : ℝ) ≤ 1 / 10 ^ 8 := by norm_num [GEOM_ATOL]
      linarith [not_le.1 h])
    rw [Rotation.rotationMatrix_eq hu, Except.ok.injEq] at hR
    rw [e]
    simp only
    congr 1
    rw [List.map_map, List.map_map]
    apply List.map_congr_left
    intro p _
    rw [Function.comp_apply, ← hR, Rotation.rod_apply]
    ext <;> simp [level, place, Vec3.dot] <;> ring

/-- `floor_plan` is a prism over the placed plan. -/
theorem floorPlan_eq {plan : List (ℝ × ℝ)} {height phi : ℝ} {t : Vec3 ℝ} {wallNames : Option (List Str)}
    {fn cn r1 r2 : Str} {names : List Str} (hp : plan ≠ []) (hn : planNames plan.length wallNames = .ok names) :
    floorPlan plan height t phi wallNames fn cn r1 r2 =
      planSolid ((placed plan t phi).map (level (planShift t).z))
        ((placed plan t phi).map (level ((planShift t).z + height))) (planShift t).z names fn cn r1 r2 := by
  have hc : allClose t ⟨0, 0, 0⟩ NP_RTOL NP_ATOL ↔
      (|t.x| ≤ 1 / 10 ^ 8 ∧ |t.y| ≤ 1 / 10 ^ 8 ∧ |t.z| ≤ 1 / 10 ^ 8) := by
    simp [allClose, isClose, NP_ATOL]
  unfold floorPlan
  simp only [hn, if_neg hp]
  rw [show (plan.map fun p => (⟨p.1, p.2, 0⟩ : Vec3 ℝ)) = plan.map (level 0) from rfl,
    show (plan.map fun p => (⟨p.1, p.2, height⟩ : Vec3 ℝ)) = plan.map (level height) from rfl,
    planRotate_eq, planRotate_eq]
  unfold planTranslate planShift placed planShift
  by_cases h : |t.x| ≤ 1 / 10 ^ 8 ∧ |t.y| ≤ 1 / 10 ^ 8 ∧ |t.z| ≤ 1 / 10 ^ 8
  · simp only [if_neg (not_not.2 (hc.2 h)), if_pos h]
    simp
  · simp only [if_pos (show ¬ allClose t ⟨0, 0, 0⟩ NP_RTOL NP_ATOL from fun h' => h (hc.1 h')), if_neg h]
    simp only [List.map_map]
    congr 1
    · apply List.map_congr_left
      intro p _
      ext <;> simp [level, place]
    · apply List.map_congr_left
      intro p _
      ext <;> simp [level, place]
      ring

/-! ### Names -/

/-- **C32, names.**  The walls have the requested names, or `wall-0`, `wall-1`, ..., followed by the names of
floor and ceiling; all of them are different; every wall has one polygon, which in the side walls has the
name of the wall.  There is one side wall for every corner of the plan. -/
theorem C32_names {plan : List (ℝ × ℝ)} {height phi : ℝ} {t : Vec3 ℝ} {wallNames : Option (List Str)}
    {fn cn r1 r2 : Str} {S : SolidG} (h : floorPlan plan height t phi wallNames fn cn r1 r2 = .ok S) :
    ∃ names : List Str, (wallNames = none → names = (List.range plan.length).map fun (i : Nat) => "wall-".toList ++ Wildcard.natStr i) ∧
      (∀ l, wallNames = some l → names = l) ∧ names.length = plan.length ∧
      S.map WallG.name = names ++ [fn, cn] ∧ (names ++ [fn, cn]).Nodup ∧
      ∃ f c, S.map (fun w => w.polys.map Prod.fst) = names.map (fun n => [n]) ++ [[f], [c]] := by
  have hp : plan ≠ [] := by
    rintro rfl
    unfold floorPlan at h
    split at h
    · cases h
    · simp at h
  cases hn : planNames plan.length wallNames with
  | error e =>
    unfold floorPlan at h
    rw [hn] at h
    cases h
  | ok names =>
    have hlen : names.length = plan.length := by
      unfold planNames at hn
      split at hn
      · cases hn; simp
      · split at hn
        · cases hn
        · rename_i hl
          split at hn
          · cases hn
          · cases hn; exact not_not.1 hl
    rw [floorPlan_eq hp hn] at h
    obtain ⟨F, C, walls, walls', hF, hC, h1, h2, rfl, hnd⟩ := planSolid_parts h
    obtain ⟨n1, n2⟩ := walls_names h1 h2
    have hside : ((placed plan t phi).map (level (planShift t).z)).length = plan.length := by simp [placed]
    have hz : ∀ (A : List (List (Vec3 ℝ))), A.length = names.length → (A.zip names).map Prod.snd = names := by
      intro A hA
      exact List.map_snd_zip (by omega)
    have hzl : (sideOutlines ((placed plan t phi).map (level (planShift t).z))
        ((placed plan t phi).map (level ((planShift t).z + height)))
        ((placed plan t phi).map (level (planShift t).z)).length).length = names.length := by
      rw [hlen]; simp [sideOutlines, placed]
    rw [hz _ hzl] at n1
    have hz2 := congrArg (List.map fun n => [n]) (hz _ hzl)
    rw [List.map_map] at hz2
    have hz3 : ∀ (A : List (List (Vec3 ℝ) × Str)), A.map ((fun n => [n]) ∘ Prod.snd) = A.map fun a => [a.2] := fun _ => rfl
    rw [hz3] at hz2
    rw [hz2] at n2
    have hS : (walls' ++ [(⟨fn, [F]⟩ : WallG), ⟨cn, [C]⟩]).map WallG.name = names ++ [fn, cn] := by simp [n1]
    refine ⟨names, ?_, ?_, hlen, hS, by rw [← hS]; exact hnd, F.1, C.1, by simp [n2]⟩
    · rintro rfl
      simp only [planNames, Except.ok.injEq] at hn
      rw [← hn]
    · rintro l rfl
      simp only [planNames] at hn
      split at hn
      · cases hn
      · split at hn
        · cases hn
        · cases hn; rfl

/-- **C32, wrong names.**  A wrong number of wall names or the same name for two walls is a ValueError; a
wall with the name of the floor or the ceiling, or the same name for floor and ceiling, never gives a solid. -/
theorem C32_wrong_names {plan : List (ℝ × ℝ)} {height phi : ℝ} {t : Vec3 ℝ} {l : List Str} {fn cn r1 r2 : Str} :
    (l.length ≠ plan.length ∨ ¬ l.Nodup → floorPlan plan height t phi (some l) fn cn r1 r2 = .error .valueError) ∧
    (fn ∈ l ∨ cn ∈ l ∨ fn = cn → ∀ S, floorPlan plan height t phi (some l) fn cn r1 r2 ≠ .ok S) := by
  constructor
  · intro h
    have : planNames plan.length (some l) = .error .valueError := by
      unfold planNames
      rcases h with h | h
      · simp [h]
      · by_cases hl : l.length = plan.length
        · simp [hl, h]
        · simp [hl]
    simp [floorPlan, this]
  · intro h S hS
    obtain ⟨names, -, hn, -, -, hnd, -⟩ := C32_names hS
    obtain rfl := hn l rfl
    rw [List.nodup_append] at hnd
    obtain ⟨-, h2, h3⟩ := hnd
    rcases h with h | h | rfl
    · exact h3 fn h fn (by simp) rfl
    · exact h3 cn h cn (by simp) rfl
    · simp at h2

/-- **C32, empty plans.**  A plan without corners is a ValueError. -/
theorem C32_empty {height phi : ℝ} {t : Vec3 ℝ} {wallNames : Option (List Str)} {fn cn r1 r2 : Str} :
    floorPlan [] height t phi wallNames fn cn r1 r2 = .error .valueError := by
  unfold floorPlan
  cases wallNames with
  | none => simp [planNames]
  | some l =>
    by_cases hl : l = []
    · subst hl; simp [planNames]
    · have : l.length ≠ 0 := fun h => hl (List.length_eq_zero_iff.1 h)
      simp [planNames, this]

/-! ### The shape -/

theorem walls_spec {z0 z1 : ℝ} {g : List (ℝ × ℝ)} {fpts : List (Vec3 ℝ)} {ccw : Bool} (hz : z0 < z1)
    (hn : 3 ≤ g.length) (hs : Separated (g.map (level z0)))
    (hf : fpts = if ccw then (g.map (level z0)).reverse else g.map (level z0)) :
    ∀ {E : List ((ℝ × ℝ) × (ℝ × ℝ))} {names : List Str} {walls walls' : List WallG}, (∀ e ∈ E, e ∈ cycEdges g) →
    E.length = names.length →
    List.Forall₂ (fun a b => faceWall (a.2, a.2, a.1) = .ok b) ((E.map (side z0 z1)).zip names) walls →
    List.Forall₂ (fun a b => fixWall fpts z0 a = .ok b) walls walls' →
    (allPolys walls').map Poly.pts = E.map (fun e => orient ccw (side z0 z1 e)) ∧
    (allPolys walls').map Poly.vn = E.map (fun e => some ((if ccw then 1 else -1 : ℝ) • rightNormal e)) ∧
    ∀ P ∈ allPolys walls', FromFlat P
  | [], [], _, _, _, _, .nil, .nil => by simp [allPolys]
  | e :: E, n :: names, _, _, he, hl, .cons h1 t1, .cons h2 t2 => by
    obtain ⟨i1, i2, i3⟩ := walls_spec hz hn hs hf (fun x hx => he x (List.mem_cons_of_mem _ hx))
      (by simpa using hl) t1 t2
    obtain ⟨P, rfl, p1, p2, p3⟩ := fixWall_spec hz hn (he e List.mem_cons_self) hs hf h1 h2
    have e : ∀ W, allPolys ((⟨n, [(n, P)]⟩ : WallG) :: W) = P :: allPolys W := fun _ => rfl
    rw [e]
    simp only [List.map_cons, i1, i2, p1, p2, List.mem_cons, true_and]
    rintro Q (rfl | hQ)
    · exact p3
    · exact i3 Q hQ

theorem fromFlat_tri {P : Poly} (h : FromFlat P) : P.tri.length = P.pts.length - 2 := by
  obtain ⟨pts, vn, v, h, -⟩ := h
  obtain ⟨-, -, -, ho, hl, -⟩ := C70_orientation h
  rw [hl]
  rcases ho with h | h <;> rw [h]
  simp

theorem three_of_area {p0 p1 : ℝ × ℝ} {r : List (ℝ × ℝ)} (h : area2 (p0 :: p1 :: r) ≠ 0) :
    3 ≤ (p0 :: p1 :: r).length := by
  cases r with
  | nil =>
    exfalso
    apply h
    simp only [area2, cycSum, pathSum, cross2, List.cons_append, List.nil_append, add_zero]
    ring
  | cons a t => simp

theorem separated_nodup {z : ℝ} {g : List (ℝ × ℝ)} (h : Separated (g.map (level z))) : g.Nodup := by
  have : (g.map (level z)).Nodup := by
    refine h.imp ?_
    rintro p q ⟨h1, -⟩ rfl
    rw [pointsEqual_self] at h1
    cases h1
  exact this.of_map

/-- **C32 (partial: first and last corner of the plan convex).**  If `floor_plan` gives a solid for a plan
whose first and last corners are convex, whose corners are pairwise further apart than the tolerance for equal
points, and a positive height, then, with the plan placed as requested: the outlines of walls, floor and
ceiling are the faces of the prism over the plan, all running counter-clockwise as seen from outside (they are
reversed as a whole if the plan runs clockwise); the normals of the walls point to the outside, the one of the
floor down and the one of the ceiling up; every edge is used once in each direction; the volume is area times
height, up to `1e-6/12` for every triangle.  The name of the ceiling polygon is the requested one only if the
plan runs counter-clockwise, the name of the floor polygon only if it runs clockwise: the other one is random.

Missing: plans whose first or last corner is not convex, see `C32_reflex`. -/
theorem C32_prism_partial {plan : List (ℝ × ℝ)} {height phi : ℝ} {t : Vec3 ℝ} {wallNames : Option (List Str)}
    {fn cn rnd1 rnd2 : Str} {S : SolidG} {p0 p1 q l : ℝ × ℝ} {r1 r2 : List (ℝ × ℝ)} {ccw : Bool} {sg : ℝ}
    (h : floorPlan plan height t phi wallNames fn cn rnd1 rnd2 = .ok S)
    (hh : 0 < height) (h1 : plan = p0 :: p1 :: r1) (h2 : plan = r2 ++ [q, l])
    (hsg : sg = if ccw then 1 else -1)
    (hA : 0 < sg * area2 plan) (hf : 0 < sg * turn l p0 p1) (hl : 0 < sg * turn q l p0)
    (hs : Separated ((placed plan t phi).map (level (planShift t).z))) :
    let g := placed plan t phi
    let z0 := (planShift t).z
    (allPolys S).map Poly.pts = (prism z0 (z0 + height) g).map (orient ccw) ∧
    (allPolys S).map Poly.vn = (cycEdges g).map (fun e => some (sg • rightNormal e)) ++
      [some ⟨0, 0, -1⟩, some ⟨0, 0, 1⟩] ∧
    (∃ names : List Str, S.map (fun w => w.polys.map Prod.fst) = names.map (fun n => [n]) ++
      [[if ccw then rnd1 else fn], [if ccw then cn else rnd2]]) ∧
    Closed ((allPolys S).map Poly.pts) ∧ (allEdges ((allPolys S).map Poly.pts)).Nodup ∧
    ∃ V, solidVolume S = .ok V ∧
      |V - abs (area2 plan) / 2 * height| ≤ ((4 * plan.length - 4 : ℕ) : ℝ) * (1 / 10 ^ 6 / 12) := by
  intro g z0
  have hg : g = placed plan t phi := rfl
  have hz0 : z0 = (planShift t).z := rfl
  clear_value g z0
  rw [← hg, ← hz0] at hs
  obtain ⟨names, -, -, hlen, -, -, f, c, hpn⟩ := C32_names h
  have hsg' : sg = 1 ∨ sg = -1 := by cases ccw <;> simp_all
  have hp : plan ≠ [] := by rw [h1]; simp
  have hA0 : area2 plan ≠ 0 := by intro e; rw [e, mul_zero] at hA; exact lt_irrefl _ hA
  have hn3 : 3 ≤ plan.length := by rw [h1] at hA0 ⊢; exact three_of_area hA0
  have hlg : g.length = plan.length := by simp [hg, placed]
  have hAg : area2 g = area2 plan := by rw [hg]; exact area2_place _ _ _
  have hg1 : g = place (planAngle phi) (planShift t) p0 :: place (planAngle phi) (planShift t) p1 ::
      r1.map (place (planAngle phi) (planShift t)) := by simp [hg, placed, h1]
  have hg2 : g = r2.map (place (planAngle phi) (planShift t)) ++
      [place (planAngle phi) (planShift t) q, place (planAngle phi) (planShift t) l] := by simp [hg, placed, h2]
  have hz : z0 < z0 + height := by linarith
  -- the parts
  cases hnm : planNames plan.length wallNames with
  | error e =>
    unfold floorPlan at h
    rw [hnm] at h
    cases h
  | ok names' =>
  have hlen' : names'.length = plan.length := by
    unfold planNames at hnm
    split at hnm
    · cases hnm; simp
    · split at hnm
      · cases hnm
      · rename_i hl'
        split at hnm
        · cases hnm
        · cases hnm; exact not_not.1 hl'
  rw [floorPlan_eq hp hnm, ← hg, ← hz0] at h
  obtain ⟨F, C, walls, walls', hF, hC, hw1, hw2, rfl, hnd⟩ := planSolid_parts h
  obtain ⟨⟨Fp, fb1, fb2⟩, -, -, fS, -⟩ := levelPolygon_spec hg1 hg2 hsg' (.inr rfl) (by rw [hAg]; exact hA) hF
  obtain ⟨⟨Cp, cb1, cb2⟩, -, -, cS, -⟩ := levelPolygon_spec hg1 hg2 hsg' (.inl rfl) (by rw [hAg]; exact hA) hC
  rw [turn_place, turn_place] at fS cS
  obtain ⟨fv, fp, fnm⟩ := fS hf hl
  obtain ⟨cv, cp, cnm⟩ := cS hf hl
  have hfp : F.2.pts = if ccw then (g.map (level z0)).reverse else g.map (level z0) := by
    rw [fp, hsg]; cases ccw <;> norm_num
  have hcp : C.2.pts = if ccw then g.map (level (z0 + height)) else (g.map (level (z0 + height))).reverse := by
    rw [cp, hsg]; cases ccw <;> norm_num
  have hlm : (g.map (level z0)).length = g.length := by simp
  rw [hlm, sideOutlines_eq] at hw1
  obtain ⟨w1, w2, w3⟩ := walls_spec hz (by rw [hlg]; exact hn3) hs hfp (fun e he => he)
    (by rw [length_cycEdges, hlg, hlen']) hw1 hw2
  have hall : allPolys (walls' ++ [(⟨fn, [F]⟩ : WallG), ⟨cn, [C]⟩]) = allPolys walls' ++ [F.2, C.2] := by
    simp [allPolys]
  have hpts : (allPolys (walls' ++ [(⟨fn, [F]⟩ : WallG), ⟨cn, [C]⟩])).map Poly.pts =
      (prism z0 (z0 + height) g).map (orient ccw) := by
    rw [hall, List.map_append, w1, prism, List.map_append, List.map_map]
    congr 1
    simp only [List.map_cons, List.map_nil, hfp, hcp, orient]
    cases ccw <;> simp
  refine ⟨hpts, ?_, ⟨names, ?_⟩, ?_, ?_, ?_⟩
  · rw [hall, List.map_append, w2, hsg]
    simp [fv, cv]
  · have hlw : walls'.length = names.length := by
      have := congrArg List.length hpn
      simp at this
      exact this
    rw [List.map_append] at hpn ⊢
    have := (List.append_inj hpn (by simpa using hlw))
    rw [this.1]
    simp only [List.map_cons, List.map_nil, fnm, cnm, hsg]
    cases ccw <;> norm_num
  · rw [hpts]
    exact closed_orient _ (prism_closed _ _ _)
  · rw [hpts]
    exact nodup_orient _ (prism_nodup hz.ne (by rw [hlg]; exact hn3) (separated_nodup hs))
  · have hflat : ∀ P ∈ allPolys (walls' ++ [(⟨fn, [F]⟩ : WallG), ⟨cn, [C]⟩]), FromFlat P := by
      intro P hP
      rw [hall, List.mem_append] at hP
      rcases hP with hP | hP
      · exact w3 P hP
      · simp only [List.mem_cons, List.not_mem_nil, or_false] at hP
        rcases hP with rfl | rfl
        · exact fromFlat_level fb1 fb2 fv
        · exact fromFlat_level cb1 cb2 cv
    obtain ⟨⟨V, hV, hb⟩, -⟩ := C63_volume hflat
    refine ⟨V, hV, ?_⟩
    have hnum : numTriangles (walls' ++ [(⟨fn, [F]⟩ : WallG), ⟨cn, [C]⟩]) = 4 * plan.length - 4 := by
      have e1 : numTriangles (walls' ++ [(⟨fn, [F]⟩ : WallG), ⟨cn, [C]⟩]) =
          (((allPolys (walls' ++ [(⟨fn, [F]⟩ : WallG), ⟨cn, [C]⟩])).map Poly.pts).map fun l => l.length - 2).sum := by
        rw [numTriangles, ← allPolys_eq, List.map_map]
        congr 1
        apply List.map_congr_left
        intro P hP
        exact fromFlat_tri (hflat P hP)
      have e2 : ∀ (E : List ((ℝ × ℝ) × (ℝ × ℝ))),
          (((E.map (side z0 (z0 + height))).map (orient ccw)).map fun l => l.length - 2).sum = 2 * E.length := by
        intro E
        induction E with
        | nil => rfl
        | cons e E ih =>
          simp only [List.map_cons, List.sum_cons, ih, List.length_cons]
          cases ccw <;> (simp [orient, side]; ring)
      rw [e1, hpts, prism, List.map_append, List.map_append, List.sum_append]
      have e3 := e2 (cycEdges g)
      rw [length_cycEdges, hlg] at e3
      rw [e3]
      have e4 : ∀ l : List (Vec3 ℝ), (orient ccw l).length = l.length := by
        intro l; cases ccw <;> simp [orient]
      simp [e4, hlg]
      omega
    rw [← allPolys_eq, hnum, hpts, prism_volume (by rw [hg1]; simp), hAg] at hb
    have hv : abs ((if ccw then 1 else -1 : ℝ) * (area2 plan / 2 * (z0 + height - z0))) =
        abs (area2 plan) / 2 * height := by
      rw [abs_mul, abs_mul, abs_div, add_sub_cancel_left, abs_of_pos hh]
      cases ccw <;> simp
    rw [hv] at hb
    exact hb

theorem walls_sides {z0 z1 : ℝ} {fpts : List (Vec3 ℝ)} (hz : z0 < z1) :
    ∀ {E : List ((ℝ × ℝ) × (ℝ × ℝ))} {names : List Str} {walls walls' : List WallG},
    E.length = names.length →
    List.Forall₂ (fun a b => faceWall (a.2, a.2, a.1) = .ok b) ((E.map (side z0 z1)).zip names) walls →
    List.Forall₂ (fun a b => fixWall fpts z0 a = .ok b) walls walls' →
    (allPolys walls').length = E.length ∧ (((allPolys walls').map Poly.pts).map areaVector2).sum.z = 0
  | [], [], _, _, _, .nil, .nil => by simp [allPolys]
  | e :: E, n :: names, _, _, hl, .cons h1 t1, .cons h2 t2 => by
    obtain ⟨i1, i2⟩ := walls_sides hz (by simpa using hl) t1 t2
    obtain ⟨P, rfl, hP⟩ := faceWall_ok h1
    have hP' := hP
    simp only at hP'
    rw [side_rect] at hP'
    obtain ⟨e1, -, -⟩ := rect_new hP'
    rw [← side_rect] at e1
    have hQ : ∃ Q : Poly, (Q.pts = side z0 z1 e ∨ Q.pts = (side z0 z1 e).reverse) ∧
        ‹WallG› = ⟨n, [(n, Q)]⟩ := by
      simp only [fixWall] at h2
      split at h2
      · cases h2
      · cases h2; exact ⟨P, .inl e1, rfl⟩
      · split at h2
        · cases h2
        · rename_i Q hQ
          cases h2
          refine ⟨Q, ?_, rfl⟩
          obtain ⟨-, -, -, ho, -⟩ := C70_orientation hQ
          rw [e1, List.reverse_reverse] at ho
          exact ho.symm
    obtain ⟨Q, hq, rfl⟩ := hQ
    have e' : ∀ W, allPolys ((⟨n, [(n, Q)]⟩ : WallG) :: W) = Q :: allPolys W := fun _ => rfl
    rw [e']
    refine ⟨by simp [i1], ?_⟩
    rw [List.map_cons, List.map_cons, List.sum_cons, Vec3.add_z, i2, add_zero]
    rcases hq with hq | hq <;> rw [hq] <;>
      simp [side, level, areaVector2, cycSum, pathSum, Vec3.cross] <;> ring

/-- **C32, the rest of the plans.**  If the first or the last corner of the plan is reflex, the floor and the
ceiling made by `floor_plan` have the same normal (and outlines in the same direction), and the surface is not
closed. -/
theorem C32_reflex {plan : List (ℝ × ℝ)} {height phi : ℝ} {t : Vec3 ℝ} {wallNames : Option (List Str)}
    {fn cn rnd1 rnd2 : Str} {S : SolidG} {p0 p1 q l : ℝ × ℝ} {r1 r2 : List (ℝ × ℝ)} {sg : ℝ}
    (h : floorPlan plan height t phi wallNames fn cn rnd1 rnd2 = .ok S)
    (hh : 0 < height) (h1 : plan = p0 :: p1 :: r1) (h2 : plan = r2 ++ [q, l]) (hsg : sg = 1 ∨ sg = -1)
    (hA : 0 < sg * area2 plan) (hr : sg * turn l p0 p1 < 0 ∨ sg * turn q l p0 < 0) :
    (∃ W F C, allPolys S = W ++ [F, C] ∧ W.length = plan.length ∧ F.vn = C.vn ∧
      (F.vn = some ⟨0, 0, 1⟩ ∨ F.vn = some ⟨0, 0, -1⟩)) ∧
    ¬ Closed ((allPolys S).map Poly.pts) := by
  obtain ⟨g, hg⟩ : ∃ g, g = placed plan t phi := ⟨_, rfl⟩
  obtain ⟨z0, hz0⟩ : ∃ z0, z0 = (planShift t).z := ⟨_, rfl⟩
  have hp : plan ≠ [] := by rw [h1]; simp
  have hlg : g.length = plan.length := by simp [hg, placed]
  have hAg : area2 g = area2 plan := by rw [hg]; exact area2_place _ _ _
  have hg1 : g = place (planAngle phi) (planShift t) p0 :: place (planAngle phi) (planShift t) p1 ::
      r1.map (place (planAngle phi) (planShift t)) := by simp [hg, placed, h1]
  have hg2 : g = r2.map (place (planAngle phi) (planShift t)) ++
      [place (planAngle phi) (planShift t) q, place (planAngle phi) (planShift t) l] := by simp [hg, placed, h2]
  have hA0 : area2 plan ≠ 0 := by intro e; rw [e, mul_zero] at hA; exact lt_irrefl _ hA
  cases hnm : planNames plan.length wallNames with
  | error e =>
    unfold floorPlan at h
    rw [hnm] at h
    cases h
  | ok names' =>
  have hlen' : names'.length = plan.length := by
    unfold planNames at hnm
    split at hnm
    · cases hnm; simp
    · split at hnm
      · cases hnm
      · rename_i hl'
        split at hnm
        · cases hnm
        · cases hnm; exact not_not.1 hl'
  rw [floorPlan_eq hp hnm, ← hg, ← hz0] at h
  obtain ⟨F, C, walls, walls', hF, hC, hw1, hw2, rfl, hnd⟩ := planSolid_parts h
  obtain ⟨-, fne, -, -, fS, fR⟩ := levelPolygon_spec hg1 hg2 hsg (.inr rfl) (by rw [hAg]; exact hA) hF
  obtain ⟨-, -, -, -, cS, cR⟩ := levelPolygon_spec hg1 hg2 hsg (.inl rfl) (by rw [hAg]; exact hA) hC
  rw [turn_place] at fne fR cR
  rw [turn_place, turn_place] at fS cS
  have key : (F.2.vn = some ⟨0, 0, sg⟩ ∧ F.2.pts = g.map (level z0) ∧
      C.2.vn = some ⟨0, 0, sg⟩ ∧ C.2.pts = g.map (level (z0 + height))) ∨
      (F.2.vn = some ⟨0, 0, -sg⟩ ∧ F.2.pts = (g.map (level z0)).reverse ∧
      C.2.vn = some ⟨0, 0, -sg⟩ ∧ C.2.pts = (g.map (level (z0 + height))).reverse) := by
    rcases lt_trichotomy (sg * turn l p0 p1) 0 with hneg | hz | hpos
    · exact .inr ⟨(fR hneg).1, (fR hneg).2, (cR hneg).1, (cR hneg).2⟩
    · exfalso
      rcases mul_eq_zero.1 hz with e | e
      · rcases hsg with rfl | rfl <;> norm_num at e
      · exact fne e
    · have hlast : sg * turn q l p0 < 0 := by
        rcases hr with hr | hr
        · linarith
        · exact hr
      exact .inl ⟨(fS hpos hlast).1, (fS hpos hlast).2, (cS hpos hlast).1, (cS hpos hlast).2⟩
  have hall : allPolys (walls' ++ [(⟨fn, [F]⟩ : WallG), ⟨cn, [C]⟩]) = allPolys walls' ++ [F.2, C.2] := by
    simp [allPolys]
  have hlm : (g.map (level z0)).length = g.length := by simp
  rw [hlm, sideOutlines_eq] at hw1
  obtain ⟨n1, n2⟩ := walls_sides (by linarith : z0 < z0 + height) (by rw [length_cycEdges, hlg, hlen']) hw1 hw2
  constructor
  · refine ⟨allPolys walls', F.2, C.2, hall, by rw [n1, length_cycEdges, hlg], ?_, ?_⟩
    · rcases key with ⟨a, -, b, -⟩ | ⟨a, -, b, -⟩ <;> rw [a, b]
    · rcases key with ⟨a, -⟩ | ⟨a, -⟩ <;> rw [a] <;> rcases hsg with rfl | rfl <;> simp
  · intro hc
    have := congrArg Vec3.z (closed_areaVector hc)
    rw [hall, List.map_append, List.map_append, List.sum_append, Vec3.add_z, n2] at this
    have ea : areaVector2 (F.2.pts) + areaVector2 (C.2.pts) = ⟨0, 0, 2 * area2 plan⟩ ∨
        areaVector2 (F.2.pts) + areaVector2 (C.2.pts) = ⟨0, 0, -(2 * area2 plan)⟩ := by
      rcases key with ⟨-, a, -, b⟩ | ⟨-, a, -, b⟩
      · left
        rw [a, b, areaVector2, areaVector2, area_level, area_level, hAg]
        ext <;> simp
        ring
      · right
        rw [a, b, areaVector2, areaVector2, ← List.map_reverse, ← List.map_reverse, area_level, area_level,
          area2_reverse, hAg]
        ext <;> simp
        ring
    simp only [List.map_cons, List.map_nil, List.sum_cons, List.sum_nil, add_zero] at this
    rcases ea with ea | ea <;> rw [ea] at this <;> simp at this <;> exact hA0 this

/-! ### Rectangular plans -/

theorem level_ok {pts : List (Vec3 ℝ)} {name rnd : Str} {t : ℝ} (ht : t = 1 ∨ t = -1) {P : Poly}
    (hv : validateName name = .ok name) (hP : polygonNew pts none none = .ok P) (hvn : P.vn = some ⟨0, 0, t⟩) :
    levelPolygon pts name rnd ⟨0, 0, t⟩ = .ok (name, P) := by
  have hex : ∃ v, P.vn = some v ∧ allClose v ⟨0, 0, t⟩ NP_RTOL NP_ATOL :=
    ⟨_, hvn, (allClose_z ht ht).2 rfl⟩
  unfold levelPolygon namedPolygon
  simp only [hv, hP]
  rw [if_neg (not_not.2 hex)]

theorem level_flip {pts : List (Vec3 ℝ)} {name rnd : Str} {t : ℝ} (ht : t = 1 ∨ t = -1) {P Q : Poly}
    (hv : validateName name = .ok name) (hP : polygonNew pts none none = .ok P) (hvn : P.vn = some ⟨0, 0, -t⟩)
    (hQ : Polygon.flip P = .ok Q) : levelPolygon pts name rnd ⟨0, 0, t⟩ = .ok (rnd, Q) := by
  have hex : ¬ ∃ v, P.vn = some v ∧ allClose v ⟨0, 0, t⟩ NP_RTOL NP_ATOL := by
    rintro ⟨v, hv, hc⟩
    rw [hvn, Option.some.injEq] at hv
    rw [← hv, allClose_z (by rcases ht with rfl | rfl <;> simp) ht] at hc
    rcases ht with rfl | rfl <;> norm_num at hc
  unfold levelPolygon namedPolygon
  simp only [hv, hP]
  rw [if_pos hex]
  simp only [hQ]

theorem BoxSize.shift {x y z : ℝ} {t : Vec3 ℝ} (h : BoxSize x y z t) : BoxSize x y z (planShift t) := by
  unfold planShift
  split
  · obtain ⟨hx, hy, hz, M, a, b, c, d⟩ := h
    refine ⟨hx, hy, hz, M, ?_, ?_, ?_, d⟩ <;> simp only [Vec3.zero_x, Vec3.zero_y, Vec3.zero_z, abs_zero]
    · linarith [abs_nonneg t.x]
    · linarith [abs_nonneg t.y]
    · linarith [abs_nonneg t.z]
  · exact h

/-- **C32, rectangles.**  A rectangular plan of sensible size (as for `box`) always gives a solid, for any valid
names of floor and ceiling other than those of the walls; its surface is closed and its volume is right. -/
theorem C32_rectangle {x y z : ℝ} {t : Vec3 ℝ} {fn cn r1 r2 : Str} (h : BoxSize x y z t)
    (hfv : validateName fn = .ok fn) (hcv : validateName cn = .ok cn)
    (hnd : (["wall-0", "wall-1", "wall-2", "wall-3"].map String.toList ++ [fn, cn]).Nodup) :
    ∃ S, floorPlan [(0, 0), (x, 0), (x, y), (0, y)] z t 0 none fn cn r1 r2 = .ok S ∧
      Closed ((allPolys S).map Poly.pts) ∧ ∃ V, solidVolume S = .ok V ∧ |V - x * y * z| ≤ 1 / 10 ^ 6 := by
  obtain ⟨hx, hy, hz, M, hMx, hMy, hMz, hxM, hyM, hzM⟩ := h.shift
  obtain ⟨m, hm⟩ : ∃ m, m = planShift t := ⟨_, rfl⟩
  rw [← hm] at hMx hMy hMz
  have hx0 : 0 < x := by linarith
  have hy0 : 0 < y := by linarith
  have hz0 : 0 < z := by linarith
  have ax := abs_nonneg m.x
  have ay := abs_nonneg m.y
  have az := abs_nonneg m.z
  have bx : |m.x + x| ≤ M := (abs_add_le _ _).trans (by rw [abs_of_pos hx0]; exact hMx)
  have by' : |m.y + y| ≤ M := (abs_add_le _ _).trans (by rw [abs_of_pos hy0]; exact hMy)
  have bz : |m.z + z| ≤ M := (abs_add_le _ _).trans (by rw [abs_of_pos hz0]; exact hMz)
  have fx : ¬ isClose (m.x + x) m.x NP_RTOL GEOM_ATOL :=
    far_of_size hx hxM (by linarith) (by rw [add_sub_cancel_left, abs_of_pos hx0])
  have fx' : ¬ isClose m.x (m.x + x) NP_RTOL GEOM_ATOL :=
    far_of_size hx hxM bx (by rw [sub_add_cancel_left, abs_neg, abs_of_pos hx0])
  have fy : ¬ isClose (m.y + y) m.y NP_RTOL GEOM_ATOL :=
    far_of_size hy hyM (by linarith) (by rw [add_sub_cancel_left, abs_of_pos hy0])
  have fy' : ¬ isClose m.y (m.y + y) NP_RTOL GEOM_ATOL :=
    far_of_size hy hyM by' (by rw [sub_add_cancel_left, abs_neg, abs_of_pos hy0])
  have fz : ¬ isClose (m.z + z) m.z NP_RTOL GEOM_ATOL :=
    far_of_size hz hzM (by linarith) (by rw [add_sub_cancel_left, abs_of_pos hz0])
  have hpl : placed [(0, 0), (x, 0), (x, y), (0, y)] t 0 =
      [(m.x, m.y), (m.x + x, m.y), (m.x + x, m.y + y), (m.x, m.y + y)] := by
    simp [placed, planAngle, place, ← hm, add_comm]
  have hsep : Separated ([(m.x, m.y), (m.x + x, m.y), (m.x + x, m.y + y), (m.x, m.y + y)].map (level m.z)) := by
    simp only [Separated, List.map_cons, List.map_nil, List.pairwise_cons, List.mem_cons, List.not_mem_nil, or_false,
      forall_eq_or_imp, forall_eq, level, List.Pairwise.nil, and_true, false_implies, implies_true]
    refine ⟨⟨⟨pointsEqual_false_x fx', pointsEqual_false_x fx⟩, ⟨pointsEqual_false_x fx', pointsEqual_false_x fx⟩,
      pointsEqual_false_y fy', pointsEqual_false_y fy⟩, ⟨⟨pointsEqual_false_y fy', pointsEqual_false_y fy⟩,
      pointsEqual_false_x fx, pointsEqual_false_x fx'⟩, pointsEqual_false_x fx, pointsEqual_false_x fx'⟩
  -- the polygons
  have rect : ∀ {k l : ℝ} (a u w : Vec3 ℝ), Vec3.dot u w = 0 → Vec3.normSq u = k * k → Vec3.normSq w = l * l →
      1 / 1000 ≤ k → 1 / 1000 ≤ l → k ≤ M → l ≤ M → M ≤ 10000 * k → M ≤ 10000 * l →
      Points.pointsEqual (a + u + w) (a + w) = false → Points.pointsEqual (a + u + w) a = false →
      Points.pointsEqual (a + u + w) (a + u) = false →
      ∃ P, polygonNew [a, a + u, a + u + w, a + w] none none = .ok P ∧ P.pts = [a, a + u, a + u + w, a + w] ∧
        P.vn = some (rectNormal u w) := by
    intro k l a u w h1 h2 h3 h4 h5 h6 h7 h8 h9 h10 h11 h12
    obtain ⟨P, p1, p2, p3, -⟩ := (goodRect_of_size h1 h2 h3 h4 h5 h6 h7 h8 h9 h10 h11 h12).new
    exact ⟨P, p1, p2, p3⟩
  have zE : ∀ e ∈ cycEdges [(m.x, m.y), (m.x + x, m.y), (m.x + x, m.y + y), (m.x, m.y + y)],
      (∃ P, polygonNew (side m.z (m.z + z) e) none none = .ok P) := by
    intro e he
    rw [side_rect]
    have hn3 : Vec3.normSq (⟨0, 0, m.z + z - m.z⟩ : Vec3 ℝ) = z * z := by simp [Vec3.normSq_def]
    simp only [cycEdges, List.cons_append, List.nil_append, List.zip_cons_cons,
      List.zip_nil_right, List.mem_cons, List.not_mem_nil, or_false] at he
    rcases he with rfl | rfl | rfl | rfl
    · obtain ⟨P, hP, -⟩ := rect (k := x) (l := z) (level m.z (m.x, m.y)) ⟨m.x + x - m.x, m.y - m.y, 0⟩
        ⟨0, 0, m.z + z - m.z⟩ (by simp [Vec3.dot]) (by simp [Vec3.normSq_def]) hn3 hx hz (by linarith) (by linarith)
        hxM hzM (pointsEqual_false_x (by simpa [level] using fx)) (pointsEqual_false_x (by simpa [level] using fx))
        (pointsEqual_false_z (by simpa [level] using fz))
      exact ⟨P, hP⟩
    · obtain ⟨P, hP, -⟩ := rect (k := y) (l := z) (level m.z (m.x + x, m.y)) ⟨m.x + x - (m.x + x), m.y + y - m.y, 0⟩
        ⟨0, 0, m.z + z - m.z⟩ (by simp [Vec3.dot]) (by simp [Vec3.normSq_def]) hn3 hy hz (by linarith) (by linarith)
        hyM hzM (pointsEqual_false_y (by simpa [level] using fy)) (pointsEqual_false_y (by simpa [level] using fy))
        (pointsEqual_false_z (by simpa [level] using fz))
      exact ⟨P, hP⟩
    · obtain ⟨P, hP, -⟩ := rect (k := x) (l := z) (level m.z (m.x + x, m.y + y))
        ⟨m.x - (m.x + x), m.y + y - (m.y + y), 0⟩
        ⟨0, 0, m.z + z - m.z⟩ (by simp [Vec3.dot]) (by simp [Vec3.normSq_def]) hn3 hx hz (by linarith) (by linarith)
        hxM hzM (pointsEqual_false_x (by simpa [level] using fx')) (pointsEqual_false_x (by simpa [level] using fx'))
        (pointsEqual_false_z (by simpa [level] using fz))
      exact ⟨P, hP⟩
    · obtain ⟨P, hP, -⟩ := rect (k := y) (l := z) (level m.z (m.x, m.y + y))
        ⟨m.x - m.x, m.y - (m.y + y), 0⟩
        ⟨0, 0, m.z + z - m.z⟩ (by simp [Vec3.dot]) (by simp [Vec3.normSq_def]) hn3 hy hz (by linarith) (by linarith)
        hyM hzM (pointsEqual_false_y (by simpa [level] using fy')) (pointsEqual_false_y (by simpa [level] using fy'))
        (pointsEqual_false_z (by simpa [level] using fz))
      exact ⟨P, hP⟩
  have lev : ∀ c : ℝ, ∃ P, polygonNew ([(m.x, m.y), (m.x + x, m.y), (m.x + x, m.y + y), (m.x, m.y + y)].map (level c))
      none none = .ok P ∧ P.vn = some ⟨0, 0, 1⟩ ∧
      P.pts = [(m.x, m.y), (m.x + x, m.y), (m.x + x, m.y + y), (m.x, m.y + y)].map (level c) := by
    intro c
    have e : [(m.x, m.y), (m.x + x, m.y), (m.x + x, m.y + y), (m.x, m.y + y)].map (level c) =
        [level c (m.x, m.y), level c (m.x, m.y) + ⟨x, 0, 0⟩, level c (m.x, m.y) + ⟨x, 0, 0⟩ + ⟨0, y, 0⟩,
          level c (m.x, m.y) + ⟨0, y, 0⟩] := by simp [level, Vec3.ext_iff]
    rw [e]
    obtain ⟨P, p1, p2, p3⟩ := rect (k := x) (l := y) (level c (m.x, m.y)) ⟨x, 0, 0⟩ ⟨0, y, 0⟩ (by simp [Vec3.dot])
      (by simp [Vec3.normSq_def]) (by simp [Vec3.normSq_def]) hx hy (by linarith) (by linarith) hxM hyM
      (pointsEqual_false_x (by simpa [level] using fx)) (pointsEqual_false_x (by simpa [level] using fx))
      (pointsEqual_false_y (by simpa [level] using fy))
    refine ⟨P, p1, ?_, p2⟩
    rw [p3, rectNormal_eq (k := x * y) (e := ⟨0, 0, 1⟩) (by positivity) (by simp [Vec3.normSq_def])
      (by ext <;> simp [Vec3.cross])]
  have rev : ∃ P, polygonNew ([(m.x, m.y), (m.x + x, m.y), (m.x + x, m.y + y), (m.x, m.y + y)].map
      (level m.z)).reverse none none = .ok P ∧
      P.pts = ([(m.x, m.y), (m.x + x, m.y), (m.x + x, m.y + y), (m.x, m.y + y)].map (level m.z)).reverse := by
    have e : ([(m.x, m.y), (m.x + x, m.y), (m.x + x, m.y + y), (m.x, m.y + y)].map (level m.z)).reverse =
        [level m.z (m.x, m.y + y), level m.z (m.x, m.y + y) + ⟨x, 0, 0⟩,
          level m.z (m.x, m.y + y) + ⟨x, 0, 0⟩ + ⟨0, -y, 0⟩, level m.z (m.x, m.y + y) + ⟨0, -y, 0⟩] := by
      simp [level, Vec3.ext_iff]
    rw [e]
    obtain ⟨P, p1, p2, -⟩ := rect (k := x) (l := y) (level m.z (m.x, m.y + y)) ⟨x, 0, 0⟩ ⟨0, -y, 0⟩
      (by simp [Vec3.dot])
      (by simp [Vec3.normSq_def]) (by simp [Vec3.normSq_def]) hx hy (by linarith) (by linarith) hxM hyM
      (pointsEqual_false_x (by simpa [level] using fx)) (pointsEqual_false_x (by simpa [level] using fx))
      (pointsEqual_false_y (by simpa [level] using fy'))
    exact ⟨P, p1, p2⟩
  obtain ⟨P0, p1, p2, p3⟩ := lev m.z
  obtain ⟨P1, q1, q2, -⟩ := lev (m.z + z)
  obtain ⟨Q, r1', r2'⟩ := rev
  have hS : ∃ S, floorPlan [(0, 0), (x, 0), (x, y), (0, y)] z t 0 none fn cn r1 r2 = .ok S := by
    rw [floorPlan_eq (plan := [(0, 0), (x, 0), (x, y), (0, y)]) (wallNames := none)
      (names := ["wall-0", "wall-1", "wall-2", "wall-3"].map String.toList) (by simp)
      (show planNames 4 none = _ by decide +kernel), hpl, ← hm]
    refine planSolid_ok (ccw := true) (F := (r1, Q)) (C := (cn, P1)) (by linarith) (by simp) hsep (by simp) ?_ hnd
      (level_flip (.inr rfl) hfv p1 (by simpa using p2) (by unfold Polygon.flip; rw [p3]; exact r1')) (by simpa using r2')
      (level_ok (.inl rfl) hcv q1 q2) (fun e he => ⟨zE e he, fun h => by cases h⟩)
    intro n hn
    simp only [List.map_cons, List.map_nil, List.cons_append, List.nil_append, List.mem_cons, List.not_mem_nil,
      or_false] at hn
    rcases hn with rfl | rfl | rfl | rfl | rfl | rfl
    · decide +kernel
    · decide +kernel
    · decide +kernel
    · decide +kernel
    · exact hfv
    · exact hcv
  obtain ⟨S, hS⟩ := hS
  obtain ⟨-, -, -, hc, -, V, hV, hb⟩ := C32_prism_partial (ccw := true) (sg := 1) (p0 := (0, 0)) (p1 := (x, 0))
    (q := (x, y)) (l := (0, y)) (r1 := [(x, y), (0, y)]) (r2 := [(0, 0), (x, 0)]) hS hz0 rfl rfl (by simp)
    (by simp [area2, cycSum, pathSum, cross2]; positivity)
    (by simp [turn, cross2]; positivity) (by simp [turn, cross2]; positivity) (by rw [hpl, ← hm]; exact hsep)
  refine ⟨S, hS, hc, V, hV, ?_⟩
  have ha : area2 [((0 : ℝ), (0 : ℝ)), (x, 0), (x, y), (0, y)] = 2 * (x * y) := by
    simp [area2, cycSum, pathSum, cross2]; ring
  rw [ha, abs_of_pos (show 0 < 2 * (x * y) by positivity)] at hb
  have e1 : ((4 * [((0 : ℝ), (0 : ℝ)), (x, 0), (x, y), (0, y)].length - 4 : ℕ) : ℝ) * (1 / 10 ^ 6 / 12) = 1 / 10 ^ 6 := by
    norm_num
  rw [e1, show 2 * (x * y) / 2 * z = x * y * z by ring] at hb
  exact hb

/-! ### Plans that meet the hypotheses -/

/-- A room of 4 × 5 × 3 metres at (10, 20, 0), with the default names. -/
example : ∃ S, floorPlan [(0, 0), (4, 0), (4, 5), (0, 5)] 3 ⟨10, 20, 0⟩ 0 none "floor".toList "ceiling".toList
    "a".toList "b".toList = .ok S ∧ ∃ V, solidVolume S = .ok V ∧ |V - 4 * 5 * 3| ≤ 1 / 10 ^ 6 := by
  obtain ⟨S, h, -, hV⟩ := C32_rectangle (x := 4) (y := 5) (z := 3) (t := ⟨10, 20, 0⟩) (fn := "floor".toList)
    (cn := "ceiling".toList) (r1 := "a".toList) (r2 := "b".toList)
    (by refine ⟨by norm_num, by norm_num, by norm_num, 25, ?_⟩; norm_num [abs_of_pos])
    (by decide +kernel) (by decide +kernel) (by decide +kernel)
  exact ⟨S, h, hV⟩

/-- An arrow head, the last corner of which is reflex, meets the hypotheses of `C32_reflex`. -/
theorem C32_arrow : ∃ S, floorPlan [(1, 4), (0, 0), (4, 1), (1, 1)] 1 0 0 none "floor".toList "ceiling".toList
    "a".toList "b".toList = .ok S ∧ ¬ Closed ((allPolys S).map Poly.pts) := by
  have hpl : placed [(1, 4), (0, 0), (4, 1), (1, 1)] 0 0 = [(1, 4), (0, 0), (4, 1), (1, 1)] := by
    simp [placed, planAngle, planShift, place]
  have hsh : planShift (0 : Vec3 ℝ) = 0 := by simp [planShift]
  have hS : ∃ S, floorPlan [(1, 4), (0, 0), (4, 1), (1, 1)] 1 0 0 none "floor".toList "ceiling".toList
      "a".toList "b".toList = .ok S := by
    obtain ⟨P, h1, h2, h3, -, Q, h4, h5, h6⟩ := C33_arrow 0
    obtain ⟨P', g1, g2, g3, -⟩ := C33_arrow 1
    have far : ∀ {a b : ℝ}, 1 ≤ |a - b| → |b| ≤ 4 → ¬ isClose a b NP_RTOL GEOM_ATOL := by
      intro a b h1 h2
      exact far_of_size (M := 4) (by linarith) (by linarith) h2 rfl
    have sides : ∀ e : (ℝ × ℝ) × (ℝ × ℝ), |e.1.1| ≤ 4 → |e.1.2| ≤ 4 →
        (e.2.1 - e.1.1) * (e.2.1 - e.1.1) + (e.2.2 - e.1.2) * (e.2.2 - e.1.2) ≤ 100 →
        (1 ≤ |e.2.1 - e.1.1| ∨ 1 ≤ |e.2.2 - e.1.2|) →
        (∃ P, polygonNew (side 0 1 e) none none = .ok P) ∧ ∃ P, polygonNew (side 0 1 e).reverse none none = .ok P := by
      rintro ⟨⟨x1, y1⟩, x2, y2⟩ hx hy hk hd
      simp only at hx hy hk hd
      have hk1 : 1 ≤ (x2 - x1) * (x2 - x1) + (y2 - y1) * (y2 - y1) := by
        rcases hd with hd | hd
        · have := mul_le_mul hd hd zero_le_one (abs_nonneg _)
          rw [abs_mul_abs_self] at this
          nlinarith [mul_self_nonneg (y2 - y1)]
        · have := mul_le_mul hd hd zero_le_one (abs_nonneg _)
          rw [abs_mul_abs_self] at this
          nlinarith [mul_self_nonneg (x2 - x1)]
      obtain ⟨k, hkd⟩ : ∃ k, k = Real.sqrt ((x2 - x1) * (x2 - x1) + (y2 - y1) * (y2 - y1)) := ⟨_, rfl⟩
      have k1 : 1 ≤ k := by rw [hkd]; exact Real.one_le_sqrt.2 hk1
      have k2 : k ≤ 10 := by rw [hkd]; exact Real.sqrt_le_iff.2 ⟨by norm_num, by linarith⟩
      have kk : k * k = (x2 - x1) * (x2 - x1) + (y2 - y1) * (y2 - y1) := by
        rw [hkd]; exact Real.mul_self_sqrt (by linarith)
      rw [side_reverse_rect, side_rect]
      have good : ∀ z z' : ℝ, |z' - z| = 1 → |z| ≤ 4 →
          GoodRect (level z (x1, y1)) ⟨x2 - x1, y2 - y1, 0⟩ ⟨0, 0, z' - z⟩ := by
        intro z z' hz hz4
        have hzz : (z' - z) * (z' - z) = 1 := by rw [← abs_mul_abs_self, hz, one_mul]
        have hxy : ∀ a b : Vec3 ℝ, a.x = x2 → a.y = y2 → b.x = x1 → b.y = y1 → pointsEqual a b = false := by
          intro a b e1 e2 e3 e4
          rcases hd with hd | hd
          · exact pointsEqual_false_x (by rw [e1, e3]; exact far hd hx)
          · exact pointsEqual_false_y (by rw [e2, e4]; exact far hd hy)
        refine goodRect_of_size (k := k) (l := 1) (M := 10) (by simp [Vec3.dot]) ?_ ?_ (by linarith) (by norm_num) k2
          (by norm_num) (by linarith) (by norm_num) ?_ ?_ ?_
        · rw [kk]; simp [Vec3.normSq_def]
        · simp [Vec3.normSq_def, hzz]
        · exact hxy _ _ (by simp [level]) (by simp [level]) (by simp [level]) (by simp [level])
        · exact hxy _ _ (by simp [level]) (by simp [level]) (by simp [level]) (by simp [level])
        · apply pointsEqual_false_z
          simp only [level, Vec3.add_z, add_zero, add_sub_cancel]
          exact far (by rw [hz]) hz4
      obtain ⟨P, p, -⟩ := (good 0 1 (by norm_num) (by norm_num)).new
      obtain ⟨Q, q, -⟩ := (good 1 0 (by norm_num) (by norm_num)).new
      exact ⟨⟨P, p⟩, ⟨Q, q⟩⟩
    rw [floorPlan_eq (plan := [(1, 4), (0, 0), (4, 1), (1, 1)]) (wallNames := none)
      (names := ["wall-0", "wall-1", "wall-2", "wall-3"].map String.toList) (by simp)
      (show planNames 4 none = _ by decide +kernel), hpl, hsh]
    simp only [Vec3.zero_z, zero_add]
    refine planSolid_ok (ccw := false) (F := ("a".toList, Q)) (C := ("ceiling".toList, P')) (by norm_num) (by simp) ?_
      (by simp) (by decide +kernel) (by decide +kernel)
      (level_flip (.inr rfl) (by decide +kernel) h1 (by simpa using h3) h4) ?_
      (level_ok (.inl rfl) (by decide +kernel) g1 g3) ?_
    · simp only [Separated, List.map_cons, List.map_nil, List.pairwise_cons, List.mem_cons, List.not_mem_nil, or_false,
        forall_eq_or_imp, forall_eq, level, List.Pairwise.nil, and_true, false_implies, implies_true]
      refine ⟨⟨⟨pointsEqual_false_x (far ?_ ?_), pointsEqual_false_x (far ?_ ?_)⟩,
        ⟨pointsEqual_false_x (far ?_ ?_), pointsEqual_false_x (far ?_ ?_)⟩,
        pointsEqual_false_y (far ?_ ?_), pointsEqual_false_y (far ?_ ?_)⟩,
        ⟨⟨pointsEqual_false_x (far ?_ ?_), pointsEqual_false_x (far ?_ ?_)⟩,
        pointsEqual_false_x (far ?_ ?_), pointsEqual_false_x (far ?_ ?_)⟩,
        pointsEqual_false_x (far ?_ ?_), pointsEqual_false_x (far ?_ ?_)⟩ <;> norm_num [abs_of_neg, abs_of_pos]
    · rw [h6, h2]
      simp [level]
    · intro e he
      simp only [cycEdges, List.cons_append, List.nil_append, List.zip_cons_cons, List.zip_nil_right, List.mem_cons,
        List.not_mem_nil, or_false] at he
      have : (∃ P, polygonNew (side 0 1 e) none none = .ok P) ∧
          ∃ P, polygonNew (side 0 1 e).reverse none none = .ok P := by
        rcases he with rfl | rfl | rfl | rfl <;> refine sides _ ?_ ?_ ?_ ?_ <;> norm_num [abs_of_neg, abs_of_pos]
      exact ⟨this.1, fun _ => this.2⟩
  obtain ⟨S, hS⟩ := hS
  refine ⟨S, hS, (C32_reflex (sg := 1) (p0 := (1, 4)) (p1 := (0, 0)) (q := (4, 1)) (l := (1, 1))
    (r1 := [(4, 1), (1, 1)]) (r2 := [(1, 4), (0, 0)]) hS one_pos rfl rfl (.inl rfl) ?_ (.inr ?_)).2⟩
  · norm_num [area2, cycSum, pathSum, cross2]
  · norm_num [turn, cross2]

end B3d.Solids
