import Verif.Props.SimplePolygons

/-! # C32: floor plans which are convex, and a simple one which is rejected -/

namespace B3d.Solids

open Spec Polygon Points ConvexEars

theorem apart_level {z z' : ℝ} {p q : ℝ × ℝ} (h : Apart (level z p) (level z q)) : Apart (level z' p) (level z' q) := by
  rcases h with h | h | h
  · exact .inl h
  · exact .inr (.inl h)
  · simp only [level, sub_self, abs_zero] at h
    linarith [abs_nonneg z]

theorem thick_level {s z z' : ℝ} {a b c : ℝ × ℝ} (h : Thick ⟨0, 0, s⟩ (level z a) (level z b) (level z c)) :
    Thick ⟨0, 0, s⟩ (level z' a) (level z' b) (level z' c) := by
  have e : ∀ p q : ℝ × ℝ, level z' p - level z' q = level z p - level z q := by
    intro p q; ext <;> simp [level]
  unfold Thick at h ⊢
  simpa only [e] using h

theorem convex_level {s z z' : ℝ} {g : List (ℝ × ℝ)} (h : ConvexOutline ⟨0, 0, s⟩ (g.map (level z))) :
    ConvexOutline ⟨0, 0, s⟩ (g.map (level z')) := by
  refine ⟨h.unit, by have := h.corners; rw [List.length_map] at this ⊢; exact this, ?_, ?_⟩
  · intro p q hs
    obtain ⟨l, hl, e⟩ := List.sublist_map_iff.1 hs
    match l, e with
    | [a, b], e =>
      simp only [List.map_cons, List.map_nil, List.cons.injEq, and_true] at e
      obtain ⟨rfl, rfl⟩ := e
      obtain ⟨h1, h2⟩ := h.apart _ _ (by simpa using hl.map (level z))
      exact ⟨apart_level h1, apart_level h2⟩
  · intro p q r hs
    obtain ⟨l, hl, e⟩ := List.sublist_map_iff.1 hs
    match l, e with
    | [a, b, c], e =>
      simp only [List.map_cons, List.map_nil, List.cons.injEq, and_true] at e
      obtain ⟨rfl, rfl, rfl⟩ := e
      exact thick_level (h.turns _ _ _ (by simpa using hl.map (level z)))

theorem thick_turn {s z : ℝ} {a b c : ℝ × ℝ} (hs : s * s = 1) (h : Thick ⟨0, 0, s⟩ (level z a) (level z b) (level z c)) :
    0 < s * (cross2 a b + cross2 b c + cross2 c a) ∧ 0 < s * turn a b c := by
  obtain ⟨D, hD, hc, -⟩ := h
  have hz := congrArg Vec3.z hc
  simp only [level, Vec3.cross_z, Vec3.sub_x, Vec3.sub_y, Vec3.smul_z] at hz
  have h1 : cross2 a b + cross2 b c + cross2 c a = D * s := by
    rw [← hz]; unfold cross2; ring
  have h2 : turn a b c = D * s := by
    rw [← hz]; unfold turn cross2; simp only [Prod.fst_sub, Prod.snd_sub]; ring
  rw [h1, h2]
  have : s * (D * s) = D := by linear_combination D * hs
  rw [this]
  constructor <;> linarith

theorem area_fan {s : ℝ} (a : ℝ × ℝ) : ∀ (b : ℝ × ℝ) (r : List (ℝ × ℝ)),
    (∀ p q, List.Sublist [p, q] (b :: r) → 0 < s * (cross2 a p + cross2 p q + cross2 q a)) →
    0 ≤ s * (cross2 a b + pathSum cross2 (b :: r ++ [a])) ∧
      (r ≠ [] → 0 < s * (cross2 a b + pathSum cross2 (b :: r ++ [a])))
  | b, [], _ => by
    have : cross2 a b + pathSum cross2 ([b] ++ [a]) = 0 := by
      simp [pathSum, cross2]; ring
    rw [this]; simp
  | b, c :: r, h => by
    have ih := (area_fan a c r fun p q hpq => h p q (hpq.cons b)).1
    have h1 := h b c (by simp)
    have e : s * (cross2 a b + pathSum cross2 (b :: c :: r ++ [a])) =
        s * (cross2 a b + cross2 b c + cross2 c a) + s * (cross2 a c + pathSum cross2 (c :: r ++ [a])) := by
      have : cross2 c a = - cross2 a c := by unfold cross2; ring
      simp only [List.cons_append, pathSum, this]
      ring
    rw [e]
    exact ⟨by linarith, fun _ => by linarith⟩

theorem convex_area {s z : ℝ} (hs : s * s = 1) {g : List (ℝ × ℝ)} (h : ConvexOutline ⟨0, 0, s⟩ (g.map (level z))) :
    0 < s * area2 g := by
  have hl := h.corners
  match g, h, hl with
  | a :: b :: c :: r, h, _ =>
    have := (area_fan (s := s) a b (c :: r) (by
      intro p q hpq
      exact (thick_turn hs (h.turns (level z a) (level z p) (level z q) ((hpq.cons_cons a).map (level z)))).1)).2 (by simp)
    unfold area2 cycSum
    simpa [pathSum] using this

theorem convex_first_last {s z : ℝ} (hs : s * s = 1) {g : List (ℝ × ℝ)} {p0 p1 q l : ℝ × ℝ} {r1 r2 : List (ℝ × ℝ)}
    (h : ConvexOutline ⟨0, 0, s⟩ (g.map (level z))) (h1 : g = p0 :: p1 :: r1) (h2 : g = r2 ++ [q, l]) :
    0 < s * turn l p0 p1 ∧ 0 < s * turn q l p0 := by
  have hl := h.corners
  rw [List.length_map] at hl
  have s1 : List.Sublist [p0, p1, l] g := by
    rw [h1]
    refine List.Sublist.cons_cons _ (List.Sublist.cons_cons _ (List.singleton_sublist.2 ?_))
    match r1, h1 with
    | [], h1 => rw [h1] at hl; simp at hl
    | x :: r, h1 =>
      have e : g.getLast? = some l := by rw [h2]; simp
      rw [h1] at e
      simp only [List.getLast?_cons_cons] at e
      exact List.mem_of_mem_getLast? e
  have s2 : List.Sublist [p0, q, l] g := by
    rw [h2]
    match r2, h2 with
    | [], h2 => rw [h2] at hl; simp at hl
    | x :: r, h2 =>
      have : x = p0 := by rw [h2] at h1; simpa using (List.cons.inj h1).1
      rw [this]
      exact List.Sublist.cons_cons _ (List.sublist_append_right _ _)
  have t1 := h.turns _ _ _ (by simpa using s1.map (level z))
  have t2 := h.turns _ _ _ (by simpa using s2.map (level z))
  exact ⟨(thick_turn hs t1.rot.rot).2, (thick_turn hs t2.rot).2⟩

theorem convex_separated {v : Vec3 ℝ} {pts : List (Vec3 ℝ)} (h : ConvexOutline v pts) : Separated pts :=
  List.pairwise_iff_forall_sublist.2 fun {_ _} hs => ⟨(h.apart _ _ hs).1.symm_ne, (h.apart _ _ hs).2.symm_ne⟩

theorem cycEdges_apart {z : ℝ} {g : List (ℝ × ℝ)} (hn : 3 ≤ g.length)
    (h : ∀ p q, List.Sublist [p, q] g → Apart (level z p) (level z q) ∧ Apart (level z q) (level z p)) :
    ∀ e ∈ cycEdges g, Apart (level z e.1) (level z e.2) ∧ Apart (level z e.2) (level z e.1) := by
  intro e he
  obtain ⟨i, hi⟩ := List.getElem?_of_mem he
  match g, h, hn, he, hi with
  | a :: t, h, hn, he, hi =>
    simp only [cycEdges, List.getElem?_zip_eq_some] at hi
    obtain ⟨h1, h2⟩ := hi
    by_cases hlt : i < t.length
    · rw [List.getElem?_append_left hlt] at h2
      exact h _ _ (sublist2 (Nat.lt_succ_self i) h1 (by simpa using h2))
    · rw [List.getElem?_append_right (by omega)] at h2
      have hi0 : i - t.length = 0 := by
        by_contra hne
        rw [List.getElem?_eq_none (by simp; omega)] at h2
        cases h2
      rw [hi0] at h2
      simp only [List.getElem?_cons_zero, Option.some.injEq] at h2
      rw [← h2]
      have : 0 < i := by simp only [List.length_cons] at hn; omega
      exact (h _ _ (sublist2 this (by simp) h1)).symm

/-- A wall which is not too narrow is a convex outline. -/
theorem side_convex {z0 z1 : ℝ} {e : (ℝ × ℝ) × (ℝ × ℝ)}
    (hw : WallFits (z1 - z0) ((e.2.1 - e.1.1) ^ 2 + (e.2.2 - e.1.2) ^ 2))
    (ha : Apart (level z0 e.1) (level z0 e.2) ∧ Apart (level z0 e.2) (level z0 e.1))
    (hz : 1 / 10 ^ 10 + 1 / 10 ^ 5 * |z0| < z1 - z0 ∧ 1 / 10 ^ 10 + 1 / 10 ^ 5 * |z1| < z1 - z0) :
    ConvexOutline (rightNormal e) (side z0 z1 e) := by
  obtain ⟨⟨x1, y1⟩, ⟨x2, y2⟩⟩ := e
  obtain ⟨hh, hA, hk, hh2⟩ := hw
  simp only at hA hk hh2
  obtain ⟨k, hkd⟩ : ∃ k, k = Vec3.norm (⟨y2 - y1, -(x2 - x1), 0⟩ : Vec3 ℝ) := ⟨_, rfl⟩
  have kk : k * k = (x2 - x1) ^ 2 + (y2 - y1) ^ 2 := by
    rw [← pow_two, hkd, Vec3.norm_sq, Vec3.normSq_def]; ring
  have k0 : 0 < k := by
    rcases lt_or_eq_of_le (Vec3.norm_nonneg (⟨y2 - y1, -(x2 - x1), 0⟩ : Vec3 ℝ)) with h | h
    · rw [hkd]; exact h
    · rw [hkd, ← h] at kk
      nlinarith
  obtain ⟨h, hhd⟩ : ∃ h, h = z1 - z0 := ⟨_, rfl⟩
  rw [← hhd] at hh hA hk hh2 hz
  rw [← kk] at hA hk hh2
  have hkh : 1 / 10 ^ 7 ≤ k * h := by
    have h0 : 0 ≤ k * h := by positivity
    nlinarith
  have hr : rightNormal ((x1, y1), (x2, y2)) = (1 / k) • ⟨y2 - y1, -(x2 - x1), 0⟩ := by
    unfold rightNormal; rw [hkd]
  have hz'' : ∀ p q : ℝ × ℝ, Apart (level z0 p) (level z1 q) ∧ Apart (level z1 q) (level z0 p) := by
    intro p q
    constructor
    · refine .inr (.inr ?_)
      simp only [level]
      rw [abs_sub_comm, ← hhd, abs_of_pos hh]; exact hz.2
    · refine .inr (.inr ?_)
      simp only [level]
      rw [← hhd, abs_of_pos hh]; exact hz.1
  have ha1 := apart_level (z' := z1) ha.1
  have ha2 := apart_level (z' := z1) ha.2
  have hD : (k * h) ^ 2 = k * k * h ^ 2 := by ring
  have b1 : 4 / 10 ^ 9 * (k * k * h ^ 2) ≤ k * k * h ^ 2 := by nlinarith [mul_self_nonneg (k * h)]
  have b2 : 4 / 10 ^ 9 * (k * k * (k * k + h ^ 2)) ≤ k * k * h ^ 2 := by nlinarith [mul_self_nonneg k]
  have b3 : 4 / 10 ^ 9 * (h ^ 2 * (k * k + h ^ 2)) ≤ k * k * h ^ 2 := by nlinarith [sq_nonneg h]
  have hzh : z1 = z0 + h := by linarith
  have crossK : ∀ v : Vec3 ℝ, v = h • ⟨y2 - y1, -(x2 - x1), 0⟩ → v = (k * h) • rightNormal ((x1, y1), (x2, y2)) := by
    rintro _ rfl
    rw [hr]
    ext <;> simp <;> field_simp
  have t1 : Thick (rightNormal ((x1, y1), (x2, y2))) (level z0 (x1, y1)) (level z0 (x2, y2)) (level z1 (x2, y2)) := by
    refine ⟨k * h, hkh, crossK _ ?_, ?_, ?_, ?_⟩
    · ext <;> simp [level, hzh] <;> ring
    · rw [hD]
      have e1 : Vec3.normSq (level z0 (x2, y2) - level z0 (x1, y1)) = k * k := by
        rw [kk]; simp only [Vec3.normSq_def, level, Vec3.sub_x, Vec3.sub_y, Vec3.sub_z]; ring
      have e2 : Vec3.normSq (level z1 (x2, y2) - level z0 (x1, y1)) = k * k + h ^ 2 := by
        rw [kk]; simp only [Vec3.normSq_def, level, Vec3.sub_x, Vec3.sub_y, Vec3.sub_z, hzh]; ring
      rw [e1, e2]; exact b2
    · rw [hD]
      have e1 : Vec3.normSq (level z1 (x2, y2) - level z0 (x2, y2)) = h ^ 2 := by
        simp only [Vec3.normSq_def, level, Vec3.sub_x, Vec3.sub_y, Vec3.sub_z, hzh]; ring
      have e2 : Vec3.normSq (level z0 (x1, y1) - level z0 (x2, y2)) = k * k := by
        rw [kk]; simp only [Vec3.normSq_def, level, Vec3.sub_x, Vec3.sub_y, Vec3.sub_z]; ring
      rw [e1, e2, mul_comm (h ^ 2)]; exact b1
    · rw [hD]
      have e1 : Vec3.normSq (level z0 (x1, y1) - level z1 (x2, y2)) = k * k + h ^ 2 := by
        rw [kk]; simp only [Vec3.normSq_def, level, Vec3.sub_x, Vec3.sub_y, Vec3.sub_z, hzh]; ring
      have e2 : Vec3.normSq (level z0 (x2, y2) - level z1 (x2, y2)) = h ^ 2 := by
        simp only [Vec3.normSq_def, level, Vec3.sub_x, Vec3.sub_y, Vec3.sub_z, hzh]; ring
      rw [e1, e2, mul_comm (k * k + h ^ 2)]; exact b3
  -- the other corners are obtained by moving the triangle
  have t2 : Thick (rightNormal ((x1, y1), (x2, y2))) (level z0 (x1, y1)) (level z0 (x2, y2)) (level z1 (x1, y1)) := by
    refine ⟨k * h, hkh, crossK _ ?_, ?_, ?_, ?_⟩
    · ext <;> simp [level, hzh] <;> ring
    · rw [hD]
      have e1 : Vec3.normSq (level z0 (x2, y2) - level z0 (x1, y1)) = k * k := by
        rw [kk]; simp only [Vec3.normSq_def, level, Vec3.sub_x, Vec3.sub_y, Vec3.sub_z]; ring
      have e2 : Vec3.normSq (level z1 (x1, y1) - level z0 (x1, y1)) = h ^ 2 := by
        simp only [Vec3.normSq_def, level, Vec3.sub_x, Vec3.sub_y, Vec3.sub_z, hzh]; ring
      rw [e1, e2]; exact b1
    · rw [hD]
      have e1 : Vec3.normSq (level z1 (x1, y1) - level z0 (x2, y2)) = k * k + h ^ 2 := by
        rw [kk]; simp only [Vec3.normSq_def, level, Vec3.sub_x, Vec3.sub_y, Vec3.sub_z, hzh]; ring
      have e2 : Vec3.normSq (level z0 (x1, y1) - level z0 (x2, y2)) = k * k := by
        rw [kk]; simp only [Vec3.normSq_def, level, Vec3.sub_x, Vec3.sub_y, Vec3.sub_z]; ring
      rw [e1, e2, mul_comm (k * k + h ^ 2)]; exact b2
    · rw [hD]
      have e1 : Vec3.normSq (level z0 (x1, y1) - level z1 (x1, y1)) = h ^ 2 := by
        simp only [Vec3.normSq_def, level, Vec3.sub_x, Vec3.sub_y, Vec3.sub_z, hzh]; ring
      have e2 : Vec3.normSq (level z0 (x2, y2) - level z1 (x1, y1)) = k * k + h ^ 2 := by
        rw [kk]; simp only [Vec3.normSq_def, level, Vec3.sub_x, Vec3.sub_y, Vec3.sub_z, hzh]; ring
      rw [e1, e2]; exact b3
  have move : ∀ {v a b c a' b' c' d : Vec3 ℝ}, a' = d - a → b' = d - b → c' = d - c → Thick v a b c → Thick v a' b' c' := by
    rintro v a b c _ _ _ d rfl rfl rfl ht
    have e : ∀ p q : Vec3 ℝ, d - p - (d - q) = -(p - q) := by intro p q; ext <;> simp
    have e2 : ∀ p : Vec3 ℝ, Vec3.normSq (-p) = Vec3.normSq p := by intro p; simp [Vec3.normSq_def]
    have e3 : ∀ p q : Vec3 ℝ, Vec3.cross (-p) (-q) = Vec3.cross p q := by intro p q; ext <;> simp
    unfold Thick at ht ⊢
    simpa only [e, e2, e3] using ht
  have t3 : Thick (rightNormal ((x1, y1), (x2, y2))) (level z1 (x2, y2)) (level z1 (x1, y1)) (level z0 (x1, y1)) := by
    refine move (d := ⟨x1 + x2, y1 + y2, z0 + z1⟩) ?_ ?_ ?_ t1 <;> ext <;> simp [level]
  have t4 : Thick (rightNormal ((x1, y1), (x2, y2))) (level z1 (x2, y2)) (level z1 (x1, y1)) (level z0 (x2, y2)) := by
    refine move (d := ⟨x1 + x2, y1 + y2, z0 + z1⟩) ?_ ?_ ?_ t2 <;> ext <;> simp [level]
  refine ⟨?_, by simp [side], ?_, ?_⟩
  · rw [hr, Vec3.norm_smul, ← hkd, abs_of_pos (by positivity)]
    field_simp
  · intro p q hs
    have := (List.pairwise_iff_forall_sublist (R := fun p q => Apart p q ∧ Apart q p) (l := side z0 z1 ((x1, y1), (x2, y2)))).1 (by
      simp only [side, List.pairwise_cons, List.mem_cons, List.not_mem_nil, or_false, forall_eq_or_imp, forall_eq,
        false_implies, implies_true, List.Pairwise.nil, and_true]
      exact ⟨⟨ha, hz'' _ _, hz'' _ _⟩, ⟨hz'' _ _, hz'' _ _⟩, ha2, ha1⟩) hs
    exact this
  · intro a b c hs
    obtain ⟨l, hl, e⟩ : ∃ l, l = side z0 z1 ((x1, y1), (x2, y2)) ∧ True := ⟨_, rfl, trivial⟩
    have : [a, b, c] = [level z0 (x1, y1), level z0 (x2, y2), level z1 (x2, y2)] ∨
        [a, b, c] = [level z0 (x1, y1), level z0 (x2, y2), level z1 (x1, y1)] ∨
        [a, b, c] = [level z0 (x1, y1), level z1 (x2, y2), level z1 (x1, y1)] ∨
        [a, b, c] = [level z0 (x2, y2), level z1 (x2, y2), level z1 (x1, y1)] := by
      have h4 : ∀ {α : Type} {a b c p q r s : α}, List.Sublist [a, b, c] [p, q, r, s] →
          [a, b, c] = [p, q, r] ∨ [a, b, c] = [p, q, s] ∨ [a, b, c] = [p, r, s] ∨ [a, b, c] = [q, r, s] := by
        intro α a b c p q r s h
        have h1 := h.length_le
        rcases List.sublist_cons_iff.1 h with h | ⟨r', e, h⟩
        · exact .inr (.inr (.inr (h.eq_of_length (by simp))))
        simp only [List.cons.injEq] at e
        obtain ⟨rfl, rfl⟩ := e
        rcases List.sublist_cons_iff.1 h with h | ⟨r', e, h⟩
        · rw [h.eq_of_length (by simp)]; simp
        simp only [List.cons.injEq] at e
        obtain ⟨rfl, rfl⟩ := e
        rcases List.mem_cons.1 (List.singleton_sublist.1 h) with rfl | h
        · simp
        · rw [List.mem_singleton.1 h]; simp
      exact h4 hs
    simp only [List.cons.injEq, and_true] at this
    rcases this with ⟨rfl, rfl, rfl⟩ | ⟨rfl, rfl, rfl⟩ | ⟨rfl, rfl, rfl⟩ | ⟨rfl, rfl, rfl⟩
    · exact t1
    · exact t2
    · exact t3.rot.rot
    · exact t4.rot.rot

/-- `floor_plan` gives a closed solid if floor and ceiling, in both directions, are accepted as polygons. -/
theorem plan_from_faces {plan : List (ℝ × ℝ)} {height phi : ℝ} {t : Vec3 ℝ} {wallNames : Option (List Str)}
    {fn cn rnd1 rnd2 : Str} {names : List Str} {sg : ℝ} (hsg : sg = 1 ∨ sg = -1)
    (hnames : planNames plan.length wallNames = .ok names)
    (hnv : ∀ n ∈ names ++ [fn, cn], validateName n = .ok n) (hnd : (names ++ [fn, cn]).Nodup) (h3 : 3 ≤ plan.length)
    (hap : ∀ p q, List.Sublist [p, q] (placed plan t phi) →
      Apart (level (planShift t).z p) (level (planShift t).z q) ∧ Apart (level (planShift t).z q) (level (planShift t).z p))
    (hP : ∀ z, z = (planShift t).z ∨ z = (planShift t).z + height →
      ∃ P Q, polygonNew ((placed plan t phi).map (level z)) none none = .ok P ∧
        P.pts = (placed plan t phi).map (level z) ∧ P.vn = some ⟨0, 0, sg⟩ ∧
        polygonNew ((placed plan t phi).map (level z)).reverse none none = .ok Q ∧
        Q.pts = ((placed plan t phi).map (level z)).reverse)
    (hA : 0 < sg * area2 plan)
    (hT : ∀ p0 p1 r1 q l r2, plan = p0 :: p1 :: r1 → plan = r2 ++ [q, l] → 0 < sg * turn l p0 p1 ∧ 0 < sg * turn q l p0)
    (hz : 1 / 10 ^ 10 + 1 / 10 ^ 5 * |(planShift t).z| < height ∧
      1 / 10 ^ 10 + 1 / 10 ^ 5 * |(planShift t).z + height| < height)
    (hw : ∀ e ∈ cycEdges (placed plan t phi), WallFits height ((e.2.1 - e.1.1) ^ 2 + (e.2.2 - e.1.2) ^ 2)) :
    ∃ S, floorPlan plan height t phi wallNames fn cn rnd1 rnd2 = .ok S ∧ Closed ((allPolys S).map Poly.pts) ∧
      ∃ V, solidVolume S = .ok V ∧
        |V - abs (area2 plan) / 2 * height| ≤ ((4 * plan.length - 4 : ℕ) : ℝ) * (1 / 10 ^ 6 / 12) := by
  obtain ⟨g, hg⟩ : ∃ g, g = placed plan t phi := ⟨_, rfl⟩
  obtain ⟨z0, hz0⟩ : ∃ z0, z0 = (planShift t).z := ⟨_, rfl⟩
  have hlen : g.length = plan.length := by simp [hg, placed]
  rw [← hg, ← hz0] at hap hP
  rw [← hz0] at hz
  rw [← hg] at hw
  have hlp := h3
  rw [← hlen] at h3
  have hsep : Separated (g.map (level z0)) := by
    refine List.pairwise_map.2 (List.pairwise_iff_forall_sublist.2 fun {p q} hs => ?_)
    exact ⟨(hap p q hs).1.symm_ne, (hap p q hs).2.symm_ne⟩
  have hh : 0 < height := by
    have := hz.1
    have := abs_nonneg z0
    linarith
  have hplan : plan ≠ [] := by rintro rfl; rw [List.length_nil] at hlen; omega
  have hlennames : names.length = g.length := by
    rw [hlen]
    unfold planNames at hnames
    split at hnames
    · rw [← Except.ok.inj hnames]; simp
    · split at hnames
      · cases hnames
      · rename_i h1
        split at hnames
        · cases hnames
        · rw [← Except.ok.inj hnames]; exact not_not.1 h1
  have hside : ∀ e ∈ cycEdges g, ConvexOutline (rightNormal e) (side z0 (z0 + height) e) := by
    intro e he
    refine side_convex ?_ (cycEdges_apart h3 hap e he) ?_
    · rw [add_sub_cancel_left]; exact hw e he
    · rw [add_sub_cancel_left]; exact hz
  have hfv : validateName fn = .ok fn := hnv fn (by simp)
  have hcv : validateName cn = .ok cn := hnv cn (by simp)
  obtain ⟨ccw, hccw⟩ : ∃ ccw : Bool, sg = if ccw then 1 else -1 := by
    rcases hsg with rfl | rfl
    · exact ⟨true, by simp⟩
    · exact ⟨false, by simp⟩
  have hS : ∃ S, floorPlan plan height t phi wallNames fn cn rnd1 rnd2 = .ok S := by
    rw [floorPlan_eq hplan hnames, ← hg, ← hz0]
    obtain ⟨P0, Q0, p1, p5, p6, p2, p3⟩ := hP z0 (.inl rfl)
    obtain ⟨P1, Q1, q1, q5, q6, q2, q3⟩ := hP (z0 + height) (.inr rfl)
    rw [← p5] at p2
    rw [← q5] at q2
    have hsides : ∀ e ∈ cycEdges g, (∃ P, polygonNew (side z0 (z0 + height) e) none none = .ok P) ∧
        (ccw = false → ∃ P, polygonNew (side z0 (z0 + height) e).reverse none none = .ok P) := by
      intro e he
      obtain ⟨P, h1, -⟩ := C84_convex_partial (hside e he)
      obtain ⟨Q, h2, -⟩ := C84_convex_partial (convexOutline_reverse (hside e he))
      exact ⟨⟨P, h1⟩, fun _ => ⟨Q, h2⟩⟩
    cases ccw with
    | true =>
      simp only [if_true] at hccw
      subst hccw
      refine planSolid_ok (ccw := true) (F := (rnd1, Q0)) (C := (cn, P1)) (by linarith) h3 (hsep)
        hlennames hnv hnd (level_flip (.inr rfl) hfv p1 (by rw [p6]; simp) p2) (by simpa using p3)
        (level_ok (.inl rfl) hcv q1 q6) hsides
    | false =>
      simp only [Bool.false_eq_true, if_false] at hccw
      subst hccw
      refine planSolid_ok (ccw := false) (F := (fn, P0)) (C := (rnd2, Q1)) (by linarith) h3 (hsep)
        hlennames hnv hnd (level_ok (.inr rfl) hfv p1 p6) (by simpa using p5)
        (level_flip (.inl rfl) hcv q1 q6 q2) hsides
  obtain ⟨S, hS⟩ := hS
  refine ⟨S, hS, ?_⟩
  obtain ⟨p0, p1, r1, h1⟩ : ∃ p0 p1 r1, plan = p0 :: p1 :: r1 := by
    match plan, hlp with
    | a :: b :: r, _ => exact ⟨a, b, r, rfl⟩
  obtain ⟨q, l, r2, h2⟩ : ∃ q l r2, plan = r2 ++ [q, l] := by
    have : plan.reverse.length = plan.length := List.length_reverse
    match hr : plan.reverse, this with
    | a :: b :: r, _ =>
      refine ⟨b, a, r.reverse, ?_⟩
      rw [← List.reverse_reverse plan, hr]; simp
    | [a], e => simp at e; omega
    | [], e => simp at e; omega
  obtain ⟨f1, f2⟩ := hT p0 p1 r1 q l r2 h1 h2
  obtain ⟨-, -, -, h4, -, h5⟩ := C32_prism_partial hS hh h1 h2 hccw hA f1 f2 (by rw [← hg, ← hz0]; exact hsep)
  exact ⟨h4, h5⟩

/-- **C32, convex plans are accepted.**  A convex plan, in either direction, whose walls are not too narrow, gives a
solid; the solid is closed and its volume is area times height. -/
theorem C32_convex {plan : List (ℝ × ℝ)} {height phi : ℝ} {t : Vec3 ℝ} {wallNames : Option (List Str)}
    {fn cn rnd1 rnd2 : Str} {names : List Str} {sg : ℝ} (hsg : sg = 1 ∨ sg = -1)
    (hnames : planNames plan.length wallNames = .ok names)
    (hnv : ∀ n ∈ names ++ [fn, cn], validateName n = .ok n) (hnd : (names ++ [fn, cn]).Nodup)
    (hc : ConvexOutline ⟨0, 0, sg⟩ ((placed plan t phi).map (level (planShift t).z)))
    (hz : 1 / 10 ^ 10 + 1 / 10 ^ 5 * |(planShift t).z| < height ∧
      1 / 10 ^ 10 + 1 / 10 ^ 5 * |(planShift t).z + height| < height)
    (hw : ∀ e ∈ cycEdges (placed plan t phi), WallFits height ((e.2.1 - e.1.1) ^ 2 + (e.2.2 - e.1.2) ^ 2)) :
    ∃ S, floorPlan plan height t phi wallNames fn cn rnd1 rnd2 = .ok S ∧ Closed ((allPolys S).map Poly.pts) ∧
      ∃ V, solidVolume S = .ok V ∧
        |V - abs (area2 plan) / 2 * height| ≤ ((4 * plan.length - 4 : ℕ) : ℝ) * (1 / 10 ^ 6 / 12) := by
  have hss : sg * sg = 1 := by rcases hsg with rfl | rfl <;> norm_num
  have hlen : (placed plan t phi).length = plan.length := by simp [placed]
  have h3 : 3 ≤ plan.length := by
    have := hc.corners
    rwa [List.length_map, hlen] at this
  refine plan_from_faces hsg hnames hnv hnd h3 (fun p q hs => hc.apart _ _ (by simpa using hs.map (level _))) ?_ ?_ ?_ hz hw
  · have key : ∀ z, ConvexOutline ⟨0, 0, sg⟩ ((placed plan t phi).map (level z)) →
        ∃ P Q, polygonNew ((placed plan t phi).map (level z)) none none = .ok P ∧
          P.pts = (placed plan t phi).map (level z) ∧ P.vn = some ⟨0, 0, sg⟩ ∧
          polygonNew ((placed plan t phi).map (level z)).reverse none none = .ok Q ∧
          Q.pts = ((placed plan t phi).map (level z)).reverse := by
      intro z h
      obtain ⟨P, a1, a2, a3, -⟩ := C84_convex_partial h
      obtain ⟨Q, b1, b2, -⟩ := C84_convex_partial (convexOutline_reverse h)
      exact ⟨P, Q, a1, a2, a3, b1, b2⟩
    rintro z (rfl | rfl)
    · exact key _ hc
    · exact key _ (convex_level hc)
  · have := convex_area hss hc
    rwa [show area2 (placed plan t phi) = area2 plan from area2_place _ _ _] at this
  · intro p0 p1 r1 q l r2 h1 h2
    obtain ⟨f1, f2⟩ := convex_first_last hss hc
      (show placed plan t phi = place (planAngle phi) (planShift t) p0 :: place (planAngle phi) (planShift t) p1 ::
        r1.map (place (planAngle phi) (planShift t)) by simp [placed, h1])
      (show placed plan t phi = r2.map (place (planAngle phi) (planShift t)) ++
        [place (planAngle phi) (planShift t) q, place (planAngle phi) (planShift t) l] by simp [placed, h2])
    rw [turn_place] at f1 f2
    exact ⟨f1, f2⟩

/-- Non-vacuity of `C32_convex`: a house with eight walls, in both directions. -/
example : ∃ S, floorPlan [(2, 0), (5, 0), (7, 2), (7, 6), (5, 8), (2, 8), (0, 6), (0, 2)] 3 0 0 none "floor".toList
    "ceiling".toList "a".toList "b".toList = .ok S ∧ Closed ((allPolys S).map Poly.pts) := by
  have hpl : placed [(2, 0), (5, 0), (7, 2), (7, 6), (5, 8), (2, 8), (0, 6), (0, 2)] 0 0 =
      [(2, 0), (5, 0), (7, 2), (7, 6), (5, 8), (2, 8), (0, 6), (0, 2)] := by
    simp [placed, planAngle, planShift, place]
  have hsh : planShift (0 : Vec3 ℝ) = 0 := by simp [planShift]
  obtain ⟨S, h1, h2, -⟩ := C32_convex (plan := [(2, 0), (5, 0), (7, 2), (7, 6), (5, 8), (2, 8), (0, 6), (0, 2)])
    (height := 3) (phi := 0) (t := 0) (wallNames := none) (fn := "floor".toList) (cn := "ceiling".toList)
    (rnd1 := "a".toList) (rnd2 := "b".toList) (sg := 1)
    (names := ["wall-0", "wall-1", "wall-2", "wall-3", "wall-4", "wall-5", "wall-6", "wall-7"].map String.toList)
    (.inl rfl) (show planNames 8 none = _ by decide +kernel) (by decide +kernel) (by decide +kernel)
    (by rw [hpl, hsh]; exact octagon_convex)
    (by rw [hsh]; norm_num)
    (by
      rw [hpl]
      simp only [cycEdges, List.cons_append, List.nil_append, List.zip_cons_cons, List.zip_nil_right, List.mem_cons,
        List.not_mem_nil, or_false, forall_eq_or_imp, forall_eq]
      norm_num [WallFits])
  exact ⟨S, h1, h2⟩

theorem planSolid_floor_error {floorPts ceilingPts : List (Vec3 ℝ)} {z0 : ℝ} {names : List Str} {fn cn r1 r2 : Str}
    {e : PyErr} (hnv : ∀ n ∈ names, validateName n = .ok n) (hfv : validateName fn = .ok fn)
    (hside : ∀ o ∈ sideOutlines floorPts ceilingPts floorPts.length, ∃ P, polygonNew o none none = .ok P)
    (he : polygonNew floorPts none none = .error e) :
    planSolid floorPts ceilingPts z0 names fn cn r1 r2 = .error e := by
  obtain ⟨walls, hw, -⟩ := mapExcept_ok (f := fun f : List (Vec3 ℝ) × Str => faceWall (f.2, f.2, f.1))
    (l := (sideOutlines floorPts ceilingPts floorPts.length).zip names) (R := fun _ _ => True) (by
      rintro ⟨a, n⟩ hm
      obtain ⟨m1, m2⟩ := List.of_mem_zip hm
      obtain ⟨P, hP⟩ := hside a m1
      exact ⟨⟨n, [(n, P)]⟩, by simp [faceWall, namedPolygon, hnv n m2, hP, oneWall], trivial⟩)
  unfold planSolid
  rw [hw]
  simp [levelPolygon, namedPolygon, hfv, he]

/-- The corridor of `C84_simple_fails` as a floor plan. -/
noncomputable def corridorPlan : List (ℝ × ℝ) :=
  [(2, 4), (3, 4), (3, 3), (0, 3), (0, 1), (1, 1), (1, 0), (3, 0), (3, 1), (2, 1), (2, 2), (4, 2), (4, 6), (3, 6), (3, 5),
    (2, 5)]

/-- **C32 is false for simple plans.**  The corridor, whose walls all meet at right angles, is a simple plan with whole
numbers as coordinates, but `floor_plan` raises a TriangulationError. -/
theorem C32_corridor : SimplePolygon (corridorPlan.map (level 0)) ∧
    floorPlan corridorPlan 1 0 0 none "floor".toList "ceiling".toList "a".toList "b".toList =
      .error .triangulationError := by
  obtain ⟨-, -, h1, h2⟩ := C84_simple_fails
  have hcl : corridorPlan.map (level 0) = corridor := by simp [corridorPlan, corridor, level]
  rw [← hcl] at h1 h2
  refine ⟨h1, ?_⟩
  have hpl : placed corridorPlan 0 0 = corridorPlan := by
    simp [placed, planAngle, planShift, place, corridorPlan]
  have hsh : planShift (0 : Vec3 ℝ) = 0 := by simp [planShift]
  rw [floorPlan_eq (plan := corridorPlan) (wallNames := none) (names := ["wall-0", "wall-1", "wall-2", "wall-3", "wall-4",
    "wall-5", "wall-6", "wall-7", "wall-8", "wall-9", "wall-10", "wall-11", "wall-12", "wall-13", "wall-14",
    "wall-15"].map String.toList) (by simp [corridorPlan]) (show planNames 16 none = _ by decide +kernel), hpl, hsh]
  simp only [Vec3.zero_z, zero_add]
  refine planSolid_floor_error (by decide +kernel) (by decide +kernel) ?_ h2
  intro o ho
  rw [List.length_map, sideOutlines_eq] at ho
  obtain ⟨e, he, rfl⟩ := List.mem_map.1 ho
  have : (Apart (level 0 e.1) (level 0 e.2) ∧ Apart (level 0 e.2) (level 0 e.1)) ∧
      WallFits 1 ((e.2.1 - e.1.1) ^ 2 + (e.2.2 - e.1.2) ^ 2) := by
    revert e
    simp only [corridorPlan, cycEdges, List.cons_append, List.nil_append, List.zip_cons_cons, List.zip_nil_right,
      List.mem_cons, List.not_mem_nil, or_false, forall_eq_or_imp, forall_eq]
    norm_num [WallFits, Apart, level, abs_of_neg, abs_of_pos]
  obtain ⟨P, hP, -⟩ := C84_convex_partial (side_convex (z0 := 0) (z1 := 1) (by rw [sub_zero]; exact this.2) this.1
    (by norm_num))
  exact ⟨P, hP⟩

end B3d.Solids
