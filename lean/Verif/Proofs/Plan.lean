import Verif.Props.Solids
import Verif.Spec.Plan
import Verif.Props.Rotation

/-! # Lemmas about floor plans -/

namespace B3d.Solids

open Triangles Polygon Spec Points

/-! ### The plan -/

theorem area2_eq (z : ℝ) (g : List (ℝ × ℝ)) : (cycSum Vec3.cross (g.map (level z))).z = area2 g := by
  have key : ∀ l : List (ℝ × ℝ), (pathSum Vec3.cross (l.map (level z))).z = pathSum cross2 l := by
    intro l
    induction l with
    | nil => rfl
    | cons a l ih =>
      cases l with
      | nil => rfl
      | cons b l =>
        simp only [List.map_cons, pathSum, Vec3.add_z] at ih ⊢
        rw [ih]
        simp [level, cross2]
  cases g with
  | nil => rfl
  | cons a t =>
    have := key (a :: t ++ [a])
    rw [List.map_append] at this
    exact this

theorem area2_reverse (g : List (ℝ × ℝ)) : area2 g.reverse = -area2 g := by
  rw [← area2_eq 0, ← area2_eq 0, List.map_reverse, cycSum_reverse _ cross_antisymm, Vec3.neg_z]

theorem turn_reverse (p q r : ℝ × ℝ) : turn r q p = -turn p q r := by
  simp only [turn, cross2, Prod.fst_sub, Prod.snd_sub]
  ring

theorem turn_place (phi : ℝ) (t : Vec3 ℝ) (p q r : ℝ × ℝ) :
    turn (place phi t p) (place phi t q) (place phi t r) = turn p q r := by
  have h := Real.sin_sq_add_cos_sq phi
  simp only [turn, cross2, place, Prod.fst_sub, Prod.snd_sub]
  linear_combination ((q.1 - p.1) * (r.2 - q.2) - (q.2 - p.2) * (r.1 - q.1)) * h

theorem cross2_rot (phi : ℝ) (p q : ℝ × ℝ) : cross2 (place phi 0 p) (place phi 0 q) = cross2 p q := by
  have h := Real.sin_sq_add_cos_sq phi
  simp only [cross2, place, Vec3.zero_x, Vec3.zero_y, add_zero]
  linear_combination (p.1 * q.2 - p.2 * q.1) * h

theorem area2_place (phi : ℝ) (t : Vec3 ℝ) (g : List (ℝ × ℝ)) : area2 (g.map (place phi t)) = area2 g := by
  have e : (g.map (place phi t)).map (level 0) =
      ((g.map (place phi 0)).map (level 0)).map (· + (⟨t.x, t.y, 0⟩ : Vec3 ℝ)) := by
    simp only [List.map_map]
    apply List.map_congr_left
    intro p _
    simp [level, place, Vec3.ext_iff]
  rw [← area2_eq 0, e, cycSum_cross_translate, area2_eq, area2, area2, cycSum_map]
  congr 1
  funext p q
  exact cross2_rot phi p q

/-! ### Floor and ceiling -/

theorem normal_level {z : ℝ} {p q r : ℝ × ℝ} {v : Vec3 ℝ}
    (h : normal (level z p) (level z q) (level z r) = some v) :
    ∃ s : ℝ, (s = 1 ∨ s = -1) ∧ v = ⟨0, 0, s⟩ ∧ 0 < s * turn p q r := by
  obtain ⟨D, hD⟩ : ∃ D, D = turn p q r := ⟨_, rfl⟩
  have e : Vec3.cross (level z q - level z p) (level z r - level z p) = ⟨0, 0, D⟩ := by
    rw [hD]
    ext <;> simp [level, turn, cross2]
    ring
  simp only [normal, e, norm_z] at h
  split at h
  · cases h
  · rename_i hc
    have hD0 : D ≠ 0 := by
      rintro rfl
      apply hc
      norm_num [isClose, NP_ATOL]
    rw [Option.some.injEq] at h
    rw [← h, ← hD]
    rcases lt_or_gt_of_ne hD0 with hneg | hpos
    · refine ⟨-1, .inr rfl, ?_, by linarith⟩
      rw [abs_of_neg hneg]
      ext <;> simp
      field_simp
    · refine ⟨1, .inl rfl, ?_, by linarith⟩
      rw [abs_of_pos hpos]
      ext <;> simp
      field_simp

theorem level_new {z : ℝ} {g : List (ℝ × ℝ)} {p0 p1 l : ℝ × ℝ} {r : List (ℝ × ℝ)} {P : Poly}
    (hg : g = p0 :: p1 :: r) (hl : g.getLast? = some l)
    (h : polygonNew (g.map (level z)) none none = .ok P) :
    ∃ s : ℝ, (s = 1 ∨ s = -1) ∧ P.vn = some ⟨0, 0, s⟩ ∧ 0 < s * turn l p0 p1 ∧
      (P.pts = g.map (level z) ∧ 0 < s * area2 g ∨
        P.pts = (g.map (level z)).reverse ∧ s * area2 g < 0) := by
  obtain ⟨hn, v, hv, hc, -⟩ := polygonNew_ok h
  obtain ⟨v', hv', -, ho, -, -, ⟨a, -, ha, hae⟩, hi⟩ := C70_orientation h
  obtain rfl : v = v' := by rw [hv, Option.some.injEq] at hv'; exact hv'
  have hc' : normal (level z l) (level z p0) (level z p1) = some v := by
    have h1 : (g.map (level z)).getLast? = some (level z l) := by rw [List.getLast?_map, hl]; rfl
    have h2 : (g.map (level z))[0]? = some (level z p0) := by rw [hg]; rfl
    have h3 : (g.map (level z))[1]? = some (level z p1) := by rw [hg]; rfl
    simp only [chooseNormal, h1, h2, h3, Except.ok.injEq] at hc
    exact hc
  obtain ⟨s, hs, rfl, ht⟩ := normal_level hc'
  have hdot : ∀ pts : List (Vec3 ℝ), Vec3.dot (cycSum Vec3.cross pts) ⟨0, 0, s⟩ = s * (cycSum Vec3.cross pts).z := by
    intro pts; simp [Vec3.dot, mul_comm]
  refine ⟨s, hs, hv, ht, ?_⟩
  rw [hdot] at hae hi
  rw [area2_eq] at hi
  rcases ho with e | e
  · exact .inl ⟨e, hi.1 e⟩
  · right
    refine ⟨e, ?_⟩
    rw [e, ← List.map_reverse, area2_eq, area2_reverse] at hae
    linarith

theorem fromFlat_level {z : ℝ} {g : List (ℝ × ℝ)} {pts : List (Vec3 ℝ)} {P : Poly} {s : ℝ}
    (hp : pts = g.map (level z) ∨ pts = (g.map (level z)).reverse)
    (h : polygonNew pts none none = .ok P) (hv : P.vn = some ⟨0, 0, s⟩) : FromFlat P := by
  refine ⟨pts, none, _, h, hv, ?_⟩
  have hz : ∀ p ∈ pts, p.z = z := by
    intro p hpp
    have : p ∈ g.map (level z) := by
      rcases hp with rfl | rfl
      · exact hpp
      · exact List.mem_reverse.1 hpp
    obtain ⟨x, -, rfl⟩ := List.mem_map.1 this
    rfl
  intro p hpp q hq
  simp [Vec3.dot, hz p hpp, hz q hq]

theorem allClose_z {s t : ℝ} (hs : s = 1 ∨ s = -1) (ht : t = 1 ∨ t = -1) :
    allClose (⟨0, 0, s⟩ : Vec3 ℝ) ⟨0, 0, t⟩ NP_RTOL NP_ATOL ↔ s = t := by
  rcases hs with rfl | rfl <;> rcases ht with rfl | rfl <;>
    norm_num [allClose, isClose, NP_RTOL, NP_ATOL]

/-- What `floor_plan` does with floor and ceiling. -/
theorem levelPolygon_spec {z t sg : ℝ} {g : List (ℝ × ℝ)} {p0 p1 q l : ℝ × ℝ} {r1 r2 : List (ℝ × ℝ)}
    {name rnd : Str} {R : Str × Poly} (h1 : g = p0 :: p1 :: r1) (h2 : g = r2 ++ [q, l])
    (hsg : sg = 1 ∨ sg = -1) (ht : t = 1 ∨ t = -1) (hA : 0 < sg * area2 g)
    (h : levelPolygon (g.map (level z)) name rnd ⟨0, 0, t⟩ = .ok R) :
    (∃ pts, (pts = g.map (level z) ∨ pts = (g.map (level z)).reverse) ∧ polygonNew pts none none = .ok R.2) ∧
    turn l p0 p1 ≠ 0 ∧
    (0 < sg * turn l p0 p1 → turn q l p0 = 0 → t = sg) ∧
    (0 < sg * turn l p0 p1 → 0 < sg * turn q l p0 → R.2.vn = some ⟨0, 0, t⟩ ∧
      R.2.pts = (if t = sg then g.map (level z) else (g.map (level z)).reverse) ∧
      R.1 = if t = sg then name else rnd) ∧
    (0 < sg * turn l p0 p1 → sg * turn q l p0 < 0 → R.2.vn = some ⟨0, 0, sg⟩ ∧ R.2.pts = g.map (level z)) ∧
    (sg * turn l p0 p1 < 0 → R.2.vn = some ⟨0, 0, -sg⟩ ∧ R.2.pts = (g.map (level z)).reverse) := by
  have hl : g.getLast? = some l := by rw [h2]; simp
  have hr1 : g.reverse = l :: q :: r2.reverse := by rw [h2]; simp
  have hrl : g.reverse.getLast? = some p0 := by rw [h1]; simp
  unfold levelPolygon at h
  split at h
  · cases h
  rename_i nm P hnew
  unfold namedPolygon at hnew
  split at hnew
  · cases hnew
  rename_i nm' hnm
  split at hnew
  · cases hnew
  rename_i P' hP
  cases hnew
  have hnm2 : nm = name := by
    simp only [validateName] at hnm
    split at hnm
    · cases hnm
    · cases hnm; rfl
  obtain ⟨s, hs, hv, htn, ho⟩ := level_new h1 hl hP
  have hne : turn l p0 p1 ≠ 0 := by rintro e; rw [e, mul_zero] at htn; exact lt_irrefl _ htn
  have hex : (∃ v, P.vn = some v ∧ allClose v ⟨0, 0, t⟩ NP_RTOL NP_ATOL) ↔ s = t := by
    rw [hv]
    simp [allClose_z hs ht]
  by_cases hst : s = t
  · rw [if_neg (not_not.2 (hex.2 hst))] at h
    cases h
    subst hst
    refine ⟨⟨_, .inl rfl, hP⟩, hne, ?_, ?_, ?_, ?_⟩
    · intro hf _
      rcases hs with rfl | rfl <;> rcases hsg with rfl | rfl <;> first | rfl | linarith
    · intro hf _
      have hss : s = sg := by rcases hs with rfl | rfl <;> rcases hsg with rfl | rfl <;> first | rfl | linarith
      subst hss
      rw [if_pos rfl, if_pos rfl]
      refine ⟨hv, ?_, hnm2⟩
      rcases ho with ho | ho
      · exact ho.1
      · linarith [ho.2]
    · intro hf _
      have hss : s = sg := by rcases hs with rfl | rfl <;> rcases hsg with rfl | rfl <;> first | rfl | linarith
      subst hss
      refine ⟨hv, ?_⟩
      rcases ho with ho | ho
      · exact ho.1
      · linarith [ho.2]
    · intro hf
      have hss : s = -sg := by
        rcases hs with rfl | rfl <;> rcases hsg with rfl | rfl <;> first | (norm_num; done) | linarith
      subst hss
      refine ⟨hv, ?_⟩
      rcases ho with ho | ho
      · linarith [ho.2]
      · exact ho.1
  · rw [if_pos (fun hh => hst (hex.1 hh))] at h
    split at h
    · cases h
    rename_i Q hQ
    cases h
    unfold Polygon.flip at hQ
    rcases ho with ⟨hpts, hsA⟩ | ⟨hpts, hsA⟩
    · have hss : s = sg := by rcases hs with rfl | rfl <;> rcases hsg with rfl | rfl <;> first | rfl | linarith
      subst hss
      rw [hpts] at hQ
      have hQ' := hQ
      rw [← List.map_reverse] at hQ
      obtain ⟨s', hs', hv', htn', ho'⟩ := level_new hr1 hrl hQ
      rw [turn_reverse] at htn'
      rw [List.map_reverse, List.reverse_reverse, area2_reverse] at ho'
      refine ⟨⟨_, .inr rfl, hQ'⟩, hne, ?_, ?_, ?_, ?_⟩
      · intro _ e
        rw [e] at htn'
        simp at htn'
      · intro _ hf
        have hss : s' = -s := by
          rcases hs with rfl | rfl <;> rcases hs' with rfl | rfl <;> first | (norm_num; done) | linarith
        have htt : t = -s := by
          rcases hs with rfl | rfl <;> rcases ht with rfl | rfl <;> first | (norm_num; done) | exact absurd rfl hst
        rw [if_neg (Ne.symm hst), if_neg (Ne.symm hst), htt, ← hss]
        refine ⟨hv', ?_, rfl⟩
        rcases ho' with ho' | ho'
        · exact ho'.1
        · rw [hss] at ho'; linarith [ho'.2]
      · intro _ hf
        have hss : s' = s := by
          rcases hs with rfl | rfl <;> rcases hs' with rfl | rfl <;> first | (norm_num; done) | linarith
        rw [← hss]
        refine ⟨hv', ?_⟩
        rcases ho' with ho' | ho'
        · rw [hss] at ho'; linarith [ho'.2]
        · exact ho'.1
      · intro hf
        linarith
    · have hss : s = -sg := by
        rcases hs with rfl | rfl <;> rcases hsg with rfl | rfl <;> first | (norm_num; done) | linarith
      rw [hpts, List.reverse_reverse, hP] at hQ
      cases hQ
      refine ⟨⟨_, .inl rfl, hP⟩, hne, ?_, ?_, ?_, ?_⟩
      · intro hf
        rw [hss] at htn; linarith
      · intro hf
        rw [hss] at htn; linarith
      · intro hf
        rw [hss] at htn; linarith
      · intro hf
        rw [← hss]
        exact ⟨hv, hpts⟩

/-! ### The edges of the plan -/

theorem mem_cycEdges_aux {α : Type} (x : α) : ∀ (l : List α) {e : α × α}, e ∈ List.zip l (l.tail ++ [x]) →
    (∃ pre post, l = pre ++ e.1 :: e.2 :: post) ∨ (∃ pre, l = pre ++ [e.1] ∧ e.2 = x)
  | [], e, h => by simp at h
  | [a], e, h => by
    simp only [List.tail_cons, List.nil_append, List.zip_cons_cons, List.zip_nil_left, List.mem_cons,
      List.not_mem_nil, or_false] at h
    subst h
    exact .inr ⟨[], rfl, rfl⟩
  | a :: b :: t, e, h => by
    simp only [List.tail_cons, List.cons_append, List.zip_cons_cons, List.mem_cons] at h
    rcases h with rfl | h
    · exact .inl ⟨[], t, rfl⟩
    · have h' : e ∈ List.zip (b :: t) ((b :: t).tail ++ [x]) := by
        simpa only [List.tail_cons, List.zip_cons_cons, List.mem_cons] using h
      rcases mem_cycEdges_aux x (b :: t) h' with ⟨pre, post, hp⟩ | ⟨pre, hp, he⟩
      · exact .inl ⟨a :: pre, post, by rw [hp]; rfl⟩
      · exact .inr ⟨a :: pre, by rw [hp]; rfl, he⟩

theorem mem_cycEdges {α : Type} {g : List α} (hn : 3 ≤ g.length) {e : α × α} (h : e ∈ cycEdges g) :
    (∃ pre post, g = pre ++ e.1 :: e.2 :: post) ∨ (∃ mid, mid ≠ [] ∧ g = e.2 :: mid ++ [e.1]) := by
  cases g with
  | nil => simp at hn
  | cons a t =>
    rcases mem_cycEdges_aux a (a :: t) (e := e) h with h | ⟨pre, hp, he⟩
    · exact .inl h
    · right
      cases pre with
      | nil => rw [hp] at hn; simp at hn
      | cons b pre =>
        have hb : a = b := by simp at hp; exact hp.1
        refine ⟨pre, ?_, by rw [hp, he, hb]⟩
        rintro rfl
        rw [hp] at hn
        simp at hn

theorem sideOutlines_eq (z0 z1 : ℝ) (g : List (ℝ × ℝ)) :
    sideOutlines (g.map (level z0)) (g.map (level z1)) g.length = (cycEdges g).map (side z0 z1) := by
  have hlen : (cycEdges g).length = g.length := by
    cases g with
    | nil => rfl
    | cons a t => simp [cycEdges]
  apply List.ext_getElem
  · simp [sideOutlines, hlen]
  · intro i h1 h2
    have hi : i < g.length := by simpa [hlen] using h2
    have hedge : (cycEdges g)[i]'(by rw [hlen]; exact hi) =
        (g[i], if h : i + 1 < g.length then g[i + 1] else g[0]) := by
      cases g with
      | nil => simp at hi
      | cons a t =>
        simp only [cycEdges, List.getElem_zip, List.length_cons, add_lt_add_iff_right, List.getElem_cons_succ,
          List.getElem_cons_zero, Prod.mk.injEq, true_and]
        split
        · rename_i h
          rw [List.getElem_append_left h]
        · rename_i h
          rw [List.getElem_append_right (by omega)]
          simp
    simp only [sideOutlines, List.getElem_map, List.getElem_range, hedge, side]
    by_cases h : i + 1 < g.length
    · rw [if_neg (by omega), dif_pos h]
      simp [List.getElem?_eq_getElem hi, List.getElem?_eq_getElem h]
    · rw [if_pos (by omega), dif_neg h]
      have h0 : 0 < g.length := by omega
      simp [List.getElem?_eq_getElem hi, List.getElem?_eq_getElem h0]

/-! ### The direction of the walls -/

/-- No two points are equal for `points_equal`. -/
def Separated (l : List (Vec3 ℝ)) : Prop :=
  l.Pairwise fun p q => pointsEqual p q = false ∧ pointsEqual q p = false

theorem Separated.reverse {l : List (Vec3 ℝ)} (h : Separated l) : Separated l.reverse :=
  List.pairwise_reverse.2 (h.imp fun h => ⟨h.2, h.1⟩)

theorem pointsEqual_self (p : Vec3 ℝ) : pointsEqual p p = true :=
  decide_eq_true (allClose_self (by norm_num [NP_RTOL]) (by norm_num [GEOM_ATOL]))

theorem adjacentLoop_skip (wp : List (Vec3 ℝ)) (rest : List (Vec3 ℝ)) :
    ∀ (pre : List (Vec3 ℝ)) (k : Nat) (adj : List (Vec3 ℝ)) (prev : Option Nat),
      (∀ p ∈ pre, isPointInArray p wp = false) → adj.length ≠ 2 →
      adjacentLoop wp ((pre ++ rest).zipIdx k) adj prev = adjacentLoop wp (rest.zipIdx (k + pre.length)) adj prev
  | [], k, adj, prev, _, _ => rfl
  | p :: pre, k, adj, prev, hp, ha => by
    rw [List.cons_append, List.zipIdx_cons]
    simp only [adjacentLoop, hp p List.mem_cons_self, Bool.false_eq_true, if_false, if_neg ha]
    rw [adjacentLoop_skip wp rest pre (k + 1) adj prev (fun q hq => hp q (List.mem_cons_of_mem _ hq)) ha,
      List.length_cons]
    congr 2
    omega

/-- The two points of an edge are found in the direction of the outline. -/
theorem adjacentLoop_edge {g wp : List (Vec3 ℝ)} {a b : Vec3 ℝ} (hs : Separated g)
    (hw : wp = [a, b] ∨ wp = [b, a])
    (hg : (∃ pre post, g = pre ++ a :: b :: post) ∨ (∃ mid, mid ≠ [] ∧ g = b :: mid ++ [a])) :
    adjacentLoop wp g.zipIdx [] none = [a, b] := by
  have ha : isPointInArray a wp = true := by
    rcases hw with rfl | rfl <;> simp [isPointInArray, pointsEqual_self]
  have hb : isPointInArray b wp = true := by
    rcases hw with rfl | rfl <;> simp [isPointInArray, pointsEqual_self]
  have hno : ∀ p, pointsEqual p a = false → pointsEqual p b = false → isPointInArray p wp = false := by
    intro p h1 h2
    rcases hw with rfl | rfl <;> simp [isPointInArray, h1, h2]
  rcases hg with ⟨pre, post, rfl⟩ | ⟨mid, hm, rfl⟩
  · rw [Separated, List.pairwise_append] at hs
    obtain ⟨-, -, h3⟩ := hs
    rw [adjacentLoop_skip wp _ pre 0 [] none (fun p hp => hno p (h3 p hp a (by simp)).1
      (h3 p hp b (by simp)).1) (by simp)]
    simp [List.zipIdx_cons, adjacentLoop, ha, hb]
  · have hs' := hs
    rw [List.cons_append, Separated, List.pairwise_cons, List.pairwise_append] at hs
    obtain ⟨h1, -, -, h3⟩ := hs
    rw [List.cons_append, List.zipIdx_cons]
    simp only [adjacentLoop, hb, if_true, List.nil_append, List.length_singleton]
    rw [if_neg (by norm_num), adjacentLoop_skip wp [a] mid (0 + 1) [b] (some 0)
      (fun p hp => hno p (h3 p hp a (by simp)).1 (h1 p (by simp [hp])).2) (by simp)]
    have : mid.length ≠ 0 := by simpa using hm
    have h' : ¬ (0 : Int) = mid.length := by omega
    simp [List.zipIdx_cons, adjacentLoop, ha, h']

theorem rect_new {a u w : Vec3 ℝ} {P : Poly} (h : polygonNew [a, a + u, a + u + w, a + w] none none = .ok P) :
    P.pts = [a, a + u, a + u + w, a + w] ∧ P.vn = some (rectNormal u w) ∧ Vec3.cross u w ≠ 0 := by
  obtain ⟨hn, v, hv, hc, -⟩ := polygonNew_ok h
  obtain ⟨v', hv', -, -, -, -, -, hi⟩ := C70_orientation h
  obtain rfl : v = v' := by rw [hv, Option.some.injEq] at hv'; exact hv'
  have e : Vec3.cross (a - (a + w)) (a + u - (a + w)) = Vec3.cross u w := by
    ext <;> simp <;> ring
  simp only [chooseNormal, List.getLast?_cons_cons, List.getLast?_singleton, List.getElem?_cons_zero,
    List.getElem?_cons_succ, normal, e, Except.ok.injEq] at hc
  split at hc
  · cases hc
  rename_i hcl
  rw [Option.some.injEq] at hc
  have hne : Vec3.cross u w ≠ 0 := by
    intro e0
    rw [e0] at hcl
    apply hcl
    norm_num [isClose, NP_ATOL, Vec3.norm, Vec3.normSq, Vec3.dot]
  refine ⟨hi.2 ?_, by rw [hv, ← hc]; rfl, hne⟩
  have e2 : cycSum Vec3.cross [a, a + u, a + u + w, a + w] = (2 : ℝ) • Vec3.cross u w := by
    ext <;> simp [cycSum, pathSum] <;> ring
  rw [e2, ← hc, Vec3.dot_smul_left, Vec3.dot_smul_right]
  have hpos : 0 < Vec3.norm (Vec3.cross u w) := by
    rcases (Vec3.norm_nonneg (Vec3.cross u w)).lt_or_eq with h | h
    · exact h
    · exact absurd (Vec3.norm_eq_zero.1 h.symm) hne
  have : 0 < Vec3.dot (Vec3.cross u w) (Vec3.cross u w) := Vec3.normSq_pos hne
  positivity

/-! ### The walls -/

theorem validateName_ok {n m : Str} (h : validateName n = .ok m) : m = n := by
  simp only [validateName] at h
  split at h
  · cases h
  · cases h; rfl

theorem faceWall_ok {wn pn : Str} {pts : List (Vec3 ℝ)} {W : WallG} (h : faceWall (wn, pn, pts) = .ok W) :
    ∃ P, W = ⟨wn, [(pn, P)]⟩ ∧ polygonNew pts none none = .ok P := by
  unfold faceWall at h
  split at h
  · cases h
  rename_i R hR
  unfold namedPolygon at hR
  split at hR
  · cases hR
  rename_i pn' hpn
  split at hR
  · cases hR
  rename_i P hP
  cases hR
  unfold oneWall at h
  split at h
  · cases h
  rename_i wn' hwn
  cases h
  rw [validateName_ok hpn, validateName_ok hwn]
  exact ⟨P, rfl, hP⟩

theorem side_rect (z0 z1 : ℝ) (e : (ℝ × ℝ) × (ℝ × ℝ)) :
    side z0 z1 e = [level z0 e.1, level z0 e.1 + ⟨e.2.1 - e.1.1, e.2.2 - e.1.2, 0⟩,
      level z0 e.1 + ⟨e.2.1 - e.1.1, e.2.2 - e.1.2, 0⟩ + ⟨0, 0, z1 - z0⟩, level z0 e.1 + ⟨0, 0, z1 - z0⟩] := by
  simp [side, level, Vec3.ext_iff]

theorem side_reverse_rect (z0 z1 : ℝ) (e : (ℝ × ℝ) × (ℝ × ℝ)) :
    (side z0 z1 e).reverse = [level z1 e.1, level z1 e.1 + ⟨e.2.1 - e.1.1, e.2.2 - e.1.2, 0⟩,
      level z1 e.1 + ⟨e.2.1 - e.1.1, e.2.2 - e.1.2, 0⟩ + ⟨0, 0, z0 - z1⟩, level z1 e.1 + ⟨0, 0, z0 - z1⟩] := by
  simp [side, level, Vec3.ext_iff]

theorem norm_smul_pos {k : ℝ} (hk : 0 < k) (x : Vec3 ℝ) : Vec3.norm (k • x) = k * Vec3.norm x := by
  rw [Vec3.norm, Vec3.norm, show Vec3.normSq (k • x) = k * k * Vec3.normSq x by
    simp only [Vec3.normSq_def, Vec3.smul_x, Vec3.smul_y, Vec3.smul_z]; ring,
    Real.sqrt_mul (mul_self_nonneg k), Real.sqrt_mul_self hk.le]

theorem unit_smul_pos {k : ℝ} (hk : 0 < k) {x : Vec3 ℝ} :
    (1 / Vec3.norm (k • x)) • (k • x) = (1 / Vec3.norm x) • x := by
  rw [norm_smul_pos hk, smul_smul]
  congr 1
  by_cases hx : Vec3.norm x = 0
  · rw [hx]; simp
  · field_simp

theorem rectNormal_side {h : ℝ} (hh : 0 < h) (e : (ℝ × ℝ) × (ℝ × ℝ)) :
    rectNormal ⟨e.2.1 - e.1.1, e.2.2 - e.1.2, 0⟩ ⟨0, 0, h⟩ = rightNormal e ∧
    rectNormal ⟨e.2.1 - e.1.1, e.2.2 - e.1.2, 0⟩ ⟨0, 0, -h⟩ = -rightNormal e := by
  constructor
  · have : Vec3.cross (⟨e.2.1 - e.1.1, e.2.2 - e.1.2, 0⟩ : Vec3 ℝ) ⟨0, 0, h⟩ =
        h • ⟨e.2.2 - e.1.2, -(e.2.1 - e.1.1), 0⟩ := by ext <;> simp <;> ring
    rw [rectNormal, this, unit_smul_pos hh, rightNormal]
  · have : Vec3.cross (⟨e.2.1 - e.1.1, e.2.2 - e.1.2, 0⟩ : Vec3 ℝ) ⟨0, 0, -h⟩ =
        h • -(⟨e.2.2 - e.1.2, -(e.2.1 - e.1.1), 0⟩ : Vec3 ℝ) := by ext <;> simp <;> ring
    rw [rectNormal, this, unit_smul_pos hh, rightNormal, Vec3.norm_neg, smul_neg]

theorem fromFlat_side {z0 z1 : ℝ} {e : (ℝ × ℝ) × (ℝ × ℝ)} {pts : List (Vec3 ℝ)} {P : Poly} {k : ℝ}
    (hp : pts = side z0 z1 e ∨ pts = (side z0 z1 e).reverse)
    (h : polygonNew pts none none = .ok P) (hv : P.vn = some (k • rightNormal e)) : FromFlat P := by
  refine ⟨pts, none, _, h, hv, ?_⟩
  have key : ∀ p ∈ pts, Vec3.dot (rightNormal e) p = Vec3.dot (rightNormal e) (level z0 e.1) := by
    intro p hpp
    have : p ∈ side z0 z1 e := by
      rcases hp with rfl | rfl
      · exact hpp
      · exact List.mem_reverse.1 hpp
    simp only [side, List.mem_cons, List.not_mem_nil, or_false] at this
    unfold rightNormal
    rw [Vec3.dot_smul_left, Vec3.dot_smul_left]
    congr 1
    rcases this with rfl | rfl | rfl | rfl <;> simp [level, Vec3.dot] <;> ring
  intro p hpp q hq
  rw [Vec3.dot_smul_left, Vec3.dot_smul_left, key p hpp, key q hq]

/-- The outline of a face: as given for a plan that runs counter-clockwise, otherwise reversed. -/
def orient {α : Type} (ccw : Bool) (l : List α) : List α := if ccw then l else l.reverse

theorem directionOk_spec {z0 z1 : ℝ} {g : List (ℝ × ℝ)} {e : (ℝ × ℝ) × (ℝ × ℝ)} {wpts fpts : List (Vec3 ℝ)}
    {ccw : Bool} (hz : z0 < z1) (hn : 3 ≤ g.length) (he : e ∈ cycEdges g) (hs : Separated (g.map (level z0)))
    (hf : fpts = if ccw then (g.map (level z0)).reverse else g.map (level z0)) (h1 : wpts = side z0 z1 e) :
    directionOk wpts fpts z0 = .ok ccw := by
  have hwp : wpts.filter (fun p => decide (p.z = z0)) = [level z0 e.1, level z0 e.2] := by
    rw [h1]
    have hne : ¬ z1 = z0 := hz.ne'
    simp [side, level, hne]
  -- the edge in the outline of the floor polygon
  have hedge : ∀ (a b : ℝ × ℝ), ((∃ pre post, g = pre ++ a :: b :: post) ∨ (∃ mid, mid ≠ [] ∧ g = b :: mid ++ [a])) →
      (∃ pre post, g.map (level z0) = pre ++ level z0 a :: level z0 b :: post) ∨
      (∃ mid, mid ≠ [] ∧ g.map (level z0) = level z0 b :: mid ++ [level z0 a]) := by
    rintro a b (⟨pre, post, e⟩ | ⟨mid, hm, e⟩)
    · exact .inl ⟨pre.map (level z0), post.map (level z0), by rw [e]; simp⟩
    · exact .inr ⟨mid.map (level z0), by simpa using hm, by rw [e]; simp⟩
  have hmem := hedge _ _ (mem_cycEdges hn he)
  have hpair : pointsEqual (level z0 e.1) (level z0 e.2) = false := by
    rcases hmem with ⟨pre, post, e⟩ | ⟨mid, hm, e⟩
    · rw [e, Separated, List.pairwise_append] at hs
      exact ((List.pairwise_cons.1 hs.2.1).1 _ List.mem_cons_self).1
    · rw [e, List.cons_append, Separated, List.pairwise_cons] at hs
      exact (hs.1 (level z0 _) (by simp)).2
  cases ccw with
  | true =>
    simp only [if_true] at hf
    have hadj : adjacentLoop [level z0 e.1, level z0 e.2] fpts.zipIdx [] none = [level z0 e.2, level z0 e.1] := by
      apply adjacentLoop_edge (by rw [hf]; exact hs.reverse) (.inr rfl)
      rw [hf]
      rcases hmem with ⟨pre, post, e⟩ | ⟨mid, hm, e⟩
      · exact .inl ⟨post.reverse, pre.reverse, by rw [e]; simp⟩
      · exact .inr ⟨mid.reverse, by simpa using hm, by rw [e]; simp⟩
    simp only [directionOk]
    rw [hwp, hadj]
    simp [pointsEqual_self]
  | false =>
    simp only [Bool.false_eq_true, if_false] at hf
    have hadj : adjacentLoop [level z0 e.1, level z0 e.2] fpts.zipIdx [] none = [level z0 e.1, level z0 e.2] := by
      apply adjacentLoop_edge (by rw [hf]; exact hs) (.inl rfl)
      rw [hf]
      exact hmem
    simp only [directionOk]
    rw [hwp, hadj]
    simp [hpair]

theorem fixWall_spec {z0 z1 : ℝ} {g : List (ℝ × ℝ)} {e : (ℝ × ℝ) × (ℝ × ℝ)} {name : Str} {W W' : WallG}
    {fpts : List (Vec3 ℝ)} {ccw : Bool} (hz : z0 < z1) (hn : 3 ≤ g.length) (he : e ∈ cycEdges g)
    (hs : Separated (g.map (level z0)))
    (hf : fpts = if ccw then (g.map (level z0)).reverse else g.map (level z0))
    (hW : faceWall (name, name, side z0 z1 e) = .ok W) (h : fixWall fpts z0 W = .ok W') :
    ∃ P, W' = ⟨name, [(name, P)]⟩ ∧ P.pts = orient ccw (side z0 z1 e) ∧
      P.vn = some ((if ccw then 1 else -1 : ℝ) • rightNormal e) ∧ FromFlat P := by
  obtain ⟨P, rfl, hP⟩ := faceWall_ok hW
  have hP' := hP
  rw [side_rect] at hP'
  obtain ⟨h1, h2, -⟩ := rect_new hP'
  rw [← side_rect] at h1
  have hz' : 0 < z1 - z0 := by linarith
  rw [(rectNormal_side hz' e).1] at h2
  have hdir := directionOk_spec hz hn he hs hf h1
  cases ccw with
  | true =>
    simp only [fixWall, hdir, Except.ok.injEq] at h
    refine ⟨P, h.symm, h1, by simpa using h2, fromFlat_side (.inl rfl) hP (k := 1) (by simpa using h2)⟩
  | false =>
    simp only [fixWall, hdir] at h
    split at h
    · cases h
    rename_i Q hQ
    cases h
    unfold Polygon.flip at hQ
    rw [h1] at hQ
    have hQ' := hQ
    rw [side_reverse_rect] at hQ'
    obtain ⟨g1, g2, -⟩ := rect_new hQ'
    rw [← side_reverse_rect] at g1
    rw [show z0 - z1 = -(z1 - z0) by ring, (rectNormal_side hz' e).2] at g2
    have g3 : Q.vn = some ((-1 : ℝ) • rightNormal e) := by rw [g2]; simp
    exact ⟨Q, rfl, g1, by simpa using g2, fromFlat_side (.inr rfl) hQ g3⟩

/-- `floor_plan` succeeds if the polygons can be constructed and the names are valid and different. -/
theorem planSolid_ok {z0 z1 : ℝ} {g : List (ℝ × ℝ)} {names : List Str} {fn cn r1 r2 : Str} {F C : Str × Poly}
    {ccw : Bool} (hz : z0 < z1) (hn : 3 ≤ g.length) (hs : Separated (g.map (level z0)))
    (hnl : names.length = g.length) (hnv : ∀ n ∈ names ++ [fn, cn], validateName n = .ok n)
    (hnd : (names ++ [fn, cn]).Nodup)
    (hF : levelPolygon (g.map (level z0)) fn r1 ⟨0, 0, -1⟩ = .ok F)
    (hFp : F.2.pts = if ccw then (g.map (level z0)).reverse else g.map (level z0))
    (hC : levelPolygon (g.map (level z1)) cn r2 ⟨0, 0, 1⟩ = .ok C)
    (hside : ∀ e ∈ cycEdges g, (∃ P, polygonNew (side z0 z1 e) none none = .ok P) ∧
      (ccw = false → ∃ P, polygonNew (side z0 z1 e).reverse none none = .ok P)) :
    ∃ S, planSolid (g.map (level z0)) (g.map (level z1)) z0 names fn cn r1 r2 = .ok S := by
  have hlm : (g.map (level z0)).length = g.length := by simp
  obtain ⟨walls, hw, hR⟩ := mapExcept_ok (f := fun f : List (Vec3 ℝ) × Str => faceWall (f.2, f.2, f.1))
    (l := ((cycEdges g).map (side z0 z1)).zip names)
    (R := fun a b => b.name = a.2 ∧ ∃ e ∈ cycEdges g, ∃ P, b = ⟨a.2, [(a.2, P)]⟩ ∧ P.pts = side z0 z1 e) (by
      rintro ⟨a, n⟩ hm
      obtain ⟨m1, m2⟩ := List.of_mem_zip hm
      obtain ⟨e, he, rfl⟩ := List.mem_map.1 m1
      obtain ⟨⟨P, hP⟩, -⟩ := hside e he
      have hv := hnv n (by simp [m2])
      refine ⟨⟨n, [(n, P)]⟩, by simp [faceWall, namedPolygon, hv, hP, oneWall], rfl, e, he, P, rfl, ?_⟩
      rw [side_rect] at hP
      rw [(rect_new hP).1, ← side_rect])
  have hnames : walls.map WallG.name = names := by
    have hl : ((cycEdges g).map (side z0 z1)).length = names.length := by
      rw [List.length_map, Spec.length_cycEdges, hnl]
    have : walls.map WallG.name = (((cycEdges g).map (side z0 z1)).zip names).map Prod.snd := by
      clear hw hl
      generalize ((cycEdges g).map (side z0 z1)).zip names = L at hR
      induction hR with
      | nil => rfl
      | cons h _ ih => simp [h.1, ih]
    rw [this]
    exact List.map_snd_zip (by omega)
  have hall : ∀ W ∈ walls, ∃ e ∈ cycEdges g, ∃ P, ∃ n, W = ⟨n, [(n, P)]⟩ ∧ P.pts = side z0 z1 e := by
    clear hw hnames
    generalize ((cycEdges g).map (side z0 z1)).zip names = L at hR
    induction hR with
    | nil => simp
    | cons h _ ih =>
      obtain ⟨-, e, he, P, h1, h2⟩ := h
      intro W hW
      rcases List.mem_cons.1 hW with rfl | hW
      · exact ⟨e, he, P, _, h1, h2⟩
      · exact ih W hW
  obtain ⟨walls', hw', hR'⟩ := mapExcept_ok (f := fixWall F.2.pts z0) (l := walls)
    (R := fun a b => b.name = a.name) (by
      intro W hW
      obtain ⟨e, he, P, n, rfl, hp⟩ := hall W hW
      have hdir := directionOk_spec hz hn he hs hFp hp
      cases ccw with
      | true => exact ⟨_, by simp only [fixWall, hdir], rfl⟩
      | false =>
        obtain ⟨-, h2⟩ := hside e he
        obtain ⟨Q, hQ⟩ := h2 rfl
        rw [← hp] at hQ
        refine ⟨⟨n, [(n, Q)]⟩, ?_, rfl⟩
        have hq : Polygon.flip P = .ok Q := hQ
        simp only [fixWall, hdir, hq])
  have hnames' : walls'.map WallG.name = names := by
    rw [← hnames]
    clear hw hw' hR hnames hall
    induction hR' with
    | nil => rfl
    | cons h _ ih => simp [h, ih]
  have hfv := hnv fn (by simp)
  have hcv := hnv cn (by simp)
  refine ⟨walls' ++ [⟨fn, [F]⟩, ⟨cn, [C]⟩], ?_⟩
  unfold planSolid
  rw [hlm, sideOutlines_eq, hw]
  simp only [hF, hC, oneWall, hfv, hcv, hw', makeSolid]
  rw [if_pos (by simpa [hnames'] using hnd)]

end B3d.Solids
