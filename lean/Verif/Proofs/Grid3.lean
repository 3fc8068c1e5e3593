import Verif.Proofs.GridSimple
import Verif.Props.SimplePolygons
import Verif.Props.Shapes

/-!
# Convex polygons with integer corners in space

A computable check that a list of integer corners, with a normal of rational length, is accepted by the constructor with the
ears fanned out, and a computable comparison of such polygons.
-/

namespace B3d.Grid3

open Spec Polygon Solids Triangles ConvexEars

abbrev G3 := ℤ × ℤ × ℤ

/-- The corner with these coordinates. -/
def c3 (p : G3) : Vec3 ℝ := ⟨p.1, p.2.1, p.2.2⟩

theorem c3_inj {p q : G3} (h : c3 p = c3 q) : p = q := by
  have h1 := congrArg Vec3.x h
  have h2 := congrArg Vec3.y h
  have h3 := congrArg Vec3.z h
  simp only [c3, Int.cast_inj] at h1 h2 h3
  exact Prod.ext h1 (Prod.ext h2 h3)

/-- Corners, and the normal as a vector of length `m`. -/
structure GPoly where
  pts : List G3
  n : G3
  m : ℤ
  deriving DecidableEq

def gdot (a b : G3) : ℤ := a.1 * b.1 + a.2.1 * b.2.1 + a.2.2 * b.2.2
def gcross (a b : G3) : G3 := (a.2.1 * b.2.2 - a.2.2 * b.2.1, a.2.2 * b.1 - a.1 * b.2.2, a.1 * b.2.1 - a.2.1 * b.1)

/-- The unit normal. -/
noncomputable def GPoly.v (g : GPoly) : Vec3 ℝ := ⟨g.n.1 / g.m, g.n.2.1 / g.m, g.n.2.2 / g.m⟩

/-- `Thick`, computed with integers. -/
def gThick (g : GPoly) (a b c : G3) : Prop :=
  let k := gcross (b - a) (c - a)
  let D := gdot k g.n / g.m
  1 ≤ D ∧ g.m * k.1 = D * g.n.1 ∧ g.m * k.2.1 = D * g.n.2.1 ∧ g.m * k.2.2 = D * g.n.2.2 ∧
    4 * (gdot (b - a) (b - a) * gdot (c - a) (c - a)) ≤ 10 ^ 9 * D ^ 2 ∧
    4 * (gdot (c - b) (c - b) * gdot (a - b) (a - b)) ≤ 10 ^ 9 * D ^ 2 ∧
    4 * (gdot (a - c) (a - c) * gdot (b - c) (b - c)) ≤ 10 ^ 9 * D ^ 2

instance (g : GPoly) (a b c : G3) : Decidable (gThick g a b c) := by unfold gThick; infer_instance

def gThickL (g : GPoly) : List G3 → Prop
  | [a, b, c] => gThick g a b c
  | _ => True

instance (g : GPoly) : (l : List G3) → Decidable (gThickL g l)
  | [a, b, c] => inferInstanceAs (Decidable (gThick g a b c))
  | [] => inferInstanceAs (Decidable True)
  | [_] => inferInstanceAs (Decidable True)
  | [_, _] => inferInstanceAs (Decidable True)
  | _ :: _ :: _ :: _ :: _ => inferInstanceAs (Decidable True)

/-- The coordinates are small. -/
def gSmall (p : G3) : Prop := |p.1| ≤ 1000 ∧ |p.2.1| ≤ 1000 ∧ |p.2.2| ≤ 1000

instance (p : G3) : Decidable (gSmall p) := by unfold gSmall; infer_instance

/-- Everything that is checked. -/
def GPoly.Ok (g : GPoly) : Prop :=
  0 < g.m ∧ g.m ≤ 1000 ∧ gdot g.n g.n = g.m * g.m ∧ 3 ≤ g.pts.length ∧ g.pts.Nodup ∧ (∀ p ∈ g.pts, gSmall p) ∧
    ∀ l ∈ g.pts.sublistsLen 3, gThickL g l

instance (g : GPoly) : Decidable g.Ok := by unfold GPoly.Ok; infer_instance

theorem diff_ge {a b : ℤ} (h : a ≠ b) : (1 : ℝ) ≤ |(a : ℝ) - b| := by
  have : 1 ≤ |a - b| := Int.one_le_abs (by omega)
  exact_mod_cast this

theorem small_real {a : ℤ} (h : |a| ≤ 1000) : |(a : ℝ)| ≤ 1000 := by exact_mod_cast h

theorem apart_c3 {p q : G3} (hq : gSmall q) (h : p ≠ q) : Apart (c3 p) (c3 q) := by
  have key : ∀ a b : ℤ, |b| ≤ 1000 → a ≠ b → 1 / 10 ^ 10 + 1 / 10 ^ 5 * |(b : ℝ)| < |(a : ℝ) - b| := by
    intro a b h1 hne
    have := diff_ge hne
    have := small_real h1
    linarith
  by_cases h1 : p.1 = q.1
  · by_cases h2 : p.2.1 = q.2.1
    · exact .inr (.inr (key _ _ hq.2.2 fun h3 => h (Prod.ext h1 (Prod.ext h2 h3))))
    · exact .inr (.inl (key _ _ hq.2.1 h2))
  · exact .inl (key _ _ hq.1 h1)

theorem not_closeCorners {p q : G3} (hq : gSmall q) (h : p ≠ q) : ¬ CloseCorners (c3 p) (c3 q) := by
  rintro ⟨h1, h2, h3⟩
  have key : ∀ a b : ℤ, |b| ≤ 1000 → |(a : ℝ) - b| ≤ 1 / 10 ^ 13 + 1 / 10 ^ 5 * |(b : ℝ)| → a = b := by
    intro a b h1 hle
    by_contra hne
    have := diff_ge hne
    have := small_real h1
    linarith
  exact h (Prod.ext (key _ _ hq.1 h1) (Prod.ext (key _ _ hq.2.1 h2) (key _ _ hq.2.2 h3)))

theorem normSq_c3 (a b : G3) : Vec3.normSq (c3 a - c3 b) = (gdot (a - b) (a - b) : ℤ) := by
  simp only [Vec3.normSq, Vec3.dot, c3, gdot, Vec3.sub_x, Vec3.sub_y, Vec3.sub_z, Prod.fst_sub, Prod.snd_sub]
  push_cast
  ring

theorem thick_c3 {g : GPoly} (hm : 0 < g.m) {a b c : G3} (h : gThick g a b c) : Thick g.v (c3 a) (c3 b) (c3 c) := by
  obtain ⟨h1, h2, h3, h4, h5, h6, h7⟩ := h
  generalize gdot (gcross (b - a) (c - a)) g.n / g.m = D at *
  have hm' : (g.m : ℝ) ≠ 0 := by exact_mod_cast hm.ne'
  have h1' : (1 : ℝ) ≤ D := by exact_mod_cast h1
  have conv : ∀ x y : ℤ, 4 * (x * y) ≤ 10 ^ 9 * D ^ 2 → 4 / 10 ^ 9 * ((x : ℝ) * y) ≤ (D : ℝ) ^ 2 := by
    intro x y h
    have : (4 : ℝ) * (x * y) ≤ 10 ^ 9 * (D : ℝ) ^ 2 := by exact_mod_cast h
    linarith
  refine ⟨D, by linarith, ?_, ?_, ?_, ?_⟩
  · have e2 : (g.m : ℝ) * ((gcross (b - a) (c - a)).1 : ℤ) = D * g.n.1 := by exact_mod_cast h2
    have e3 : (g.m : ℝ) * ((gcross (b - a) (c - a)).2.1 : ℤ) = D * g.n.2.1 := by exact_mod_cast h3
    have e4 : (g.m : ℝ) * ((gcross (b - a) (c - a)).2.2 : ℤ) = D * g.n.2.2 := by exact_mod_cast h4
    simp only [gcross, Prod.fst_sub, Prod.snd_sub] at e2 e3 e4
    push_cast at e2 e3 e4
    ext
    · simp only [Vec3.cross_x, Vec3.sub_y, Vec3.sub_z, Vec3.smul_x, c3, GPoly.v]
      field_simp
      linarith
    · simp only [Vec3.cross_y, Vec3.sub_x, Vec3.sub_z, Vec3.smul_y, c3, GPoly.v]
      field_simp
      linarith
    · simp only [Vec3.cross_z, Vec3.sub_x, Vec3.sub_y, Vec3.smul_z, c3, GPoly.v]
      field_simp
      linarith
  · rw [normSq_c3, normSq_c3]; exact conv _ _ h5
  · rw [normSq_c3, normSq_c3]; exact conv _ _ h6
  · rw [normSq_c3, normSq_c3]; exact conv _ _ h7

theorem unit_v {g : GPoly} (hm : 0 < g.m) (hn : gdot g.n g.n = g.m * g.m) : Vec3.norm g.v = 1 := by
  have hm' : (g.m : ℝ) ≠ 0 := by exact_mod_cast hm.ne'
  have hn' : (g.n.1 : ℝ) * g.n.1 + g.n.2.1 * g.n.2.1 + g.n.2.2 * g.n.2.2 = g.m * g.m := by exact_mod_cast hn
  rw [Vec3.norm, show Vec3.normSq g.v = 1 by
    simp only [Vec3.normSq, Vec3.dot, GPoly.v]
    field_simp
    linarith, Real.sqrt_one]

theorem convex_c3 {g : GPoly} (h : g.Ok) : ConvexOutline g.v (g.pts.map c3) := by
  obtain ⟨hm, -, hn, hl, hnd, hs, ht⟩ := h
  refine ⟨unit_v hm hn, by rw [List.length_map]; exact hl, ?_, ?_⟩
  · intro p q h
    obtain ⟨l, hl, e⟩ := List.sublist_map_iff.1 h
    match l, e with
    | [a, b], e =>
      simp only [List.map_cons, List.map_nil, List.cons.injEq, and_true] at e
      obtain ⟨rfl, rfl⟩ := e
      have hab : a ≠ b := List.pairwise_iff_forall_sublist.1 hnd hl
      exact ⟨apart_c3 (hs _ (hl.subset (by simp))) hab, apart_c3 (hs _ (hl.subset (by simp))) hab.symm⟩
  · intro p q r h
    obtain ⟨l, hl, e⟩ := List.sublist_map_iff.1 h
    match l, e with
    | [a, b, c], e =>
      simp only [List.map_cons, List.map_nil, List.cons.injEq, and_true] at e
      obtain ⟨rfl, rfl, rfl⟩ := e
      exact thick_c3 hm (ht _ (List.mem_sublistsLen.2 ⟨hl, rfl⟩))

/-- The polygon made from the corners. -/
noncomputable def GPoly.poly (g : GPoly) : Poly :=
  match polygonNew (g.pts.map c3) none none with
  | .ok P => P
  | .error _ => ⟨[], none, [], 0, none, none⟩

theorem poly_spec {g : GPoly} (h : g.Ok) : polygonNew (g.pts.map c3) none none = .ok g.poly ∧ g.poly.pts = g.pts.map c3 ∧
    g.poly.vn = some g.v ∧ g.poly.tri = (List.range (g.pts.length - 2)).map fun i => (g.pts.length - 1, i, i + 1) := by
  obtain ⟨P, h1, h2, h3, h4⟩ := C84_convex_partial (convex_c3 h)
  have e : g.poly = P := by unfold GPoly.poly; rw [h1]
  rw [List.length_map] at h4
  rw [e]
  exact ⟨h1, h2, h3, h4⟩

/-- A convex outline is a face with its normal. -/
theorem convex_corner {v : Vec3 ℝ} {pts : List (Vec3 ℝ)} (h : ConvexOutline v pts) : CornerNormal pts v := by
  have hn := h.corners
  obtain ⟨p0, h0⟩ : ∃ p, pts[0]? = some p := ⟨_, List.getElem?_eq_getElem (by omega)⟩
  obtain ⟨p1, h1⟩ : ∃ p, pts[1]? = some p := ⟨_, List.getElem?_eq_getElem (by omega)⟩
  obtain ⟨pl, hl⟩ : ∃ p, pts[pts.length - 1]? = some p := ⟨_, List.getElem?_eq_getElem (by omega)⟩
  obtain ⟨D, hD, hc, -⟩ := (h.turns _ _ _ (sublist3 (by omega) (by omega) h0 h1 hl)).rot.rot
  have hnm : Vec3.norm (Vec3.cross (p0 - pl) (p1 - pl)) = D := by
    rw [hc, Vec3.norm_smul, h.unit, abs_of_nonneg (by linarith), mul_one]
  refine ⟨h.unit, pl, p0, p1, by rw [List.getLast?_eq_getElem?, hl], h0, h1, ?_, ?_⟩
  · rw [hnm]; linarith
  · rw [hnm, hc]

theorem convex_spans {v : Vec3 ℝ} {pts : List (Vec3 ℝ)} (h : ConvexOutline v pts) : SpansPlane pts := by
  have hn := h.corners
  obtain ⟨p0, h0⟩ : ∃ p, pts[0]? = some p := ⟨_, List.getElem?_eq_getElem (by omega)⟩
  obtain ⟨p1, h1⟩ : ∃ p, pts[1]? = some p := ⟨_, List.getElem?_eq_getElem (by omega)⟩
  obtain ⟨p2, h2⟩ : ∃ p, pts[2]? = some p := ⟨_, List.getElem?_eq_getElem (by omega)⟩
  obtain ⟨D, hD, hc, hb, -⟩ := h.turns _ _ _ (sublist3 (by omega) (by omega) h0 h1 h2)
  have hnm : Vec3.norm (Vec3.cross (p1 - p0) (p2 - p0)) = D := by
    rw [hc, Vec3.norm_smul, h.unit, abs_of_nonneg (by linarith), mul_one]
  have far : ∀ {p q : Vec3 ℝ}, Apart p q → 1 / 10 ^ 11 ≤ Vec3.norm (p - q) := by
    intro p q hpq
    have hsq : Vec3.normSq (p - q) = (p.x - q.x) ^ 2 + (p.y - q.y) ^ 2 + (p.z - q.z) ^ 2 := by
      simp only [Vec3.normSq, Vec3.dot, Vec3.sub_x, Vec3.sub_y, Vec3.sub_z]; ring
    have cx : |p.x - q.x| ≤ Vec3.norm (p - q) := Vec3.le_norm_of_sq (by rw [hsq, sq_abs]; nlinarith)
    have cy : |p.y - q.y| ≤ Vec3.norm (p - q) := Vec3.le_norm_of_sq (by rw [hsq, sq_abs]; nlinarith)
    have cz : |p.z - q.z| ≤ Vec3.norm (p - q) := Vec3.le_norm_of_sq (by rw [hsq, sq_abs]; nlinarith)
    have := abs_nonneg q.x
    have := abs_nonneg q.y
    have := abs_nonneg q.z
    rcases hpq with h | h | h <;> linarith
  refine ⟨⟨0, p0, p1, p2, h0, h1, h2, by rw [hnm]; linarith⟩, 0, p0, p1, p2, h0, h1, h2,
    far (h.apart _ _ (sublist2 (by omega) h0 h1)).2, far (h.apart _ _ (sublist2 (by omega) h0 h2)).2, ?_⟩
  have e := Vec3.normSq_cross (p1 - p0) (p2 - p0)
  rw [← Vec3.norm_sq, hnm] at e
  linarith

theorem face_poly {g : GPoly} (h : g.Ok) : ∃ e, Face g.poly g.v g.v e := by
  obtain ⟨h1, h2, h3, h4⟩ := poly_spec h
  obtain ⟨e, he⟩ := convex_flat (convex_c3 h)
  exact ⟨e, ⟨_, _, h1⟩, h3, by rw [h2]; exact he, by rw [h2]; exact convex_corner (convex_c3 h)⟩

theorem crisp_poly {g : GPoly} (h : g.Ok) : g.poly.Crisp := by
  obtain ⟨h1, h2, h3, h4⟩ := poly_spec h
  intro a ha b hb hc
  rw [h2] at ha hb
  obtain ⟨a, ha', rfl⟩ := List.mem_map.1 ha
  obtain ⟨b, hb', rfl⟩ := List.mem_map.1 hb
  by_contra hne
  exact not_closeCorners (h.2.2.2.2.2.1 b hb') (fun e => hne (by rw [e])) hc

/-- The two sides of one polygon, computed with integers. -/
def gTwo (g k : GPoly) : Prop :=
  k.pts.IsRotated g.pts.reverse ∧ k.m = g.m ∧ k.n = -g.n

instance (g k : GPoly) : Decidable (gTwo g k) := by unfold gTwo; infer_instance

/-- Clearly not the two sides of one polygon, computed with integers. -/
def gUnlike (g k : GPoly) : Prop := (∃ a ∈ g.pts, a ∉ k.pts) ∨ (k.m = g.m ∧ k.n ≠ -g.n)

instance (g k : GPoly) : Decidable (gUnlike g k) := by unfold gUnlike; infer_instance

theorem two_poly {g k : GPoly} (hg : g.Ok) (hk : k.Ok) (h : gTwo g k) : g.poly.TwoSides k.poly := by
  obtain ⟨-, h2, h3, -⟩ := poly_spec hg
  obtain ⟨-, k2, k3, -⟩ := poly_spec hk
  obtain ⟨a, b, c⟩ := h
  refine ⟨_, _, h3, k3, ?_, ?_⟩
  · rw [h2, k2, ← List.map_reverse]
    exact a.map c3
  · unfold GPoly.v
    rw [b, c]
    ext <;> simp <;> ring

theorem unlike_poly {g k : GPoly} (hg : g.Ok) (hk : k.Ok) (h : gUnlike g k) : g.poly.Unlike k.poly := by
  obtain ⟨-, h2, h3, -⟩ := poly_spec hg
  obtain ⟨-, k2, k3, -⟩ := poly_spec hk
  intro v w hv hw
  rw [h3, Option.some.injEq] at hv
  rw [k3, Option.some.injEq] at hw
  subst hv hw
  rcases h with ⟨a, ha, hn⟩ | ⟨hm, hn⟩
  · refine .inl ⟨c3 a, by rw [h2]; exact List.mem_map_of_mem ha, ?_⟩
    rw [k2]
    intro b hb
    obtain ⟨b, hb', rfl⟩ := List.mem_map.1 hb
    exact not_closeCorners (hk.2.2.2.2.2.1 b hb') fun e => hn (e ▸ hb')
  · refine .inr ?_
    rintro ⟨c1, c2, c3⟩
    have hmp : (0 : ℝ) < g.m := by exact_mod_cast hg.1
    have hmle : (g.m : ℝ) ≤ 1000 := by exact_mod_cast hg.2.1
    have hn' : (k.n.1 : ℝ) * k.n.1 + k.n.2.1 * k.n.2.1 + k.n.2.2 * k.n.2.2 = g.m * g.m := by
      rw [← hm]; exact_mod_cast hk.2.2.1
    have key : ∀ a b : ℤ, (b : ℝ) * b ≤ g.m * g.m →
        |(a : ℝ) / g.m - -((b : ℝ) / g.m)| ≤ 1 / 10 ^ 8 + 1 / 10 ^ 6 * |-((b : ℝ) / g.m)| → b = -a := by
      intro a b hb hle
      by_contra hne
      have d := diff_ge (a := a) (b := -b) (by omega)
      push_cast at d
      rw [show (a : ℝ) / g.m - -((b : ℝ) / g.m) = ((a : ℝ) - -b) / g.m by ring, abs_div, abs_neg, abs_div,
        abs_of_pos hmp] at hle
      have hb' : |(b : ℝ)| ≤ g.m := abs_le_of_sq_le_sq (by nlinarith) hmp.le
      have : |(b : ℝ)| / g.m ≤ 1 := by rw [div_le_one hmp]; exact hb'
      have : 1 / 1000 ≤ |(a : ℝ) - -b| / g.m := by
        rw [div_le_div_iff₀ (by norm_num) hmp]; linarith
      linarith
    simp only [GPoly.v, Vec3.neg_x, Vec3.neg_y, Vec3.neg_z, hm] at c1 c2 c3
    refine hn (Prod.ext (key _ _ ?_ c1) (Prod.ext (key _ _ ?_ c2) (key _ _ ?_ c3))) <;>
      nlinarith [mul_self_nonneg (k.n.1 : ℝ), mul_self_nonneg (k.n.2.1 : ℝ), mul_self_nonneg (k.n.2.2 : ℝ)]

end B3d.Grid3
