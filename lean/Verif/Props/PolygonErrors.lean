import Verif.Spec.Errors
import Verif.Props.Distinct
import Verif.Props.PointInPolygonCases
import Verif.Props.Plan
import Verif.Model.Hierarchy
import Verif.Props.PlanPlace

/-! # C106: which outlines the polygon constructor refuses, and how -/

namespace B3d.Polygon

open Spec Triangles Tiling Tolerance

theorem close_zero_iff (v : Vec3 ℝ) : isClose (Vec3.norm v) 0 NP_RTOL NP_ATOL ↔ Vec3.norm v ≤ 1 / 10 ^ 8 := by
  simp only [isClose, sub_zero, abs_zero, mul_zero, add_zero, abs_of_nonneg (Vec3.norm_nonneg _),
    show (NP_ATOL : ℝ) = 1 / 10 ^ 8 from rfl]

theorem triangulate_zero (pts : List (Vec3 ℝ)) {v : Vec3 ℝ} (h : Vec3.norm v ≤ 1 / 10 ^ 8) (fuel : Nat) :
    triangulate fuel pts v = some (.error .triangulationError) := by
  have hz := (close_zero_iff v).2 h
  simp [triangulate, triangulateTries, hz]

/-- The constructor, once the normal is known. -/
theorem polygonNew_normal {pts : List (Vec3 ℝ)} {vn : Option (Vec3 ℝ)} {v : Vec3 ℝ}
    (hp : Points.arePointsCoplanar pts = true) (hn : 3 ≤ pts.length) (hv : chooseNormal pts vn = .ok (some v)) :
    (BadNormal v → polygonNew pts none vn = .error .assertionError) ∧
    (Vec3.norm v ≤ 1 / 10 ^ 8 → polygonNew pts none vn = .error .triangulationError) ∧
    (¬ BadNormal v → polygonNew pts none vn = .error .triangulationError ∨ ∃ P, polygonNew pts none vn = .ok P) := by
  have err : ∀ e, triangulate (2 * pts.length + 2) pts v = some (.error e) → polygonNew pts none vn = .error e := by
    intro e he
    simp only [polygonNew, hp, hv, chooseTriangles, he, Bool.true_eq_false, if_false, if_neg (not_not.2 hn)]
  have hz : Vec3.norm v ≤ 1 / 10 ^ 8 → polygonNew pts none vn = .error .triangulationError :=
    fun h => err _ (triangulate_zero pts h _)
  refine ⟨fun hb => err _ (C21_triangulate_bad_normal pts v hn (not_lt.2 hb.2) ?_), hz, fun hb => ?_⟩
  · rw [close_zero_iff]; exact not_le.2 hb.1
  · by_cases h0 : Vec3.norm v ≤ 1 / 10 ^ 8
    · exact .inl (hz h0)
    have h1 : |Vec3.norm v - 1| < GEOM_ATOL := by
      by_contra h1
      exact hb ⟨not_le.1 h0, not_lt.1 h1⟩
    rcases C21_triangulate_outcome pts v h1 with ⟨pts', tri, ht⟩ | ht
    · obtain ⟨P, hP, -⟩ := polygonNew_intro hp hn hv ht
      exact .inr ⟨P, hP⟩
    · exact .inl (err _ ht)

/-- **C106, the exceptions.**  What the constructor of a polygon without given triangles does with any list of points and
any normal: it raises `AssertionError` exactly if the points are not in one plane, there are fewer than three, no normal
is given and the first corner is straight or thin, or the given normal is neither zero nor of length 1; otherwise it
raises `TriangulationError` or succeeds.  No other exception occurs. -/
theorem C106_outcome (pts : List (Vec3 ℝ)) (vn : Option (Vec3 ℝ)) :
    (polygonNew pts none vn = .error .assertionError ↔
      Points.arePointsCoplanar pts = false ∨ pts.length < 3 ∨ (vn = none ∧ FlatFirstCorner pts) ∨
        ∃ v, vn = some v ∧ BadNormal v) ∧
    (polygonNew pts none vn = .error .assertionError ∨ polygonNew pts none vn = .error .triangulationError ∨
      ∃ P, polygonNew pts none vn = .ok P) := by
  by_cases hp : Points.arePointsCoplanar pts = false
  · have : polygonNew pts none vn = .error .assertionError := by simp only [polygonNew, hp, if_true]
    exact ⟨⟨fun _ => .inl hp, fun _ => this⟩, .inl this⟩
  by_cases hn : 3 ≤ pts.length
  swap
  · have : polygonNew pts none vn = .error .assertionError := by
      simp only [polygonNew, if_neg hp, if_pos hn]
    exact ⟨⟨fun _ => .inr (.inl (not_le.1 hn)), fun _ => this⟩, .inl this⟩
  have hp' : Points.arePointsCoplanar pts = true := by simpa using hp
  cases vn with
  | some v =>
    obtain ⟨h1, h2, h3⟩ := polygonNew_normal (vn := some v) hp' hn rfl
    by_cases hb : BadNormal v
    · exact ⟨⟨fun _ => .inr (.inr (.inr ⟨v, rfl, hb⟩)), fun _ => h1 hb⟩, .inl (h1 hb)⟩
    · refine ⟨⟨fun h => ?_, ?_⟩, .inr (h3 hb)⟩
      · rcases h3 hb with h' | ⟨P, h'⟩ <;> rw [h'] at h <;> cases h
      · rintro (h | h | ⟨h, -⟩ | ⟨w, h, hw⟩)
        · exact absurd h hp
        · exact absurd hn (not_le.2 h)
        · cases h
        · rw [Option.some.injEq] at h
          exact absurd (h ▸ hw) hb
  | none =>
    obtain ⟨l, p0, p1, hl, e0, e1⟩ : ∃ l p0 p1, pts.getLast? = some l ∧ pts[0]? = some p0 ∧ pts[1]? = some p1 :=
      ⟨_, _, _, List.getLast?_eq_some_getLast (by intro e; rw [e] at hn; simp at hn),
        List.getElem?_eq_getElem (by omega), List.getElem?_eq_getElem (by omega)⟩
    have hv : chooseNormal pts none = .ok (normal l p0 p1) := by simp only [chooseNormal, hl, e0, e1]
    have hfl : FlatFirstCorner pts ↔ Vec3.norm (Vec3.cross (p0 - l) (p1 - l)) ≤ 1 / 10 ^ 8 := by
      constructor
      · rintro ⟨l', q0, q1, f, g0, g1, h⟩
        rw [hl, Option.some.injEq] at f
        rw [e0, Option.some.injEq] at g0
        rw [e1, Option.some.injEq] at g1
        subst f g0 g1
        exact h
      · exact fun h => ⟨l, p0, p1, hl, e0, e1, h⟩
    cases hN : normal l p0 p1 with
    | none =>
      have : polygonNew pts none none = .error .assertionError := by
        simp only [polygonNew, if_neg hp, if_neg (not_not.2 hn), hv, hN, chooseTriangles]
      exact ⟨⟨fun _ => .inr (.inr (.inl ⟨rfl, hfl.2 ((C102_normal _ _ _).1.1 hN)⟩)), fun _ => this⟩, .inl this⟩
    | some v =>
      rw [hN] at hv
      obtain ⟨-, -, h3⟩ := polygonNew_normal (vn := none) hp' hn hv
      have hu := Rotation.normal_unit hN
      have hb : ¬ BadNormal v := by
        intro hb
        have := hb.2
        rw [hu] at this
        norm_num at this
      refine ⟨⟨fun h => ?_, ?_⟩, .inr (h3 hb)⟩
      · rcases h3 hb with h' | ⟨P, h'⟩ <;> rw [h'] at h <;> cases h
      · rintro (h | h | ⟨-, h⟩ | ⟨w, h, -⟩)
        · exact absurd h hp
        · exact absurd hn (not_le.2 h)
        · have := (C102_normal l p0 p1).1.2 (hfl.1 h)
          rw [hN] at this
          cases this
        · cases h

/-- **C106, `TriangulationError`.**  Among the outlines not refused with `AssertionError`, those with a zero normal and
those with a repeated corner are refused with `TriangulationError`. -/
theorem C106_triangulation_error {pts : List (Vec3 ℝ)} {vn : Option (Vec3 ℝ)}
    (h : polygonNew pts none vn ≠ .error .assertionError)
    (hz : (∃ v, vn = some v ∧ Vec3.norm v ≤ 1 / 10 ^ 8) ∨ ¬ pts.Nodup) :
    polygonNew pts none vn = .error .triangulationError := by
  obtain ⟨h1, h2⟩ := C106_outcome pts vn
  have h1 := mt h1.2 h
  rw [not_or, not_or, Bool.not_eq_false, not_lt] at h1
  rcases hz with ⟨v, rfl, hv⟩ | hd
  · exact (polygonNew_normal h1.1 h1.2.1 rfl).2.1 hv
  · rcases h2 with h2 | h2 | ⟨P, h2⟩
    · exact absurd h2 h
    · exact h2
    · exact absurd (C106_distinct h2).1 hd

/-- Non-vacuity: each of the three outcomes.  A triangle is accepted; a square with a notch which touches its corner, so that
the corner is repeated, is refused with `TriangulationError`, a normal of length 2 with `AssertionError`. -/
example :
    (∃ P, polygonNew [⟨0, 0, 1⟩, ⟨4, 0, 1⟩, ⟨4, 4, 1⟩] none none = .ok P) ∧
    polygonNew [⟨0, 0, 1⟩, ⟨4, 0, 1⟩, ⟨4, 4, 1⟩, ⟨2, 1, 1⟩, ⟨4, 4, 1⟩, ⟨0, 4, 1⟩] none none = .error .triangulationError ∧
    polygonNew [⟨0, 0, 1⟩, ⟨4, 0, 1⟩, ⟨4, 4, 1⟩, ⟨0, 4, 1⟩] none (some ⟨0, 0, 0⟩) = .error .triangulationError ∧
    polygonNew [⟨0, 0, 1⟩, ⟨4, 0, 1⟩, ⟨4, 4, 1⟩, ⟨0, 4, 1⟩] none (some ⟨0, 0, 2⟩) = .error .assertionError ∧
    polygonNew [⟨0, 0, 1⟩, ⟨4, 0, 1⟩] none none = .error .assertionError ∧
    polygonNew [⟨0, 0, 1⟩, ⟨4, 0, 1⟩, ⟨4, 4, 1⟩, ⟨-4, 0, 1⟩] none none = .error .assertionError := by
  have hsq : Points.arePointsCoplanar ([⟨0, 0, 1⟩, ⟨4, 0, 1⟩, ⟨4, 4, 1⟩, ⟨0, 4, 1⟩] : List (Vec3 ℝ)) = true :=
    coplanar_z [(0, 0), (4, 0), (4, 4), (0, 4)] 1
  have hno : Points.arePointsCoplanar
      ([⟨0, 0, 1⟩, ⟨4, 0, 1⟩, ⟨4, 4, 1⟩, ⟨2, 1, 1⟩, ⟨4, 4, 1⟩, ⟨0, 4, 1⟩] : List (Vec3 ℝ)) = true :=
    coplanar_z [(0, 0), (4, 0), (4, 4), (2, 1), (4, 4), (0, 4)] 1
  have n0 : Vec3.norm (⟨0, 0, 0⟩ : Vec3 ℝ) = 0 := by rw [norm_z, abs_zero]
  have n2 : Vec3.norm (⟨0, 0, 2⟩ : Vec3 ℝ) = 2 := by rw [norm_z]; norm_num
  refine ⟨?_, ?_, ?_, ?_, ?_, ?_⟩
  · obtain ⟨P, h, -⟩ := triangle_z (x1 := 0) (y1 := 0) (x2 := 4) (y2 := 0) (x3 := 4) (y3 := 4) 1 (by norm_num)
    exact ⟨P, h⟩
  · refine C106_triangulation_error ?_ (.inr (by simp))
    rw [Ne, (C106_outcome _ _).1, hno]
    rintro (h | h | ⟨-, l, p0, p1, e, e0, e1, h⟩ | ⟨v, h, -⟩)
    · cases h
    · norm_num at h
    · simp only [List.getLast?_cons_cons, List.getLast?_singleton, List.getElem?_cons_zero, List.getElem?_cons_succ,
        Option.some.injEq] at e e0 e1
      subst e e0 e1
      have : Vec3.cross ((⟨0, 0, 1⟩ : Vec3 ℝ) - ⟨0, 4, 1⟩) (⟨4, 0, 1⟩ - ⟨0, 4, 1⟩) = ⟨0, 0, 16⟩ := by
        ext <;> norm_num
      rw [this, norm_z] at h
      norm_num at h
    · cases h
  · refine C106_triangulation_error ?_ (.inl ⟨_, rfl, by rw [n0]; norm_num⟩)
    rw [Ne, (C106_outcome _ _).1, hsq]
    rintro (h | h | ⟨h, -⟩ | ⟨v, h, hb⟩)
    · cases h
    · norm_num at h
    · cases h
    · rw [Option.some.injEq] at h
      have := hb.1
      rw [← h, n0] at this
      norm_num at this
  · refine (C106_outcome _ _).1.2 (.inr (.inr (.inr ⟨_, rfl, ?_, ?_⟩))) <;> rw [n2] <;> norm_num
  · exact (C106_outcome _ _).1.2 (.inr (.inl (by simp)))
  · refine (C106_outcome _ _).1.2 (.inr (.inr (.inl ⟨rfl, ⟨-4, 0, 1⟩, ⟨0, 0, 1⟩, ⟨4, 0, 1⟩, rfl, rfl, rfl, ?_⟩)))
    have : Vec3.cross ((⟨0, 0, 1⟩ : Vec3 ℝ) - ⟨-4, 0, 1⟩) (⟨4, 0, 1⟩ - ⟨-4, 0, 1⟩) = ⟨0, 0, 0⟩ := by
      ext <;> norm_num
    rw [this, norm_z]
    norm_num

end B3d.Polygon

namespace B3d.Solids

open Spec Polygon

/-- **C106, floor plans.**  A plan which `floor_plan` accepts has no repeated corner. -/
theorem C106_plan {plan : List (ℝ × ℝ)} {height phi : ℝ} {t : Vec3 ℝ} {wallNames : Option (List Str)}
    {fn cn rnd1 rnd2 : Str} {S : SolidG} (h : floorPlan plan height t phi wallNames fn cn rnd1 rnd2 = .ok S) :
    plan.Nodup := by
  have hp : plan ≠ [] := by
    rintro rfl
    unfold floorPlan at h
    split at h
    · cases h
    · simp at h
  cases hn : planNames plan.length wallNames with
  | error e => unfold floorPlan at h; rw [hn] at h; cases h
  | ok names =>
    rw [floorPlan_eq hp hn] at h
    obtain ⟨F, C, walls, walls', hF, -⟩ := planSolid_parts h
    unfold levelPolygon at hF
    split at hF
    · cases hF
    rename_i name P hP
    have : ∃ Q, polygonNew ((placed plan t phi).map (level (planShift t).z)) none none = .ok Q := by
      unfold namedPolygon at hP
      split at hP
      · cases hP
      · split at hP
        · cases hP
        · rename_i Q hQ
          exact ⟨Q, hQ⟩
    obtain ⟨Q, hQ⟩ := this
    have := (C106_distinct hQ).1
    rw [placed, List.map_map] at this
    exact this.of_map _

end B3d.Solids

namespace B3d.Hier

/-- **C106, names.**  Creating an object with a slash in its name raises `ValueError` and leaves everything as it was;
without one, and with acceptable geometry, the object is created under exactly that name, without a parent. -/
theorem C106_names {P : Type} (h : Heap P) (kind : Kind) (name : Str) (pts : List P) :
    ('/' ∈ name → alloc h kind name pts none = (h, .error .valueError)) ∧
    ('/' ∉ name → ∃ o : Obj P, alloc h kind name pts none = (h ++ [o], .ok h.length) ∧ o.name = name ∧ o.parent = none ∧
      o.kind = kind ∧ o.children = [] ∧ o.pts = pts) ∧
    ∀ e, alloc h kind name pts (some e) = (h, .error e) := by
  refine ⟨fun hs => ?_, fun hs => ⟨⟨kind, name, none, [], pts⟩, ?_, rfl, rfl, rfl, rfl, rfl⟩, fun e => rfl⟩
  · have : validateName name = .error .valueError := if_pos hs
    simp only [alloc, this]
  · have : validateName name = .ok name := if_neg hs
    simp only [alloc, this]

/-- Both kinds of names. -/
example : (alloc ([] : Heap Nat) .zone "a/b".toList [] none).2 = .error .valueError ∧
    (alloc ([] : Heap Nat) .zone "a.b".toList [] none).2 = .ok 0 := by decide

end B3d.Hier

namespace B3d.Points

/-- **C106, collinear points.**  The test whether points are in line is refused with `AssertionError` exactly for fewer than
three points. -/
theorem C106_collinear (pts : List (Vec3 ℝ)) (atol : ℝ) :
    (pts.length < 3 → arePointsCollinear pts atol = .error .assertionError) ∧
    (3 ≤ pts.length → ∃ r, arePointsCollinear pts atol = .ok r) := by
  match pts with
  | [] => exact ⟨fun _ => rfl, fun h => by simp at h⟩
  | [_] => exact ⟨fun _ => rfl, fun h => by simp at h⟩
  | [_, _] => exact ⟨fun _ => rfl, fun h => by simp at h⟩
  | _ :: _ :: _ :: _ => exact ⟨fun h => by simp only [List.length_cons] at h; omega, fun _ => ⟨_, rfl⟩⟩

end B3d.Points
