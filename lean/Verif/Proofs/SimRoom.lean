import Verif.Proofs.SimGeoRounded
import Verif.Proofs.RoundedMiss
import Verif.Props.RoundedRays

/-! # A closed room in the simulation with 64-bit numbers -/

namespace B3d.SimRounded.Room

open Sim Rounded Spec Rounded.Miss

/-- A closed room of 4 m by 4 m, 2 m high: floor, ceiling, and the walls at `x = 0`, `x = 4`, `y = 0` and `y = 4`. -/
def room : List (List (Vec3 ℝ) × List Triangles.Tri) :=
  [([⟨0, 0, 0⟩, ⟨4, 0, 0⟩, ⟨4, 4, 0⟩, ⟨0, 4, 0⟩], [(3, 0, 1), (3, 1, 2)]),
   ([⟨0, 0, 2⟩, ⟨4, 0, 2⟩, ⟨4, 4, 2⟩, ⟨0, 4, 2⟩], [(3, 0, 1), (3, 1, 2)]),
   ([⟨0, 0, 0⟩, ⟨0, 4, 0⟩, ⟨0, 4, 2⟩, ⟨0, 0, 2⟩], [(3, 0, 1), (3, 1, 2)]),
   ([⟨4, 0, 0⟩, ⟨4, 4, 0⟩, ⟨4, 4, 2⟩, ⟨4, 0, 2⟩], [(3, 0, 1), (3, 1, 2)]),
   ([⟨0, 0, 0⟩, ⟨4, 0, 0⟩, ⟨4, 0, 2⟩, ⟨0, 0, 2⟩], [(3, 0, 1), (3, 1, 2)]),
   ([⟨0, 4, 0⟩, ⟨4, 4, 0⟩, ⟨4, 4, 2⟩, ⟨0, 4, 2⟩], [(3, 0, 1), (3, 1, 2)])]

/-- Rectangles are level polygons. -/
theorem rectangle_level {R z a b : ℝ} (hz : |z| ≤ R) (ha : 1 ≤ a) (ha' : a ≤ R) (hb : 1 ≤ b) (hb' : b ≤ R)
    {q : List (Vec3 ℝ)} (hq : q = [⟨0, 0, z⟩, ⟨a, 0, z⟩, ⟨a, b, z⟩, ⟨0, b, z⟩]) :
    LevelPolygon R z q [(3, 0, 1), (3, 1, 2)] := by
  subst hq
  have hab : 1 ≤ a * b := by nlinarith
  have hR : 0 ≤ R := (abs_nonneg _).trans hz
  have e0 : |(0 : ℝ)| ≤ R := by rwa [abs_zero]
  have ea : |a| ≤ R := by rw [abs_of_nonneg (by linarith)]; exact ha'
  have eb : |b| ≤ R := by rw [abs_of_nonneg (by linarith)]; exact hb'
  have area : (1 : ℝ) / 10 ^ 7 ≤ |a * b| := by
    rw [abs_of_nonneg (by linarith)]; norm_num; linarith
  constructor
  · intro p hp
    simp only [List.mem_cons, List.not_mem_nil, or_false] at hp
    rcases hp with rfl | rfl | rfl | rfl <;> rfl
  · intro p hp
    simp only [List.mem_cons, List.not_mem_nil, or_false] at hp
    rcases hp with rfl | rfl | rfl | rfl
    exacts [⟨e0, e0, hz⟩, ⟨ea, e0, hz⟩, ⟨ea, eb, hz⟩, ⟨e0, eb, hz⟩]
  · refine ⟨⟨0, b, z⟩, _, _, _, rfl, rfl, rfl, rfl, ?_, ?_⟩
    · convert area using 2; simp only [levelArea]; ring
    · convert area using 2; simp only [levelArea]; ring
  · intro t ht
    simp only [List.mem_cons, List.not_mem_nil, or_false] at ht
    rcases ht with rfl | rfl
    · refine ⟨_, _, _, rfl, rfl, rfl, ?_⟩
      convert area using 2; simp only [levelArea]; ring
    · refine ⟨_, _, _, rfl, rfl, rfl, ?_⟩
      convert area using 2; simp only [levelArea]; ring

/-- Rectangles with the other order of the axes. -/
theorem rectangle_level' {R z a b : ℝ} (hz : |z| ≤ R) (ha : 1 ≤ a) (ha' : a ≤ R) (hb : 1 ≤ b) (hb' : b ≤ R)
    {q : List (Vec3 ℝ)} (hq : q = [⟨0, 0, z⟩, ⟨0, b, z⟩, ⟨a, b, z⟩, ⟨a, 0, z⟩]) :
    LevelPolygon R z q [(3, 0, 1), (3, 1, 2)] := by
  subst hq
  have hab : 1 ≤ a * b := by nlinarith
  have hR : 0 ≤ R := (abs_nonneg _).trans hz
  have e0 : |(0 : ℝ)| ≤ R := by rwa [abs_zero]
  have ea : |a| ≤ R := by rw [abs_of_nonneg (by linarith)]; exact ha'
  have eb : |b| ≤ R := by rw [abs_of_nonneg (by linarith)]; exact hb'
  have area : (1 : ℝ) / 10 ^ 7 ≤ |(-(a * b))| := by
    rw [abs_neg, abs_of_nonneg (by linarith)]; norm_num; linarith
  constructor
  · intro p hp
    simp only [List.mem_cons, List.not_mem_nil, or_false] at hp
    rcases hp with rfl | rfl | rfl | rfl <;> rfl
  · intro p hp
    simp only [List.mem_cons, List.not_mem_nil, or_false] at hp
    rcases hp with rfl | rfl | rfl | rfl
    exacts [⟨e0, e0, hz⟩, ⟨e0, eb, hz⟩, ⟨ea, eb, hz⟩, ⟨ea, e0, hz⟩]
  · refine ⟨⟨a, 0, z⟩, _, _, _, rfl, rfl, rfl, rfl, ?_, ?_⟩
    · convert area using 2; simp only [levelArea]; ring
    · convert area using 2; simp only [levelArea]; ring
  · intro t ht
    simp only [List.mem_cons, List.not_mem_nil, or_false] at ht
    rcases ht with rfl | rfl
    · refine ⟨_, _, _, rfl, rfl, rfl, ?_⟩
      convert area using 2; simp only [levelArea]; ring
    · refine ⟨_, _, _, rfl, rfl, rfl, ?_⟩
      convert area using 2; simp only [levelArea]; ring

/-- Straight upwards in the room, only the ceiling can be noticed. -/
theorem upwards {p : Vec3 ℝ} (hx : 1 ≤ p.x ∧ p.x ≤ 3) (hy : 1 ≤ p.y ∧ p.y ≤ 3) (hz : 1 / 100 ≤ p.z ∧ p.z ≤ 2) {k : Nat} (hk : k ≠ 1) :
    (geoRounded binary room).hit p ⟨0, 0, 343⟩ k = false := by
  have far0 : ∀ c : ℝ, 1 ≤ c ∧ c ≤ 3 → 11 / 1000 ≤ |0 - c| := fun c hc => by
    rw [abs_sub_comm]; exact le_abs.2 (.inl (by linarith [hc.1]))
  have far4 : ∀ c : ℝ, 1 ≤ c ∧ c ≤ 3 → 11 / 1000 ≤ |4 - c| := fun c hc => le_abs.2 (.inl (by linarith [hc.2]))
  obtain ⟨B1, X1⟩ := axis_any isBinary_binary (f := roll) (.inr (.inl rfl))
  obtain ⟨B2, X2⟩ := axis_any isBinary_binary (f := roll ∘ roll) (.inr (.inr rfl))
  simp only [geoRounded]
  match k, hk with
  | 0, _ =>
    simp only [room, List.getElem?_cons_zero]
    rw [C122_away_partial binary (R := 4) (z0 := 0) (by norm_num)
      (rectangle_level (by norm_num) (by norm_num) le_rfl (by norm_num) le_rfl rfl) (by rw [abs_le]; constructor <;> linarith [hz.1, hz.2])
      (by rw [abs_sub_comm]; exact le_abs.2 (.inl (by norm_num; linarith [hz.1]))) (by norm_num) (by norm_num; linarith [hz.1])]
    simp
  | 1, h => exact absurd rfl h
  | 2, _ =>
    simp only [room, List.getElem?_cons_zero, List.getElem?_cons_succ]
    rw [parallel_missed X1 (R := 4) (z0 := 0) (by norm_num)
      (rectangle_level (a := 4) (b := 2) (by norm_num) (by norm_num) (by norm_num) (by norm_num) (by norm_num) rfl) fl_zero
      (by norm_num [roll]) (far0 _ hx)]
    simp
  | 3, _ =>
    simp only [room, List.getElem?_cons_zero, List.getElem?_cons_succ]
    rw [parallel_missed X1 (R := 4) (z0 := 4) (by norm_num)
      (rectangle_level (a := 4) (b := 2) (by norm_num) (by norm_num) (by norm_num) (by norm_num) (by norm_num) rfl) g4
      (by norm_num [roll]) (far4 _ hx)]
    simp
  | 4, _ =>
    simp only [room, List.getElem?_cons_zero, List.getElem?_cons_succ]
    rw [parallel_missed X2 (R := 4) (z0 := 0) (by norm_num)
      (rectangle_level' (a := 2) (b := 4) (by norm_num) (by norm_num) (by norm_num) (by norm_num) (by norm_num) rfl) fl_zero
      (by norm_num [roll]) (far0 _ hy)]
    simp
  | 5, _ =>
    simp only [room, List.getElem?_cons_zero, List.getElem?_cons_succ]
    rw [parallel_missed X2 (R := 4) (z0 := 4) (by norm_num)
      (rectangle_level' (a := 2) (b := 4) (by norm_num) (by norm_num) (by norm_num) (by norm_num) (by norm_num) rfl) g4
      (by norm_num [roll]) (far4 _ hy)]
    simp
  | k + 6, _ => simp [room]

/-- The ray with the speed of sound straight upwards. -/
theorem start_up (P : Params ℝ) (hs : P.raySpeed = 343) (ha : P.absorbers = []) (p : Vec3 ℝ) :
    start binary64 P (initArrays binary64 P p [⟨0, 0, 1⟩]) = ⟨[⟨p, ⟨0, 0, 343⟩, ⟨0, 0, fl (P.timeStep * 343)⟩, 1⟩], []⟩ := by
  have hn : binary64.norm ⟨0, 0, 1⟩ = 1 := by
    have := isBinary_binary.norm_z 1 g1
    rw [abs_one] at this
    exact this
  have e : mulv binary64 P.raySpeed (divv binary64.toArith ⟨0, 0, 1⟩ (binary64.norm ⟨0, 0, 1⟩)) = ⟨0, 0, 343⟩ := by
    rw [hn, hs]
    change (⟨fl (343 * fl (0 / 1)), fl (343 * fl (0 / 1)), fl (343 * fl (1 / 1))⟩ : Vec3 ℝ) = _
    rw [zero_div, fl_zero, mul_zero, fl_zero, div_one, g1, mul_one, g343]
  have e2 : mulv binary64 P.timeStep ⟨0, 0, 343⟩ = ⟨0, 0, fl (P.timeStep * 343)⟩ := by
    change (⟨fl (P.timeStep * 0), fl (P.timeStep * 0), fl (P.timeStep * 343)⟩ : Vec3 ℝ) = _
    rw [mul_zero, fl_zero]
  unfold start initArrays
  simp only [List.map_cons, List.map_nil, e, e2, ha]

/-- One step of a single ray that is not reflected. -/
theorem one_step {P : Params ℝ} (fuel : Nat) (ha : P.absorbers = []) (he : P.eps < 1) {p v d : Vec3 ℝ}
    (hin : leftBox binary64 P p = false)
    (hfar : ∀ m, target P (cellOf binary64 p P.gridStep) ⟨p, v, d, 1⟩ = some m → reflDist binary64 P < P.geo.dist p m) :
    steps binary64 P (fuel + 1) 1 ⟨[⟨p, v, d, 1⟩], []⟩ =
      some [⟨[⟨p, v, d, 1⟩], []⟩, ⟨[⟨addv binary64 p d, v, d, 1⟩], []⟩] := by
  have h1 : absorbAll binary64 P [] [⟨p, v, d, 1⟩] = ([], [⟨p, v, d, 1⟩]) := by
    simp only [absorbAll, absorbRay, if_neg (not_le.2 he), ha, absorbLoop, Ray.withEnergy]
  have h2 : moveRay binary64 P (fuel + 1) ⟨p, v, d, 1⟩ = some ⟨addv binary64 p d, v, d, 1⟩ := by
    have hc : checkLeft binary64 P ⟨p, v, d, 1⟩ = ⟨p, v, d, 1⟩ := by
      rw [checkLeft, if_neg]
      simp [hin]
    rw [moveRay, if_neg (not_le.2 he)]
    simp only [hc]
    cases ht : target P (cellOf binary64 p P.gridStep) ⟨p, v, d, 1⟩ with
    | none => simp [reflectLoop, advance, farEnough, he]
    | some m =>
      have := hfar m ht
      rw [reflectLoop, if_neg (fun h => absurd h.1 (not_lt.2 this.le))]
      simp [advance, farEnough, he, this]
  have h3 : step binary64 P (fuel + 1) ⟨[⟨p, v, d, 1⟩], []⟩ = some ⟨[⟨addv binary64 p d, v, d, 1⟩], []⟩ := by
    unfold step
    simp only [List.map_nil, h1, moveAll, h2]
  simp only [steps, h3]

theorem in_room {P : Params ℝ} (hlo : P.lo = 0) (hhi : P.hi = ⟨4, 4, 2⟩) (he0 : 0 ≤ P.eps) {p : Vec3 ℝ}
    (hx : 1 ≤ p.x ∧ p.x ≤ 3) (hy : 1 ≤ p.y ∧ p.y ≤ 3) (hz : 1 / 100 ≤ p.z ∧ p.z ≤ 2) : leftBox binary64 P p = false := by
  have l0 : fl (0 - P.eps) ≤ 0 := fl_nonpos (by linarith)
  have l4 : 4 ≤ fl (4 + P.eps) := by
    have := fl_mono (show (4 : ℝ) ≤ 4 + P.eps by linarith)
    rwa [g4] at this
  have l2 : 2 ≤ fl (2 + P.eps) := by
    have := fl_mono (show (2 : ℝ) ≤ 2 + P.eps by linarith)
    rwa [g2] at this
  unfold leftBox
  rw [hlo, hhi]
  simp only [Bool.or_eq_false_iff, decide_eq_false_iff_not, not_lt]
  change ((((fl (0 - P.eps) ≤ p.x ∧ fl (0 - P.eps) ≤ p.y) ∧ fl (0 - P.eps) ≤ p.z) ∧ p.x ≤ fl (4 + P.eps)) ∧ p.y ≤ fl (4 + P.eps)) ∧
    p.z ≤ fl (2 + P.eps)
  refine ⟨⟨⟨⟨⟨?_, ?_⟩, ?_⟩, ?_⟩, ?_⟩, ?_⟩ <;> linarith [hx.1, hx.2, hy.1, hy.2, hz.1, hz.2]

end B3d.SimRounded.Room
