import Verif.Props.Rooms
import Verif.Props.PointInSolidBox

/-!
# C92: the room a point is in
-/

namespace B3d.Hier

open Polygon Spec Solids

variable {P : Type}

theorem contains_iff (r : Room) (p : Vec3 ℝ) :
    InClosedBox (size r).x (size r).y (size r).z r.lo p ↔ r.Contains p := by
  unfold InClosedBox Room.Contains
  simp only [size, Vec3.sub_x, Vec3.sub_y, Vec3.sub_z, add_sub_cancel]
  constructor
  · rintro ⟨hx, hy, hz⟩ a
    cases a
    exacts [hx, hy, hz]
  · intro h
    exact ⟨h .x, h .y, h .z⟩

/-- Nothing is inside two separate rooms except for the walls. -/
theorem separate_contains {r s : Room} (h : r.Separate s) {p : Vec3 ℝ}
    (hr : ∀ a, coord a r.lo < coord a p ∧ coord a p < coord a r.hi) : ¬ s.Contains p := by
  intro hs
  obtain ⟨a, ha⟩ := h
  have h1 := hr a
  have h2 := hs a
  rcases ha with ha | ha <;> linarith

/-- **C92.**  In a building of rooms made with `box`, with at most walls in common:
a location that is returned is the path of a solid whose room contains the point;
for a point in none of the rooms `RuntimeError` is raised;
for a point in the interior of a room the answer is that room or `RuntimeError`, whichever solids are looked at first, and it is
that room if the point and the place where the ray used by the code leaves the room are far enough from the walls and from the
edges and diagonals of the faces.
Missing: the other points of the interior, see `C92_not_found`; rooms that are not boxes. -/
theorem C92_locate_partial (parseInt : Str → Option Int) (ops : List (Op P)) (hl : LinearFrom [] ops) (b : Nat) (B : Obj P)
    (hb : (exec ops)[b]? = some B) (hk : B.kind = .building) (hname : B.name ≠ []) (poly : Polys) (room : Nat → Room)
    (R : Rooms (exec ops) b poly room) (p : Vec3 ℝ) (hints : List Nat) (hh : ∀ i ∈ hints, IsSolidOf (exec ops) b i) :
    let h := exec ops
    let res := findLocation parseInt h (geoInside h poly p) b (hints.map (path h))
    (∀ s, res = .ok s → ∃ i, IsSolidOf h b i ∧ path h i = s ∧ (room i).Contains p) ∧
    ((∀ i, IsSolidOf h b i → ¬ (room i).Contains p) → res = .error .runtimeError) ∧
    ∀ i, IsSolidOf h b i → (∀ a, coord a (room i).lo < coord a p ∧ coord a p < coord a (room i).hi) →
      (res = .ok (path h i) ∨ res = .error .runtimeError) ∧
      ∀ M m t : ℝ, (∀ q, (room i).IsCorner q → Vec3.norm q ≤ M) → M / 10 ^ 3 + 1 / 10 ^ 6 ≤ m →
        (∀ a, coord a (room i).lo + m ≤ coord a p ∧ coord a p ≤ coord a (room i).hi - m) → 0 ≤ t →
        ExitsWell (size (room i)).x (size (room i)).y (size (room i)).z (room i).lo (p + t • rayDir) m →
        res = .ok (path h i) := by
  intro h res
  obtain ⟨c1, c2, c3⟩ := C62_find_location parseInt ops hl b B hb hk hname (geoInside h poly p) hints hh
  have hin : ∀ i, IsSolidOf h b i → geoInside h poly p i = true → (room i).Contains p := by
    intro i hi hg
    by_contra hc
    rw [← contains_iff] at hc
    have := (C74_box_partial (R.size i hi) (R.made i hi)).1 hc
    simp only [geoInside, decide_eq_true_eq] at hg
    rw [this] at hg
    cases hg
  have k1 : ∀ s, res = .ok s → ∃ i, IsSolidOf h b i ∧ path h i = s ∧ (room i).Contains p := by
    intro s hs
    obtain ⟨i, hi, hg, hp⟩ := c1 s hs
    exact ⟨i, hi, hp, hin i hi hg⟩
  refine ⟨k1, ?_, ?_⟩
  · intro hno
    cases hr : res with
    | error e => rw [(c2 e hr).1]
    | ok s =>
      obtain ⟨i, hi, -, hc⟩ := k1 s hr
      exact absurd hc (hno i hi)
  · intro i hi hp
    have hor : res = .ok (path h i) ∨ res = .error .runtimeError := by
      cases hr : res with
      | error e => right; rw [(c2 e hr).1]
      | ok s =>
        left
        obtain ⟨j, hj, rfl, hc⟩ := k1 s hr
        by_cases hij : i = j
        · rw [hij]
        · exact absurd hc (separate_contains (R.separate i j hi hj hij) hp)
    refine ⟨hor, ?_⟩
    intro M m t hM hm hpm ht hex
    rcases hor with hr | hr
    · exact hr
    exfalso
    have hg := (c2 _ hr).2 i hi
    have := (C74_box_partial (R.size i hi) (R.made i hi)).2 M m t ?_ (by linarith) ?_ ?_ ?_ ht hex
    · simp only [geoInside, decide_eq_false_iff_not] at hg
      exact hg this
    · intro f g k
      refine hM _ fun a => ?_
      cases a
      · refine ⟨f, ?_⟩; cases f <;> simp [corner, coord, Room.side, size]
      · refine ⟨g, ?_⟩; cases g <;> simp [corner, coord, Room.side, size]
      · refine ⟨k, ?_⟩; cases k <;> simp [corner, coord, Room.side, size]
    · simpa [coord, size] using hpm .x
    · simpa [coord, size] using hpm .y
    · simpa [coord, size] using hpm .z

/-- Two rooms of 1 m x 1 m x 1 m side by side. -/
theorem unit_rooms : SideBySide ⟨⟨0, 0, 0⟩, ⟨1, 1, 1⟩⟩ ⟨⟨1, 0, 0⟩, ⟨2, 1, 1⟩⟩ := by
  refine ⟨⟨by norm_num [size], by norm_num [size], by norm_num [size], 20, by norm_num [size]⟩,
    ⟨by norm_num [size], by norm_num [size], by norm_num [size], 20, by norm_num [size]⟩, rfl, ⟨rfl, rfl⟩, ⟨rfl, rfl⟩,
    ?_, ?_, ?_, ?_⟩ <;> intro a f g <;> cases a <;> cases f <;> cases g <;> norm_num [Room.side, coord]

theorem solid12 : IsSolidOf (exec roomOps) 27 12 := by
  have w : WF (exec roomOps) := WF.exec _
  refine ⟨((chain_iff w).2 (show items (exec roomOps) 27 [['z'], "r0".toList] = .ok 12 by decide +kernel)).within, ?_⟩
  decide +kernel

theorem building27 : ∃ B, (exec roomOps)[27]? = some B ∧ B.kind = .building ∧ B.name ≠ [] := by decide +kernel

/-- The centre of the first of two rooms meets the hypotheses of `C92_locate_partial`: it is found. -/
example : ∃ (poly : Polys), ∀ parseInt, findLocation parseInt (exec roomOps)
    (geoInside (exec roomOps) poly ⟨1 / 2, 1 / 2, 1 / 2⟩) 27 [] = .ok "b/z/r0".toList := by
  obtain ⟨poly, R, -⟩ := C91_two_rooms unit_rooms
  refine ⟨poly, fun parseInt => ?_⟩
  obtain ⟨B, hb, hk, hname⟩ := building27
  obtain ⟨-, -, k3⟩ := C92_locate_partial parseInt roomOps roomOps_linear 27 B hb hk hname poly _ R ⟨1 / 2, 1 / 2, 1 / 2⟩ []
    (by simp)
  have hp : path (exec roomOps) 12 = "b/z/r0".toList := by decide +kernel
  rw [← hp]
  obtain ⟨k, hk, hr⟩ := rayDir_eq
  have hk0 : k ≠ 0 := by linarith
  have e : (⟨1 / 2, 1 / 2, 1 / 2⟩ : Vec3 ℝ) + (500 / 739 / k) • rayDir =
      ⟨1, 1 / 2 + 239 / 1478, 1 / 2 + 113 / 1478⟩ := by
    rw [hr]
    ext <;> simp <;> field_simp <;> norm_num
  refine (k3 12 solid12 ?_).2 2 (1 / 100) (500 / 739 / k) ?_ (by norm_num) ?_ (by positivity) ?_
  · intro a; cases a <;> norm_num [coord]
  · intro q hq
    apply Vec3.norm_le_of_sq (by norm_num)
    have c : ∀ a, coord a q * coord a q ≤ 1 := by
      intro a
      obtain ⟨f, hf⟩ := hq a
      rw [hf]
      cases a <;> cases f <;> norm_num [coord, Room.side]
    have cx := c .x
    have cy := c .y
    have cz := c .z
    simp only [coord] at cx cy cz
    simp only [Vec3.normSq, Vec3.dot]
    linarith
  · intro a; cases a <;> norm_num [coord]
  · rw [e]
    refine .inl ⟨by norm_num [size], by norm_num [size], by norm_num [size], fun t => ?_⟩
    apply Vec3.le_norm_of_sq
    simp [corner, Vec3.normSq, Vec3.dot, size]
    nlinarith [sq_nonneg (1 / 2 + 239 / 1478 - t - (1 / 2 - 113 / 1478 - t)), sq_nonneg (t - 1 / 2 - 239 / 2956 + 113 / 2956)]

/-- **C92 fails.**  Two rooms of 1 m x 1 m x 1 m side by side: for a point inside the first, more than 10 cm from its walls,
`find_location` raises `RuntimeError`. -/
theorem C92_not_found : ∃ (poly : Polys) (p : Vec3 ℝ) (room : Nat → Room),
    Rooms (exec roomOps) 27 poly room ∧ IsSolidOf (exec roomOps) 27 12 ∧ room 12 = ⟨⟨0, 0, 0⟩, ⟨1, 1, 1⟩⟩ ∧
    (∀ a, 1 / 10 ≤ coord a p ∧ coord a p ≤ 9 / 10) ∧
    ∀ parseInt, findLocation parseInt (exec roomOps) (geoInside (exec roomOps) poly p) 27 [] = .error .runtimeError := by
  obtain ⟨poly, R, -⟩ := C91_two_rooms unit_rooms
  obtain ⟨S, p, hS, hp, -, hx, hy, hz⟩ := C74_ray_through_edge
  have s12 := solid12
  refine ⟨poly, p, _, R, s12, rfl, ?_, fun parseInt => ?_⟩
  · intro a
    cases a
    exacts [hx, hy, hz]
  · obtain ⟨B, hb, hk, hname⟩ := building27
    obtain ⟨c1, c2, -⟩ := C62_find_location parseInt roomOps roomOps_linear 27 B hb hk hname
      (geoInside (exec roomOps) poly p) [] (by simp)
    obtain ⟨k1, -, k3⟩ := C92_locate_partial parseInt roomOps roomOps_linear 27 B hb hk hname poly _ R p [] (by simp)
    have hin : ∀ a, coord a (⟨0, 0, 0⟩ : Vec3 ℝ) < coord a p ∧ coord a p < coord a (⟨1, 1, 1⟩ : Vec3 ℝ) := by
      intro a
      cases a <;> simp only [coord] <;> constructor <;> linarith
    rcases (k3 12 s12 (by simpa using hin)).1 with hr | hr
    · exfalso
      obtain ⟨i, hi, hg, hpa⟩ := c1 _ hr
      have : i = 12 := (BCtx.of_ops roomOps_linear hb hk).path_inj hi.1 s12.1 hpa
      subst this
      have hm := R.made 12 s12
      simp only [size] at hm
      norm_num at hm
      have e0 : (0 : Vec3 ℝ) = ⟨0, 0, 0⟩ := rfl
      rw [← e0, hS, Except.ok.injEq] at hm
      simp only [geoInside, decide_eq_true_eq, ← hm, hp] at hg
      cases hg
    · exact hr

end B3d.Hier
