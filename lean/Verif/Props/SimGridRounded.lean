import Verif.Proofs.SimGridRounded
import Verif.Proofs.RoundedNanArea
import Verif.Props.SimRounded
import Verif.Props.VoxelGrid

/-!
# Property C133: the voxel grid with rounding errors

C44 once more, with rounded arithmetic: which polygons are found near a position, and a grid that loses a wall.
-/

namespace B3d.SimRounded

open Sim Rounded

variable {A : Arith}

/-- **C133 (partial), nearby polygons are found.**  With rounded arithmetic, if the box has ordinary size and the polygon is in the
box and not in a gap between two cells: whatever the position, a polygon with a point within 0.999999 cells of it on every axis
is among the polygons found in the 27 cells around the position.  Missing: boxes whose lower end less the margin is within a
millionth of a cell of a side of a cell, where it is false (`C133_lost`). -/
theorem C133_lookup_partial {setIter : List Nat → List Nat} (hset : IteratesSet setIter) {lo hi : Vec3 ℝ}
    {polys : List (List (Vec3 ℝ))} {step eps : ℝ} (hs : 0 < step) (hbox : OrdinaryBox lo hi step eps) {g : Grid}
    (hg : makeVoxelGrid A lo hi polys step eps = .ok g) {pn : Nat} {pts : List (Vec3 ℝ)} (hpn : polys[pn]? = some pts)
    (hw : Within lo hi pts) (hgap : NoGaps A step pts) {p q : Vec3 ℝ} (hq : PointOf pts q)
    (hnear : Near ((1 - 1 / 10 ^ 6) * step) p q) : pn ∈ findNearby setIter (cellOf A p step) g := by
  unfold makeVoxelGrid at hg
  simp only [] at hg
  split at hg
  case isFalse => cases hg
  simp only [Except.ok.injEq] at hg
  obtain ⟨c, hc, hout, i, hi', j, hj, k, hk, e⟩ := find_cell hs hbox hw hgap hq hnear
  unfold findNearby
  rw [(hset _).2]
  simp only [List.mem_flatMap]
  refine ⟨i, hi', j, hj, k, hk, ?_⟩
  rw [e, ← hg, gridGet_fold, if_pos hc, Option.getD_some, mem_polysIn]
  exact ⟨pts, hpn, hout⟩

/-- **C133 (partial), the grid is made.**  With rounded arithmetic, if the box has ordinary size and every polygon has a vertex, is
in the box and not in a gap: the grid is made and contains every polygon.  Missing as in `C133_lookup_partial`. -/
theorem C133_made_partial {lo hi : Vec3 ℝ} {polys : List (List (Vec3 ℝ))} {step eps : ℝ} (hs : 0 < step)
    (hbox : OrdinaryBox lo hi step eps) (hp : ∀ pts ∈ polys, pts ≠ [] ∧ Within lo hi pts ∧ NoGaps A step pts) :
    ∃ g, makeVoxelGrid A lo hi polys step eps = .ok g ∧ ∀ pn < polys.length, ∃ c l, gridGet g c = some l ∧ pn ∈ l := by
  have key : ∀ pn < polys.length, ∃ c ∈ gridKeys A lo hi step eps, pn ∈ polysIn A polys c step := by
    intro pn h
    obtain ⟨hne, hw, hgap⟩ := hp polys[pn] (List.getElem_mem h)
    obtain ⟨v, hv⟩ := List.exists_mem_of_ne_nil _ hne
    obtain ⟨c, hc, hout, -⟩ := find_cell (A := A) hs hbox hw hgap (vertex_pointOf hv) (p := v)
      (by simp only [Near, sub_self, abs_zero]; refine ⟨?_, ?_, ?_⟩ <;> linarith)
    exact ⟨c, hc, mem_polysIn.2 ⟨_, List.getElem?_eq_getElem h, hout⟩⟩
  unfold makeVoxelGrid
  simp only []
  rw [if_pos]
  · refine ⟨_, rfl, ?_⟩
    intro pn h
    obtain ⟨c, hc, hm⟩ := key pn h
    exact ⟨c, _, by rw [gridGet_fold, if_pos hc], hm⟩
  · rw [List.all_eq_true]
    intro pn h
    obtain ⟨c, hc, hm⟩ := key pn (List.mem_range.1 h)
    rw [List.any_eq_true]
    exact ⟨c, hc, by simpa using hm⟩

/-- **C133, all or an exception.**  With rounded arithmetic, whatever the box, the polygons, the cell size and the margin:
`make_voxel_grid` raises `ValueError`, or every polygon is in some cell of the grid. -/
theorem C133_all_or_error (lo hi : Vec3 ℝ) (polys : List (List (Vec3 ℝ))) (step eps : ℝ) :
    makeVoxelGrid A lo hi polys step eps = .error .valueError ∨
      ∃ g, makeVoxelGrid A lo hi polys step eps = .ok g ∧ ∀ pn < polys.length, ∃ c l, gridGet g c = some l ∧ pn ∈ l := by
  unfold makeVoxelGrid
  simp only []
  split
  case isFalse => exact .inl rfl
  case isTrue h =>
    refine .inr ⟨_, rfl, fun pn hpn => ?_⟩
    rw [List.all_eq_true] at h
    obtain ⟨c, hc, hm⟩ := List.any_eq_true.1 (h pn (List.mem_range.2 hpn))
    exact ⟨c, _, by rw [gridGet_fold, if_pos hc], by simpa using hm⟩

/-- A cell next to that of a position that is not beside a polygon. -/
theorem only_axis {s p : ℝ} (hs : 0 < s) (hp : |p| ≤ 10 ^ 6 * s) {i : ℤ} (hi : |i| ≤ 1) {xs : List ℝ}
    (h : beside A xs (⌊A.div p s⌋ + i) s = false) :
    (∃ x ∈ xs, p - (2 + 1 / 10 ^ 6) * s ≤ x) ∧ ∃ x ∈ xs, x ≤ p + (2 + 1 / 10 ^ 6) * s := by
  obtain ⟨⟨x, hx, h1⟩, y, hy, h2⟩ := beside_iff.1 h
  obtain ⟨e1, e2⟩ := abs_le.1 (small_div (A := A) hs (hp.trans (by linarith)))
  have e3 := Int.floor_le (A.div p s)
  have e4 := Int.lt_floor_add_one (A.div p s)
  obtain ⟨i1, i2⟩ := abs_le.1 hi
  have i1' : (-1 : ℝ) ≤ i := by exact_mod_cast i1
  have i2' : (i : ℝ) ≤ 1 := by exact_mod_cast i2
  have e5 : p / s * s = p := div_mul_cancel₀ p hs.ne'
  have e6 : ((⌊A.div p s⌋ + i : ℤ) : ℝ) * s ≤ p + s + s / 10 ^ 8 := by
    have : ((⌊A.div p s⌋ + i : ℤ) : ℝ) ≤ p / s + 1 + 1 / 10 ^ 8 := by push_cast; linarith
    have := mul_le_mul_of_nonneg_right this hs.le
    linarith
  have e7 : p - 2 * s - s / 10 ^ 8 ≤ ((⌊A.div p s⌋ + i : ℤ) : ℝ) * s := by
    have : p / s - 2 - 1 / 10 ^ 8 ≤ ((⌊A.div p s⌋ + i : ℤ) : ℝ) := by push_cast; linarith
    have := mul_le_mul_of_nonneg_right this hs.le
    linarith
  obtain ⟨p1, p2⟩ := abs_le.1 hp
  obtain ⟨⟨s1, s2⟩, s3, s4⟩ := sides (A := A) hs (m := ⌊A.div p s⌋ + i) (by linarith) (by linarith)
  exact ⟨⟨x, hx, by linarith⟩, y, hy, by linarith⟩

/-- **C133, only nearby polygons.**  With rounded arithmetic, whatever the box and the margin: a polygon found for a position at most
a million cells from the origin is a polygon of the building, and on every axis its bounding box is at most 2.000001 cells from the
position. -/
theorem C133_only {setIter : List Nat → List Nat} (hset : IteratesSet setIter) {lo hi : Vec3 ℝ} {polys : List (List (Vec3 ℝ))}
    {step eps : ℝ} (hs : 0 < step) {g : Grid} (hg : makeVoxelGrid A lo hi polys step eps = .ok g) {p : Vec3 ℝ}
    (hx : |p.x| ≤ 10 ^ 6 * step) (hy : |p.y| ≤ 10 ^ 6 * step) (hz : |p.z| ≤ 10 ^ 6 * step) {pn : Nat}
    (h : pn ∈ findNearby setIter (cellOf A p step) g) :
    ∃ pts, polys[pn]? = some pts ∧
      ((∃ v ∈ pts, p.x - (2 + 1 / 10 ^ 6) * step ≤ v.x) ∧ ∃ v ∈ pts, v.x ≤ p.x + (2 + 1 / 10 ^ 6) * step) ∧
      ((∃ v ∈ pts, p.y - (2 + 1 / 10 ^ 6) * step ≤ v.y) ∧ ∃ v ∈ pts, v.y ≤ p.y + (2 + 1 / 10 ^ 6) * step) ∧
      ((∃ v ∈ pts, p.z - (2 + 1 / 10 ^ 6) * step ≤ v.z) ∧ ∃ v ∈ pts, v.z ≤ p.z + (2 + 1 / 10 ^ 6) * step) := by
  obtain ⟨i, j, k, hi', hj, hk, l, hl, hm⟩ := C44_lookup_sound setIter hset g _ pn h
  unfold makeVoxelGrid at hg
  simp only [] at hg
  split at hg
  case isFalse => cases hg
  simp only [Except.ok.injEq] at hg
  rw [← hg, gridGet_fold] at hl
  split at hl
  case isFalse => simp [gridGet] at hl
  obtain rfl := Option.some.inj hl
  obtain ⟨pts, hpts, hout⟩ := mem_polysIn.1 hm
  unfold outside at hout
  rw [Bool.or_eq_false_iff, Bool.or_eq_false_iff] at hout
  obtain ⟨⟨ox, oy⟩, oz⟩ := hout
  refine ⟨pts, hpts, ?_, ?_, ?_⟩
  · simpa only [List.mem_map, exists_exists_and_eq_and] using only_axis hs hx hi' ox
  · simpa only [List.mem_map, exists_exists_and_eq_and] using only_axis hs hy hj oy
  · simpa only [List.mem_map, exists_exists_and_eq_and] using only_axis hs hz hk oz

/-- With 64-bit numbers and a stored cell size polygons with stored coordinates are not in gaps. -/
theorem noGaps_binary64 {step : ℝ} (hs : 0 < step) (hss : fl step = step) {pts : List (Vec3 ℝ)} (hne : pts ≠ [])
    (hst : ∀ v ∈ pts, fl v.x = v.x ∧ fl v.y = v.y ∧ fl v.z = v.z) : NoGaps binary64 step pts := by
  refine ⟨fun n => no_gap hs hss (by simpa using hne) ?_ n, fun n => no_gap hs hss (by simpa using hne) ?_ n,
    fun n => no_gap hs hss (by simpa using hne) ?_ n⟩
  all_goals
    intro x hx
    obtain ⟨v, hv, rfl⟩ := List.mem_map.1 hx
  · exact (hst v hv).1
  · exact (hst v hv).2.1
  · exact (hst v hv).2.2

/-- **C133 (partial), 64-bit numbers.**  For polygons with stored coordinates in a box of ordinary size and a stored cell size, the
grid is made, and every polygon with a point within 0.999999 cells of a position on every axis is among those found there.
Missing as in `C133_lookup_partial`. -/
theorem C133_binary64_partial {setIter : List Nat → List Nat} (hset : IteratesSet setIter) {lo hi : Vec3 ℝ}
    {polys : List (List (Vec3 ℝ))} {step eps : ℝ} (hs : 0 < step) (hss : fl step = step) (hbox : OrdinaryBox lo hi step eps)
    (hp : ∀ pts ∈ polys, pts ≠ [] ∧ Within lo hi pts ∧ ∀ v ∈ pts, fl v.x = v.x ∧ fl v.y = v.y ∧ fl v.z = v.z) :
    ∃ g, makeVoxelGrid binary64 lo hi polys step eps = .ok g ∧ ∀ (pn : Nat) (pts : List (Vec3 ℝ)) (p q : Vec3 ℝ),
      polys[pn]? = some pts → PointOf pts q → Near ((1 - 1 / 10 ^ 6) * step) p q →
        pn ∈ findNearby setIter (cellOf binary64 p step) g := by
  have hp' : ∀ pts ∈ polys, pts ≠ [] ∧ Within lo hi pts ∧ NoGaps binary64 step pts := fun pts hm =>
    ⟨(hp pts hm).1, (hp pts hm).2.1, noGaps_binary64 hs hss (hp pts hm).1 (hp pts hm).2.2⟩
  obtain ⟨g, hg, -⟩ := C133_made_partial (A := binary64) hs hbox hp'
  refine ⟨g, hg, fun pn pts p q hpn hq hnear => ?_⟩
  have hm := List.mem_of_getElem? hpn
  exact C133_lookup_partial hset hs hbox hg hpn (hp' pts hm).2.1 (hp' pts hm).2.2 hq hnear

/-- **C133, whole millimetres.**  With the default cell size of 0.1 m and the default margin of 0.0001 m, a box has ordinary size on
an axis if its lower end is a whole number of millimetres, up to a nanometre, and its ends are at most 10 km from the origin. -/
theorem C133_millimetres {lo hi step eps : ℝ} (hs : |step - 1 / 10| ≤ 1 / 10 ^ 16) (he : |eps - 1 / 10 ^ 4| ≤ 1 / 10 ^ 18) {j : ℤ}
    (hj : |lo - j / 1000| ≤ 1 / 10 ^ 9) (hlo : |lo| ≤ 10 ^ 4) (hhi : |hi| ≤ 10 ^ 4) : OrdinaryAxis lo hi step eps := by
  obtain ⟨s1, s2⟩ := abs_le.1 hs
  obtain ⟨e1, e2⟩ := abs_le.1 he
  obtain ⟨j1, j2⟩ := abs_le.1 hj
  obtain ⟨l1, l2⟩ := abs_le.1 hlo
  have hpos : 0 < step := by linarith
  refine ⟨by linarith, by linarith, by linarith, by linarith, fun n => ?_⟩
  -- hundreds of millimetres
  obtain ⟨w, hw⟩ : ∃ w, w = (lo - eps) / step := ⟨_, rfl⟩
  have hw' : w * step = lo - eps := by rw [hw]; exact div_mul_cancel₀ _ hpos.ne'
  rw [← hw]
  have hwb : |w| ≤ 10 ^ 6 := by
    rw [hw, abs_div, abs_of_pos hpos, div_le_iff₀ hpos, abs_le]
    constructor <;> linarith
  obtain ⟨w1, w2⟩ := abs_le.1 hwb
  have hw10 : |w - 10 * (lo - eps)| ≤ 1 / 10 ^ 8 := by
    have : w - 10 * (lo - eps) = -(10 * (w * (step - 1 / 10))) := by rw [← hw']; ring
    rw [this, abs_neg, abs_mul, abs_mul]
    have h1 := mul_le_mul hwb hs (abs_nonneg _) (by norm_num)
    norm_num at h1 ⊢
    linarith
  obtain ⟨v1, v2⟩ := abs_le.1 hw10
  rcases lt_or_ge (100 * n) j with h | h
  · have h' : (100 * n + 1 : ℝ) ≤ j := by exact_mod_cast h
    rw [le_abs]; left; linarith
  · have h' : (j : ℝ) ≤ 100 * n := by exact_mod_cast h
    rw [le_abs]; right; linarith

/-! ### A building that loses walls -/

/-- 0.1, the default of `voxel_size` (`simulation_config.py` L33), as a 64-bit number. -/
noncomputable def tenth : ℝ := 7205759403792794 / 2 ^ 56

/-- 0.0001, the default of `eps` (`voxel_grid.py` L18), as a 64-bit number. -/
noncomputable def margin : ℝ := 7378697629483821 / 2 ^ 66

/-- 0.1001 as a 64-bit number. -/
noncomputable def corner : ℝ := 7212965163196586 / 2 ^ 56

/-- These are the 64-bit numbers nearest to the decimal ones. -/
theorem constants : fl (1 / 10) = tenth ∧ fl (1 / 10000) = margin ∧ fl (1001 / 10000) = corner := by
  unfold tenth margin corner
  refine ⟨by dyadic (-56) 7205759403792794, by dyadic (-66) 7378697629483821, by dyadic (-56) 7212965163196586⟩

theorem start_eq : fl (corner - margin) = 7205759403792793 / 2 ^ 56 := by
  unfold corner margin; dyadic (-56) 7205759403792793

theorem x5 : fl (fl (7205759403792793 / 2 ^ 56 + fl (5 * tenth)) / tenth) = 6755399441055743 / 2 ^ 50 := by
  have h1 : fl (5 * tenth) = 1 / 2 := by unfold tenth; dyadic (-53) 4503599627370496
  have h2 : fl (7205759403792793 / 2 ^ 56 + 1 / 2) = 5404319552844595 / 2 ^ 53 := by dyadic (-53) 5404319552844595
  rw [h1, h2]
  unfold tenth
  dyadic (-50) 6755399441055743

theorem x6 : fl (fl (7205759403792793 / 2 ^ 56 + fl (6 * tenth)) / tenth) = 7 := by
  have h1 : fl (6 * tenth) = 5404319552844596 / 2 ^ 53 := by unfold tenth; dyadic (-53) 5404319552844596
  have h2 : fl (7205759403792793 / 2 ^ 56 + 5404319552844596 / 2 ^ 53) = 6305039478318695 / 2 ^ 53 := by dyadic (-53) 6305039478318695
  rw [h1, h2]
  unfold tenth
  dyadic (-50) 7881299347898368

theorem tenth_pos : 0 < tenth := by unfold tenth; positivity

theorem tenth_stored : fl tenth = tenth := by rw [← constants.1, fl_fl]

/-- On an axis that starts at 0.1001 there is no cell with the number 6. -/
theorem no_six {hi x : ℝ} (hx : x ∈ axisRange binary64 corner hi tenth margin) : ⌊binary64.div x tenth⌋ ≠ 6 := by
  unfold axisRange arange at hx
  obtain ⟨i, -, rfl⟩ := List.mem_map.1 hx
  change ⌊fl (fl (fl (corner - margin) + fl (i * tenth)) / tenth)⌋ ≠ 6
  rw [start_eq]
  have hm : ∀ a b : ℝ, a ≤ b → fl (fl (7205759403792793 / 2 ^ 56 + fl (a * tenth)) / tenth) ≤
      fl (fl (7205759403792793 / 2 ^ 56 + fl (b * tenth)) / tenth) := fun a b hab =>
    fl_mono (div_le_div_of_nonneg_right (fl_mono (by
      have := fl_mono (mul_le_mul_of_nonneg_right hab tenth_pos.le)
      linarith)) tenth_pos.le)
  rcases Nat.lt_or_ge i 6 with h | h
  · have := hm i 5 (by exact_mod_cast (by omega : i ≤ 5))
    rw [x5] at this
    refine ne_of_lt (Int.floor_lt.2 (lt_of_le_of_lt this ?_))
    norm_num
  · have := hm 6 i (by exact_mod_cast h)
    rw [x6] at this
    refine ne_of_gt (lt_of_lt_of_le (by norm_num : (6 : ℤ) < 7) (Int.le_floor.2 ?_))
    exact_mod_cast this

/-- **C133, a wall is lost.**  With 64-bit numbers, the default cell size and the default margin: for a building that starts at
x = 0.1001 and has a polygon between x = 0.61 and x = 0.69, whatever the rest of the building, `make_voxel_grid` raises
`ValueError`. -/
theorem C133_lost (y z : ℝ) (hi : Vec3 ℝ) {polys : List (List (Vec3 ℝ))} {wall : List (Vec3 ℝ)} (hw : wall ∈ polys)
    (hx : ∀ v ∈ wall, 61 / 100 ≤ v.x ∧ v.x ≤ 69 / 100) :
    makeVoxelGrid binary64 ⟨corner, y, z⟩ hi polys tenth margin = .error .valueError := by
  obtain ⟨pn, hpn, rfl⟩ := List.getElem_of_mem hw
  unfold makeVoxelGrid
  simp only []
  rw [if_neg]
  intro hall
  have h1 := List.all_eq_true.1 hall pn (List.mem_range.2 hpn)
  obtain ⟨c, hc, hm⟩ := List.any_eq_true.1 h1
  have hm' : pn ∈ polysIn binary64 polys c tenth := by simpa using hm
  obtain ⟨pts, hp, hout⟩ := mem_polysIn.1 hm'
  rw [List.getElem?_eq_getElem hpn, Option.some.injEq] at hp
  subst hp
  have h6 : c.1 ≠ 6 := by
    unfold gridKeys at hc
    simp only [List.mem_flatMap, List.mem_map] at hc
    obtain ⟨x, mx, y', -, z', -, rfl⟩ := hc
    exact no_six mx
  unfold outside at hout
  rw [Bool.or_eq_false_iff, Bool.or_eq_false_iff] at hout
  obtain ⟨⟨v1, m1, l1⟩, v2, m2, l2⟩ := beside_iff.1 hout.1.1
  obtain ⟨w1, n1, rfl⟩ := List.mem_map.1 m1
  obtain ⟨w2, n2, rfl⟩ := List.mem_map.1 m2
  change fl ((c.1 : ℝ) * tenth) ≤ w1.x at l1
  change w2.x ≤ fl (fl ((c.1 : ℝ) * tenth) + tenth) at l2
  rcases lt_or_gt_of_ne h6 with h | h
  · have hle : (c.1 : ℝ) ≤ 5 := by exact_mod_cast (by omega : c.1 ≤ 5)
    have a1 : fl (5 * tenth) = 1 / 2 := by unfold tenth; dyadic (-53) 4503599627370496
    have a2 : fl (1 / 2 + tenth) = 5404319552844595 / 2 ^ 53 := by unfold tenth; dyadic (-53) 5404319552844595
    have a3 := fl_mono (mul_le_mul_of_nonneg_right hle tenth_pos.le)
    rw [a1] at a3
    have a4 := fl_mono (show fl (c.1 * tenth) + tenth ≤ 1 / 2 + tenth by linarith)
    rw [a2] at a4
    have := (hx w2 n2).1
    norm_num at a4 this
    linarith
  · have hle : (7 : ℝ) ≤ c.1 := by exact_mod_cast (by omega : 7 ≤ c.1)
    have a1 : fl (7 * tenth) = 6305039478318695 / 2 ^ 53 := by unfold tenth; dyadic (-53) 6305039478318695
    have a3 := fl_mono (mul_le_mul_of_nonneg_right hle tenth_pos.le)
    rw [a1] at a3
    have := (hx w1 n1).2
    norm_num at a3 this
    linarith

/-- Without rounding errors the grid of such a building is made: a wall at x = 0.65 between the ends of a room. -/
example : ∃ g, Sim.makeVoxelGrid (⟨1001 / 10000, 0, 0⟩ : Vec3 ℝ) ⟨41 / 10, 3, 3⟩
    [[⟨1001 / 10000, 0, 0⟩, ⟨1001 / 10000, 3, 0⟩, ⟨1001 / 10000, 3, 3⟩], [⟨13 / 20, 0, 0⟩, ⟨13 / 20, 3, 0⟩, ⟨13 / 20, 3, 3⟩]]
    (1 / 10) (1 / 10000) = .ok g := by
  obtain ⟨g, hg, -⟩ := C44_complete (⟨1001 / 10000, 0, 0⟩ : Vec3 ℝ) ⟨41 / 10, 3, 3⟩
    [[⟨1001 / 10000, 0, 0⟩, ⟨1001 / 10000, 3, 0⟩, ⟨1001 / 10000, 3, 3⟩], [⟨13 / 20, 0, 0⟩, ⟨13 / 20, 3, 0⟩, ⟨13 / 20, 3, 3⟩]]
    (1 / 10) (1 / 10000) (by norm_num) (by norm_num) (by
      intro pts hp
      simp only [List.mem_cons, List.not_mem_nil, or_false] at hp
      rcases hp with rfl | rfl
      all_goals
        refine ⟨by simp, ?_⟩
        intro v hv
        simp only [List.mem_cons, List.not_mem_nil, or_false] at hv
        rcases hv with rfl | rfl | rfl <;> norm_num)
  exact ⟨g, hg⟩

/-! ### The hypotheses can be met -/

/-- A room from (0, 0, 0) to (4, 3, 2) has ordinary size with the default settings. -/
theorem room_ordinary : OrdinaryBox ⟨0, 0, 0⟩ ⟨4, 3, 2⟩ tenth margin := by
  have hs : |tenth - 1 / 10| ≤ 1 / 10 ^ 16 := by unfold tenth; rw [abs_le]; constructor <;> norm_num
  have he : |margin - 1 / 10 ^ 4| ≤ 1 / 10 ^ 18 := by unfold margin; rw [abs_le]; constructor <;> norm_num
  refine ⟨?_, ?_, ?_⟩ <;> exact C133_millimetres hs he (j := 0) (by norm_num) (by norm_num) (by norm_num)

/-- The floor and the wall at x = 4 of this room: the grid is made with 64-bit numbers, at (3.95, 1, 1) the wall is
found, and at (3, 1, 1) it is not. -/
example : ∃ g, makeVoxelGrid binary64 ⟨0, 0, 0⟩ ⟨4, 3, 2⟩
    [[⟨0, 0, 0⟩, ⟨4, 0, 0⟩, ⟨4, 3, 0⟩, ⟨0, 3, 0⟩], [⟨4, 0, 0⟩, ⟨4, 3, 0⟩, ⟨4, 3, 2⟩, ⟨4, 0, 2⟩]] tenth margin = .ok g ∧
    1 ∈ findNearby List.dedup (cellOf binary64 ⟨395 / 100, 1, 1⟩ tenth) g ∧
    1 ∉ findNearby List.dedup (cellOf binary64 ⟨3, 1, 1⟩ tenth) g := by
  have f2 : fl 2 = 2 := by dyadic (-51) 4503599627370496
  have f3 : fl 3 = 3 := by dyadic (-51) 6755399441055744
  have f4 : fl 4 = 4 := by dyadic (-50) 4503599627370496
  obtain ⟨g, hg, h⟩ := C133_binary64_partial (setIter := List.dedup) (fun l => ⟨List.nodup_dedup l, fun x => List.mem_dedup⟩)
    tenth_pos tenth_stored room_ordinary
    (polys := [[⟨0, 0, 0⟩, ⟨4, 0, 0⟩, ⟨4, 3, 0⟩, ⟨0, 3, 0⟩], [⟨4, 0, 0⟩, ⟨4, 3, 0⟩, ⟨4, 3, 2⟩, ⟨4, 0, 2⟩]]) (by
      intro pts hp
      simp only [List.mem_cons, List.not_mem_nil, or_false] at hp
      rcases hp with rfl | rfl
      all_goals
        refine ⟨by simp, ?_, ?_⟩
        all_goals
          intro v hv
          simp only [List.mem_cons, List.not_mem_nil, or_false] at hv
          rcases hv with rfl | rfl | rfl | rfl <;> norm_num [f2, f3, f4, fl_zero])
  refine ⟨g, hg, h 1 _ _ ⟨4, 1, 1⟩ rfl ?_ ?_, fun h' => ?_⟩
  · refine ⟨⟨4, 0, 0⟩, by simp, ⟨4, 3, 0⟩, by simp, ⟨4, 0, 2⟩, by simp, 1 / 6, 1 / 3, 1 / 2, by norm_num, by norm_num, by norm_num,
      by norm_num, ?_⟩
    ext <;> norm_num
  · have : (9 / 100 : ℝ) ≤ (1 - 1 / 10 ^ 6) * tenth := by unfold tenth; norm_num
    refine ⟨le_trans ?_ this, le_trans ?_ this, le_trans ?_ this⟩ <;> norm_num [abs_le]
  · obtain ⟨pts, hpts, ⟨-, v, hv, h1⟩, -⟩ := C133_only (fun l => ⟨List.nodup_dedup l, fun x => List.mem_dedup⟩) tenth_pos hg
      (by norm_num [tenth]) (by norm_num [tenth]) (by norm_num [tenth]) h'
    simp only [List.getElem?_cons_succ, List.getElem?_cons_zero, Option.some.injEq] at hpts
    subst hpts
    simp only [List.mem_cons, List.not_mem_nil, or_false] at hv
    unfold tenth at h1
    rcases hv with rfl | rfl | rfl | rfl <;> norm_num at h1

end B3d.SimRounded
