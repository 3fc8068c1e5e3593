import Verif.Proofs.SliceExact
import Verif.Props.Tiling

/-!
# Convex outlines given clockwise

With a normal to which no corner turns left the constructor turns the outline around.
-/

namespace B3d.Triangles

variable {α : Type} {convex : α → α → α → Except PyErr Bool} {inside : α → α → α → α → Except PyErr Bool}
  {pts : List α}

theorem run_all_reflex {get : Nat → α} {n : Nat} (hl : pts.length = n) (hn : 3 ≤ n)
    {verts : List (Nat × α)} (hv : ∀ i, i < n → verts[i]? = some (i, get i)) (hvl : verts.length = n)
    (hc : ∀ i, i < n → convex (get (if i > 0 then i - 1 else n - 1)) (get i) (get (if i < n - 1 then i + 1 else 0)) =
      .ok false) :
    ∀ (k fuel pos numFail : Nat) (tr : List Tri), numFail + k = n + 1 → k < fuel → pos ≤ n →
      run convex inside pts fuel ⟨verts, tr, pos, numFail⟩ = some (.ok none)
  | 0, fuel + 1, pos, numFail, tr, h1, _, _ => by
    have : step convex inside pts ⟨verts, tr, pos, numFail⟩ = .flip := by
      unfold step
      simp only
      rw [if_pos (by omega), if_pos (by omega)]
    simp only [run, this]
  | k + 1, fuel + 1, pos, numFail, tr, h1, h2, h3 => by
    have hstep : ∃ p, p ≤ n ∧ step convex inside pts ⟨verts, tr, pos, numFail⟩ =
        .cont ⟨verts, tr, p, numFail + 1⟩ := by
      obtain ⟨p, hp, hpe⟩ : ∃ p, p < n ∧ (if pos > verts.length - 1 then 0 else pos) = p :=
        ⟨_, by split <;> omega, rfl⟩
      refine ⟨p + 1, by omega, ?_⟩
      have hc' := hc p hp
      have e1 : verts[if p > 0 then p - 1 else n - 1]? = some (if p > 0 then p - 1 else n - 1,
          get (if p > 0 then p - 1 else n - 1)) := hv _ (by split <;> omega)
      have e2 : verts[if p < n - 1 then p + 1 else 0]? = some (if p < n - 1 then p + 1 else 0,
          get (if p < n - 1 then p + 1 else 0)) := hv _ (by split <;> omega)
      unfold step
      simp only
      rw [if_pos (by omega), if_neg (by omega), hpe, hvl, e1, e2, hv p hp]
      simp only [hc']
    obtain ⟨p, hp, hs⟩ := hstep
    simp only [run, hs]
    exact run_all_reflex hl hn hv hvl hc k fuel p (numFail + 1) tr (by omega) (by omega) hp

end B3d.Triangles

namespace B3d.SliceConvex

open Spec Planar Points Slice Polygon Triangles ConvexEars

variable {o u w : Vec3 ℝ} {m : ℝ}

theorem pos_around {l : List (ℝ × ℝ)} (h : Pos l) (hn : 3 ≤ l.length) {i : Nat} (hi : i < l.length) :
    0 < signedArea (l.getD (if i > 0 then i - 1 else l.length - 1) 0) (l.getD i 0)
      (l.getD (if i < l.length - 1 then i + 1 else 0) 0) := by
  have hget : ∀ j, j < l.length → l[j]? = some (l.getD j 0) := by
    intro j hj
    rw [List.getD_eq_getElem?_getD, List.getElem?_eq_getElem hj]
    rfl
  have h3 : ∀ i j k, i < j → j < k → k < l.length → 0 < signedArea (l.getD i 0) (l.getD j 0) (l.getD k 0) :=
    fun i j k h1 h2 h3 => h _ _ _ (ConvexEars.sublist3 h1 h2 (hget _ (by omega)) (hget _ (by omega)) (hget _ h3))
  rcases Nat.eq_zero_or_pos i with rfl | h0
  · rw [if_neg (by omega), if_pos (by omega), area_left]
    exact h3 _ _ _ (by omega) (by omega) (by omega)
  · rw [if_pos (by omega)]
    by_cases hl : i < l.length - 1
    · rw [if_pos hl]
      exact h3 _ _ _ (by omega) (by omega) (by omega)
    · rw [if_neg hl, ← area_left]
      exact h3 _ _ _ (by omega) (by omega) (by omega)

/-- A convex outline with the normal of its plane: whichever way round it is given, the polygon has its corners
counter-clockwise. -/
theorem poly_either (hx : Axes u w) {A l : List (ℝ × ℝ)} (h : Crisp m A) (hn : 3 ≤ A.length) (hp : Pos A)
    (hr : ∀ p ∈ A, Reach m (inPlane o u w p)) (hl : l = A ∨ l = A.reverse) :
    ∃ Q, polygonNew (l.map (inPlane o u w)) none (some (Vec3.cross u w)) = .ok Q ∧ Q.pts = A.map (inPlane o u w) ∧
      Q.vn = some (Vec3.cross u w) ∧ Q.tri = (List.range (A.length - 2)).map fun i => (A.length - 1, i, i + 1) := by
  have hc := Rounded.convex_crisp (o := o) hx h hn (hp.nodup hn) hp hr
  have ht := convex_triangulate hc
  rcases hl with rfl | rfl
  · obtain ⟨Q, h1, h2, h3, h4⟩ := polygonNew_intro (vn := some (Vec3.cross u w)) (convex_coplanar hc) hc.corners rfl ht
    exact ⟨Q, h1, h2, h3, by rw [h4, List.length_map]⟩
  · have hcop : arePointsCoplanar (A.reverse.map (inPlane o u w)) = true := by
      refine Points.C36_coplanar_complete _ (Vec3.cross u w) _ _ ?_ Points.GEOM_ATOL_pos (plane_inPlane o _)
      intro he
      have := norm_cross hx
      rw [he, Vec3.norm_eq_zero.2 rfl] at this
      norm_num at this
    have hflip : run (fun p c n => isCornerConvex (Vec3.cross u w) p c n) (fun t p c n => Triangles.isPointInside t p c n)
        (A.reverse.map (inPlane o u w)) (2 * (A.reverse.map (inPlane o u w)).length + 2)
        (initState (A.reverse.map (inPlane o u w))) = some (.ok none) := by
      have hlen : (A.reverse.map (inPlane o u w)).length = A.length := by simp
      unfold initState
      refine run_all_reflex (get := fun i => inPlane o u w (A.reverse.getD i 0)) (n := A.length) hlen hn ?_ ?_ ?_
        (A.length + 1) _ 0 0 [] (by omega) (by omega) (by omega)
      · intro i hi
        rw [List.getElem?_zip_eq_some]
        refine ⟨by rw [hlen, List.getElem?_range hi], ?_⟩
        rw [List.getElem?_map, List.getD_eq_getElem?_getD, List.getElem?_eq_getElem (by simpa using hi)]
        rfl
      · simp
      · intro i hi
        have hmem : ∀ j, j < A.length → A.reverse.getD j 0 ∈ A := by
          intro j hj
          rw [List.getD_eq_getElem?_getD, List.getElem?_eq_getElem (by simpa using hj)]
          exact List.mem_reverse.1 (List.getElem_mem _)
        rw [isCornerConvex_inPlane hx h (hmem _ (by split <;> omega)) (hmem _ hi) (hmem _ (by split <;> omega))]
        congr 1
        rw [decide_eq_false_iff_not, not_lt]
        have hrev : ∀ j, j < A.length → A.reverse.getD j 0 = A.getD (A.length - 1 - j) 0 := by
          intro j hj
          rw [List.getD_eq_getElem?_getD, List.getD_eq_getElem?_getD, List.getElem?_reverse hj]
        have := pos_around hp hn (i := A.length - 1 - i) (by omega)
        rw [hrev _ (by split <;> omega), hrev _ hi, hrev _ (by split <;> omega)]
        have e1 : A.length - 1 - (if i > 0 then i - 1 else A.length - 1) =
            if A.length - 1 - i < A.length - 1 then A.length - 1 - i + 1 else 0 := by
          split <;> split <;> omega
        have e2 : A.length - 1 - (if i < A.length - 1 then i + 1 else 0) =
            if A.length - 1 - i > 0 then A.length - 1 - i - 1 else A.length - 1 := by
          split <;> split <;> omega
        rw [e1, e2]
        have sw : ∀ a b c : ℝ × ℝ, signedArea c b a = -signedArea a b c := by intros; unfold signedArea; ring
        rw [sw]
        linarith
    have ht' : triangulate (2 * (A.reverse.map (inPlane o u w)).length + 2) (A.reverse.map (inPlane o u w))
        (Vec3.cross u w) = some (.ok (A.map (inPlane o u w),
          (List.range ((A.map (inPlane o u w)).length - 2)).map fun i =>
            ((A.map (inPlane o u w)).length - 1, i, i + 1))) := by
      unfold triangulate at ht ⊢
      rw [decide_eq_false (by rw [norm_cross hx]; norm_num [isClose, NP_ATOL])] at ht ⊢
      rw [triangulateTries, if_neg (by simp), hflip]
      simp only
      rw [triangulateTries, if_neg (by simp)] at ht ⊢
      have e : (A.reverse.map (inPlane o u w)).reverse = A.map (inPlane o u w) := by simp
      have e2 : (A.reverse.map (inPlane o u w)).length = (A.map (inPlane o u w)).length := by simp
      rw [e, e2]
      revert ht
      generalize run _ _ _ _ _ = r
      intro ht
      match r, ht with
      | some (.ok (some tri)), ht => exact ht
      | some (.ok none), ht =>
        exfalso
        simp only at ht
        rw [triangulateTries, if_neg (by simp)] at ht
        rw [← List.map_reverse, ← e2, hflip] at ht
        simp [triangulateTries] at ht
      | some (.error _), ht => cases ht
      | none, ht => cases ht
    obtain ⟨Q, h1, h2, h3, h4⟩ := polygonNew_intro (vn := some (Vec3.cross u w)) hcop (by simpa using hn) rfl ht'
    exact ⟨Q, h1, h2, h3, by rw [h4, List.length_map]⟩

end B3d.SliceConvex
