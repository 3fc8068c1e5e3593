import Verif.Props.SimFate
import Verif.Props.WallsReal
import Verif.Props.PointInPolygonCases
import Verif.Props.DistanceCases

/-!
# Property C124: how often a ray is reflected in one step

Exact reals, with the tests of the code (`geoOf`).
-/

namespace B3d.Sim

open Spec Polygon Triangles

variable {P : Params ℝ} {Ps : List Poly} {a : Fin 3 → Vec3 ℝ}

/-- Three unit vectors perpendicular to each other. -/
def Axes (a : Fin 3 → Vec3 ℝ) : Prop := ∀ i j, Vec3.dot (a i) (a j) = if i = j then 1 else 0

/-- Polygon number `k` is made by the constructor and lies in the plane perpendicular to the axis `i` in which this coordinate is
`c`. -/
def PerpendicularAt (Ps : List Poly) (a : Fin 3 → Vec3 ℝ) (k : Nat) (i : Fin 3) (c : ℝ) : Prop :=
  ∃ Q v e w, Ps[k]? = some Q ∧ FlatPoly Q v e w ∧ (w = a i ∨ w = -a i) ∧ ∀ q ∈ Q.pts, Vec3.dot (a i) q = c

/-- The point is more than a centimetre beyond the bounding box of the corners. -/
def BeyondBox (pts : List (Vec3 ℝ)) (p : Vec3 ℝ) : Prop :=
  (∀ q ∈ pts, p.x + 1 / 100 < q.x) ∨ (∀ q ∈ pts, p.y + 1 / 100 < q.y) ∨ (∀ q ∈ pts, p.z + 1 / 100 < q.z) ∨
  (∀ q ∈ pts, q.x + 1 / 100 < p.x) ∨ (∀ q ∈ pts, q.y + 1 / 100 < p.y) ∨ (∀ q ∈ pts, q.z + 1 / 100 < p.z)

/-- The opaque polygons near the point are perpendicular to the axes, the point is in none of their planes, no two of them
are less than the reflection distance away on opposite sides of it, and the velocity is almost parallel only to polygons of
which the bounding box is more than a centimetre away. -/
structure Clear (P : Params ℝ) (Ps : List Poly) (a : Fin 3 → Vec3 ℝ) (p v : Vec3 ℝ) : Prop where
  walls : ∀ k ∈ polygonsAround P p, (k : Int) ∉ P.trans → ∃ i c, PerpendicularAt Ps a k i c
  off : ∀ k ∈ polygonsAround P p, (k : Int) ∉ P.trans → ∀ i c, PerpendicularAt Ps a k i c → Vec3.dot (a i) p ≠ c
  steep : ∀ k ∈ polygonsAround P p, (k : Int) ∉ P.trans → ∀ i c, PerpendicularAt Ps a k i c →
    1 / 1000 ≤ |Vec3.dot (a i) v| ∨ ∀ Q, Ps[k]? = some Q → BeyondBox Q.pts p
  apart : ∀ k ∈ polygonsAround P p, (k : Int) ∉ P.trans → ∀ l ∈ polygonsAround P p, (l : Int) ∉ P.trans → ∀ i c d,
    PerpendicularAt Ps a k i c → PerpendicularAt Ps a l i d → c < Vec3.dot (a i) p → Vec3.dot (a i) p < d →
    P.reflDist ≤ Vec3.dot (a i) p - c ∨ P.reflDist ≤ d - Vec3.dot (a i) p

/-! ### The tests for polygons perpendicular to an axis -/

theorem beyondBox_outside {pts : List (Vec3 ℝ)} {tri : List Tri} (hne : pts ≠ []) {x : Vec3 ℝ} (h : BeyondBox pts x) (atol : ℝ) :
    isPointInside x pts tri true atol = .ok false := by
  obtain ⟨lo, hi, r, hb, hr, hir, -⟩ := Bboxes.C25_inside_bbox pts hne x (1 / 100)
  have hf : r = false := by
    rw [← Bool.not_eq_true, hir]
    rintro ⟨⟨h1, h4⟩, ⟨h2, h5⟩, h3, h6⟩
    obtain ⟨lo', hi', hb', -, ⟨p1, m1, e1⟩, ⟨p2, m2, e2⟩, ⟨p3, m3, e3⟩, ⟨p4, m4, e4⟩, ⟨p5, m5, e5⟩, p6, m6, e6⟩ :=
      Bboxes.boundingBox_spec hne
    rw [hb] at hb'
    obtain ⟨rfl, rfl⟩ := Prod.mk.inj (Except.ok.inj hb')
    simp only [] at h1 h2 h3 h4 h5 h6
    rcases h with h | h | h | h | h | h
    · have := h p1 m1; linarith
    · have := h p2 m2; linarith
    · have := h p3 m3; linarith
    · have := h p4 m4; linarith
    · have := h p5 m5; linarith
    · have := h p6 m6; linarith
  unfold Polygon.isPointInside
  rw [hr, hf]

theorem flatPoly_ne {Q : Poly} {v w : Vec3 ℝ} {e : ℝ} (h : FlatPoly Q v e w) : Q.pts ≠ [] := by
  obtain ⟨-, l, -, -, hl, -⟩ := h.corner
  intro h0
  rw [h0] at hl
  cases hl

theorem axis_plane {k : Nat} {i : Fin 3} {c : ℝ} (h : PerpendicularAt Ps a k i c) :
    ∃ Q v e w κ, Ps[k]? = some Q ∧ FlatPoly Q v e w ∧ (w = a i ∨ w = -a i) ∧ κ ≠ 0 ∧ v = κ • a i ∧ e = κ * c := by
  obtain ⟨Q, v, e, w, hk, hQ, hw, hc⟩ := h
  obtain ⟨pts, vn, hnew⟩ := hQ.made
  obtain ⟨κ, hκ, hv⟩ := cornerNormal_plane hQ.corner (polygonNew_flat hnew hQ.normal hQ.plane).ne hQ.plane
  obtain ⟨q, hq⟩ := List.exists_mem_of_ne_nil _ (flatPoly_ne hQ)
  rcases hw with rfl | rfl
  · exact ⟨Q, v, e, _, κ, hk, hQ, .inl rfl, hκ, hv, by rw [← hQ.plane q hq, hv, Vec3.dot_smul_left, hc q hq]⟩
  · have hv' : v = (-κ) • a i := by rw [hv]; ext <;> simp
    exact ⟨Q, v, e, _, -κ, hk, hQ, .inr rfl, neg_ne_zero.2 hκ, hv', by
      rw [← hQ.plane q hq, hv', Vec3.dot_smul_left, hc q hq]⟩

/-- A polygon is noticed only if the ray goes towards its plane. -/
theorem hit_towards {k : Nat} {i : Fin 3} {c : ℝ} (h : PerpendicularAt Ps a k i c) {p v : Vec3 ℝ}
    (hoff : Vec3.dot (a i) p ≠ c) (hsteep : 1 / 1000 ≤ |Vec3.dot (a i) v| ∨ ∀ Q, Ps[k]? = some Q → BeyondBox Q.pts p)
    (hhit : (geoOf Ps).hit p v k = true) : 0 < (c - Vec3.dot (a i) p) * Vec3.dot (a i) v := by
  obtain ⟨Q, n, e, w, κ, hk, hQ, hw, hκ, rfl, rfl⟩ := axis_plane h
  obtain ⟨pts, vn, hnew⟩ := hQ.made
  simp only [geoOf, hk, decide_eq_true_eq] at hhit
  have habs : |Vec3.dot w v| = |Vec3.dot (a i) v| := by
    rcases hw with rfl | rfl
    · rfl
    · rw [show Vec3.dot (-a i) v = -Vec3.dot (a i) v by simp [Vec3.dot]; ring, abs_neg]
  by_cases hg : |Vec3.dot w v| < 1 / 1000
  · rw [C73_parallel hnew hQ.normal hQ.plane hQ.corner hg] at hhit
    rcases hsteep with hs | hs
    · rw [habs] at hg; linarith
    · rw [beyondBox_outside (flatPoly_ne hQ) (hs Q hk)] at hhit
      cases hhit
  · obtain ⟨M, hM⟩ := exists_bound Q.pts
    obtain ⟨s, h0, hs, -⟩ := C73_sound_partial hnew hQ.normal hQ.plane hQ.corner hM (by norm_num) (not_lt.1 hg) hhit
    have h0 := h0 rfl
    rw [Vec3.dot_smul_left] at hs
    have hs := mul_left_cancel₀ hκ hs
    rw [Vec3.dot_add_right, Vec3.dot_smul_right] at hs
    have e1 : c - Vec3.dot (a i) p = s * Vec3.dot (a i) v := by linarith
    have hne : c - Vec3.dot (a i) p ≠ 0 := sub_ne_zero.2 (Ne.symm hoff)
    rw [e1] at hne ⊢
    have hv0 : Vec3.dot (a i) v ≠ 0 := right_ne_zero_of_mul hne
    have hs0 : 0 < s := lt_of_le_of_ne h0 (Ne.symm (left_ne_zero_of_mul hne))
    rw [mul_assoc]
    exact mul_pos hs0 (mul_self_pos.2 hv0)

/-- The distance is not smaller than that to the plane. -/
theorem dist_plane (ha : Axes a) {k : Nat} {i : Fin 3} {c : ℝ} (h : PerpendicularAt Ps a k i c) (p : Vec3 ℝ) :
    |c - Vec3.dot (a i) p| ≤ (geoOf Ps).dist p k := by
  obtain ⟨Q, n, e, w, κ, hk, hQ, hw, hκ, rfl, rfl⟩ := axis_plane h
  obtain ⟨pts, vn, hnew⟩ := hQ.made
  obtain ⟨M, hM⟩ := exists_bound Q.pts
  have h1 : Vec3.dot (a i) (a i) = 1 := by rw [ha i i, if_pos rfl]
  obtain ⟨t, ht, hx, hx'⟩ : ∃ t : ℝ, |t| = |c - Vec3.dot (a i) p| ∧ p = (p - t • w) + t • w ∧
      Vec3.dot (κ • a i) (p - t • w) = κ * c := by
    rcases hw with rfl | rfl
    · refine ⟨Vec3.dot (a i) p - c, abs_sub_comm _ _, by abel, ?_⟩
      rw [Vec3.dot_smul_left, Vec3.dot_sub_right, Vec3.dot_smul_right, h1]
      ring
    · refine ⟨c - Vec3.dot (a i) p, rfl, by abel, ?_⟩
      rw [Vec3.dot_smul_left, Vec3.dot_sub_right, Vec3.dot_smul_right,
        show Vec3.dot (a i) (-a i) = -Vec3.dot (a i) (a i) by simp [Vec3.dot]; ring, h1]
      ring
  obtain ⟨r, hr, -, -, -, ⟨h2, -⟩, h3⟩ := distance_spec hnew hQ.normal hQ.plane hQ.corner hM hx hx'
  have hd : (geoOf Ps).dist p k = r := by
    simp only [geoOf, hk]
    rw [polyNormal_eq hQ.corner, hr]
  rw [hd, ← ht]
  by_cases hrt : r = |t|
  · rw [hrt]
  · obtain ⟨y, hy, hry⟩ := h3 hrt
    rw [hry]
    exact h2 y (polygonNew_outline_region hnew hy)

theorem vn_axis {k : Nat} {i : Fin 3} {c : ℝ} (h : PerpendicularAt Ps a k i c) :
    (geoOf Ps).vn k = a i ∨ (geoOf Ps).vn k = -a i := by
  obtain ⟨Q, n, e, w, κ, hk, hQ, hw, -⟩ := axis_plane h
  simp only [geoOf, hk]
  rw [polyNormal_eq hQ.corner]
  exact hw

/-- Bouncing off a polygon changes the sign of one coordinate of the velocity. -/
theorem mirror_axis (ha : Axes a) {n v : Vec3 ℝ} {i : Fin 3} (h : n = a i ∨ n = -a i) (j : Fin 3) :
    Vec3.dot (a j) (mirror n v) = if j = i then -Vec3.dot (a j) v else Vec3.dot (a j) v := by
  have e : mirror n v = v - (2 * Vec3.dot (a i) v) • a i := by
    rcases h with rfl | rfl
    · rfl
    · unfold mirror
      ext <;> simp [Vec3.dot] <;> ring
  rw [e, Vec3.dot_sub_right, Vec3.dot_smul_right, ha j i]
  split
  · rename_i hj
    rw [hj]; ring
  · ring

/-- One bounce in the situation of `Clear`. -/
theorem clear_bounce (hgeo : P.geo = geoOf Ps) (ha : Axes a) {p v : Vec3 ℝ} (hc : Clear P Ps a p v) {k : Nat}
    (hn : IsNearest P.geo P.trans (polygonsAround P p) p v k) (hd : P.geo.dist p k < P.reflDist) :
    ∃ i c, PerpendicularAt Ps a k i c ∧ Clear P Ps a p (mirror (P.geo.vn k) v) ∧
      (∀ j, Vec3.dot (a j) (mirror (P.geo.vn k) v) = if j = i then -Vec3.dot (a j) v else Vec3.dot (a j) v) ∧
      0 < (c - Vec3.dot (a i) p) * Vec3.dot (a i) v ∧ |c - Vec3.dot (a i) p| < P.reflDist := by
  obtain ⟨hk, ⟨hop, hhit⟩, -⟩ := hn
  obtain ⟨i, c, hp⟩ := hc.walls k hk hop
  have hm := mirror_axis ha (v := v) (vn_axis hp)
  rw [hgeo] at hhit hd ⊢
  refine ⟨i, c, hp, ⟨hc.walls, hc.off, ?_, hc.apart⟩, hm, hit_towards hp (hc.off k hk hop i c hp) (hc.steep k hk hop i c hp) hhit,
    (dist_plane ha hp p).trans_lt hd⟩
  intro l hl hlop j d hj
  rw [hm j]
  split
  · rw [abs_neg]; exact hc.steep l hl hlop j d hj
  · exact hc.steep l hl hlop j d hj

theorem chain_axes (hgeo : P.geo = geoOf Ps) (ha : Axes a) {p : Vec3 ℝ} : ∀ (ks : List Nat) (v : Vec3 ℝ) (us : List (Fin 3)),
    us.Nodup → Clear P Ps a p v →
    (∀ i ∈ us, ∀ k ∈ polygonsAround P p, (k : Int) ∉ P.trans → ∀ c, PerpendicularAt Ps a k i c →
      0 < (c - Vec3.dot (a i) p) * Vec3.dot (a i) v → P.reflDist ≤ |c - Vec3.dot (a i) p|) →
    Chain P.geo P.trans (polygonsAround P p) P.reflDist p v ks →
    ∃ is : List (Fin 3), (us ++ is).Nodup ∧ List.Forall₂ (fun k i => ∃ c, PerpendicularAt Ps a k i c) ks is ∧
      ∀ j, Vec3.dot (a j) (bounced P.geo v ks) = if j ∈ is then -Vec3.dot (a j) v else Vec3.dot (a j) v := by
  intro ks
  induction ks with
  | nil => intro v us hu _ _ _; exact ⟨[], by simpa using hu, .nil, by simp [bounced]⟩
  | cons k ks ih =>
    rintro v us hu hc hus ⟨hn, hd, hch⟩
    obtain ⟨i, c, hp, hc', hm, hto, hlt⟩ := clear_bounce hgeo ha hc hn hd
    have hi : i ∉ us := fun hi => absurd hlt (not_lt.2 (hus i hi k hn.1 hn.2.1.1 c hp hto))
    obtain ⟨is, h1, h2, h3⟩ := ih (mirror (P.geo.vn k) v) (us ++ [i])
      (List.nodup_append.2 ⟨hu, List.nodup_singleton i, by
        rintro x hx y hy rfl
        rw [List.mem_singleton] at hy
        exact hi (hy ▸ hx)⟩) hc' (by
        intro j hj l hl hlop d hpd hpos
        rw [List.mem_append, List.mem_singleton] at hj
        rw [hm j] at hpos
        rcases hj with hj | rfl
        · rw [if_neg (by rintro rfl; exact hi hj)] at hpos
          exact hus j hj l hl hlop d hpd hpos
        · rw [if_pos rfl] at hpos
          have hk := hn.1
          have hop := hn.2.1.1
          by_contra hlt'
          rw [not_le] at hlt'
          have hcc : Vec3.dot (a j) p - c ≤ |c - Vec3.dot (a j) p| := by rw [abs_sub_comm]; exact le_abs_self _
          have hcc' := le_abs_self (c - Vec3.dot (a j) p)
          have hdd : Vec3.dot (a j) p - d ≤ |d - Vec3.dot (a j) p| := by rw [abs_sub_comm]; exact le_abs_self _
          have hdd' := le_abs_self (d - Vec3.dot (a j) p)
          rcases lt_or_gt_of_ne (hc.off k hk hop j c hp) with hlt1 | hlt1
          · have hv : 0 < Vec3.dot (a j) v := (mul_pos_iff_of_pos_left (by linarith)).1 hto
            have hd1 : d - Vec3.dot (a j) p < 0 := by
              by_contra hge
              have := mul_nonneg (not_lt.1 hge) hv.le
              linarith
            rcases hc.apart l hl hlop k hk hop j d c hpd hp (by linarith) hlt1 with h | h <;> linarith
          · have hv : Vec3.dot (a j) v < 0 := by
              by_contra hge
              have := mul_nonneg (show 0 ≤ Vec3.dot (a j) p - c by linarith) (not_lt.1 hge)
              linarith
            have hd1 : 0 < d - Vec3.dot (a j) p := by
              by_contra hge
              have := mul_nonneg_of_nonpos_of_nonpos (not_lt.1 hge) hv.le
              linarith
            rcases hc.apart k hk hop l hl hlop j c d hp hpd hlt1 (by linarith) with h | h <;> linarith) hch
    refine ⟨i :: is, by simpa using h1, .cons ⟨c, hp⟩ h2, fun j => ?_⟩
    have hnot : i ∉ is := by
      rw [List.append_assoc, List.nodup_append] at h1
      have := h1.2.1
      simp only [List.singleton_append, List.nodup_cons] at this
      exact this.1
    change Vec3.dot (a j) (bounced P.geo (mirror (P.geo.vn k) v) ks) = _
    rw [h3 j, hm j]
    by_cases hji : j = i
    · subst hji
      rw [if_neg hnot, if_pos rfl, if_pos List.mem_cons_self]
    · rw [if_neg hji]
      by_cases hjs : j ∈ is
      · rw [if_pos hjs, if_pos (List.mem_cons_of_mem _ hjs)]
      · rw [if_neg hjs, if_neg (by rw [List.mem_cons]; rintro (h | h); exacts [hji h, hjs h])]

/-- **C124, at most one reflection for each direction.**  The polygons a ray is reflected by in one step are perpendicular to
different axes, so there are at most three; each changes the sign of the velocity along its axis. -/
theorem C124_three (hgeo : P.geo = geoOf Ps) (ha : Axes a) {p v : Vec3 ℝ} (hc : Clear P Ps a p v) {ks : List Nat}
    (hk : Chain P.geo P.trans (polygonsAround P p) P.reflDist p v ks) :
    ks.length ≤ 3 ∧ ∃ is : List (Fin 3), is.Nodup ∧ List.Forall₂ (fun k i => ∃ c, PerpendicularAt Ps a k i c) ks is ∧
      ∀ j, Vec3.dot (a j) (bounced P.geo v ks) = if j ∈ is then -Vec3.dot (a j) v else Vec3.dot (a j) v := by
  obtain ⟨is, h1, h2, h3⟩ := chain_axes hgeo ha ks v [] List.nodup_nil hc (by simp) hk
  rw [List.nil_append] at h1
  refine ⟨?_, is, h1, h2, h3⟩
  rw [h2.length_eq]
  have := h1.length_le_card
  simpa using this

/-- A reflection loop that has not ended has reflected the ray as often as it was allowed to. -/
theorem chain_of_none (c : Cell) : ∀ (fuel : Nat) (r : Ray ℝ), reflectLoop P c fuel r (target P c r) = none →
    ∃ ks : List Nat, ks.length = fuel ∧ Chain P.geo P.trans (findNearby P.setIter c P.grid) P.reflDist r.pos r.vel ks := by
  intro fuel
  induction fuel with
  | zero => intro r _; exact ⟨[], rfl, trivial⟩
  | succ fuel ih =>
    intro r h
    cases ht : target P c r with
    | none => rw [ht] at h; cases h
    | some k =>
      rw [ht, reflectLoop] at h
      split at h
      · rename_i hcond
        split at h
        · cases h
        · obtain ⟨ks, h1, h2⟩ := ih _ h
          exact ⟨k :: ks, by rw [List.length_cons, h1], isNearest_of_target ht, hcond.1, h2⟩
      · cases h

/-- **C124, the step ends** after at most three reflections, whatever the absorption of the surfaces. -/
theorem C124_ends (hgeo : P.geo = geoOf Ps) (ha : Axes a) {r : Ray ℝ} (hc : Clear P Ps a r.pos r.vel) {fuel : Nat} (hf : 4 ≤ fuel) :
    ∃ r', moveRay P fuel r = some r' := by
  unfold moveRay
  split
  · exact ⟨_, rfl⟩
  · have h1 : (checkLeft P r).pos = r.pos ∧ (checkLeft P r).vel = r.vel := by
      unfold checkLeft
      split <;> exact ⟨rfl, rfl⟩
    simp only []
    cases h : reflectLoop P (cellOf (checkLeft P r).pos P.gridStep) fuel (checkLeft P r)
        (target P (cellOf (checkLeft P r).pos P.gridStep) (checkLeft P r)) with
    | some x => exact ⟨_, rfl⟩
    | none =>
      obtain ⟨ks, hlen, hch⟩ := chain_of_none _ _ _ h
      rw [h1.1, h1.2] at hch
      have := (C124_three hgeo ha hc hch).1
      omega

/-- **C124, one step of a simulation.**  A ray that is in no absorber and within the bounding box is reflected by at most three
polygons in a step, perpendicular to different axes; it loses exactly what they absorb, or all of its energy if that leaves
no more than `eps`. -/
theorem C124_step (hgeo : P.geo = geoOf Ps) (ha : Axes a) (heps : 0 ≤ P.eps) (fuel n : Nat) (A : Arrays ℝ) (l : List (St ℝ))
    (hl : A.hits.length = P.absorbers.length) (h : steps P fuel n (start P A) = some l) {i : Nat} {s s' : St ℝ}
    (hs : l[i]? = some s) (hs' : l[i + 1]? = some s') {m : Nat} {r r' : Ray ℝ} (hr : s.rays[m]? = some r)
    (hr' : s'.rays[m]? = some r') (hlive : P.eps < r.energy)
    (habs : firstAbsorber P.absorberRadius P.absorbers r.pos = none) (hin : ¬ Outside P.lo P.hi P.eps r.pos)
    (hc : Clear P Ps a r.pos r.vel) :
    ∃ (ks : List Nat) (is : List (Fin 3)), ks.length ≤ 3 ∧ is.Nodup ∧
      List.Forall₂ (fun k i => ∃ c, PerpendicularAt Ps a k i c) ks is ∧
      ((r'.energy = r.energy - (ks.map P.absorption).sum ∧
          ∀ j, Vec3.dot (a j) r'.vel = if j ∈ is then -Vec3.dot (a j) r.vel else Vec3.dot (a j) r.vel) ∨
        (r'.energy = 0 ∧ r'.pos = r.pos ∧ r.energy - (ks.map P.absorption).sum ≤ P.eps)) := by
  have hfate := forall₂_getElem? (C67_fate fuel n A l heps hl h i s s' hs hs') hr hr'
  cases hfate with
  | rests h0 _ => exact absurd hlive (not_lt.2 h0)
  | absorbed _ h0 => rw [habs] at h0; cases h0
  | lost _ _ ho => exact absurd ho hin
  | spent ks k _ _ _ chain _ after hp _ he =>
    obtain ⟨h1, is, h2, h3, -⟩ := C124_three hgeo ha hc chain
    exact ⟨_, is, h1, h2, h3, .inr ⟨he, hp, after⟩⟩
  | moves ks _ _ _ chain _ _ hv _ he =>
    obtain ⟨h1, is, h2, h3, h4⟩ := C124_three hgeo ha hc chain
    exact ⟨_, is, h1, h2, h3, .inl ⟨he, by rw [hv]; exact h4⟩⟩
  | waits ks k _ _ _ chain _ _ _ hv _ he =>
    obtain ⟨h1, is, h2, h3, h4⟩ := C124_three hgeo ha hc chain
    exact ⟨_, is, h1, h2, h3, .inl ⟨he, by rw [hv]; exact h4⟩⟩

/-! ### Rays on a surface -/

/-- A point well inside a triangle of the polygon: every ray from there notices the polygon, at the distance 0. -/
theorem on_surface {k : Nat} {Q : Poly} {v w p : Vec3 ℝ} {e : ℝ} (hk : Ps[k]? = some Q) (hQ : FlatPoly Q v e w)
    (hin : WellIn Q p) : (∀ u, (geoOf Ps).hit p u k = true) ∧ (geoOf Ps).dist p k = 0 := by
  obtain ⟨pts, vn, hnew⟩ := hQ.made
  constructor
  · intro u
    simp only [geoOf, hk, decide_eq_true_eq]
    by_cases hg : |Vec3.dot w u| < 1 / 1000
    · rw [C73_parallel hnew hQ.normal hQ.plane hQ.corner hg]
      obtain ⟨t, ht, a, b, c, ha, hb, hc, hwell⟩ := hin
      exact isPointInside_of_triangle (polygonNew_sturdy hnew) (polygonNew_flat hnew hQ.normal hQ.plane) (by norm_num) ht
        ⟨a, b, c, ha, hb, hc, hwell.1, isPointInside_complete hwell⟩
    · refine C73_hit_partial (s := 0) hnew hQ.normal hQ.plane hQ.corner (by norm_num) (not_lt.1 hg) true (fun _ => le_rfl) (.inl ?_)
      rw [zero_smul, add_zero]
      exact hin
  · have h := (C72_distance_in_front hnew hQ.normal hQ.plane hQ.corner (x := p) (x' := p) (k := 0) (by simp) hin).1
    simp only [geoOf, hk]
    rw [polyNormal_eq hQ.corner, h, sub_self]
    simp only []
    exact Vec3.norm_eq_zero.2 rfl

/-- **C124, rays that start on a surface never move.**  A ray at a point of an opaque surface, not close to the edges of its
triangles, loses all of its energy in the step, whatever its direction and the absorption. -/
theorem C124_on_surface (hgeo : P.geo = geoOf Ps) (heps : 0 ≤ P.eps) (hrefl : 0 < P.reflDist) (fuel n : Nat) (A : Arrays ℝ)
    (l : List (St ℝ)) (hl : A.hits.length = P.absorbers.length) (h : steps P fuel n (start P A) = some l) {i : Nat} {s s' : St ℝ}
    (hs : l[i]? = some s) (hs' : l[i + 1]? = some s') {m : Nat} {r r' : Ray ℝ} (hr : s.rays[m]? = some r)
    (hr' : s'.rays[m]? = some r') {k : Nat} {Q : Poly} {v w : Vec3 ℝ} {e : ℝ} (hk : Ps[k]? = some Q) (hQ : FlatPoly Q v e w)
    (hnear : k ∈ polygonsAround P r.pos) (hop : (k : Int) ∉ P.trans) (hin : WellIn Q r.pos) :
    r'.pos = r.pos ∧ r'.energy ≤ P.eps := by
  obtain ⟨h1, h2⟩ := on_surface hk hQ hin
  rw [← hgeo] at h1 h2
  have hfate := forall₂_getElem? (C67_fate fuel n A l heps hl h i s s' hs hs') hr hr'
  cases hfate with
  | rests h0 h => rw [h]; exact ⟨rfl, h0⟩
  | absorbed _ _ hp _ he => exact ⟨hp, by rw [he]; exact heps⟩
  | lost _ _ _ hp _ he => exact ⟨hp, by rw [he]; exact heps⟩
  | spent _ _ _ _ _ _ _ _ hp _ he => exact ⟨hp, by rw [he]; exact heps⟩
  | moves ks _ _ _ _ _ free =>
    have := free k hnear ⟨hop, h1 _⟩
    rw [h2] at this
    exact absurd hrefl (not_lt.2 this.le)
  | waits ks m _ _ _ _ _ near dist =>
    have := near.2.2 k hnear ⟨hop, h1 _⟩
    rw [h2, dist] at this
    exact absurd hrefl (not_lt.2 this)

/-- **C124, the step never ends** for such a ray if the surfaces absorb nothing. -/
theorem C124_never_ends (hgeo : P.geo = geoOf Ps) (hrefl : 0 < P.reflDist) {r : Ray ℝ} (hlive : P.eps < r.energy)
    (hbox : ¬ Outside P.lo P.hi P.eps r.pos) (habs : ∀ k, P.absorption k = 0) {k : Nat} {Q : Poly} {v w : Vec3 ℝ} {e : ℝ}
    (hk : Ps[k]? = some Q) (hQ : FlatPoly Q v e w) (hnear : k ∈ polygonsAround P r.pos) (hop : (k : Int) ∉ P.trans)
    (hin : WellIn Q r.pos) (fuel : Nat) : moveRay P fuel r = none := by
  obtain ⟨h1, h2⟩ := on_surface hk hQ hin
  rw [← hgeo] at h1 h2
  have hloop : ∀ (fuel : Nat) (r1 : Ray ℝ), r1.pos = r.pos → r1.energy = r.energy →
      reflectLoop P (cellOf r.pos P.gridStep) fuel r1 (target P (cellOf r.pos P.gridStep) r1) = none := by
    intro fuel
    induction fuel with
    | zero => intros; rfl
    | succ fuel ih =>
      intro r1 hp he
      cases ht : target P (cellOf r.pos P.gridStep) r1 with
      | none =>
        rw [target_eq] at ht
        exact absurd ⟨hop, by rw [hp]; exact h1 _⟩ ((C45_found_iff _ _ _ _ _).1 ht k hnear)
      | some m =>
        have hm := (isNearest_of_target ht).2.2 k hnear ⟨hop, by rw [hp]; exact h1 _⟩
        rw [hp, h2] at hm
        rw [reflectLoop, if_pos ⟨by rw [hp]; exact hm.trans_lt hrefl, by rw [he]; exact hlive⟩,
          if_neg (by rw [habs, sub_zero, he]; exact not_le.2 hlive)]
        exact ih _ hp (by change r1.energy - P.absorption m = _; rw [habs, sub_zero, he])
  have hcl : checkLeft P r = r := by
    unfold checkLeft
    rw [if_neg]
    rw [Bool.and_eq_true, leftBox_iff]
    exact fun h => hbox h.2
  unfold moveRay
  rw [if_neg (not_le.2 hlive), hcl]
  simp only [hloop fuel r rfl rfl]

/-! ### The hypotheses are met

Two horizontal triangles, 10 cm apart, that absorb the part `α` of the energy; the speed of sound and the time step of the configuration. -/

/-- The axes of the coordinates. -/
def stdAxes : Fin 3 → Vec3 ℝ := ![⟨1, 0, 0⟩, ⟨0, 1, 0⟩, ⟨0, 0, 1⟩]

theorem stdAxes_axes : Axes stdAxes := by
  intro i j
  fin_cases i <;> fin_cases j <;> simp [stdAxes, Vec3.dot]

/-- The parameters of the case. -/
noncomputable def flatRoom (α : ℝ) (A B : Poly) : Params ℝ :=
  ⟨343, 1 / 40000, 1 / 10, [((0, 0, 0), [0, 1])], [], 1 / 10, ⟨0, 0, 0⟩, ⟨1, 1, 1 / 10⟩, [-1], fun _ => α, 1 / 10 ^ 6,
    geoOf [A, B], List.dedup⟩

theorem flatRoom_trans (α : ℝ) (A B : Poly) : (flatRoom α A B).trans = [-1] := by
  unfold Params.trans
  rw [if_neg (by simp [flatRoom])]
  rfl

theorem flatRoom_around (α : ℝ) (A B : Poly) {z : ℝ} (h0 : 0 ≤ z) (h1 : z < 1 / 10) :
    polygonsAround (flatRoom α A B) ⟨1 / 20, 1 / 20, z⟩ = [0, 1] := by
  have hc : cellOf (⟨1 / 20, 1 / 20, z⟩ : Vec3 ℝ) (flatRoom α A B).gridStep = (0, 0, 0) := by
    have e1 : ⌊(1 / 20 : ℝ) / (1 / 10)⌋ = 0 := by norm_num
    have e2 : ⌊z / (1 / 10)⌋ = 0 := by
      rw [Int.floor_eq_zero_iff]
      constructor
      · positivity
      · rw [div_lt_one (by norm_num)]; exact h1
    simp only [cellOf, flatRoom, e1, e2]
  unfold polygonsAround
  rw [hc]
  change List.dedup _ = _
  have e : (offsets.flatMap fun i => offsets.flatMap fun j => offsets.flatMap fun k =>
      (gridGet (flatRoom α A B).grid ((0 : Int) + i, (0 : Int) + j, (0 : Int) + k)).getD []) = [0, 1] := by
    change (offsets.flatMap fun i => offsets.flatMap fun j => offsets.flatMap fun k =>
      (gridGet [((0, 0, 0), [0, 1])] ((0 : Int) + i, (0 : Int) + j, (0 : Int) + k)).getD []) = [0, 1]
    decide +kernel
  simp only [] at e ⊢
  rw [e]
  decide +kernel

theorem flatRoom_well {A : Poly} {z : ℝ} (hp : A.pts = [⟨0, 0, z⟩, ⟨1, 0, z⟩, ⟨0, 1, z⟩]) (ht : A.tri = [(2, 0, 1)]) :
    WellIn A ⟨1 / 20, 1 / 20, z⟩ := by
  refine ⟨_, by rw [ht]; exact List.mem_singleton_self _, ?_⟩
  rw [hp]
  refine ⟨_, _, _, rfl, rfl, rfl, ?_, 3 / 2, ?_, ?_, ?_, ?_, ?_, ?_⟩
  · exact ⟨1 / 20, 9 / 10, 1 / 20, by norm_num, by norm_num, by norm_num, by norm_num, by ext <;> norm_num; ring⟩
  · exact norm_le_z (by norm_num) (by norm_num)
  · exact norm_le_z (by norm_num) (by norm_num)
  · exact norm_le_z (by norm_num) (by norm_num)
  · rw [max_eq_right (by norm_num)]; exact away_z (by norm_num) (by norm_num)
  · rw [max_eq_right (by norm_num)]; exact away_z (by norm_num) (by norm_num)
  · rw [max_eq_right (by norm_num)]; exact away_z (by norm_num) (by norm_num)

theorem flatRoom_triangles : ∃ A B : Poly, FlatPoly A ⟨0, 0, 1⟩ 0 ⟨0, 0, 1⟩ ∧ FlatPoly B ⟨0, 0, 1⟩ (1 / 10) ⟨0, 0, 1⟩ ∧
    WellIn A ⟨1 / 20, 1 / 20, 0⟩ ∧ WellIn B ⟨1 / 20, 1 / 20, 1 / 10⟩ := by
  obtain ⟨A, hA, hAp, hAv, hAt⟩ := triangle_z (x1 := 0) (y1 := 0) (x2 := 1) (y2 := 0) (x3 := 0) (y3 := 1) 0 (by norm_num)
  obtain ⟨B, hB, hBp, hBv, hBt⟩ := triangle_z (x1 := 0) (y1 := 0) (x2 := 1) (y2 := 0) (x3 := 0) (y3 := 1) (1 / 10) (by norm_num)
  refine ⟨A, B, ⟨⟨_, _, hA⟩, hAv, ?_, ?_⟩, ⟨⟨_, _, hB⟩, hBv, ?_, ?_⟩, flatRoom_well hAp hAt, flatRoom_well hBp hBt⟩
  · rw [hAp]; intro p hp
    simp only [List.mem_cons, List.not_mem_nil, or_false] at hp
    rcases hp with rfl | rfl | rfl <;> norm_num [Vec3.dot]
  · rw [hAp]; exact cornerNormal_z (.inl rfl) rfl rfl rfl (by norm_num)
  · rw [hBp]; intro p hp
    simp only [List.mem_cons, List.not_mem_nil, or_false] at hp
    rcases hp with rfl | rfl | rfl <;> norm_num [Vec3.dot]
  · rw [hBp]; exact cornerNormal_z (.inl rfl) rfl rfl rfl (by norm_num)

theorem perpendicular_flat {k : Nat} {Q : Poly} {c : ℝ} (hk : Ps[k]? = some Q) (hQ : FlatPoly Q ⟨0, 0, 1⟩ c ⟨0, 0, 1⟩) :
    PerpendicularAt Ps stdAxes k 2 c ∧ ∀ i d, PerpendicularAt Ps stdAxes k i d → i = 2 ∧ d = c := by
  refine ⟨⟨Q, _, _, _, hk, hQ, .inl rfl, hQ.plane⟩, ?_⟩
  rintro i d ⟨Q', v, e, w, hk', hQ', hw, hd⟩
  obtain rfl : Q = Q' := by rw [hk] at hk'; exact Option.some.inj hk'
  have h1 := polyNormal_eq hQ.corner
  rw [polyNormal_eq hQ'.corner] at h1
  have hi : i = 2 := by
    have hz := congrArg Vec3.z h1
    rcases hw with rfl | rfl <;> fin_cases i <;> simp [stdAxes] at hz ⊢
  subst hi
  obtain ⟨q, hq⟩ := List.exists_mem_of_ne_nil _ (flatPoly_ne hQ)
  exact ⟨rfl, by rw [← hd q hq, ← hQ.plane q hq]; rfl⟩

/-- 5 mm above the lower triangle, straight down. -/
theorem flatRoom_clear {α : ℝ} {A B : Poly} (hA : FlatPoly A ⟨0, 0, 1⟩ 0 ⟨0, 0, 1⟩) (hB : FlatPoly B ⟨0, 0, 1⟩ (1 / 10) ⟨0, 0, 1⟩) :
    Clear (flatRoom α A B) [A, B] stdAxes ⟨1 / 20, 1 / 20, 1 / 200⟩ ⟨0, 0, -343⟩ := by
  obtain ⟨a1, a2⟩ := perpendicular_flat (Ps := [A, B]) (k := 0) rfl hA
  obtain ⟨b1, b2⟩ := perpendicular_flat (Ps := [A, B]) (k := 1) rfl hB
  have hd : ∀ v : Vec3 ℝ, Vec3.dot (stdAxes 2) v = v.z := by intro v; simp [stdAxes, Vec3.dot]
  have har := flatRoom_around α A B (z := 1 / 200) (by norm_num) (by norm_num)
  have hcases : ∀ k ∈ polygonsAround (flatRoom α A B) ⟨1 / 20, 1 / 20, 1 / 200⟩, ∀ i c, PerpendicularAt [A, B] stdAxes k i c →
      i = 2 ∧ (c = 0 ∨ c = 1 / 10) := by
    rw [har]
    intro k hk i c h
    simp only [List.mem_cons, List.not_mem_nil, or_false] at hk
    rcases hk with rfl | rfl
    · exact ⟨(a2 i c h).1, .inl (a2 i c h).2⟩
    · exact ⟨(b2 i c h).1, .inr (b2 i c h).2⟩
  have hrd : (flatRoom α A B).reflDist = 343 * (1 / 40000) * (101 / 100) := rfl
  refine ⟨?_, ?_, ?_, ?_⟩
  · rw [har]
    intro k hk _
    simp only [List.mem_cons, List.not_mem_nil, or_false] at hk
    rcases hk with rfl | rfl
    exacts [⟨_, _, a1⟩, ⟨_, _, b1⟩]
  · intro k hk _ i c h
    obtain ⟨rfl, hc⟩ := hcases k hk i c h
    rw [hd]
    rcases hc with rfl | rfl <;> norm_num
  · intro k hk _ i c h
    obtain ⟨rfl, -⟩ := hcases k hk i c h
    rw [hd]
    left
    norm_num
  · intro k hk _ l hl _ i c d h h' h1 h2
    obtain ⟨rfl, hc⟩ := hcases k hk i c h
    obtain ⟨-, hd'⟩ := hcases l hl _ d h'
    rw [hd, hrd] at *
    rcases hc with rfl | rfl <;> rcases hd' with rfl | rfl <;>
      first | (exfalso; norm_num at h1; done) | (exfalso; norm_num at h2; done) | norm_num

/-- A ray that is reflected by the lower triangle: `C124_three` and `C124_ends` apply. -/
example : ∃ (P : Params ℝ) (Ps : List Poly) (r : Ray ℝ), P.geo = geoOf Ps ∧ Axes stdAxes ∧ Clear P Ps stdAxes r.pos r.vel ∧
    Chain P.geo P.trans (polygonsAround P r.pos) P.reflDist r.pos r.vel [0] ∧ (∀ k, P.absorption k = 0) ∧
    ∃ r', moveRay P 4 r = some r' := by
  obtain ⟨A, B, hA, hB, hin, -⟩ := flatRoom_triangles
  have hc := flatRoom_clear (α := 0) hA hB
  have har := flatRoom_around 0 A B (z := 1 / 200) (by norm_num) (by norm_num)
  obtain ⟨pts, vn, hnew⟩ := hA.made
  have hhit : (geoOf [A, B]).hit ⟨1 / 20, 1 / 20, 1 / 200⟩ ⟨0, 0, -343⟩ 0 = true := by
    simp only [geoOf, List.getElem?_cons_zero, decide_eq_true_eq]
    refine C73_hit_partial (s := 1 / 200 / 343) hnew hA.normal hA.plane hA.corner (by norm_num)
      (by norm_num [Vec3.dot]) true (fun _ => by norm_num) (.inl ?_)
    have e : (⟨1 / 20, 1 / 20, 1 / 200⟩ : Vec3 ℝ) + (1 / 200 / 343 : ℝ) • (⟨0, 0, -343⟩ : Vec3 ℝ) = ⟨1 / 20, 1 / 20, 0⟩ := by
      ext <;> norm_num
    rw [e]
    exact hin
  have hdist : (geoOf [A, B]).dist ⟨1 / 20, 1 / 20, 1 / 200⟩ 0 < (flatRoom 0 A B).reflDist := by
    have h := (C72_distance_in_front hnew hA.normal hA.plane hA.corner (x := ⟨1 / 20, 1 / 20, 1 / 200⟩)
      (x' := ⟨1 / 20, 1 / 20, 0⟩) (k := 1 / 200) (by ext <;> norm_num) hin).1
    simp only [geoOf, List.getElem?_cons_zero]
    rw [polyNormal_eq hA.corner, h]
    simp only [Params.reflDist, flatRoom]
    exact lt_of_le_of_lt (Vec3.norm_le_of_sq (r := 1 / 200) (by norm_num) (by norm_num [Vec3.normSq, Vec3.dot])) (by norm_num)
  have hnot : (geoOf [A, B]).hit ⟨1 / 20, 1 / 20, 1 / 200⟩ ⟨0, 0, -343⟩ 1 ≠ true := by
    intro hh
    have hz : ∀ v : Vec3 ℝ, Vec3.dot (stdAxes 2) v = v.z := by intro v; simp [stdAxes, Vec3.dot]
    have := hit_towards (perpendicular_flat (Ps := [A, B]) (k := 1) rfl hB).1 (by rw [hz]; norm_num)
      (.inl (by rw [hz]; norm_num)) hh
    rw [hz, hz] at this
    norm_num at this
  refine ⟨flatRoom 0 A B, [A, B], ⟨⟨1 / 20, 1 / 20, 1 / 200⟩, ⟨0, 0, -343⟩, ⟨0, 0, 0⟩, 1⟩, rfl, stdAxes_axes, hc,
    ⟨⟨by rw [har]; simp, ⟨by rw [flatRoom_trans]; simp, hhit⟩, ?_⟩, hdist, trivial⟩, fun _ => rfl,
    C124_ends rfl stdAxes_axes hc le_rfl⟩
  rw [har]
  intro m hm h
  simp only [List.mem_cons, List.not_mem_nil, or_false] at hm
  rcases hm with rfl | rfl
  · exact le_rfl
  · exact absurd h.2 hnot

/-- A ray that starts on the lower triangle and moves up: the step never ends. -/
example : ∃ (P : Params ℝ) (r : Ray ℝ), 0 < r.vel.z ∧ ∀ fuel, moveRay P fuel r = none := by
  obtain ⟨A, B, hA, hB, hin, -⟩ := flatRoom_triangles
  refine ⟨flatRoom 0 A B, ⟨⟨1 / 20, 1 / 20, 0⟩, ⟨0, 0, 343⟩, ⟨0, 0, 0⟩, 1⟩, by norm_num, fun fuel =>
    C124_never_ends (Ps := [A, B]) (k := 0) rfl (by norm_num [Params.reflDist, flatRoom]) (by norm_num [flatRoom]) ?_ (fun _ => rfl) rfl hA
    (by rw [flatRoom_around 0 A B le_rfl (by norm_num)]; simp) (by rw [flatRoom_trans]; simp) hin fuel⟩
  norm_num [Outside, flatRoom]

/-- The same with absorption: the simulation ends, the ray has not moved and has no energy left. -/
example : ∃ (P : Params ℝ) (s s' : St ℝ) (r r' : Ray ℝ), steps P 6 1 s = some [s, s'] ∧ s.rays = [r] ∧ s'.rays = [r'] ∧
    0 < r.vel.z ∧ r.energy = 1 ∧ r'.pos = r.pos ∧ r'.energy ≤ P.eps := by
  obtain ⟨A, B, hA, hB, hin, -⟩ := flatRoom_triangles
  obtain ⟨l, hl⟩ : ∃ l, steps (flatRoom (1 / 5) A B) 6 1
      (start (flatRoom (1 / 5) A B) ⟨[(⟨1 / 20, 1 / 20, 0⟩, ⟨0, 0, 343⟩, 1)], []⟩) = some l := by
    obtain ⟨rows, h⟩ := C51_terminates (P := flatRoom (1 / 5) A B) (1 / 5) 1 (by norm_num) (fun _ => le_rfl)
      (by norm_num [flatRoom]) 1 ⟨[(⟨1 / 20, 1 / 20, 0⟩, ⟨0, 0, 343⟩, 1)], []⟩ rfl (by simp)
    have e : ⌈(1 : ℝ) / (1 / 5)⌉.toNat + 1 = 6 := by norm_num; rfl
    rw [e] at h
    unfold simulationLoop at h
    cases hs : steps (flatRoom (1 / 5) A B) 6 1
      (start (flatRoom (1 / 5) A B) ⟨[(⟨1 / 20, 1 / 20, 0⟩, ⟨0, 0, 343⟩, 1)], []⟩) with
    | none => rw [hs] at h; cases h
    | some l => exact ⟨l, rfl⟩
  have hl' := hl
  unfold steps at hl'
  split at hl'
  · cases hl'
  · rename_i s' _
    simp only [steps, Option.some.injEq] at hl'
    subst hl'
    have hf := C67_fate 6 1 _ _ (by norm_num [flatRoom]) rfl hl 0 _ _ rfl rfl
    obtain ⟨r', hr'⟩ := List.length_eq_one_iff.1 hf.length_eq.symm
    have := C124_on_surface (Ps := [A, B]) (k := 0) (m := 0) (r' := r') rfl (by norm_num [flatRoom])
      (by norm_num [Params.reflDist, flatRoom]) 6 1 _ _ rfl hl (i := 0) rfl rfl rfl (by rw [hr']; rfl) rfl hA
      (by
        change 0 ∈ polygonsAround _ ⟨1 / 20, 1 / 20, 0⟩
        rw [flatRoom_around _ A B le_rfl (by norm_num)]; simp) (by rw [flatRoom_trans]; simp) hin
    exact ⟨_, _, s', _, r', hl, rfl, hr', by norm_num, rfl, this.1, this.2⟩

end B3d.Sim
