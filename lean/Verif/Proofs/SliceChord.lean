import Verif.Proofs.SliceLocate

/-!
# Slicing convex polygons: the points of the parts
-/

namespace B3d.SliceConvex

open Spec Planar Points Slice Polygon Triangles ConvexEars

variable {o u w : Vec3 ℝ} {m : ℝ} {pts : List (ℝ × ℝ)} {x y : ℝ × ℝ}

theorem inPlane_injective (hx : Axes u w) : Function.Injective (inPlane o u w) := by
  intro p q h
  by_contra hne
  have := distSq_pos hne
  rw [← normSq_inPlane (o := o) hx, h, sub_self] at this
  simp [Vec3.normSq, Vec3.dot] at this

theorem lift_rot {ι : ℝ × ℝ → Vec3 ℝ} {L : List (Vec3 ℝ)} (h : pts.map ι ~r L) : ∃ M, L = M.map ι ∧ pts ~r M := by
  obtain ⟨n, rfl⟩ := h
  exact ⟨pts.rotate n, (List.map_rotate ..).symm, ⟨n, rfl⟩⟩

theorem lift_head {ι : ℝ × ℝ → Vec3 ℝ} (hi : Function.Injective ι) {l : List (ℝ × ℝ)} {b : ℝ × ℝ}
    (h : (l.map ι).head? = some (ι b)) : l.head? = some b := by
  rw [List.head?_map] at h
  exact Option.map_injective hi h

theorem lift_last {ι : ℝ × ℝ → Vec3 ℝ} (hi : Function.Injective ι) {l : List (ℝ × ℝ)} {b : ℝ × ℝ}
    (h : (l.map ι).getLast? = some (ι b)) : l.getLast? = some b := by
  rw [List.getLast?_map] at h
  exact Option.map_injective hi h

theorem side_of_rotated {G : List (ℝ × ℝ)} (h : pts ~r x :: y :: G) : ∃ i, Side pts i x y := by
  obtain ⟨n, hn⟩ := h
  have hl : pts.length = G.length + 2 := by rw [← List.length_rotate (n := n), hn]; rfl
  refine ⟨n % pts.length, ?_, ?_⟩
  · have := rotate_getElem? (pts := pts) (k := n) (i := 0) (by omega)
    rw [hn, Nat.add_zero] at this
    exact this.symm
  · have := rotate_getElem? (pts := pts) (k := n) (i := 1) (by omega)
    rw [hn] at this
    rw [Nat.mod_add_mod]
    exact this.symm

/-- What is made of a chord: the two lists of points, the parts `A` and `B` counter-clockwise, and the outline with the
ends of the chord added. -/
structure Parts (o u w : Vec3 ℝ) (pts : List (ℝ × ℝ)) (x y : ℝ × ℝ) (l1 l2 A B outline : List (ℝ × ℝ)) : Prop where
  first : l1 = A ∨ l1 = A.reverse
  second : l2 = B ∨ l2 = B.reverse
  posA : Pos A
  posB : Pos B
  lenA : 3 ≤ A.length
  lenB : 3 ≤ B.length
  memA : ∀ p ∈ A, p ∈ x :: y :: pts
  memB : ∀ p ∈ B, p ∈ x :: y :: pts
  divides : Subdivides (pts.map (inPlane o u w)) (outline.map (inPlane o u w))
  cut : CutAlong outline [x, y] A B ∨ CutAlong outline [x, y] B A

theorem Parts.swap {l1 l2 A B outline : List (ℝ × ℝ)} (h : Parts o u w pts y x l1 l2 A B outline) :
    Parts o u w pts x y l1 l2 A B outline :=
  ⟨h.first, h.second, h.posA, h.posB, h.lenA, h.lenB, fun p hp => mem_swap (h.memA p hp), fun p hp => mem_swap (h.memB p hp),
    h.divides, h.cut.symm.imp (fun k => by simpa using cutAlong_swap k) (fun k => by simpa using cutAlong_swap k)⟩

theorem distinct_map (hx : Axes u w) {S : List (ℝ × ℝ)} (hc : Crisp m S) (hr : ∀ p ∈ S, Reach m (inPlane o u w p))
    (hS : ∀ p ∈ pts, p ∈ S) (hd : pts.Nodup) :
    Distinct (fun p q => pointsEqual p q) (pts.map (inPlane o u w)) := by
  intro i j p q hp hq he
  rw [List.getElem?_map, Option.map_eq_some_iff] at hp hq
  obtain ⟨p, hp, rfl⟩ := hp
  obtain ⟨q, hq, rfl⟩ := hq
  by_contra hne
  have hpq : p ≠ q := by
    rintro rfl
    have key := List.nodup_iff_getElem?_ne_getElem?.1 hd
    have li := (List.getElem?_eq_some_iff.1 hp).1
    have lj := (List.getElem?_eq_some_iff.1 hq).1
    rcases Nat.lt_or_gt_of_ne hne with h | h
    · exact key i j h lj (hp.trans hq.symm)
    · exact key j i h li (hq.trans hp.symm)
  have := not_equal hx hc hr (hS p (List.mem_of_getElem? hp)) (hS q (List.mem_of_getElem? hq)) hpq
  simp only at he
  rw [this] at he
  cases he

theorem onSegment_lerp {a b : ℝ × ℝ} {k : ℝ} (h0 : 0 ≤ k) (h1 : k ≤ 1) :
    OnSegment (inPlane o u w a) (inPlane o u w b) (inPlane o u w (lerp a b k)) :=
  ⟨k, h0, h1, inPlane_between a b k⟩

theorem parts_of_edges (hx : Axes u w) (hn : 3 ≤ pts.length) (hp : Pos pts)
    (hd : Distinct (fun p q => pointsEqual p q) (pts.map (inPlane o u w))) {i j : Nat} {a b c d : ℝ × ℝ} {k l : ℝ}
    (hi : Side pts i a b) (hj : Side pts j c d) (hij : i ≠ j) (k0 : 0 < k) (k1 : k < 1) (l0 : 0 < l) (l1 : l < 1)
    (ex : x = lerp a b k) (ey : y = lerp c d l) :
    ∃ q1 q2 A B outline, Parts o u w pts x y q1 q2 A B outline ∧
      caseEdges (fun p q => pointsEqual p q) (pts.map (inPlane o u w)) (cycEdges (pts.map (inPlane o u w)))
        [inPlane o u w x, inPlane o u w y] i j = .ok (q1.map (inPlane o u w), q2.map (inPlane o u w)) := by
  have inj := inPlane_injective (o := o) hx
  obtain ⟨B, F, hrot0, hB1, hB2, hF1, hF2, he⟩ := caseEdges_eq (fun p => pointsEqual_refl p) hd
    (s := [inPlane o u w x, inPlane o u w y]) (e1 := i) (e2 := j) (by simpa using side_lt hi) (by simpa using side_lt hj) hij
  obtain ⟨M, hM, hrot⟩ := lift_rot hrot0
  obtain ⟨B, F, rfl, rfl, rfl⟩ := List.map_eq_append_iff.1 hM.symm
  rw [List.length_map, List.getElem?_map] at hB1 hF1
  rw [List.getElem?_map] at hB2 hF2
  rw [hi.2] at hB1
  rw [hj.1] at hB2
  rw [hj.2] at hF1
  rw [hi.1] at hF2
  replace hB1 := lift_head inj hB1
  replace hB2 := lift_last inj hB2
  replace hF1 := lift_head inj hF1
  replace hF2 := lift_last inj hF2
  have hlen : 3 ≤ (B ++ F).length := by rw [← hrot.perm.length_eq]; exact hn
  have hpos := hp.rotate hrot
  have pF := parts_edges hpos hlen hB1 hB2 hF1 hF2 k0 k1 l0 l1
  have pB := parts_edges hpos.swap (by simp at hlen ⊢; omega) hF1 hF2 hB1 hB2 l0 l1 k0 k1
  rw [← ex, ← ey] at pF pB
  have mem : ∀ p, p ∈ B ++ F → p ∈ x :: y :: pts := fun p h =>
    List.mem_cons_of_mem _ (List.mem_cons_of_mem _ (hrot.perm.mem_iff.2 h))
  have mB : ∀ p ∈ B, p ∈ x :: y :: pts := fun p h => mem p (List.mem_append_left _ h)
  have mF : ∀ p ∈ F, p ∈ x :: y :: pts := fun p h => mem p (List.mem_append_right _ h)
  obtain ⟨B', hB'⟩ := List.getLast?_eq_some_iff.1 hB2
  obtain ⟨F', hF'⟩ := List.head?_eq_some_iff.1 hF1
  refine ⟨x :: y :: B.reverse, x :: y :: F, B ++ [y, x], x :: y :: F, x :: B ++ y :: F, ⟨?_, .inl rfl, ?_, pF, ?_, ?_, ?_, ?_,
    ?_, .inl ⟨x, y, B, F, [], rfl, List.IsRotated.refl _, ?_, ?_⟩⟩, ?_⟩
  · right; simp
  · exact Pos.swap (l1 := [y, x]) pB
  · rw [hB']; simp
  · rw [hF']; simp
  · intro p hp
    simp only [List.mem_append, List.mem_cons, List.not_mem_nil, or_false] at hp
    rcases hp with hp | rfl | rfl
    · exact mB p hp
    · simp
    · simp
  · intro p hp
    simp only [List.mem_cons] at hp
    rcases hp with rfl | rfl | hp
    · simp
    · simp
    · exact mF p hp
  · have s0 : Subdivides (pts.map (inPlane o u w))
        (B'.map (inPlane o u w) ++ inPlane o u w c :: inPlane o u w d :: F'.map (inPlane o u w)) := by
      refine .rotate ?_
      have := hrot.map (inPlane o u w)
      rw [hB', hF'] at this
      simpa using this
    have s1 := s0.middle (onSegment_lerp (o := o) (u := u) (w := w) (a := c) (b := d) l0.le l1.le)
    rw [← ey] at s1
    obtain ⟨F'', hF''⟩ := List.getLast?_eq_some_iff.1 hF2
    obtain ⟨B'', hB''⟩ := List.head?_eq_some_iff.1 hB1
    have e1 : B'.map (inPlane o u w) ++ inPlane o u w c :: inPlane o u w y :: inPlane o u w d :: F'.map (inPlane o u w) =
        inPlane o u w b :: (B'' ++ y :: F'').map (inPlane o u w) ++ [inPlane o u w a] := by
      have : B'.map (inPlane o u w) ++ inPlane o u w c :: inPlane o u w y :: inPlane o u w d :: F'.map (inPlane o u w) =
          ((B' ++ [c]) ++ y :: (d :: F')).map (inPlane o u w) := by simp
      rw [this, ← hB', ← hF', hF'', hB'']
      simp
    rw [e1] at s1
    have s2 := s1.closing (onSegment_lerp (o := o) (u := u) (w := w) (a := a) (b := b) k0.le k1.le)
    rw [← ex] at s2
    have e2 : (x :: B ++ y :: F).map (inPlane o u w) = inPlane o u w x :: inPlane o u w b ::
        (B'' ++ y :: F'').map (inPlane o u w) ++ [inPlane o u w a] := by
      rw [hF'', hB'']
      simp
    rw [e2]
    exact s2
  · have := List.isRotated_append (l := B ++ [y]) (l' := [x])
    simpa using this
  · have := List.isRotated_append (l := [x]) (l' := y :: F)
    simpa using this
  · rw [he]
    simp

theorem parts_of_vertex_edge (hx : Axes u w) (hp : Pos pts)
    (hd : Distinct (fun p q => pointsEqual p q) (pts.map (inPlane o u w))) (h : Chord pts x y)
    {v j : Nat} {c d : ℝ × ℝ} {l : ℝ} (hv : pts[v]? = some x) (hj : Side pts j c d) (l0 : 0 < l) (l1 : l < 1)
    (ey : y = lerp c d l) :
    ∃ q1 q2 A B outline, Parts o u w pts x y q1 q2 A B outline ∧
      caseVertexEdge (fun p q => pointsEqual p q) (pts.map (inPlane o u w)) (cycEdges (pts.map (inPlane o u w)))
        [inPlane o u w x, inPlane o u w y] j = .ok (q1.map (inPlane o u w), q2.map (inPlane o u w)) := by
  have inj := inPlane_injective (o := o) hx
  obtain ⟨B, F, hrot0, hB, hF, he⟩ := caseVertexEdge_eq (fun p => pointsEqual_refl p) hd
    (s := [inPlane o u w x, inPlane o u w y]) (v := v) (e := j) (x := inPlane o u w x)
    (by simpa using (List.getElem?_eq_some_iff.1 hv).1) (by simpa using side_lt hj) (by rw [List.getElem?_map, hv]; rfl) rfl
  obtain ⟨M, hM, hrot⟩ := lift_rot hrot0
  obtain ⟨xB, F, rfl, hxB, rfl⟩ := List.map_eq_append_iff.1 hM.symm
  obtain ⟨x', B, rfl, hx', rfl⟩ := List.map_eq_cons_iff.1 hxB
  obtain rfl := inj hx'
  rw [List.getElem?_map, hj.1] at hB
  rw [List.length_map, List.getElem?_map, hj.2] at hF
  replace hB : (x' :: B).getLast? = some c := lift_last inj hB
  replace hF : (F ++ [x']).head? = some d := lift_head inj (by simpa using hF)
  have hy0 : signedArea c d y = 0 := by rw [ey]; exact area_between_self ..
  have hx0 : signedArea c d x' ≠ 0 := (h.across j c d hj).resolve_right fun k => k hy0
  have hB2 : B.getLast? = some c := by
    cases B with
    | nil =>
      exfalso
      simp only [List.getLast?_singleton, Option.some.injEq] at hB
      rw [hB] at hx0
      exact hx0 (area_same _ _).1
    | cons z B => simpa using hB
  have hF1 : F.head? = some d := by
    cases F with
    | nil =>
      exfalso
      simp only [List.nil_append, List.head?_cons, Option.some.injEq] at hF
      rw [hF] at hx0
      exact hx0 (area_same _ _).2.1
    | cons z F => simpa using hF
  have hpos := hp.rotate hrot
  obtain ⟨pF, pB⟩ := parts_vertex_edge hpos hB2 hF1 l0 l1
  rw [← ey] at pF pB
  have mem : ∀ p, p ∈ x' :: B ++ F → p ∈ x' :: y :: pts := fun p h =>
    List.mem_cons_of_mem _ (List.mem_cons_of_mem _ (hrot.perm.mem_iff.2 h))
  have mB : ∀ p ∈ B, p ∈ x' :: y :: pts := fun p h => mem p (by simp [h])
  have mF : ∀ p ∈ F, p ∈ x' :: y :: pts := fun p h => mem p (by simp [h])
  obtain ⟨B', hB'⟩ := List.getLast?_eq_some_iff.1 hB2
  obtain ⟨F', hF'⟩ := List.head?_eq_some_iff.1 hF1
  refine ⟨x' :: y :: B.reverse, x' :: y :: F, B ++ [y, x'], x' :: y :: F, x' :: B ++ y :: F, ⟨?_, .inl rfl, ?_, pF, ?_, ?_, ?_, ?_,
    ?_, .inl ⟨x', y, B, F, [], rfl, List.IsRotated.refl _, ?_, ?_⟩⟩, ?_⟩
  · right; simp
  · have := Pos.swap (l1 := [x']) (l2 := B ++ [y]) pB
    simpa using this
  · rw [hB']; simp
  · rw [hF']; simp
  · intro p hp
    simp only [List.mem_append, List.mem_cons, List.not_mem_nil, or_false] at hp
    rcases hp with hp | rfl | rfl
    · exact mB p hp
    · simp
    · simp
  · intro p hp
    simp only [List.mem_cons] at hp
    rcases hp with rfl | rfl | hp
    · simp
    · simp
    · exact mF p hp
  · have s0 : Subdivides (pts.map (inPlane o u w)) ((x' :: B').map (inPlane o u w) ++
        inPlane o u w c :: inPlane o u w d :: F'.map (inPlane o u w)) := by
      refine .rotate ?_
      have := hrot.map (inPlane o u w)
      rw [hB', hF'] at this
      simpa using this
    have s1 := s0.middle (onSegment_lerp (o := o) (u := u) (w := w) (a := c) (b := d) l0.le l1.le)
    rw [← ey] at s1
    rw [hB', hF']
    simpa using s1
  · have := List.isRotated_append (l := B ++ [y]) (l' := [x'])
    simpa using this
  · have := List.isRotated_append (l := [x']) (l' := y :: F)
    simpa using this
  · rw [he]
    simp

theorem parts_of_vertices (hx : Axes u w) (hp : Pos pts)
    (hd : Distinct (fun p q => pointsEqual p q) (pts.map (inPlane o u w))) (h : Chord pts x y)
    {v v' : Nat} (hv : pts[v]? = some x) (hv' : pts[v']? = some y) (hne : v ≠ v') :
    ∃ q1 q2 A B outline, Parts o u w pts x y q1 q2 A B outline ∧
      caseVertices (fun p q => pointsEqual p q) (pts.map (inPlane o u w))
        [inPlane o u w x, inPlane o u w y] = .ok (q1.map (inPlane o u w), q2.map (inPlane o u w)) := by
  have inj := inPlane_injective (o := o) hx
  obtain ⟨F, G, hrot0, he⟩ := caseVertices_eq (fun p => pointsEqual_refl p) hd
    (s := [inPlane o u w x, inPlane o u w y]) (v := v) (w := v') (x := inPlane o u w x) (y := inPlane o u w y)
    (by simpa using (List.getElem?_eq_some_iff.1 hv).1) (by simpa using (List.getElem?_eq_some_iff.1 hv').1) hne
    (by rw [List.getElem?_map, hv]; rfl) (by rw [List.getElem?_map, hv']; rfl) rfl rfl
  obtain ⟨M, hM, hrot⟩ := lift_rot hrot0
  obtain ⟨xF, yG, rfl, hxF, hyG⟩ := List.map_eq_append_iff.1 hM.symm
  obtain ⟨x', F, rfl, hx', rfl⟩ := List.map_eq_cons_iff.1 hxF
  obtain ⟨y', G, rfl, hy', rfl⟩ := List.map_eq_cons_iff.1 hyG
  obtain rfl := inj hx'
  obtain rfl := inj hy'
  have hpos := hp.rotate hrot
  have touch : ∀ i, ¬ Side pts i x' y' ∧ ¬ Side pts i y' x' := by
    intro i
    constructor
    · intro hs
      rcases h.across i _ _ hs with k | k
      · exact k (area_same _ _).1
      · exact k (area_same _ _).2.1
    · intro hs
      rcases h.across i _ _ hs with k | k
      · exact k (area_same _ _).2.1
      · exact k (area_same _ _).1
  have hF : F ≠ [] := by
    rintro rfl
    obtain ⟨i, hi⟩ := side_of_rotated (x := x') (y := y') (G := G) hrot
    exact (touch i).1 hi
  have hG : G ≠ [] := by
    rintro rfl
    obtain ⟨i, hi⟩ := side_of_rotated (x := y') (y := x') (G := F)
      (hrot.trans (List.isRotated_append (l := x' :: F) (l' := [y'])))
    exact (touch i).2 hi
  have mem : ∀ p, p ∈ x' :: F ++ y' :: G → p ∈ x' :: y' :: pts := fun p h =>
    List.mem_cons_of_mem _ (List.mem_cons_of_mem _ (hrot.perm.mem_iff.2 h))
  have lF := List.length_pos_iff.2 hF
  have lG := List.length_pos_iff.2 hG
  refine ⟨x' :: F ++ [y'], x' :: G.reverse ++ [y'], x' :: F ++ [y'], y' :: G ++ [x'], x' :: F ++ y' :: G, ⟨.inl rfl, ?_, ?_, ?_,
    ?_, ?_, ?_, ?_, .rotate (hrot.map _), .inl ⟨x', y', F, G, [], rfl, List.IsRotated.refl _, ?_, ?_⟩⟩, ?_⟩
  · right; simp
  · exact hpos.sublist (List.Sublist.append (List.Sublist.refl _) (List.singleton_sublist.2 (by simp)))
  · exact hpos.swap.sublist (List.Sublist.append (List.Sublist.refl _) (List.singleton_sublist.2 (by simp)))
  · simp; omega
  · simp; omega
  · intro p hp
    apply mem
    simp only [List.mem_append, List.mem_cons, List.not_mem_nil, or_false] at hp ⊢
    tauto
  · intro p hp
    apply mem
    simp only [List.mem_append, List.mem_cons, List.not_mem_nil, or_false] at hp ⊢
    tauto
  · exact List.IsRotated.refl _
  · exact List.IsRotated.refl _
  · rw [he]
    simp

end B3d.SliceConvex
