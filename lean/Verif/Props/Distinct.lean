import Verif.Props.PolygonObj
import Verif.Props.Tolerance
import Verif.Props.Bboxes
import Verif.Proofs.EarTiling

/-! # C106: which outlines the polygon constructor refuses, and how -/

namespace B3d.Tiling

open Triangles

section run

variable {convex : V → V → V → Except PyErr Bool} {inside : V → V → V → V → Except PyErr Bool} {pts : List V}

theorem anyPointInside_false {i j k : Nat} {p c q : V} (hp : pts[i]? = some p) (hc : pts[j]? = some c)
    (hq : pts[k]? = some q) : ∀ (vs : List (Nat × V)) (found : Bool), (∀ v ∈ vs, pts[v.1]? = some v.2) →
    anyPointInside inside pts i j k vs found = .ok false → found = false ∧ ∀ v ∈ vs, v.1 ≠ i → v.1 ≠ j → v.1 ≠ k →
      inside v.2 p c q = .ok false
  | [], found, _, h => by
    simp only [anyPointInside, Except.ok.injEq] at h
    exact ⟨h, by simp⟩
  | v :: vs, found, hv, h => by
    have hv' : ∀ v ∈ vs, pts[v.1]? = some v.2 := fun v hm => hv v (by simp [hm])
    unfold anyPointInside at h
    split at h
    · rename_i hne
      rw [hv v (by simp), hp, hc, hq] at h
      simp only at h
      cases hin : inside v.2 p c q with
      | error e => rw [hin] at h; simp at h
      | ok r =>
        rw [hin] at h
        obtain ⟨h1, h2⟩ := anyPointInside_false hp hc hq vs _ hv' h
        rw [Bool.or_eq_false_iff] at h1
        refine ⟨h1.1, ?_⟩
        intro w hw
        rcases List.mem_cons.1 hw with rfl | hw
        · intro _ _ _; rw [hin, h1.2]
        · exact h2 w hw
    · rename_i hne
      obtain ⟨h1, h2⟩ := anyPointInside_false hp hc hq vs _ hv' h
      refine ⟨h1, ?_⟩
      intro w hw
      rcases List.mem_cons.1 hw with rfl | hw
      · intro a b c; exact absurd ⟨a, b, c⟩ hne
      · exact h2 w hw

/-- A run which cuts off all ears has started from different points: of two equal corners neither is ever cut off. -/
theorem run_distinct (hconv : ∀ a b c, convex a b c = .ok true → a ≠ b ∧ b ≠ c ∧ a ≠ c)
    (hin : ∀ t a b c, inside t a b c = .ok false → b ≠ t) :
    ∀ (fuel : Nat) (s : State V) (tri : List Tri), Inv convex pts s → 3 ≤ s.vertices.length →
    run convex inside pts fuel s = some (.ok (some tri)) → (s.vertices.map Prod.snd).Nodup := by
  intro fuel
  induction fuel with
  | zero => intro s tri _ _ h; cases h
  | succ fuel ih =>
    intro s tri hi h3 h
    unfold run at h
    cases hs : step convex inside pts s with
    | flip => rw [hs] at h; simp at h
    | raise e => rw [hs] at h; simp at h
    | finish t =>
      have := step_finish _ _ _ hs
      omega
    | cont s' =>
      rw [hs] at h
      have hi' := inv_step convex inside pts hi hs
      obtain ⟨hl, -, hc | ⟨A, c, B, p, q, v1, v2, v3, v4, v5, -, v7, v8⟩⟩ := step_cont _ _ _ hs
      · rw [← hc.1]
        exact ih s' tri hi' (by rw [hc.1]; exact h3) h
      have hlen : A.length + B.length + 1 = s.vertices.length := by rw [v1]; simp; omega
      obtain ⟨X, hX⟩ := ear_split A B p q (by omega) v3 v4
      have hmem : ∀ v, v ∈ B ++ A → v ∈ s.vertices := by
        intro v hv
        rw [v1]
        rcases List.mem_append.1 hv with h | h <;> simp [h]
      have hpm : p ∈ s.vertices := hmem p (by rw [hX]; simp)
      have hqm : q ∈ s.vertices := hmem q (by rw [hX]; simp)
      have hcm : c ∈ s.vertices := by rw [v1]; simp
      have rot : s.vertices.IsRotated (p :: c :: q :: X) := by
        have r1 : s.vertices.IsRotated (c :: B ++ A) := by rw [v1]; exact List.isRotated_append
        rw [List.cons_append, hX] at r1
        refine r1.trans ?_
        have : c :: (q :: X ++ [p]) = (c :: q :: X) ++ [p] := by simp
        rw [this]
        exact List.isRotated_append
      have rot' : s'.vertices.IsRotated (p :: q :: X) := by
        have r1 : s'.vertices.IsRotated (B ++ A) := by rw [v2]; exact List.isRotated_append
        rw [hX] at r1
        exact r1.trans List.isRotated_append
      have hnd : ((p :: c :: q :: X).map Prod.fst).Nodup := by
        have : (s.vertices.map Prod.fst).Nodup := hi.sorted.imp (fun h => Nat.ne_of_lt h)
        exact ((rot.perm.map Prod.fst).nodup_iff).1 this
      obtain ⟨n1, n2, n3⟩ := hconv _ _ _ v7
      rw [(rot.perm.map Prod.snd).nodup_iff]
      have hcX : ∀ v ∈ X, c.2 ≠ v.2 := by
        intro v hv
        have hvm : v ∈ s.vertices := hmem v (by rw [hX]; simp [hv])
        simp only [List.map_cons, List.nodup_cons, List.mem_cons, not_or, List.mem_map, not_exists, not_and] at hnd
        have := (anyPointInside_false (hi.coords p hpm) (hi.coords c hcm) (hi.coords q hqm) s.vertices false
          (fun v hv => hi.coords v hv) v8).2 v hvm (hnd.1.2.2 v hv) (hnd.2.1.2 v hv) (hnd.2.2.1 v hv)
        exact hin _ _ _ _ this
      have hrest : ((p :: q :: X).map Prod.snd).Nodup := by
        cases X with
        | nil => simpa using n3
        | cons x X =>
          rw [← (rot'.perm.map Prod.snd).nodup_iff]
          refine ih s' tri hi' ?_ h
          rw [rot'.perm.length_eq]
          simp
      simp only [List.map_cons, List.nodup_cons, List.mem_cons, not_or, List.mem_map, not_exists, not_and] at hrest ⊢
      exact ⟨⟨n1, n3, hrest.1.2⟩, ⟨n2, fun v hv e => hcX v hv e.symm⟩, hrest.2.1, hrest.2.2⟩

theorem tries_distinct {z : Bool} {fuel : Nat} (hconv : ∀ a b c, convex a b c = .ok true → a ≠ b ∧ b ≠ c ∧ a ≠ c)
    (hin : ∀ t a b c, inside t a b c = .ok false → b ≠ t) :
    ∀ (tries : Nat) (pts : List V), 3 ≤ pts.length → ∀ r,
      triangulateTries z convex inside fuel tries pts = some (.ok r) → pts.Nodup := by
  intro tries
  induction tries with
  | zero => intro pts _ r h; simp [triangulateTries] at h
  | succ k ih =>
    intro pts h3 r h
    unfold triangulateTries at h
    cases z
    · simp only [Bool.false_eq_true, if_false] at h
      cases hr : run convex inside pts fuel (initState pts) with
      | none => rw [hr] at h; simp at h
      | some r' =>
        rw [hr] at h
        rcases r' with e | _ | t
        · simp at h
        · simp only [] at h
          exact List.nodup_reverse.1 (ih pts.reverse (by simpa using h3) r h)
        · have := run_distinct hconv hin fuel _ _ (inv_init convex pts h3) (by rw [length_initVertices]; exact h3) hr
          have ev : (initState pts).vertices.map Prod.snd = pts := by
            simp only [initState]
            rw [List.map_snd_zip (by simp)]
          rwa [ev] at this
    · simp at h

end run

end B3d.Tiling

namespace B3d.Polygon

open Spec Triangles Tiling Tolerance

theorem isCornerConvex_distinct {v a b c : Vec3 ℝ} (h : isCornerConvex v a b c = .ok true) : a ≠ b ∧ b ≠ c ∧ a ≠ c := by
  have h := ((C102_corner v a b c).2.1.1 h).2.1
  have key : Vec3.cross (b - a) (c - b) ≠ 0 := by
    intro e
    rw [e] at h
    norm_num [Vec3.norm, Vec3.normSq, Vec3.dot] at h
  refine ⟨?_, ?_, ?_⟩
  · rintro rfl; exact key (by ext <;> simp)
  · rintro rfl; exact key (by ext <;> simp)
  · rintro rfl; exact key (by ext <;> simp <;> ring)

theorem isPointInside_corner (a b c : Vec3 ℝ) : Triangles.isPointInside b a b c ≠ .ok false := by
  obtain ⟨-, -, r, -, hb, -, hr⟩ := Bboxes.C25_inside_bbox [a, b, c] (by simp) b (1 / 100)
  rw [hr (by norm_num) (by simp)] at hb
  have he : Points.pointsEqual b b = true := by
    have h0 : (0 : ℝ) < GEOM_ATOL := by norm_num [GEOM_ATOL]
    have h1 : (0 : ℝ) < NP_RTOL := by norm_num [NP_RTOL]
    simp only [Points.pointsEqual, allClose, isClose, sub_self, abs_zero]
    refine decide_eq_true ⟨?_, ?_, ?_⟩ <;> positivity
  unfold Triangles.isPointInside
  simp only [hb, bind, Except.bind, pure, Except.pure, he]
  simp

/-- **C106, repeated corners.**  An outline which the constructor accepts has no repeated corners. -/
theorem C106_distinct {pts : List (Vec3 ℝ)} {vn : Option (Vec3 ℝ)} {P : Poly} (h : polygonNew pts none vn = .ok P) :
    pts.Nodup ∧ P.pts.Nodup := by
  obtain ⟨hn, v, -, -, ht, -, -⟩ := polygonNew_ok h
  have h1 : pts.Nodup := tries_distinct (fun a b c => isCornerConvex_distinct)
    (fun t a b c hi e => isPointInside_corner a t c (by rw [e] at hi; exact hi)) 2 pts hn _ ht
  refine ⟨h1, ?_⟩
  obtain ⟨hrev, -⟩ := triangulateTries_good _ _ _ _ _ pts hn P.pts P.tri ht
  rcases hrev with e | e
  · rw [e]; exact h1
  · rw [e]; exact List.nodup_reverse.2 h1

end B3d.Polygon
