import Verif.Proofs.Plan
import Verif.Proofs.TriangleEdges

/-! # Prisms are closed -/

namespace B3d.Solids

open Triangles Polygon Spec Points

theorem pathEdges_reverse {α : Type} : ∀ l : List α, pathEdges l.reverse = ((pathEdges l).map Prod.swap).reverse
  | [] => rfl
  | [_] => rfl
  | a :: b :: t => by
    rw [List.reverse_cons, List.reverse_cons, List.append_assoc, List.singleton_append, pathEdges_concat,
      ← List.reverse_cons, pathEdges_reverse (b :: t)]
    simp [pathEdges]

theorem cycEdges_reverse_perm {α : Type} (l : List α) : (cycEdges l.reverse).Perm ((cycEdges l).map Prod.swap) := by
  cases l with
  | nil => exact List.Perm.nil
  | cons a t =>
    rw [List.reverse_cons]
    refine (cycEdges_append_perm _ _).trans ?_
    rw [List.singleton_append, cycEdges_cons, cycEdges_cons]
    have : a :: t.reverse ++ [a] = (a :: t ++ [a]).reverse := by simp
    rw [this, pathEdges_reverse]
    exact List.reverse_perm _

theorem cycEdges_fst {α : Type} (l : List α) : (cycEdges l).map Prod.fst = l := by
  cases l with
  | nil => rfl
  | cons a t => exact List.map_fst_zip (by simp)

theorem cycEdges_snd_perm {α : Type} (l : List α) : ((cycEdges l).map Prod.snd).Perm l := by
  cases l with
  | nil => exact List.Perm.nil
  | cons a t =>
    rw [cycEdges, List.map_snd_zip (by simp)]
    exact List.perm_append_singleton a t

theorem flatMap_four {α β : Type} (A B C D : α → β) : ∀ l : List α,
    (l.flatMap fun e => [A e, B e, C e, D e]).Perm (l.map A ++ l.map B ++ l.map C ++ l.map D)
  | [] => List.Perm.nil
  | a :: l => by
    classical
    have ih := flatMap_four A B C D l
    rw [List.perm_iff_count] at ih ⊢
    intro x
    have := ih x
    simp only [List.flatMap_cons, List.count_append, List.map_cons, List.count_cons, List.count_nil] at this ⊢
    omega

/-- One half of the edges of a prism; the other half are the opposite ones. -/
def half (z0 z1 : ℝ) (g : List (ℝ × ℝ)) : List (Vec3 ℝ × Vec3 ℝ) :=
  (cycEdges g).map (Prod.map (level z0) (level z0)) ++ (cycEdges g).map (Prod.map (level z1) (level z1)) ++
    g.map fun p => (level z0 p, level z1 p)

theorem prism_edges (z0 z1 : ℝ) (g : List (ℝ × ℝ)) :
    (allEdges (prism z0 z1 g)).Perm (half z0 z1 g ++ (half z0 z1 g).map Prod.swap) := by
  classical
  have h1 : allEdges (prism z0 z1 g) = ((cycEdges g).flatMap fun e => [(level z0 e.1, level z0 e.2),
      (level z0 e.2, level z1 e.2), (level z1 e.2, level z1 e.1), (level z1 e.1, level z0 e.1)]) ++
      (cycEdges (g.map (level z0)).reverse ++ (cycEdges (g.map (level z1)) ++ [])) := by
    simp only [allEdges, prism, List.flatMap_append, List.flatMap_map, List.flatMap_cons, List.flatMap_nil]
    rfl
  have h2 := flatMap_four (fun e : (ℝ × ℝ) × (ℝ × ℝ) => (level z0 e.1, level z0 e.2))
    (fun e => (level z0 e.2, level z1 e.2)) (fun e => (level z1 e.2, level z1 e.1))
    (fun e => (level z1 e.1, level z0 e.1)) (cycEdges g)
  have h3 : ((cycEdges g).map fun e => (level z0 e.2, level z1 e.2)).Perm (g.map fun p => (level z0 p, level z1 p)) := by
    have := (cycEdges_snd_perm g).map fun p => (level z0 p, level z1 p)
    rwa [List.map_map] at this
  have h4 : ((cycEdges g).map fun e => (level z1 e.1, level z0 e.1)) =
      (g.map fun p => (level z0 p, level z1 p)).map Prod.swap := by
    conv_rhs => rw [← cycEdges_fst g]
    simp [List.map_map, Function.comp_def]
  have h5 : (cycEdges (g.map (level z0)).reverse).Perm
      (((cycEdges g).map (Prod.map (level z0) (level z0))).map Prod.swap) := by
    have := cycEdges_reverse_perm (g.map (level z0))
    rwa [cycEdges_map] at this
  have h6 : ((cycEdges g).map fun e => (level z1 e.2, level z1 e.1)) =
      ((cycEdges g).map (Prod.map (level z1) (level z1))).map Prod.swap := by
    simp [List.map_map, Function.comp_def]
  have h7 : ((cycEdges g).map fun e => (level z0 e.1, level z0 e.2)) =
      (cycEdges g).map (Prod.map (level z0) (level z0)) := rfl
  rw [h1]
  rw [List.perm_iff_count] at h2 h3 h5 ⊢
  intro x
  have e2 := h2 x
  have e3 := h3 x
  have e5 := h5 x
  rw [h4, h6, h7] at e2
  rw [cycEdges_map]
  simp only [half, List.count_append, List.map_append, List.count_nil] at e2 e3 e5 ⊢
  omega

theorem closed_of_half {α : Type} {l X : List (α × α)} (h : l.Perm (X ++ X.map Prod.swap)) :
    l.Perm (l.map Prod.swap) := by
  have h2 := h.map Prod.swap
  rw [List.map_append, List.map_map, Prod.swap_swap_eq, List.map_id] at h2
  exact h.trans (List.perm_append_comm.trans h2.symm)

theorem prism_closed (z0 z1 : ℝ) (g : List (ℝ × ℝ)) : Closed (prism z0 z1 g) :=
  closed_of_half (prism_edges z0 z1 g)

theorem allEdges_reverse {α : Type} : ∀ fs : List (List α),
    (allEdges (fs.map List.reverse)).Perm ((allEdges fs).map Prod.swap)
  | [] => List.Perm.nil
  | f :: fs => by
    have ih := allEdges_reverse fs
    simp only [allEdges, List.map_cons, List.flatMap_cons, List.map_append] at ih ⊢
    exact (cycEdges_reverse_perm f).append ih

theorem closed_orient {α : Type} {fs : List (List α)} (ccw : Bool) (h : Closed fs) : Closed (fs.map (orient ccw)) := by
  cases ccw with
  | true =>
    have : (orient true : List α → List α) = id := by funext l; simp [orient]
    rw [this, List.map_id]; exact h
  | false =>
    have : (orient false : List α → List α) = List.reverse := by funext l; simp [orient]
    rw [this]
    unfold Closed at h ⊢
    have h2 := allEdges_reverse fs
    have h3 := h2.map Prod.swap
    exact h2.trans ((h.map Prod.swap).trans h3.symm)

theorem nodup_orient {α : Type} {fs : List (List α)} (ccw : Bool) (h : (allEdges fs).Nodup) :
    (allEdges (fs.map (orient ccw))).Nodup := by
  cases ccw with
  | true =>
    have : (orient true : List α → List α) = id := by funext l; simp [orient]
    rw [this, List.map_id]; exact h
  | false =>
    have : (orient false : List α → List α) = List.reverse := by funext l; simp [orient]
    rw [this]
    exact (allEdges_reverse fs).nodup_iff.2 (h.map Prod.swap_injective)

theorem no_two_cycle {α : Type} {g : List α} (hn : 3 ≤ g.length) (hd : g.Nodup) {a b : α}
    (h1 : (a, b) ∈ cycEdges g) (h2 : (b, a) ∈ cycEdges g) : False := by
  obtain ⟨i, hi⟩ := List.mem_iff_getElem?.1 h1
  obtain ⟨j, hj⟩ := List.mem_iff_getElem?.1 h2
  have li : i < g.length := by
    rw [← length_cycEdges g]; exact (List.getElem?_eq_some_iff.1 hi).1
  have lj : j < g.length := by
    rw [← length_cycEdges g]; exact (List.getElem?_eq_some_iff.1 hj).1
  rw [cycEdges_getElem? g i li, Option.some.injEq, Prod.mk.injEq] at hi
  rw [cycEdges_getElem? g j lj, Option.some.injEq, Prod.mk.injEq] at hj
  have e1 := (hd.getElem_inj_iff).1 (hi.1.trans hj.2.symm)
  have e2 := (hd.getElem_inj_iff).1 (hi.2.trans hj.1.symm)
  have m1 : (i + 1) % g.length = if i + 1 < g.length then i + 1 else 0 := by
    split
    · exact Nat.mod_eq_of_lt ‹_›
    · rw [show i + 1 = g.length by omega, Nat.mod_self]
  have m2 : (j + 1) % g.length = if j + 1 < g.length then j + 1 else 0 := by
    split
    · exact Nat.mod_eq_of_lt ‹_›
    · rw [show j + 1 = g.length by omega, Nat.mod_self]
  rw [m2] at e1
  rw [m1] at e2
  split at e1 <;> split at e2 <;> omega

theorem level_injective (z : ℝ) : Function.Injective (level z) := by
  intro p q h
  simp only [level, Vec3.mk.injEq] at h
  exact Prod.ext h.1 h.2.1

theorem prism_nodup {z0 z1 : ℝ} (hz : z0 ≠ z1) {g : List (ℝ × ℝ)} (hn : 3 ≤ g.length) (hd : g.Nodup) :
    (allEdges (prism z0 z1 g)).Nodup := by
  rw [(prism_edges z0 z1 g).nodup_iff]
  have hE : (cycEdges g).Nodup := by
    have : ((cycEdges g).map Prod.fst).Nodup := by rw [cycEdges_fst]; exact hd
    exact this.of_map
  have m0 : ∀ z, ∀ e ∈ (cycEdges g).map (Prod.map (level z) (level z)), e.1.z = z ∧ e.2.z = z := by
    intro z e he
    obtain ⟨x, -, rfl⟩ := List.mem_map.1 he
    exact ⟨rfl, rfl⟩
  have mu : ∀ e ∈ g.map (fun p => (level z0 p, level z1 p)), e.1.z = z0 ∧ e.2.z = z1 := by
    intro e he
    obtain ⟨x, -, rfl⟩ := List.mem_map.1 he
    exact ⟨rfl, rfl⟩
  have hswap : ∀ z, ∀ e ∈ (cycEdges g).map (Prod.map (level z) (level z)),
      e.swap ∉ (cycEdges g).map (Prod.map (level z) (level z)) := by
    intro z e he he'
    obtain ⟨⟨a, b⟩, hx, rfl⟩ := List.mem_map.1 he
    obtain ⟨⟨c, d⟩, hy, hxy⟩ := List.mem_map.1 he'
    simp only [Prod.map_apply, Prod.swap_prod_mk, Prod.mk.injEq] at hxy
    obtain rfl := level_injective z hxy.1
    obtain rfl := level_injective z hxy.2
    exact no_two_cycle hn hd hx hy
  have hX : (half z0 z1 g).Nodup := by
    have hi : ∀ z, Function.Injective (Prod.map (level z) (level z)) := fun z =>
      (level_injective z).prodMap (level_injective z)
    unfold half
    rw [List.nodup_append, List.nodup_append]
    refine ⟨⟨hE.map (hi z0), hE.map (hi z1), ?_⟩, hd.map fun p q h => level_injective z0 (Prod.mk.inj h).1, ?_⟩
    · rintro a ha b hb rfl
      exact hz ((m0 z0 a ha).1.symm.trans (m0 z1 a hb).1)
    · rintro a ha b hb rfl
      rcases List.mem_append.1 ha with ha | ha
      · exact hz ((m0 z0 a ha).2.symm.trans (mu a hb).2)
      · exact hz ((m0 z1 a ha).1.symm.trans (mu a hb).1).symm
  rw [List.nodup_append]
  refine ⟨hX, hX.map Prod.swap_injective, ?_⟩
  rintro a ha b hb rfl
  obtain ⟨c, hc, hca⟩ := List.mem_map.1 hb
  subst hca
  unfold half at ha hc
  simp only [List.mem_append] at ha hc
  rcases ha with (ha | ha) | ha <;> rcases hc with (hc | hc) | hc
  · exact hswap z0 c hc ha
  · exact hz ((m0 z0 _ ha).1.symm.trans (m0 z1 c hc).2)
  · exact hz ((m0 z0 _ ha).1.symm.trans (mu c hc).2)
  · exact hz ((m0 z1 _ ha).1.symm.trans (m0 z0 c hc).2).symm
  · exact hswap z1 c hc ha
  · exact hz ((m0 z1 _ ha).2.symm.trans (mu c hc).1).symm
  · exact hz ((mu _ ha).2.symm.trans (m0 z0 c hc).1).symm
  · exact hz ((mu _ ha).1.symm.trans (m0 z1 c hc).2)
  · exact hz ((mu _ ha).1.symm.trans (mu c hc).2)

/-! ### The volume of a prism -/

theorem area_level (z : ℝ) (g : List (ℝ × ℝ)) : cycSum Vec3.cross (g.map (level z)) = ⟨0, 0, area2 g⟩ := by
  have e : g.map (level z) = (g.map (level 0)).map (· + (⟨0, 0, z⟩ : Vec3 ℝ)) := by
    rw [List.map_map]
    apply List.map_congr_left
    intro p _
    simp [level, Vec3.ext_iff]
  have key : ∀ l : List (ℝ × ℝ), (pathSum Vec3.cross (l.map (level 0))).x = 0 ∧
      (pathSum Vec3.cross (l.map (level 0))).y = 0 := by
    intro l
    induction l with
    | nil => exact ⟨rfl, rfl⟩
    | cons a l ih =>
      cases l with
      | nil => exact ⟨rfl, rfl⟩
      | cons b l =>
        simp only [List.map_cons, pathSum, Vec3.add_x, Vec3.add_y] at ih ⊢
        rw [ih.1, ih.2]
        simp [level]
  have h2 : (cycSum Vec3.cross (g.map (level 0))).x = 0 ∧ (cycSum Vec3.cross (g.map (level 0))).y = 0 := by
    cases g with
    | nil => exact ⟨rfl, rfl⟩
    | cons a t =>
      have := key (a :: t ++ [a])
      rw [List.map_append] at this
      exact this
  rw [e, cycSum_cross_translate]
  ext
  · exact h2.1
  · exact h2.2
  · exact area2_eq 0 g

theorem cone_level {z : ℝ} {g : List (ℝ × ℝ)} (hg : g ≠ []) :
    coneVolume 0 (g.map (level z)) = area2 g * z / 6 ∧ coneVolume 0 (g.map (level z)).reverse = -(area2 g * z / 6) := by
  have h : ∀ g' : List (ℝ × ℝ), g' ≠ [] → coneVolume 0 (g'.map (level z)) = area2 g' * z / 6 := by
    intro g' hg'
    obtain ⟨a, t, rfl⟩ := List.exists_cons_of_ne_nil hg'
    rw [coneVolume, areaVector2, area_level]
    simp [level, Vec3.dot]
  refine ⟨h g hg, ?_⟩
  rw [← List.map_reverse, h _ (by simpa using hg), area2_reverse]
  ring

theorem cone_side (z0 z1 : ℝ) (e : (ℝ × ℝ) × (ℝ × ℝ)) :
    coneVolume 0 (side z0 z1 e) = (z1 - z0) / 3 * cross2 e.1 e.2 ∧
    coneVolume 0 (side z0 z1 e).reverse = -((z1 - z0) / 3 * cross2 e.1 e.2) := by
  constructor <;>
  · simp only [coneVolume, side, level, areaVector2, cycSum, pathSum, List.cons_append, List.nil_append,
      List.reverse_cons, List.reverse_nil, List.headD_cons, Vec3.dot, Vec3.cross, Vec3.add_x, Vec3.add_y, Vec3.add_z,
      Vec3.sub_x, Vec3.sub_y, Vec3.sub_z, Vec3.zero_x, Vec3.zero_y, Vec3.zero_z, cross2]
    ring

theorem prism_volume {z0 z1 : ℝ} {g : List (ℝ × ℝ)} (hg : g ≠ []) (ccw : Bool) :
    signedVolume 0 ((prism z0 z1 g).map (orient ccw)) =
      (if ccw then 1 else -1 : ℝ) * (area2 g / 2 * (z1 - z0)) := by
  have hsum : ∀ (k : ℝ) (E : List ((ℝ × ℝ) × (ℝ × ℝ))), (E.map fun e => k * cross2 e.1 e.2).sum =
      k * (E.map fun e => cross2 e.1 e.2).sum := by
    intro k E
    rw [List.sum_map_mul_left]
  have hA : area2 g = ((cycEdges g).map fun e => cross2 e.1 e.2).sum := cycSum_eq_edges (f := cross2) g
  obtain ⟨f1, f2⟩ := cone_level (z := z0) hg
  obtain ⟨c1, c2⟩ := cone_level (z := z1) hg
  cases ccw with
  | true =>
    have : (orient true : List (Vec3 ℝ) → List (Vec3 ℝ)) = id := by funext l; simp [orient]
    rw [this, List.map_id, signedVolume, prism, List.map_append, List.sum_append, List.map_map]
    have hs : (coneVolume 0 ∘ side z0 z1) = fun e => (z1 - z0) / 3 * cross2 e.1 e.2 :=
      funext fun e => (cone_side z0 z1 e).1
    rw [hs, hsum, ← hA]
    simp only [List.map_cons, List.map_nil, List.sum_cons, List.sum_nil, f2, c1, if_true]
    ring
  | false =>
    have : (orient false : List (Vec3 ℝ) → List (Vec3 ℝ)) = List.reverse := by funext l; simp [orient]
    rw [this, signedVolume, prism, List.map_append, List.map_append, List.sum_append, List.map_map, List.map_map]
    have hs : ((coneVolume 0 ∘ List.reverse) ∘ side z0 z1) = fun e => -((z1 - z0) / 3) * cross2 e.1 e.2 :=
      funext fun e => by
        simp only [Function.comp_apply]
        rw [(cone_side z0 z1 e).2]; ring
    rw [hs, hsum, ← hA]
    simp only [List.map_cons, List.map_nil, List.sum_cons, List.sum_nil, List.reverse_reverse, f1, c2]
    simp
    ring

end B3d.Solids
