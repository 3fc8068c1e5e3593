import Verif.Model.PolygonBasic
import Verif.Proofs.Cyc

set_option linter.unusedSectionVars false

namespace B3d.Polygon
open B3d.Spec

theorem edgesLoop_eq {α : Type} (pts : List α) :
    ∀ (n i : Nat) (edge : α × α) (acc : List (α × α)), i + 1 + n = pts.length →
      (edgesLoop pts i false edge acc).2 =
        acc ++ List.zip (pts.drop i) (pts.drop (i + 1)) := by
  intro n
  induction n with
  | zero =>
    intro i edge acc h
    have hi : i < pts.length := by omega
    rw [edgesLoop]
    simp only [hi, dite_true, Bool.false_eq_true, if_false]
    rw [edgesLoop]
    have : ¬ i + 1 < pts.length := by omega
    simp only [this, dite_false]
    have e : pts.drop (i + 1) = [] := List.drop_eq_nil_of_le (by omega)
    simp [e]
  | succ n ih =>
    intro i edge acc h
    have hi : i < pts.length := by omega
    have hi1 : i + 1 < pts.length := by omega
    rw [edgesLoop]
    simp only [hi, dite_true, Bool.false_eq_true, if_false]
    rw [edgesLoop]
    simp only [hi1, dite_true, if_true]
    rw [ih (i + 1) _ _ (by omega)]
    rw [List.drop_eq_getElem_cons hi, List.drop_eq_getElem_cons hi1]
    simp only [List.zip_cons_cons, List.append_assoc, List.cons_append, List.nil_append]

/-- `polygon_edges` returns the directed edges of the closed outline. -/
theorem polygonEdges_eq {α : Type} (zero : α) (pts : List α) (h : pts ≠ []) :
    polygonEdges zero pts = .ok (cycEdges pts) := by
  obtain ⟨a, l, rfl⟩ := List.exists_cons_of_ne_nil h
  unfold polygonEdges
  simp only []
  rw [edgesLoop_eq (a :: l) l.length 0 _ _ (by simp; omega)]
  rw [List.getLast?_eq_some_getLast h]
  simp only [List.head?_cons, List.drop_zero, Nat.zero_add, List.drop_succ_cons, List.nil_append,
    cycEdges]
  congr 1
  rcases List.eq_nil_or_concat l with rfl | ⟨m, b, rfl⟩
  · simp
  · simp only [List.concat_eq_append] at h ⊢
    have e : (a :: (m ++ [b])).getLast h = b := by simp
    rw [e]
    have e2 : a :: (m ++ [b]) = (a :: m) ++ [b] := by simp
    rw [e2, List.zip_append (by simp : (a :: m).length = (m ++ [b]).length)]
    congr 1
    conv_lhs => rw [← List.append_nil (m ++ [b])]
    rw [List.zip_append (by simp)]
    simp

section
variable {K : Type} [Field K] [LinearOrder K]

private theorem foldl_add_sum {β : Type} (l : List β) (g : β → Option (Vec3 K))
    (z : Vec3 K) (step : Vec3 K → β → Vec3 K)
    (hs : ∀ t b, step t b = t + (g b).getD 0) :
    l.foldl step z = z + (l.map fun b => (g b).getD 0).sum := by
  induction l generalizing z with
  | nil => simp
  | cons b l ih => simp only [List.foldl_cons, List.map_cons, List.sum_cons]; rw [ih, hs]; abel

theorem areaTotal_eq (pts : List (Vec3 K)) :
    areaTotal pts = cycSum Vec3.cross pts := by
  unfold areaTotal
  rw [foldl_add_sum (List.range pts.length) (fun i =>
    ((cycEdges pts)[i]?).map fun e => Vec3.cross e.1 e.2) 0]
  · rw [cycSum_eq_edges, zero_add]
    congr 1
    apply List.ext_getElem?
    intro k
    by_cases hk : k < pts.length
    · rw [List.getElem?_map, List.getElem?_range hk, List.getElem?_map]
      have := cycEdges_getElem? pts k hk
      simp [this]
    · rw [List.getElem?_eq_none (by simp; omega),
        List.getElem?_eq_none (by simp [length_cycEdges]; omega)]
  · intro t i
    by_cases hk : i < pts.length
    · rw [cycEdges_getElem? pts i hk, List.getElem?_eq_getElem hk]
      by_cases h2 : i = pts.length - 1
      · have : (i + 1) % pts.length = 0 := by
          rw [show i + 1 = pts.length by omega, Nat.mod_self]
        simp only [h2, if_true]
        rw [List.getElem?_eq_getElem (by omega : 0 < pts.length)]
        simp only [Option.map_some, Option.getD_some]
        congr 2
        simp [show pts.length - 1 + 1 = pts.length by omega]
      · have h3 : i + 1 < pts.length := by omega
        simp only [h2, if_false]
        rw [List.getElem?_eq_getElem h3]
        simp [Nat.mod_eq_of_lt h3]
    · have e1 : pts[i]? = none := List.getElem?_eq_none (by omega)
      have e2 : (cycEdges pts)[i]? = none :=
        List.getElem?_eq_none (by rw [length_cycEdges]; omega)
      simp [e1, e2]

theorem cross_antisymm (a b : Vec3 K) : Vec3.cross a b = -Vec3.cross b a := Vec3.cross_swap a b

/-- Translating all points leaves the closed sum of cross products unchanged. -/
theorem cycSum_cross_translate (pts : List (Vec3 K)) (t : Vec3 K) :
    cycSum Vec3.cross (pts.map (· + t)) = cycSum Vec3.cross pts := by
  rw [cycSum_map]
  have h : (fun a b : Vec3 K => Vec3.cross (a + t) (b + t)) =
      fun a b => Vec3.cross a b + (Vec3.cross t b - Vec3.cross t a) := by
    funext a b
    ext <;> simp <;> ring
  rw [h, cycSum_add, cycSum_telescope, add_zero]

theorem pathSum_cross_smul (c : K) (pts : List (Vec3 K)) :
    pathSum (fun a b => Vec3.cross (c • a) (c • b)) pts = (c * c) • pathSum Vec3.cross pts := by
  induction pts with
  | nil => simp
  | cons a l ih =>
    cases l with
    | nil => simp
    | cons b l =>
      rw [pathSum_cons_cons, pathSum_cons_cons, ih, smul_add]
      congr 1
      ext <;> simp <;> ring

theorem cycSum_cross_smul (c : K) (pts : List (Vec3 K)) :
    cycSum Vec3.cross (pts.map (c • ·)) = (c * c) • cycSum Vec3.cross pts := by
  rw [cycSum_map]
  cases pts with
  | nil => simp
  | cons a l => exact pathSum_cross_smul c _

/-- A vertex on the edge from `a` to `b` does not change the closed sum. -/
theorem cycSum_cross_insert (l r : List (Vec3 K)) (a b : Vec3 K) (t : K) :
    cycSum Vec3.cross (l ++ a :: (a + t • (b - a)) :: b :: r) =
      cycSum Vec3.cross (l ++ a :: b :: r) := by
  have e1 : l ++ a :: (a + t • (b - a)) :: b :: r = (l ++ [a, a + t • (b - a), b]) ++ r := by simp
  have e2 : l ++ a :: b :: r = (l ++ [a, b]) ++ r := by simp
  rw [e1, e2, cycSum_append_comm, cycSum_append_comm _ (l ++ [a, b]), ← List.append_assoc,
    ← List.append_assoc, cycSum_ear _ cross_antisymm]
  rw [cycSum_triple]
  have : Vec3.cross a (a + t • (b - a)) + (Vec3.cross (a + t • (b - a)) b + Vec3.cross b a) = 0 := by
    ext <;> simp <;> ring
  rw [this, zero_add]

end

end B3d.Polygon
