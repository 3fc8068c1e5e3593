import Verif.Spec.Cyc
import Mathlib.Algebra.BigOperators.Group.List.Basic
import Mathlib.Data.List.Rotate
import Mathlib.Tactic.Abel

namespace B3d.Spec

variable {α G : Type} [AddCommGroup G] (f : α → α → G)

@[simp] theorem pathSum_nil : pathSum f ([] : List α) = 0 := rfl
@[simp] theorem pathSum_singleton (a : α) : pathSum f [a] = 0 := rfl
@[simp] theorem pathSum_cons_cons (a b : α) (t : List α) :
    pathSum f (a :: b :: t) = f a b + pathSum f (b :: t) := rfl
@[simp] theorem cycSum_nil : cycSum f ([] : List α) = 0 := rfl
theorem cycSum_cons (a : α) (t : List α) : cycSum f (a :: t) = pathSum f (a :: t ++ [a]) := rfl

/-- Cutting a polyline at one of its vertices. -/
theorem pathSum_append (l : List α) (x : α) (r : List α) :
    pathSum f (l ++ x :: r) = pathSum f (l ++ [x]) + pathSum f (x :: r) := by
  induction l with
  | nil => simp
  | cons a l ih =>
    cases l with
    | nil => simp
    | cons b l =>
      simp only [List.cons_append, pathSum_cons_cons] at ih ⊢
      rw [ih, add_assoc]

theorem pathSum_snoc (l : List α) (x y : α) :
    pathSum f (l ++ [x, y]) = pathSum f (l ++ [x]) + f x y := by
  rw [pathSum_append f l x [y]]; simp

theorem pathSum_reverse (hf : ∀ a b, f a b = -f b a) (l : List α) :
    pathSum f l.reverse = -pathSum f l := by
  induction l with
  | nil => simp
  | cons a l ih =>
    cases l with
    | nil => simp
    | cons b l =>
      have : (a :: b :: l).reverse = l.reverse ++ [b, a] := by simp
      rw [this, pathSum_snoc]
      have h2 : l.reverse ++ [b] = (b :: l).reverse := by simp
      rw [h2, ih, pathSum_cons_cons, hf b a]
      abel

/-- The closed sum does not depend on the starting point. -/
theorem cycSum_append_comm (l r : List α) : cycSum f (l ++ r) = cycSum f (r ++ l) := by
  cases l with
  | nil => simp
  | cons a l =>
    cases r with
    | nil => simp
    | cons b r =>
      simp only [List.cons_append, cycSum_cons]
      have e1 : a :: (l ++ b :: r ++ [a]) = (a :: l) ++ b :: (r ++ [a]) := by simp
      have e2 : b :: (r ++ a :: l ++ [b]) = (b :: r) ++ a :: (l ++ [b]) := by simp
      rw [e1, e2, pathSum_append, pathSum_append f (b :: r)]
      have e3 : a :: l ++ [b] = a :: (l ++ [b]) := by simp
      have e4 : b :: (r ++ [a]) = b :: r ++ [a] := by simp
      rw [e3, e4, add_comm]

theorem cycSum_rotate (l : List α) (n : Nat) : cycSum f (l.rotate n) = cycSum f l := by
  rw [List.rotate_eq_drop_append_take_mod, cycSum_append_comm, List.take_append_drop]

theorem cycSum_isRotated {l r : List α} (h : l ~r r) : cycSum f l = cycSum f r := by
  obtain ⟨n, rfl⟩ := h
  exact (cycSum_rotate f l n).symm

theorem cycSum_reverse (hf : ∀ a b, f a b = -f b a) (l : List α) :
    cycSum f l.reverse = -cycSum f l := by
  cases l with
  | nil => simp
  | cons a l =>
    have e : (a :: l).reverse = l.reverse ++ [a] := by simp
    rw [e, cycSum_append_comm, List.singleton_append, cycSum_cons, cycSum_cons]
    have e2 : a :: l.reverse ++ [a] = (a :: l ++ [a]).reverse := by simp
    rw [e2, pathSum_reverse f hf]

/-- Cutting a closed outline along a polyline `S` from `y` to `x`. -/
theorem cycSum_cut (hf : ∀ a b, f a b = -f b a) (x y : α) (A B S : List α) :
    cycSum f (x :: A ++ y :: S) + cycSum f (y :: B ++ x :: S.reverse) =
      cycSum f (x :: A ++ y :: B) := by
  simp only [List.cons_append, cycSum_cons]
  have e1 : x :: (A ++ y :: S ++ [x]) = (x :: A) ++ y :: (S ++ [x]) := by simp
  have e2 : y :: (B ++ x :: S.reverse ++ [y]) = (y :: B) ++ x :: (S.reverse ++ [y]) := by simp
  have e3 : x :: (A ++ y :: B ++ [x]) = (x :: A) ++ y :: (B ++ [x]) := by simp
  rw [e1, e2, e3, pathSum_append, pathSum_append f (y :: B), pathSum_append f (x :: A) y (B ++ [x])]
  have e4 : x :: (S.reverse ++ [y]) = (y :: (S ++ [x])).reverse := by simp
  have e5 : y :: (B ++ [x]) = y :: B ++ [x] := by simp
  rw [e4, pathSum_reverse f hf, e5]
  abel

theorem cycSum_pair (hf : ∀ a b, f a b = -f b a) (a b : α) : cycSum f [a, b] = 0 := by
  simp [cycSum_cons, hf a b]

theorem cycSum_triple (a b c : α) : cycSum f [a, b, c] = f a b + (f b c + f c a) := by
  simp [cycSum_cons]

/-- Removing one vertex `b` between `a` and `c` cuts off the triangle `a b c`. -/
theorem cycSum_ear (hf : ∀ a b, f a b = -f b a) (l : List α) (a b c : α) :
    cycSum f (l ++ [a, b, c]) = cycSum f [a, b, c] + cycSum f (l ++ [a, c]) := by
  rw [cycSum_append_comm, cycSum_append_comm f l]
  have h := cycSum_cut f hf a c [b] l []
  simp only [List.reverse_nil] at h
  have e1 : [a, b, c] ++ l = a :: [b] ++ c :: l := by simp
  rw [e1, ← h]
  have e2 : c :: l ++ [a] = (c :: l) ++ [a] := rfl
  have e3 : [a, c] ++ l = [a] ++ (c :: l) := by simp
  rw [e3, ← cycSum_append_comm f (c :: l) [a]]
  simp

theorem cycSum_map {β : Type} (g : β → α) (l : List β) :
    cycSum f (l.map g) = cycSum (fun a b => f (g a) (g b)) l := by
  have hp : ∀ l : List β, pathSum f (l.map g) = pathSum (fun a b => f (g a) (g b)) l := by
    intro l
    induction l with
    | nil => rfl
    | cons a l ih =>
      cases l with
      | nil => rfl
      | cons b l => simp only [List.map_cons, pathSum_cons_cons] at ih ⊢; rw [ih]
  cases l with
  | nil => rfl
  | cons a l =>
    rw [List.map_cons, cycSum_cons, cycSum_cons, ← hp]; simp

theorem pathSum_eq_zip (a : α) (l : List α) (b : α) :
    pathSum f (a :: l ++ [b]) = ((List.zip (a :: l) (l ++ [b])).map fun e => f e.1 e.2).sum := by
  induction l generalizing a with
  | nil => simp
  | cons c l ih =>
    have := ih c
    simp only [List.cons_append] at this ⊢
    rw [pathSum_cons_cons, this, List.zip_cons_cons, List.map_cons, List.sum_cons]

/-- The closed sum is the sum over the directed edges. -/
theorem cycSum_eq_edges (l : List α) :
    cycSum f l = ((cycEdges l).map fun e => f e.1 e.2).sum := by
  cases l with
  | nil => rfl
  | cons a l => exact pathSum_eq_zip f a l a

theorem pathSum_add (g : α → α → G) (l : List α) :
    pathSum (fun a b => f a b + g a b) l = pathSum f l + pathSum g l := by
  induction l with
  | nil => simp
  | cons a l ih =>
    cases l with
    | nil => simp
    | cons b l => simp only [pathSum_cons_cons] at ih ⊢; rw [ih]; abel

theorem cycSum_add (g : α → α → G) (l : List α) :
    cycSum (fun a b => f a b + g a b) l = cycSum f l + cycSum g l := by
  cases l with
  | nil => simp
  | cons a l => simp only [cycSum_cons]; exact pathSum_add f g _

/-- A telescoping sum over a closed outline vanishes. -/
theorem cycSum_telescope (g : α → G) (l : List α) : cycSum (fun a b => g b - g a) l = 0 := by
  have hp : ∀ (l : List α) (a b : α),
      pathSum (fun a b => g b - g a) (a :: l ++ [b]) = g b - g a := by
    intro l
    induction l with
    | nil => intro a b; simp
    | cons c l ih =>
      intro a b
      have := ih c b
      simp only [List.cons_append] at this ⊢
      rw [pathSum_cons_cons, this]; abel
  cases l with
  | nil => rfl
  | cons a l => rw [cycSum_cons, hp]; simp

theorem length_cycEdges (l : List α) : (cycEdges l).length = l.length := by
  cases l <;> simp [cycEdges]

theorem cycEdges_getElem? (l : List α) (k : Nat) (hk : k < l.length) :
    (cycEdges l)[k]? = some (l[k], l[(k + 1) % l.length]'(Nat.mod_lt _ (by omega))) := by
  cases l with
  | nil => simp at hk
  | cons a l =>
    have hk' : k < l.length + 1 := by simpa using hk
    simp only [cycEdges, List.length_cons]
    rw [List.getElem?_zip_eq_some]
    refine ⟨List.getElem?_eq_getElem _, ?_⟩
    by_cases h : k = l.length
    · subst h
      simp
    · have hlt : k < l.length := by omega
      rw [List.getElem?_append_left hlt, List.getElem?_eq_getElem hlt]
      simp [Nat.mod_eq_of_lt (by omega : k + 1 < l.length + 1)]

end B3d.Spec
