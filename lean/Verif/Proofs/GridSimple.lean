import Verif.Spec.Simple
import Verif.Proofs.Grid

/-! # Simple polygons with whole-number coordinates -/

namespace B3d.Grid

open Spec

/-- Two sides on different sides of a line, or in different strips. -/
def Sep (a b c d : ℤ × ℤ) : Prop :=
  (0 < orient a b c ∧ 0 < orient a b d) ∨ (orient a b c < 0 ∧ orient a b d < 0) ∨
  (0 < orient c d a ∧ 0 < orient c d b) ∨ (orient c d a < 0 ∧ orient c d b < 0) ∨
  (max a.1 b.1 < min c.1 d.1) ∨ (max c.1 d.1 < min a.1 b.1) ∨
  (max a.2 b.2 < min c.2 d.2) ∨ (max c.2 d.2 < min a.2 b.2)

instance (a b c d : ℤ × ℤ) : Decidable (Sep a b c d) := by unfold Sep; infer_instance

/-- The corner number `i`, counted around. -/
def corner (pts : List (ℤ × ℤ)) (i : Nat) : ℤ × ℤ := pts.getD (i % pts.length) (0, 0)

/-- A test for simple polygons. -/
def GSimple (pts : List (ℤ × ℤ)) : Prop :=
  3 ≤ pts.length ∧ ∀ j < pts.length, ∀ i < j,
    if j = i + 1 ∨ (i = 0 ∧ j + 1 = pts.length) then
      (j = i + 1 → orient (corner pts i) (corner pts j) (corner pts (j + 1)) ≠ 0) ∧
      (i = 0 ∧ j + 1 = pts.length → orient (corner pts j) (corner pts 0) (corner pts 1) ≠ 0)
    else Sep (corner pts i) (corner pts (i + 1)) (corner pts j) (corner pts (j + 1))

instance (pts : List (ℤ × ℤ)) : Decidable (GSimple pts) := by unfold GSimple; infer_instance

/-- The signed area with a third point which need not be on the grid. -/
def orientR (a b : ℤ × ℤ) (x : Vec3 ℝ) : ℝ := ((b.1 : ℝ) - a.1) * (x.y - a.2) - (b.2 - a.2) * (x.x - a.1)

theorem orientR_on {a b : ℤ × ℤ} {x : Vec3 ℝ} (h : OnSegment (emb a) (emb b) x) : orientR a b x = 0 := by
  obtain ⟨t, -, -, rfl⟩ := h
  simp [orientR, emb]
  ring

theorem orientR_comb {a b c d : ℤ × ℤ} {x : Vec3 ℝ} (h : OnSegment (emb c) (emb d) x) :
    ∃ t : ℝ, 0 ≤ t ∧ t ≤ 1 ∧ orientR a b x = (1 - t) * orient a b c + t * orient a b d := by
  obtain ⟨t, h0, h1, rfl⟩ := h
  refine ⟨t, h0, h1, ?_⟩
  rw [orient_cast, orient_cast]
  simp [orientR, emb]
  ring

theorem comb_pos {t p q : ℝ} (h0 : 0 ≤ t) (h1 : t ≤ 1) (hp : 0 < p) (hq : 0 < q) : 0 < (1 - t) * p + t * q := by
  rcases h0.lt_or_eq with h | h
  · have := mul_pos h hq
    have := mul_nonneg (sub_nonneg.2 h1) hp.le
    linarith
  · rw [← h]; simpa using hp

theorem orientR_ne {a b c d : ℤ × ℤ} {x : Vec3 ℝ} (h : OnSegment (emb c) (emb d) x)
    (ho : (0 < orient a b c ∧ 0 < orient a b d) ∨ (orient a b c < 0 ∧ orient a b d < 0)) : orientR a b x ≠ 0 := by
  obtain ⟨t, h0, h1, e⟩ := orientR_comb (a := a) (b := b) h
  rw [e]
  rcases ho with ⟨hp, hq⟩ | ⟨hp, hq⟩
  · exact (comb_pos h0 h1 (by exact_mod_cast hp) (by exact_mod_cast hq)).ne'
  · have hp' : 0 < -(orient a b c : ℝ) := by rw [neg_pos]; exact_mod_cast hp
    have hq' : 0 < -(orient a b d : ℝ) := by rw [neg_pos]; exact_mod_cast hq
    have := comb_pos h0 h1 hp' hq'
    intro hz
    linarith

theorem seg_bounds {a b : ℤ × ℤ} {x : Vec3 ℝ} (h : OnSegment (emb a) (emb b) x) :
    (((min a.1 b.1 : ℤ) : ℝ) ≤ x.x ∧ x.x ≤ ((max a.1 b.1 : ℤ) : ℝ)) ∧
    (((min a.2 b.2 : ℤ) : ℝ) ≤ x.y ∧ x.y ≤ ((max a.2 b.2 : ℤ) : ℝ)) := by
  obtain ⟨t, h0, h1, rfl⟩ := h
  have key : ∀ p q : ℤ, ((min p q : ℤ) : ℝ) ≤ (p : ℝ) + t * (q - p) ∧ (p : ℝ) + t * (q - p) ≤ ((max p q : ℤ) : ℝ) := by
    intro p q
    have l1 : ((min p q : ℤ) : ℝ) ≤ p := by exact_mod_cast min_le_left p q
    have l2 : ((min p q : ℤ) : ℝ) ≤ q := by exact_mod_cast min_le_right p q
    have l3 : (p : ℝ) ≤ ((max p q : ℤ) : ℝ) := by exact_mod_cast le_max_left p q
    have l4 : (q : ℝ) ≤ ((max p q : ℤ) : ℝ) := by exact_mod_cast le_max_right p q
    constructor <;> nlinarith
  simpa [emb] using And.intro (key a.1 b.1) (key a.2 b.2)

theorem sep_disjoint {a b c d : ℤ × ℤ} (h : Sep a b c d) {x : Vec3 ℝ} (h1 : OnSegment (emb a) (emb b) x)
    (h2 : OnSegment (emb c) (emb d) x) : False := by
  obtain ⟨⟨a1, a2⟩, a3, a4⟩ := seg_bounds h1
  obtain ⟨⟨c1, c2⟩, c3, c4⟩ := seg_bounds h2
  have lt : ∀ {p q : ℤ}, p < q → (p : ℝ) < q := fun h => by exact_mod_cast h
  rcases h with h | h | h | h | h | h | h | h
  · exact orientR_ne h2 (.inl h) (orientR_on h1)
  · exact orientR_ne h2 (.inr h) (orientR_on h1)
  · exact orientR_ne h1 (.inl h) (orientR_on h2)
  · exact orientR_ne h1 (.inr h) (orientR_on h2)
  · have := lt h; linarith
  · have := lt h; linarith
  · have := lt h; linarith
  · have := lt h; linarith

theorem adjacent_meet {a b c : ℤ × ℤ} (h : orient a b c ≠ 0) {x : Vec3 ℝ} (h1 : OnSegment (emb a) (emb b) x)
    (h2 : OnSegment (emb b) (emb c) x) : x = emb b := by
  obtain ⟨t, h0, h1', e⟩ := orientR_comb (a := a) (b := b) h2
  rw [orientR_on h1] at e
  have e0 : orient a b b = 0 := by unfold orient; ring
  rw [e0, Int.cast_zero, mul_zero, zero_add] at e
  have hne : (orient a b c : ℝ) ≠ 0 := by exact_mod_cast h
  obtain ⟨s, s0, s1, rfl⟩ := h2
  have e2 : orientR a b (emb b + s • (emb c - emb b)) = s * orient a b c := by
    rw [orient_cast]; simp [orientR, emb]; ring
  rw [orientR_on h1] at e2
  have hs : s = 0 := by
    rcases mul_eq_zero.1 e2.symm with h | h
    · exact h
    · exact absurd h hne
  rw [hs]; simp

theorem corner_get {pts : List (ℤ × ℤ)} {i : Nat} {a : Vec3 ℝ} (hi : i < pts.length)
    (h : (pts.map emb)[i]? = some a) : a = emb (corner pts i) := by
  rw [List.getElem?_map, List.getElem?_eq_getElem hi, Option.map_some, Option.some.injEq] at h
  rw [← h, corner, Nat.mod_eq_of_lt hi, List.getD_eq_getElem?_getD, List.getElem?_eq_getElem hi]
  rfl

theorem corner_mod (pts : List (ℤ × ℤ)) (i : Nat) : corner pts (i % pts.length) = corner pts i := by
  simp [corner]

/-- The test is right. -/
theorem simple_emb {pts : List (ℤ × ℤ)} (h : GSimple pts) : SimplePolygon (pts.map emb) := by
  obtain ⟨hn, hp⟩ := h
  intro i j a b c d hij hj ha hb x hx hy
  rw [List.length_map] at hj ⊢
  obtain ⟨ha1, ha2⟩ := ha
  obtain ⟨hb1, hb2⟩ := hb
  rw [List.length_map] at ha2 hb2
  have hpos : 0 < pts.length := by omega
  have ea := corner_get (by omega) ha1
  have eb := corner_get (Nat.mod_lt _ hpos) ha2
  have ec := corner_get (by omega) hb1
  have ed := corner_get (Nat.mod_lt _ hpos) hb2
  rw [corner_mod] at eb ed
  subst ea eb ec ed
  have := hp j hj i hij
  split at this
  · rename_i hadj
    rcases hadj with hadj | ⟨h0, h1⟩
    · left
      refine ⟨hadj, ?_⟩
      have ho := this.1 hadj
      subst hadj
      exact adjacent_meet ho hx hy
    · right
      refine ⟨h0, h1, ?_⟩
      have ho := this.2 ⟨h0, h1⟩
      subst h0
      have e : corner pts (j + 1) = corner pts 0 := by rw [h1]; simp [corner]
      rw [e] at hy
      exact adjacent_meet ho hy hx
  · exact (sep_disjoint this hx hy).elim

/-- A convex counter-clockwise outline on the grid. -/
def gConvex : List (ℤ × ℤ) → Bool
  | [] => true
  | a :: t => decide (t.Pairwise fun b c => 0 < orient a b c) && gConvex t

theorem gConvex_sublist : ∀ {pts : List (ℤ × ℤ)} {a b c : ℤ × ℤ}, gConvex pts = true →
    List.Sublist [a, b, c] pts → 0 < orient a b c
  | [], _, _, _, _, h => by simp at h
  | x :: t, a, b, c, hg, h => by
    simp only [gConvex, Bool.and_eq_true, decide_eq_true_eq] at hg
    rcases List.sublist_cons_iff.1 h with h | ⟨r, e, h⟩
    · exact gConvex_sublist hg.2 h
    · simp only [List.cons.injEq] at e
      obtain ⟨rfl, rfl⟩ := e
      exact List.pairwise_iff_forall_sublist.1 hg.1 h

theorem apart_emb {p q : ℤ × ℤ} (hq : Small q) (h : p ≠ q) : Apart (emb p) (emb q) := by
  obtain ⟨b1, b2, b3, b4⟩ := hq.bounds
  have key : ∀ a b : ℤ, -40 ≤ (b : ℝ) → (b : ℝ) ≤ 40 → a ≠ b → 1 / 10 ^ 10 + 1 / 10 ^ 5 * |(b : ℝ)| < |(a : ℝ) - b| := by
    intro a b h1 h2 hne
    have : (1 : ℝ) ≤ |(a : ℝ) - b| := by
      have : 1 ≤ |a - b| := Int.one_le_abs (by omega)
      exact_mod_cast this
    have : |(b : ℝ)| ≤ 40 := abs_le.2 ⟨h1, h2⟩
    linarith
  by_cases h1 : p.1 = q.1
  · exact .inr (.inl (key _ _ b3 b4 fun h2 => h (Prod.ext h1 h2)))
  · exact .inl (key _ _ b1 b2 h1)

theorem thick_emb {a b c : ℤ × ℤ} (ha : Small a) (hb : Small b) (hc : Small c) (h : 0 < orient a b c) :
    Thick ⟨0, 0, 1⟩ (emb a) (emb b) (emb c) := by
  have h1 : (1 : ℝ) ≤ (orient a b c : ℤ) := by exact_mod_cast h
  have small : ∀ {p q : ℤ × ℤ}, Small p → Small q → Vec3.normSq (emb p - emb q) ≤ 12800 := by
    intro p q hp hq
    obtain ⟨a1, a2, a3, a4⟩ := hp.bounds
    obtain ⟨b1, b2, b3, b4⟩ := hq.bounds
    rw [emb_sub, Vec3.normSq_def]
    nlinarith [mul_nonneg (sub_nonneg.2 (show (p.1 : ℝ) - q.1 ≤ 80 by linarith)) (show 0 ≤ (p.1 : ℝ) - q.1 + 80 by linarith),
      mul_nonneg (sub_nonneg.2 (show (p.2 : ℝ) - q.2 ≤ 80 by linarith)) (show 0 ≤ (p.2 : ℝ) - q.2 + 80 by linarith)]
  have fin : ∀ x y : ℝ, 0 ≤ x → 0 ≤ y → x ≤ 12800 → y ≤ 12800 → 4 / 10 ^ 9 * (x * y) ≤ ((orient a b c : ℤ) : ℝ) ^ 2 := by
    intro x y x0 y0 hx hy
    have := mul_le_mul hx hy y0 (by norm_num)
    nlinarith
  refine ⟨(orient a b c : ℤ), by linarith, ?_, fin _ _ (Vec3.normSq_nonneg _) (Vec3.normSq_nonneg _) (small hb ha) (small hc ha),
    fin _ _ (Vec3.normSq_nonneg _) (Vec3.normSq_nonneg _) (small hc hb) (small ha hb),
    fin _ _ (Vec3.normSq_nonneg _) (Vec3.normSq_nonneg _) (small ha hc) (small hb hc)⟩
  rw [cross_emb]
  ext <;> simp

theorem convex_emb {pts : List (ℤ × ℤ)} (hs : ∀ p ∈ pts, Small p) (hl : 3 ≤ pts.length) (hn : pts.Nodup)
    (hc : gConvex pts = true) : ConvexOutline ⟨0, 0, 1⟩ (pts.map emb) := by
  refine ⟨?_, by rw [List.length_map]; exact hl, ?_, ?_⟩
  · rw [Vec3.norm, Vec3.normSq_def]; norm_num
  · intro p q h
    obtain ⟨l, hl, e⟩ := List.sublist_map_iff.1 h
    match l, e with
    | [a, b], e =>
      simp only [List.map_cons, List.map_nil, List.cons.injEq, and_true] at e
      obtain ⟨rfl, rfl⟩ := e
      have hab : a ≠ b := List.pairwise_iff_forall_sublist.1 hn hl
      exact ⟨apart_emb (hs _ (hl.subset (by simp))) hab, apart_emb (hs _ (hl.subset (by simp))) hab.symm⟩
  · intro p q r h
    obtain ⟨l, hl, e⟩ := List.sublist_map_iff.1 h
    match l, e with
    | [a, b, c], e =>
      simp only [List.map_cons, List.map_nil, List.cons.injEq, and_true] at e
      obtain ⟨rfl, rfl, rfl⟩ := e
      exact thick_emb (hs _ (hl.subset (by simp))) (hs _ (hl.subset (by simp))) (hs _ (hl.subset (by simp)))
        (gConvex_sublist hc hl)

/-- The corners turn left around the last one, computed with integers. -/
def gSeen (pts : List (ℤ × ℤ)) : Prop :=
  ∀ l ∈ pts.getLast?, pts.dropLast.Pairwise fun a b => 0 < orient l a b

instance (pts : List (ℤ × ℤ)) : Decidable (gSeen pts) := by unfold gSeen; infer_instance

/-- The side from `a` to `b` does not contain `t`: not on the line, or beyond `b`. -/
def gOff (a b t : ℤ × ℤ) : Prop := orient a b t ≠ 0 ∨ (t ≠ b ∧ t.1 - b.1 = b.1 - a.1 ∧ t.2 - b.2 = b.2 - a.2)

instance (a b t : ℤ × ℤ) : Decidable (gOff a b t) := by unfold gOff; infer_instance

/-- All later corners are off the lines of the sides. -/
def gLines : List (ℤ × ℤ) → Bool
  | a :: b :: rest => (rest.dropLast.all fun t => decide (gOff a b t)) && gLines (b :: rest)
  | _ => true

theorem gLines_get : ∀ {pts : List (ℤ × ℤ)} {i j : Nat} {a b t : ℤ × ℤ}, gLines pts = true → i + 1 < j → j + 1 < pts.length →
    pts[i]? = some a → pts[i + 1]? = some b → pts[j]? = some t → gOff a b t
  | [], _, _, _, _, _, _, _, hj, _, _, _ => by simp at hj
  | [_], _, _, _, _, _, _, _, hj, _, _, _ => by simp at hj
  | x :: y :: rest, 0, j + 2, a, b, t, h, hij, hj, ha, hb, ht => by
    simp only [gLines, Bool.and_eq_true, List.all_eq_true, decide_eq_true_eq] at h
    simp only [List.getElem?_cons_zero, Option.some.injEq] at ha
    simp only [zero_add, List.getElem?_cons_succ, List.getElem?_cons_zero, Option.some.injEq] at hb ht
    subst ha hb
    refine h.1 t (List.mem_of_getElem? (i := j) ?_)
    simp only [List.length_cons] at hj
    rw [List.getElem?_dropLast, if_pos (by omega), ht]
  | x :: y :: rest, i + 1, j + 1, a, b, t, h, hij, hj, ha, hb, ht => by
    simp only [gLines, Bool.and_eq_true] at h
    refine gLines_get (pts := y :: rest) (i := i) (j := j) h.2 (by omega) (by simp only [List.length_cons] at hj ⊢; omega) ?_ ?_ ?_
    · simpa using ha
    · simpa using hb
    · simpa using ht
  | _ :: _ :: _, 0, 0, _, _, _, _, hij, _, _, _, _ => by omega
  | _ :: _ :: _, 0, 1, _, _, _, _, hij, _, _, _, _ => by omega
  | _ :: _ :: _, _ + 1, 0, _, _, _, _, hij, _, _, _, _ => by omega

theorem star_emb {pts : List (ℤ × ℤ)} (hs : ∀ p ∈ pts, Small p) (hl : 3 ≤ pts.length) (hn : pts.Nodup)
    (h1 : gSeen pts) (h2 : gLines pts = true) : StarOutline ⟨0, 0, 1⟩ (pts.map emb) := by
  refine ⟨by rw [Vec3.norm, Vec3.normSq_def]; norm_num, by simpa using hl, ?_, ?_, ?_⟩
  · intro p q hpq
    obtain ⟨l, hl', e⟩ := List.sublist_map_iff.1 hpq
    match l, e with
    | [a, b], e =>
      simp only [List.map_cons, List.map_nil, List.cons.injEq, and_true] at e
      obtain ⟨rfl, rfl⟩ := e
      have hab : a ≠ b := by
        have := hn.sublist hl'
        simpa using this
      exact ⟨apart_emb (hs b (hl'.subset (by simp))) hab, apart_emb (hs a (hl'.subset (by simp))) hab.symm⟩
  · intro p q r hpq hr
    rw [← List.map_dropLast] at hpq
    obtain ⟨l, hl', e⟩ := List.sublist_map_iff.1 hpq
    rw [List.getLast?_map] at hr
    obtain ⟨c, hc, rfl⟩ := Option.map_eq_some_iff.1 hr
    match l, e with
    | [a, b], e =>
      simp only [List.map_cons, List.map_nil, List.cons.injEq, and_true] at e
      obtain ⟨rfl, rfl⟩ := e
      have hsub := (List.dropLast_sublist pts).subset
      exact thick_emb (hs c (List.mem_of_mem_getLast? hc)) (hs a (hsub (hl'.subset (by simp))))
        (hs b (hsub (hl'.subset (by simp)))) (List.pairwise_iff_forall_sublist.1 (h1 c hc) hl')
  · intro i j p q r hij hj hp hq hr
    rw [List.getElem?_map] at hp hq hr
    obtain ⟨a, ha, rfl⟩ := Option.map_eq_some_iff.1 hp
    obtain ⟨b, hb, rfl⟩ := Option.map_eq_some_iff.1 hq
    obtain ⟨t, ht, rfl⟩ := Option.map_eq_some_iff.1 hr
    have sa := hs a (List.mem_of_getElem? ha)
    have sb := hs b (List.mem_of_getElem? hb)
    have st := hs t (List.mem_of_getElem? ht)
    rcases gLines_get h2 hij (by simpa using hj) ha hb ht with h | ⟨hne, e1, e2⟩
    · rcases lt_or_gt_of_ne h with h | h
      · refine .inr (.inl (thick_emb sb sa st ?_))
        have : orient b a t = - orient a b t := by unfold orient; ring
        omega
      · exact .inl (thick_emb sa sb st h)
    · refine .inr (.inr ⟨1, zero_le_one, ?_, ?_⟩)
      · have e1' : (t.1 : ℝ) - b.1 = b.1 - a.1 := by exact_mod_cast e1
        have e2' : (t.2 : ℝ) - b.2 = b.2 - a.2 := by exact_mod_cast e2
        rw [emb_sub, emb_sub, e1', e2']
        ext <;> simp
      · have : t.1 - b.1 ≠ 0 ∨ t.2 - b.2 ≠ 0 := by
          by_contra hc
          push Not at hc
          exact hne (Prod.ext (by omega) (by omega))
        rcases this with h | h
        · left
          have h1 : 1 ≤ |t.1 - b.1| := Int.one_le_abs h
          have : (1 : ℝ) ≤ |(t.1 : ℝ) - b.1| := by exact_mod_cast h1
          simp only [emb]
          norm_num
          linarith
        · right; left
          have h1 : 1 ≤ |t.2 - b.2| := Int.one_le_abs h
          have : (1 : ℝ) ≤ |(t.2 : ℝ) - b.2| := by exact_mod_cast h1
          simp only [emb]
          norm_num
          linarith

end B3d.Grid
