import Verif.Proofs.PointExact
import Verif.Proofs.SliceThrough

/-!
# Two convex outlines in a plane

If they have a common point but no common inner point, a corner of one of them is on the outline of the other.
-/

namespace B3d.ConvexPairs

open Spec Planar Slice ConvexEars SliceConvex PointExact

/-- The point is on the left of all sides or on their lines. -/
def In (pts : List (ℝ × ℝ)) (z : ℝ × ℝ) : Prop := ∀ i a b, Side pts i a b → 0 ≤ signedArea a b z

/-- The point is strictly on the left of all sides. -/
def Strict (pts : List (ℝ × ℝ)) (z : ℝ × ℝ) : Prop := ∀ i a b, Side pts i a b → 0 < signedArea a b z

theorem move_a_little (z s : ℝ × ℝ) : ∀ L : List ((ℝ × ℝ) × (ℝ × ℝ)),
    (∀ e ∈ L, 0 < signedArea e.1 e.2 z ∨ signedArea e.1 e.2 z = 0 ∧ 0 < signedArea e.1 e.2 s) →
    ∃ δ : ℝ, 0 < δ ∧ δ ≤ 1 ∧ ∀ k, 0 < k → k ≤ δ → ∀ e ∈ L, 0 < signedArea e.1 e.2 (lerp z s k)
  | [], _ => ⟨1, one_pos, le_refl _, fun _ _ _ e he => by simp at he⟩
  | e :: L, h => by
    obtain ⟨δ, d0, d1, hd⟩ := move_a_little z s L fun e he => h e (List.mem_cons_of_mem _ he)
    obtain ⟨ε, e0, he⟩ : ∃ ε : ℝ, 0 < ε ∧ ∀ k, 0 < k → k ≤ ε → 0 < signedArea e.1 e.2 (lerp z s k) := by
      rcases h e List.mem_cons_self with h1 | ⟨h1, h2⟩
      · refine ⟨signedArea e.1 e.2 z / (2 * (signedArea e.1 e.2 z + |signedArea e.1 e.2 s|)), by positivity, fun k k0 k1 => ?_⟩
        rw [area_between]
        rw [le_div_iff₀ (by positivity)] at k1
        have h3 := neg_abs_le (signedArea e.1 e.2 s)
        have h4 : k * -|signedArea e.1 e.2 s| ≤ k * signedArea e.1 e.2 s := by gcongr
        nlinarith [abs_nonneg (signedArea e.1 e.2 s)]
      · refine ⟨1, one_pos, fun k k0 _ => ?_⟩
        rw [area_between, h1, mul_zero, zero_add]
        exact mul_pos k0 h2
    refine ⟨min δ ε, lt_min d0 e0, (min_le_left _ _).trans d1, fun k k0 k1 e' he' => ?_⟩
    rcases List.mem_cons.1 he' with rfl | hm
    · exact he k k0 (k1.trans (min_le_right _ _))
    · exact hd k k0 (k1.trans (min_le_left _ _)) e' hm

variable {pts qs : List (ℝ × ℝ)} {z s : ℝ × ℝ}

theorem strict_list : Strict pts z ↔ ∀ e ∈ cycEdges pts, 0 < signedArea e.1 e.2 z := by
  constructor
  · rintro h ⟨a, b⟩ he
    obtain ⟨i, hi⟩ := side_of_cycEdges he
    exact h i a b hi
  · intro h i a b hs
    exact h (a, b) (cycEdges_of_side hs)

theorem strict_near (hz : In pts z) (hs : Strict pts s) {k : ℝ} (h0 : 0 < k) (h1 : k ≤ 1) : Strict pts (lerp z s k) := by
  intro i a b hi
  rw [area_between]
  have := mul_nonneg (sub_nonneg.2 h1) (hz i a b hi)
  have := mul_pos h0 (hs i a b hi)
  linarith

/-- If a point is strictly inside one of them and in the other, they have a common inner point. -/
theorem common_of_strict (h1 : Strict pts z) (h2 : In qs z) (h3 : Strict qs s) : ∃ x, Strict pts x ∧ Strict qs x := by
  obtain ⟨δ, d0, d1, hd⟩ := move_a_little z s (cycEdges pts) fun e he => .inl (strict_list.1 h1 e he)
  exact ⟨lerp z s δ, strict_list.2 (hd δ d0 (le_refl _)), strict_near h2 h3 d0 d1⟩

theorem strict_exists (hn : 3 ≤ pts.length) (hp : Pos pts) : ∃ s, Strict pts s := by
  obtain ⟨a, h0⟩ : ∃ a, pts[0]? = some a := ⟨_, List.getElem?_eq_getElem (by omega)⟩
  obtain ⟨b, h1⟩ : ∃ a, pts[1]? = some a := ⟨_, List.getElem?_eq_getElem (by omega)⟩
  obtain ⟨c, h2⟩ : ∃ a, pts[2]? = some a := ⟨_, List.getElem?_eq_getElem (by omega)⟩
  refine ⟨((a.1 + b.1 + c.1) / 3, (a.2 + b.2 + c.2) / 3), fun i p q hs => ?_⟩
  have e : signedArea p q ((a.1 + b.1 + c.1) / 3, (a.2 + b.2 + c.2) / 3) =
      (signedArea p q a + signedArea p q b + signedArea p q c) / 3 := by
    unfold signedArea; ring
  rw [e]
  obtain ⟨n0, p0⟩ := hp.side hs h0
  obtain ⟨n1, p1⟩ := hp.side hs h1
  obtain ⟨n2, p2⟩ := hp.side hs h2
  have hl := side_lt hs
  have : (0 ≠ i ∧ 0 ≠ (i + 1) % pts.length) ∨ (1 ≠ i ∧ 1 ≠ (i + 1) % pts.length) ∨ (2 ≠ i ∧ 2 ≠ (i + 1) % pts.length) := by
    generalize (i + 1) % pts.length = j
    omega
  rcases this with h | h | h
  · have := p0 h.1 h.2; linarith
  · have := p1 h.1 h.2; linarith
  · have := p2 h.1 h.2; linarith

theorem corner_of_common (hn : 3 ≤ pts.length) (hp : Pos pts) (hn' : 3 ≤ qs.length) (hp' : Pos qs) (h1 : In pts z)
    (h2 : In qs z) (hd : ¬ ∃ x, Strict pts x ∧ Strict qs x) :
    (∃ p ∈ pts, AtOutline qs p) ∨ ∃ q ∈ qs, AtOutline pts q := by
  obtain ⟨s1, hs1⟩ := strict_exists hn hp
  obtain ⟨s2, hs2⟩ := strict_exists hn' hp'
  have o1 : AtOutline pts z := by
    by_contra ho
    exact hd (common_of_strict ((strict_iff hn hp).1 ⟨h1, ho⟩) h2 hs2)
  have o2 : AtOutline qs z := by
    by_contra ho
    obtain ⟨x, a, b⟩ := common_of_strict ((strict_iff hn' hp').1 ⟨h2, ho⟩) h1 hs1
    exact hd ⟨x, b, a⟩
  obtain ⟨i, a, b, k, hi, k0, k1, ek⟩ := id o1
  obtain ⟨j, c, d, l, hj, l0, l1, el⟩ := id o2
  have lerp0 : ∀ a b : ℝ × ℝ, lerp a b 0 = a := fun a b => by unfold lerp; ext <;> simp
  have lerp1 : ∀ a b : ℝ × ℝ, lerp a b 1 = b := fun a b => by unfold lerp; ext <;> simp
  rcases k0.eq_or_lt with rfl | k0
  · rw [lerp0] at ek
    exact .inl ⟨a, List.mem_of_getElem? hi.1, ek ▸ o2⟩
  rcases k1.eq_or_lt with rfl | k1
  · rw [lerp1] at ek
    exact .inl ⟨b, List.mem_of_getElem? hi.2, ek ▸ o2⟩
  rcases l0.eq_or_lt with rfl | l0
  · rw [lerp0] at el
    exact .inr ⟨c, List.mem_of_getElem? hj.1, el ▸ o1⟩
  rcases l1.eq_or_lt with rfl | l1
  · rw [lerp1] at el
    exact .inr ⟨d, List.mem_of_getElem? hj.2, el ▸ o1⟩
  have z1 : signedArea a b z = 0 := by rw [ek, area_between_self]
  have z2 : signedArea c d z = 0 := by rw [el, area_between_self]
  by_cases hD : (b.1 - a.1) * (d.2 - c.2) - (b.2 - a.2) * (d.1 - c.1) = 0
  · -- on one line
    have hba := side_ne hn hp hi
    have hsum : (1 - l) * signedArea a b c + l * signedArea a b d = 0 := by
      rw [← area_between, ← el, z1]
    have hdiff : signedArea a b d - signedArea a b c = 0 := by
      rw [← hD]; unfold signedArea; ring
    have zc : signedArea a b c = 0 := by nlinarith
    have zd : signedArea a b d = 0 := by linarith
    obtain ⟨s, rfl⟩ := on_side_line hba zc
    obtain ⟨t, rfl⟩ := on_side_line hba zd
    have hk : (1 - l) * s + l * t = k := by
      rw [ek] at el
      unfold lerp at el
      rw [Prod.mk.injEq] at el
      simp only at el
      by_cases hx : b.1 - a.1 = 0
      · have hy : b.2 - a.2 ≠ 0 := fun hy => hba (Prod.ext (by linarith) (by linarith))
        refine mul_right_cancel₀ hy ?_
        linarith [el.2]
      · refine mul_right_cancel₀ hx ?_
        linarith [el.1]
    by_cases cs : 0 ≤ s ∧ s ≤ 1
    · exact .inr ⟨_, List.mem_of_getElem? hj.1, i, a, b, s, hi, cs.1, cs.2, rfl⟩
    by_cases ct : 0 ≤ t ∧ t ≤ 1
    · exact .inr ⟨_, List.mem_of_getElem? hj.2, i, a, b, t, hi, ct.1, ct.2, rfl⟩
    refine .inl ⟨a, List.mem_of_getElem? hi.1, j, _, _, -s / (t - s), hj, ?_⟩
    have hl1 : 0 < 1 - l := by linarith
    have hcase : (s < 0 ∧ 1 < t) ∨ (1 < s ∧ t < 0) := by
      rcases lt_or_ge s 0 with s0 | s0
      · refine .inl ⟨s0, ?_⟩
        by_contra hc
        have ht : t < 0 := by
          by_contra h0
          exact ct ⟨not_lt.1 h0, not_lt.1 hc⟩
        nlinarith
      · have s1 : 1 < s := by
          by_contra h0
          exact cs ⟨s0, not_lt.1 h0⟩
        refine .inr ⟨s1, ?_⟩
        by_contra hc
        have ht : 1 < t := by
          by_contra h0
          exact ct ⟨not_lt.1 hc, not_lt.1 h0⟩
        nlinarith
    have hts : t - s ≠ 0 := by
      rcases hcase with h | h
      · have : 0 < t - s := by linarith [h.1, h.2]
        exact this.ne'
      · have : t - s < 0 := by linarith [h.1, h.2]
        exact this.ne
    refine ⟨?_, ?_, ?_⟩
    · rcases hcase with h | h
      · exact div_nonneg (by linarith [h.1]) (by linarith [h.1, h.2])
      · exact div_nonneg_of_nonpos (by linarith [h.1]) (by linarith [h.1, h.2])
    · rcases hcase with h | h
      · rw [div_le_one (by linarith [h.1, h.2])]; linarith [h.2]
      · rw [div_le_one_of_neg (by linarith [h.1, h.2])]; linarith [h.2]
    · unfold lerp
      ext
      · simp only; field_simp; ring
      · simp only; field_simp; ring
  · exfalso
    set D := (b.1 - a.1) * (d.2 - c.2) - (b.2 - a.2) * (d.1 - c.1) with hDd
    set s : ℝ × ℝ := (z.1 + ((d.1 - c.1) - (b.1 - a.1)) / D, z.2 + ((d.2 - c.2) - (b.2 - a.2)) / D) with hs
    have e1 : signedArea a b s = signedArea a b z + D / D := by
      rw [hs]; unfold signedArea; simp only; rw [hDd]; ring
    have e2 : signedArea c d s = signedArea c d z + D / D := by
      rw [hs]; unfold signedArea; simp only; rw [hDd]; ring
    rw [z1, zero_add, div_self hD] at e1
    rw [z2, zero_add, div_self hD] at e2
    obtain ⟨δ, d0, d1, hδ⟩ := move_a_little z s (cycEdges pts) (by
      rintro ⟨a', b'⟩ he
      obtain ⟨i', hi'⟩ := side_of_cycEdges he
      by_cases hii : i' = i
      · subst hii
        obtain ⟨rfl, rfl⟩ := side_unique hi hi'
        exact .inr ⟨z1, by rw [e1]; exact one_pos⟩
      · refine .inl ?_
        rw [ek]
        exact other_side hn hp hi hi' hii k0 k1)
    obtain ⟨ε, e0, -, hε⟩ := move_a_little z s (cycEdges qs) (by
      rintro ⟨a', b'⟩ he
      obtain ⟨i', hi'⟩ := side_of_cycEdges he
      by_cases hii : i' = j
      · subst hii
        obtain ⟨rfl, rfl⟩ := side_unique hj hi'
        exact .inr ⟨z2, by rw [e2]; exact one_pos⟩
      · refine .inl ?_
        rw [el]
        exact other_side hn' hp' hj hi' hii l0 l1)
    exact hd ⟨lerp z s (min δ ε), strict_list.2 (hδ _ (lt_min d0 e0) (min_le_left _ _)),
      strict_list.2 (hε _ (lt_min d0 e0) (min_le_right _ _))⟩

end B3d.ConvexPairs
