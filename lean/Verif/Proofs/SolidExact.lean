import Verif.Proofs.FaceParity
import Verif.Proofs.PointExact

/-! # Points in solids without doubtful cases (helper lemmas for C114) -/

namespace B3d.PointExact

open Spec Planar Points Polygon Triangles SliceConvex Solids

variable {o u w : Vec3 ℝ} {m : ℝ} {pts : List (ℝ × ℝ)} {P : Poly} {vn : Option (Vec3 ℝ)}

theorem prod_eq_zero {k p q : ℝ} (hp : k * p = 0) (hq : k * q = 0) (h : ¬ (p = 0 ∧ q = 0)) : k = 0 := by
  by_contra hk
  exact h ⟨(mul_eq_zero.1 hp).resolve_left hk, (mul_eq_zero.1 hq).resolve_left hk⟩

theorem line_step {a b c d : ℝ × ℝ} (h1 : signedArea a b c = 0) (h2 : signedArea a c d = 0) (hne : c ≠ a) :
    signedArea a b d = 0 := by
  refine prod_eq_zero (p := c.1 - a.1) (q := c.2 - a.2) ?_ ?_ ?_
  · unfold signedArea at *
    linear_combination (d.1 - a.1) * h1 + (b.1 - a.1) * h2
  · unfold signedArea at *
    linear_combination (d.2 - a.2) * h1 + (b.2 - a.2) * h2
  · rintro ⟨h3, h4⟩
    exact hne (Prod.ext (sub_eq_zero.1 h3) (sub_eq_zero.1 h4))

theorem line_step2 {a b c d e : ℝ × ℝ} (h1 : signedArea a b c = 0) (h2 : signedArea a b d = 0)
    (h3 : signedArea c d e = 0) (hne : d ≠ c) : signedArea a b e = 0 := by
  refine prod_eq_zero (p := d.1 - c.1) (q := d.2 - c.2) ?_ ?_ ?_
  · unfold signedArea at *
    linear_combination (e.1 - c.1) * (h2 - h1) + (b.1 - a.1) * h3 + (d.1 - c.1) * h1
  · unfold signedArea at *
    linear_combination (e.2 - c.2) * (h2 - h1) + (b.2 - a.2) * h3 + (d.2 - c.2) * h1
  · rintro ⟨h4, h5⟩
    exact hne (Prod.ext (sub_eq_zero.1 h4) (sub_eq_zero.1 h5))

theorem inPlane_cross (a b c : ℝ × ℝ) :
    Vec3.cross (inPlane o u w b - inPlane o u w a) (inPlane o u w c - inPlane o u w a) =
      signedArea a b c • Vec3.cross u w := by
  unfold inPlane signedArea
  ext <;> simp <;> ring

/-- The corners of a polygon without doubtful cases, not all on a line, span the plane visibly. -/
theorem crisp_spans (hx : Axes u w) {L : List (ℝ × ℝ)} (hc : Crisp m L) (hnd : L.Nodup) {a b c : ℝ × ℝ}
    (ha : L[0]? = some a) (hb : L[1]? = some b) (hcL : c ∈ L) (harea : signedArea a b c ≠ 0) :
    SpansPlane (L.map (inPlane o u w)) := by
  have hcu : Vec3.norm (Vec3.cross u w) = 1 := by
    have e : Vec3.normSq (Vec3.cross u w) = 1 := by
      have l : Vec3.normSq (Vec3.cross u w) = Vec3.dot u u * Vec3.dot w w - Vec3.dot u w ^ 2 := by
        simp only [Vec3.normSq, Vec3.dot, Vec3.cross]; ring
      rw [l, hx.unitU, hx.unitW, hx.perp]; norm_num
    rw [Vec3.norm, e, Real.sqrt_one]
  have hm := hc.scale
  have ne : ∀ {i j : Nat} {p q : ℝ × ℝ}, L[i]? = some p → L[j]? = some q → i ≠ j → p ≠ q := by
    intro i j p q hp hq hij he
    obtain ⟨hi, rfl⟩ := List.getElem?_eq_some_iff.1 hp
    obtain ⟨hj, rfl⟩ := List.getElem?_eq_some_iff.1 hq
    exact hij ((hnd.getElem_inj_iff).1 he)
  obtain ⟨n, hn, hcn⟩ := List.mem_iff_getElem.1 hcL
  have hget : ∀ i, i < L.length → ∃ p, L[i]? = some p := fun i hi => ⟨_, List.getElem?_eq_getElem hi⟩
  have mem : ∀ {i p}, L[i]? = some p → p ∈ L := fun h => List.mem_of_getElem? h
  constructor
  · have : ∃ (k : Nat) (p q r : ℝ × ℝ), L[k]? = some p ∧ L[k + 1]? = some q ∧ L[k + 2]? = some r ∧ signedArea p q r ≠ 0 := by
      by_contra hcon
      push Not at hcon
      have hall : ∀ k, k + 1 < L.length → ∀ p q, L[k]? = some p → L[k + 1]? = some q →
          signedArea a b p = 0 ∧ signedArea a b q = 0 := by
        intro k
        induction k with
        | zero =>
          intro _ p q hp hq
          rw [ha] at hp; rw [hb] at hq
          cases hp; cases hq
          constructor <;> unfold signedArea <;> ring
        | succ k ih =>
          intro hk p q hp hq
          obtain ⟨p', hp'⟩ := hget k (by omega)
          obtain ⟨i1, i2⟩ := ih (by omega) p' p hp' hp
          exact ⟨i2, line_step2 i1 i2 (hcon k p' p q hp' hp hq) (ne hp hp' (by omega))⟩
      have hL : 1 < L.length := (List.getElem?_eq_some_iff.1 hb).1
      rcases Nat.eq_zero_or_pos n with h0 | h0
      · subst h0
        have := (hall 0 hL c b (by rw [List.getElem?_eq_getElem hn, hcn]) hb).1
        exact harea this
      · obtain ⟨p', hp'⟩ := hget (n - 1) (by omega)
        have := (hall (n - 1) (by omega) p' c hp' (by
          rw [Nat.sub_add_cancel h0, List.getElem?_eq_getElem hn, hcn])).2
        exact harea this
    obtain ⟨k, p, q, r, hp, hq, hr, hA⟩ := this
    refine ⟨k, inPlane o u w p, inPlane o u w q, inPlane o u w r, by rw [List.getElem?_map, hp]; rfl,
      by rw [List.getElem?_map, hq]; rfl, by rw [List.getElem?_map, hr]; rfl, ?_⟩
    rw [inPlane_cross, Vec3.norm_smul, hcu, mul_one]
    have := (hc.sides p (mem hp) q (mem hq) r (mem hr)).resolve_left hA
    refine lt_of_lt_of_le ?_ this
    nlinarith
  · have : ∃ (k : Nat) (p q : ℝ × ℝ), L[k + 1]? = some p ∧ L[k + 2]? = some q ∧ signedArea a p q ≠ 0 := by
      by_contra hcon
      push Not at hcon
      have hall : ∀ k, k + 1 < L.length → ∀ p, L[k + 1]? = some p → signedArea a b p = 0 := by
        intro k
        induction k with
        | zero =>
          intro _ p hp
          rw [hb] at hp
          cases hp
          unfold signedArea; ring
        | succ k ih =>
          intro hk p hp
          obtain ⟨p', hp'⟩ := hget (k + 1) (by omega)
          exact line_step (ih (by omega) p' hp') (hcon k p' p hp' hp) (ne hp' ha (by omega))
      rcases Nat.eq_zero_or_pos n with h0 | h0
      · subst h0
        rw [List.getElem?_eq_getElem hn, hcn, Option.some.injEq] at ha
        subst ha
        apply harea
        unfold signedArea; ring
      · exact harea (hall (n - 1) (by omega) c (by rw [Nat.sub_add_cancel h0, List.getElem?_eq_getElem hn, hcn]))
    obtain ⟨k, p, q, hp, hq, hA⟩ := this
    have dist : ∀ p q : ℝ × ℝ, Vec3.normSq (inPlane o u w p - inPlane o u w q) = distSq p q := by
      intro p q
      have e : inPlane o u w p - inPlane o u w q = (p.1 - q.1) • u + (p.2 - q.2) • w := by
        unfold inPlane; ext <;> simp <;> ring
      rw [e]
      have l : Vec3.normSq ((p.1 - q.1) • u + (p.2 - q.2) • w) = (p.1 - q.1) ^ 2 * Vec3.dot u u +
          (p.2 - q.2) ^ 2 * Vec3.dot w w + 2 * (p.1 - q.1) * (p.2 - q.2) * Vec3.dot u w := by
        simp only [Vec3.normSq, Vec3.dot, Vec3.add_x, Vec3.add_y, Vec3.add_z, Vec3.smul_x, Vec3.smul_y, Vec3.smul_z]; ring
      rw [l, hx.unitU, hx.unitW, hx.perp, distSq]; ring
    have big : ∀ p, p ∈ L → p ≠ a → 1 / 10 ^ 11 ≤ Vec3.norm (inPlane o u w p - inPlane o u w a) := by
      intro p hpL hpa
      apply Vec3.le_norm_of_sq
      rw [dist]
      have := hc.far p hpL a (mem ha) hpa
      nlinarith
    refine ⟨k, inPlane o u w a, inPlane o u w p, inPlane o u w q, by rw [List.getElem?_map, ha]; rfl,
      by rw [List.getElem?_map, hp]; rfl, by rw [List.getElem?_map, hq]; rfl, big p (mem hp) (ne hp ha (by omega)),
      big q (mem hq) (ne hq ha (by omega)), ?_⟩
    have lag : ∀ y z : Vec3 ℝ, Vec3.dot y z ^ 2 = Vec3.normSq y * Vec3.normSq z - Vec3.normSq (Vec3.cross y z) := by
      intro y z
      simp only [Vec3.normSq, Vec3.dot, Vec3.cross]; ring
    have cr : Vec3.normSq (Vec3.cross (inPlane o u w p - inPlane o u w a) (inPlane o u w q - inPlane o u w a)) =
        signedArea a p q ^ 2 := by
      rw [inPlane_cross, ← Vec3.norm_sq, Vec3.norm_smul, hcu, mul_one, sq_abs]
    rw [lag, cr, dist, dist]
    have d1 := hc.near p (mem hp) a (mem ha)
    have d2 := hc.near q (mem hq) a (mem ha)
    have n1 : 0 ≤ distSq p a := by unfold distSq; positivity
    have n2 : 0 ≤ distSq q a := by unfold distSq; positivity
    have hs := (hc.sides a (mem ha) p (mem hp) q (mem hq)).resolve_left hA
    have hs2 : (m ^ 2) ^ 2 ≤ signedArea a p q ^ 2 := by
      rw [← sq_abs (signedArea a p q)]
      exact pow_le_pow_left₀ (by positivity) hs 2
    have hprod : distSq p a * distSq q a ≤ 5000 * m ^ 2 * (5000 * m ^ 2) := mul_le_mul d1 d2 n2 (by positivity)
    nlinarith

end B3d.PointExact
