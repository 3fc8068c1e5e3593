import Verif.Proofs.Ell
import Verif.Props.PlanPlace

/-! # C84 and C32: L-shaped outlines and plans -/

namespace B3d.Polygon

open Spec Ell Planar

/-- **C84, L-shaped outlines.**  An L-shaped outline in any plane becomes a polygon, whichever corner except the reflex
one comes first: the corners stay in the given order and the normal is the one around which they run counter-clockwise.
If neither the first nor the last corner is the reflex one, the polygon can be flipped. -/
theorem C84_ell_partial {m a b c d : ℝ} {o u w : Vec3 ℝ} {k : Nat} (h : EllSize m a b c d) (hx : Axes u w)
    (hr : ∀ p ∈ ellShape a b c d, Reach m (inPlane o u w p)) (hk : k ∈ [0, 1, 2, 4, 5]) :
    ∃ P, polygonNew (((ellShape a b c d).rotate k).map (inPlane o u w)) none none = .ok P ∧
      P.pts = ((ellShape a b c d).rotate k).map (inPlane o u w) ∧ P.vn = some (Vec3.cross u w) ∧
      (k ≠ 4 → ∃ Q, flip P = .ok Q ∧ Q.pts = P.pts.reverse ∧ Q.vn = some ((-1 : ℝ) • Vec3.cross u w)) := by
  obtain ⟨P, -, h1, h2, h3, -⟩ := ell_polygon h hx hr hk
  refine ⟨P, h1, h2, h3, fun hk4 => ?_⟩
  unfold flip
  rw [h2]
  refine ell_reverse h hx hr ?_
  simp only [List.mem_cons, List.not_mem_nil, or_false] at hk ⊢
  omega

end B3d.Polygon

namespace B3d.Solids

open Spec Polygon Points Ell Planar

theorem place_place (phi psi : ℝ) (t s : Vec3 ℝ) (p : ℝ × ℝ) :
    place phi t (place psi s p) =
      place (phi + psi) ⟨Real.cos phi * s.x - Real.sin phi * s.y + t.x, Real.sin phi * s.x + Real.cos phi * s.y + t.y, 0⟩ p := by
  simp only [place, Real.cos_add, Real.sin_add, Prod.mk.injEq]
  constructor <;> ring

theorem ends_six {α : Type} {x0 x1 x2 x3 x4 x5 p0 p1 q l : α} {r1 r2 : List α} (h1 : [x0, x1, x2, x3, x4, x5] = p0 :: p1 :: r1)
    (h2 : [x0, x1, x2, x3, x4, x5] = r2 ++ [q, l]) : x0 = p0 ∧ x1 = p1 ∧ x4 = q ∧ x5 = l := by
  simp only [List.cons.injEq] at h1
  have h3 := congrArg List.reverse h2
  simp only [List.reverse_append, List.reverse_cons, List.reverse_nil, List.nil_append, List.cons_append,
    List.cons.injEq] at h3
  exact ⟨h1.1, h1.2.1, h3.2.1, h3.1⟩

/-- An L-shaped plan, drawn anywhere in the plane and turned by any angle, with the corner number `k` first. -/
noncomputable def ellPlan (a b c d psi : ℝ) (s : Vec3 ℝ) (k : Nat) : List (ℝ × ℝ) :=
  ((ellShape a b c d).rotate k).map (place psi s)

theorem area2_ell (a b c d psi : ℝ) (s : Vec3 ℝ) {k : Nat} (hk : k < 6) :
    area2 (ellPlan a b c d psi s k) = 2 * (a * b + c * (d - b)) ∧
    area2 (ellPlan a b c d psi s k).reverse = -(2 * (a * b + c * (d - b))) := by
  unfold ellPlan
  rw [← List.map_reverse, area2_place, area2_place]
  interval_cases k <;> constructor
  · show area2 [(0, 0), (a, 0), (a, b), (c, b), (c, d), (0, d)] = _
    simp [area2, cycSum, pathSum, cross2]; ring
  · show area2 [(0, d), (c, d), (c, b), (a, b), (a, 0), (0, 0)] = _
    simp [area2, cycSum, pathSum, cross2]; ring
  · show area2 [(a, 0), (a, b), (c, b), (c, d), (0, d), (0, 0)] = _
    simp [area2, cycSum, pathSum, cross2]; ring
  · show area2 [(0, 0), (0, d), (c, d), (c, b), (a, b), (a, 0)] = _
    simp [area2, cycSum, pathSum, cross2]; ring
  · show area2 [(a, b), (c, b), (c, d), (0, d), (0, 0), (a, 0)] = _
    simp [area2, cycSum, pathSum, cross2]; ring
  · show area2 [(a, 0), (0, 0), (0, d), (c, d), (c, b), (a, b)] = _
    simp [area2, cycSum, pathSum, cross2]; ring
  · show area2 [(c, b), (c, d), (0, d), (0, 0), (a, 0), (a, b)] = _
    simp [area2, cycSum, pathSum, cross2]; ring
  · show area2 [(a, b), (a, 0), (0, 0), (0, d), (c, d), (c, b)] = _
    simp [area2, cycSum, pathSum, cross2]; ring
  · show area2 [(c, d), (0, d), (0, 0), (a, 0), (a, b), (c, b)] = _
    simp [area2, cycSum, pathSum, cross2]; ring
  · show area2 [(c, b), (a, b), (a, 0), (0, 0), (0, d), (c, d)] = _
    simp [area2, cycSum, pathSum, cross2]; ring
  · show area2 [(0, d), (0, 0), (a, 0), (a, b), (c, b), (c, d)] = _
    simp [area2, cycSum, pathSum, cross2]; ring
  · show area2 [(c, d), (c, b), (a, b), (a, 0), (0, 0), (0, d)] = _
    simp [area2, cycSum, pathSum, cross2]; ring

/-- The turns at the first and the last corner, in both directions. -/
theorem turns_ell {a b c d psi : ℝ} {s : Vec3 ℝ} {k : Nat} (hb : 0 < b) (hc : 0 < c) (ha : c < a) (hd : b < d)
    {p0 p1 q l : ℝ × ℝ} {r1 r2 : List (ℝ × ℝ)} :
    (k ∈ [0, 1, 2, 5] → ellPlan a b c d psi s k = p0 :: p1 :: r1 → ellPlan a b c d psi s k = r2 ++ [q, l] →
      0 < turn l p0 p1 ∧ 0 < turn q l p0) ∧
    (k ∈ [0, 1, 2, 5] → (ellPlan a b c d psi s k).reverse = p0 :: p1 :: r1 →
      (ellPlan a b c d psi s k).reverse = r2 ++ [q, l] → turn l p0 p1 < 0 ∧ turn q l p0 < 0) ∧
    (k ∈ [3, 4] → ellPlan a b c d psi s k = p0 :: p1 :: r1 → ellPlan a b c d psi s k = r2 ++ [q, l] →
      turn l p0 p1 < 0 ∨ turn q l p0 < 0) ∧
    (k ∈ [3, 4] → (ellPlan a b c d psi s k).reverse = p0 :: p1 :: r1 →
      (ellPlan a b c d psi s k).reverse = r2 ++ [q, l] → 0 < turn l p0 p1 ∨ 0 < turn q l p0) := by
  have e1 : 0 < a - c := by linarith
  have e2 : 0 < d - b := by linarith
  have m1 := mul_pos hb hc
  have m2 := mul_pos e1 e2
  have m3 := mul_pos hb e1
  have m4 := mul_pos hc e2
  refine ⟨fun hk h1 h2 => ?_, fun hk h1 h2 => ?_, fun hk h1 h2 => ?_, fun hk h1 h2 => ?_⟩ <;>
    simp only [List.mem_cons, List.not_mem_nil, or_false] at hk
  · rcases hk with rfl | rfl | rfl | rfl <;> obtain ⟨rfl, rfl, rfl, rfl⟩ := ends_six h1 h2 <;>
      rw [turn_place, turn_place] <;> simp only [turn, cross2, Prod.fst_sub, Prod.snd_sub] <;> constructor <;> nlinarith
  · rcases hk with rfl | rfl | rfl | rfl <;> obtain ⟨rfl, rfl, rfl, rfl⟩ := ends_six h1 h2 <;>
      rw [turn_place, turn_place] <;> simp only [turn, cross2, Prod.fst_sub, Prod.snd_sub] <;> constructor <;> nlinarith
  · rcases hk with rfl | rfl <;> obtain ⟨rfl, rfl, rfl, rfl⟩ := ends_six h1 h2 <;>
      rw [turn_place, turn_place] <;> simp only [turn, cross2, Prod.fst_sub, Prod.snd_sub]
    · left; nlinarith
    · right; nlinarith
  · rcases hk with rfl | rfl <;> obtain ⟨rfl, rfl, rfl, rfl⟩ := ends_six h1 h2 <;>
      rw [turn_place, turn_place] <;> simp only [turn, cross2, Prod.fst_sub, Prod.snd_sub]
    · right; nlinarith
    · left; nlinarith

theorem ell_nodup {a b c d : ℝ} (hb : 0 < b) (hc : 0 < c) (ha : c < a) (hd : b < d) : (ellShape a b c d).Nodup := by
  have n1 : (0 : ℝ) ≠ a := by linarith
  have n2 : (0 : ℝ) ≠ b := hb.ne
  have n3 : (0 : ℝ) ≠ c := hc.ne
  have n4 : (0 : ℝ) ≠ d := by linarith
  have n5 : a ≠ c := ha.ne'
  have n6 : b ≠ d := hd.ne
  simp [ellShape, n1, n2, n3, n4, n5, n6, n1.symm, n3.symm]

/-- **C32, L-shaped plans.**  An L-shaped plan, drawn anywhere and in either direction, is moved and turned by
`floor_plan`.  If neither its first nor its last corner is the reflex one, the result is a closed solid with the volume of
the L times the height. -/
theorem C32_ell {m a b c d psi height phi : ℝ} {s t : Vec3 ℝ} {k : Nat} {plan : List (ℝ × ℝ)}
    {wallNames : Option (List Str)} {fn cn rnd1 rnd2 : Str} {names : List Str} (h : EllSize m a b c d)
    (hk : k ∈ [0, 1, 2, 5]) (hplan : plan = ellPlan a b c d psi s k ∨ plan = (ellPlan a b c d psi s k).reverse)
    (hh : m ≤ height ∧ height ≤ 50 * m)
    (hr : ∀ p ∈ placed plan t phi, Reach m (level (planShift t).z p) ∧ Reach m (level ((planShift t).z + height) p))
    (hnames : planNames 6 wallNames = .ok names)
    (hnv : ∀ n ∈ names ++ [fn, cn], validateName n = .ok n) (hnd : (names ++ [fn, cn]).Nodup) :
    ∃ S, floorPlan plan height t phi wallNames fn cn rnd1 rnd2 = .ok S ∧ Closed ((allPolys S).map Poly.pts) ∧
      ∃ V, solidVolume S = .ok V ∧ |V - (a * b + c * (d - b)) * height| ≤ 1 / 10 ^ 5 := by
  have hm : 0 < m := lt_of_lt_of_le (by norm_num) h.scale
  have hb : 0 < b := hm.trans_le h.foot
  have hc : 0 < c := hm.trans_le h.arm
  have ha : c < a := by linarith [h.width]
  have hd : b < d := by linarith [h.height]
  have hk6 : k < 6 := by
    simp only [List.mem_cons, List.not_mem_nil, or_false] at hk
    omega
  obtain ⟨E, hE⟩ : ∃ E, E = (ellShape a b c d).rotate k := ⟨_, rfl⟩
  have hEl : E.length = 6 := by rw [hE, List.length_rotate]; rfl
  have hEm : ∀ p, p ∈ E ↔ p ∈ ellShape a b c d := fun p => by rw [hE]; exact List.mem_rotate
  have hcr := ell_crisp h
  have hlen : plan.length = 6 := by
    rcases hplan with rfl | rfl <;> simp [ellPlan, ellShape]
  obtain ⟨phi', hphi⟩ : ∃ phi', phi' = planAngle phi + psi := ⟨_, rfl⟩
  obtain ⟨s', hs'⟩ : ∃ s' : Vec3 ℝ, s' = ⟨Real.cos (planAngle phi) * s.x - Real.sin (planAngle phi) * s.y + (planShift t).x,
    Real.sin (planAngle phi) * s.x + Real.cos (planAngle phi) * s.y + (planShift t).y, 0⟩ := ⟨_, rfl⟩
  have hg : (plan = ellPlan a b c d psi s k ∧ placed plan t phi = E.map (place phi' s')) ∨
      (plan = (ellPlan a b c d psi s k).reverse ∧ placed plan t phi = (E.map (place phi' s')).reverse) := by
    have key : (ellPlan a b c d psi s k).map (place (planAngle phi) (planShift t)) = E.map (place phi' s') := by
      unfold ellPlan
      rw [← hE, List.map_map, hphi, hs']
      exact List.map_congr_left fun p _ => place_place _ _ _ _ p
    rcases hplan with rfl | rfl
    · exact .inl ⟨rfl, key⟩
    · exact .inr ⟨rfl, by unfold placed; rw [List.map_reverse, key]⟩
  have hmem : ∀ p ∈ ellShape a b c d, place phi' s' p ∈ placed plan t phi := by
    intro p hp
    have : place phi' s' p ∈ E.map (place phi' s') := List.mem_map.2 ⟨p, (hEm p).2 hp, rfl⟩
    rcases hg with ⟨-, hg⟩ | ⟨-, hg⟩ <;> rw [hg]
    · exact this
    · exact List.mem_reverse.2 this
  have hmem' : ∀ x ∈ placed plan t phi, ∃ p ∈ ellShape a b c d, x = place phi' s' p := by
    intro x hx
    have : x ∈ E.map (place phi' s') := by
      rcases hg with ⟨-, hg⟩ | ⟨-, hg⟩ <;> rw [hg] at hx
      · exact hx
      · exact List.mem_reverse.1 hx
    obtain ⟨p, hp, rfl⟩ := List.mem_map.1 this
    exact ⟨p, (hEm p).1 hp, rfl⟩
  have hlev : ∀ z, (E.map (place phi' s')).map (level z) = E.map (inPlane ⟨s'.x, s'.y, z⟩ (axisU phi') (axisW phi')) := by
    intro z
    rw [List.map_map]
    exact List.map_congr_left fun p _ => level_place _ _ _ _
  have hreach : ∀ z, z = (planShift t).z ∨ z = (planShift t).z + height →
      ∀ p ∈ ellShape a b c d, Reach m (inPlane ⟨s'.x, s'.y, z⟩ (axisU phi') (axisW phi') p) := by
    intro z hz p hp
    rw [← level_place]
    rcases hz with rfl | rfl
    · exact (hr _ (hmem p hp)).1
    · exact (hr _ (hmem p hp)).2
  have hapart : ∀ p q, p ∈ placed plan t phi → q ∈ placed plan t phi → p ≠ q →
      Apart (level (planShift t).z p) (level (planShift t).z q) := by
    intro p q hp hq hne
    obtain ⟨x, hx, rfl⟩ := hmem' p hp
    obtain ⟨y, hy, rfl⟩ := hmem' q hq
    rw [level_place, level_place]
    exact apart_inPlane (axes_turned _) hcr hx hy (fun e => hne (by rw [e])) (hreach _ (.inl rfl) y hy)
  have hinj : ∀ x ∈ ellShape a b c d, ∀ y ∈ ellShape a b c d, place phi' s' x = place phi' s' y → x = y := by
    intro x hx y hy hxy
    by_contra hne
    have h1 := hcr.far x hx y hy hne
    rw [← place_dist phi' s', hxy] at h1
    simp only [sub_self] at h1
    nlinarith
  have hEnd : E.Nodup := by
    rw [hE, List.nodup_rotate]
    exact ell_nodup hb hc ha hd
  have hnodup : (placed plan t phi).Nodup := by
    have : (E.map (place phi' s')).Nodup :=
      List.Nodup.map_on (fun x hx y hy => hinj x ((hEm x).1 hx) y ((hEm y).1 hy)) hEnd
    rcases hg with ⟨-, hg⟩ | ⟨-, hg⟩ <;> rw [hg]
    · exact this
    · exact List.nodup_reverse.2 this
  have hr0 := hr _ (hmem (0, 0) (by simp [ellShape]))
  have hz1 := hr0.1.2.2
  have hz2 := hr0.2.2.2
  simp only [level] at hz1 hz2
  have hsc := h.scale
  norm_num at hsc
  have hz : 1 / 10 ^ 10 + 1 / 10 ^ 5 * |(planShift t).z| < height ∧
      1 / 10 ^ 10 + 1 / 10 ^ 5 * |(planShift t).z + height| < height := by
    norm_num at hz1 hz2 ⊢
    constructor <;> linarith [hh.1]
  have hwf : ∀ K, m ^ 2 ≤ K → K ≤ 5000 * m ^ 2 → WallFits height K := by
    intro K h1 h2
    have e1 : m ^ 2 ≤ height ^ 2 := by nlinarith [hh.1]
    have e2 : height ^ 2 ≤ 2500 * m ^ 2 := by nlinarith [hh.1, hh.2]
    have e3 : (1 / 1000) ^ 2 ≤ m ^ 2 := by
      have : (1 / 1000 : ℝ) ≤ m := by linarith
      nlinarith
    refine ⟨by linarith [hh.1], ?_, ?_, ?_⟩
    · have : (1 / 1000) ^ 2 * (1 / 1000) ^ 2 ≤ K * height ^ 2 :=
        mul_le_mul (e3.trans h1) (e3.trans e1) (by norm_num) (by nlinarith)
      norm_num at this ⊢
      linarith
    · norm_num at e3 ⊢; linarith
    · norm_num at e3 ⊢; linarith
  have hw : ∀ e ∈ cycEdges (placed plan t phi), WallFits height ((e.2.1 - e.1.1) ^ 2 + (e.2.2 - e.1.2) ^ 2) := by
    intro e he
    obtain ⟨h1, h2⟩ := cycEdges_mem he
    have hne : e.1 ≠ e.2 := by
      intro hee
      obtain ⟨i, hi⟩ := List.getElem?_of_mem he
      have hgl : (placed plan t phi).length = 6 := by simpa [placed] using hlen
      match hgd : placed plan t phi, hnodup, hgl, he, hi with
      | x :: r, hnod, hgl, he, hi =>
        simp only [cycEdges, List.getElem?_zip_eq_some] at hi
        obtain ⟨i1, i2⟩ := hi
        simp only [List.length_cons] at hgl
        by_cases hlt : i < r.length
        · rw [List.getElem?_append_left hlt] at i2
          have i3 : (x :: r)[i + 1]? = some e.1 := by rw [hee]; simpa using i2
          have := (List.getElem?_inj (i := i) (by simp; omega) hnod).1 (i1.trans i3.symm)
          omega
        · rw [List.getElem?_append_right (by omega)] at i2
          have hi0 : i - r.length = 0 := by
            by_contra hne
            rw [List.getElem?_eq_none (by simp; omega)] at i2
            cases i2
          rw [hi0] at i2
          simp only [List.getElem?_cons_zero, Option.some.injEq] at i2
          have i3 : (x :: r)[0]? = some e.1 := by rw [hee]; simpa using i2
          have := (List.getElem?_inj (i := i) (by simp; omega) hnod).1 (i1.trans i3.symm)
          omega
    obtain ⟨x, hx, ex⟩ := hmem' _ h1
    obtain ⟨y, hy, ey⟩ := hmem' _ h2
    rw [ex, ey, place_dist]
    exact hwf _ (hcr.far y hy x hx (fun e0 => hne (by rw [ex, ey, e0]))) (hcr.near y hy x hx)
  obtain ⟨ar1, ar2⟩ := area2_ell a b c d psi s hk6
  have hAp : 0 < a * b + c * (d - b) := by nlinarith [mul_pos hb hc, mul_pos hb (sub_pos.2 ha), mul_pos hc (sub_pos.2 hd)]
  have pol : ∀ z, z = (planShift t).z ∨ z = (planShift t).z + height →
      (∃ P, polygonNew ((E.map (place phi' s')).map (level z)) none none = .ok P ∧
        P.pts = (E.map (place phi' s')).map (level z) ∧ P.vn = some ⟨0, 0, 1⟩) ∧
      ∃ Q, polygonNew ((E.map (place phi' s')).map (level z)).reverse none none = .ok Q ∧
        Q.pts = ((E.map (place phi' s')).map (level z)).reverse ∧ Q.vn = some ⟨0, 0, -1⟩ := by
    intro z hz
    obtain ⟨P, -, a1, a2, a3, -⟩ := ell_polygon (k := k) h (axes_turned phi') (hreach z hz) (by
      simp only [List.mem_cons, List.not_mem_nil, or_false] at hk ⊢; omega)
    obtain ⟨Q, b1, b2, b3⟩ := ell_reverse (k := k) h (axes_turned phi') (hreach z hz) hk
    rw [hlev, hE]
    refine ⟨⟨P, a1, a2, by rw [a3, cross_turned]⟩, Q, b1, b2, ?_⟩
    rw [b3, cross_turned]
    congr 1
    ext <;> simp
  obtain ⟨sg, hsg, hA, hT, hP⟩ : ∃ sg : ℝ, (sg = 1 ∨ sg = -1) ∧ sg * area2 plan = 2 * (a * b + c * (d - b)) ∧
      (∀ p0 p1 r1 q l r2, plan = p0 :: p1 :: r1 → plan = r2 ++ [q, l] → 0 < sg * turn l p0 p1 ∧ 0 < sg * turn q l p0) ∧
      ∀ z, z = (planShift t).z ∨ z = (planShift t).z + height →
        ∃ P Q, polygonNew ((placed plan t phi).map (level z)) none none = .ok P ∧
          P.pts = (placed plan t phi).map (level z) ∧ P.vn = some ⟨0, 0, sg⟩ ∧
          polygonNew ((placed plan t phi).map (level z)).reverse none none = .ok Q ∧
          Q.pts = ((placed plan t phi).map (level z)).reverse := by
    rcases hg with ⟨h1, h2⟩ | ⟨h1, h2⟩
    · refine ⟨1, .inl rfl, by rw [h1, ar1, one_mul], ?_, ?_⟩
      · intro p0 p1 r1 q l r2 e1 e2
        have := (turns_ell hb hc ha hd).1 hk (h1 ▸ e1) (h1 ▸ e2)
        rw [one_mul, one_mul]
        exact this
      · intro z hz
        obtain ⟨⟨P, a1, a2, a3⟩, Q, b1, b2, b3⟩ := pol z hz
        rw [h2]
        exact ⟨P, Q, a1, a2, a3, b1, b2⟩
    · refine ⟨-1, .inr rfl, by rw [h1, ar2]; ring, ?_, ?_⟩
      · intro p0 p1 r1 q l r2 e1 e2
        have := (turns_ell hb hc ha hd).2.1 hk (h1 ▸ e1) (h1 ▸ e2)
        constructor <;> linarith [this.1, this.2]
      · intro z hz
        obtain ⟨⟨P, a1, a2, a3⟩, Q, b1, b2, b3⟩ := pol z hz
        rw [h2, List.map_reverse, List.reverse_reverse]
        exact ⟨Q, P, b1, b2, b3, a1, a2⟩
  obtain ⟨S, hS, hcl, V, hV, hVe⟩ := plan_from_faces (rnd1 := rnd1) (rnd2 := rnd2) hsg (by rw [hlen]; exact hnames) hnv hnd (by rw [hlen]; norm_num)
    (fun p q hs => by
      have hp : p ∈ placed plan t phi := hs.subset (by simp)
      have hq : q ∈ placed plan t phi := hs.subset (by simp)
      have hne : p ≠ q := by
        rintro rfl
        have := hs.nodup hnodup
        simp at this
      exact ⟨hapart p q hp hq hne, hapart q p hq hp hne.symm⟩)
    hP (by rw [hA]; linarith) hT hz hw
  refine ⟨S, hS, hcl, V, hV, ?_⟩
  have habs : |area2 plan| = 2 * (a * b + c * (d - b)) := by
    rcases hsg with rfl | rfl
    · rw [← hA, one_mul, abs_of_pos (by linarith)]
    · rw [← hA, abs_of_neg (by linarith)]; ring
  rw [habs, hlen] at hVe
  rw [show 2 * (a * b + c * (d - b)) / 2 * height = (a * b + c * (d - b)) * height by ring] at hVe
  refine hVe.trans ?_
  norm_num

theorem level_any {L : List (Vec3 ℝ)} {P Q : Poly} {name rnd : Str} {want v : ℝ} (hv : validateName name = .ok name)
    (hwant : want = 1 ∨ want = -1) (hvs : v = 1 ∨ v = -1) (hP : polygonNew L none none = .ok P)
    (hQ : polygonNew L.reverse none none = .ok Q) (hPv : P.vn = some ⟨0, 0, v⟩) (hPp : P.pts = L ∨ P.pts = L.reverse)
    (hQp : Q.pts = L ∨ Q.pts = L.reverse) :
    ∃ F, levelPolygon L name rnd ⟨0, 0, want⟩ = .ok F ∧ (F.2.pts = L ∨ F.2.pts = L.reverse) := by
  by_cases h : v = want
  · subst h
    exact ⟨(name, P), level_ok hwant hv hP hPv, hPp⟩
  · have hv' : v = -want := by rcases hvs with rfl | rfl <;> rcases hwant with rfl | rfl <;> simp at h ⊢
    rcases hPp with e | e
    · exact ⟨(rnd, Q), level_flip hwant hv hP (hv' ▸ hPv) (by unfold Polygon.flip; rw [e]; exact hQ), hQp⟩
    · exact ⟨(rnd, P), level_flip hwant hv hP (hv' ▸ hPv) (by unfold Polygon.flip; rw [e, List.reverse_reverse]; exact hP),
        .inr e⟩

theorem _root_.B3d.Spec.Crisp.place {m : ℝ} {pts : List (ℝ × ℝ)} (h : Crisp m pts) (phi : ℝ) (t : Vec3 ℝ) :
    Crisp m (pts.map (place phi t)) := by
  have e1 : ∀ p q, distSq (Spec.place phi t p) (Spec.place phi t q) = distSq p q := fun p q => place_dist phi t q p
  have e2 : ∀ a b c, signedArea (Spec.place phi t a) (Spec.place phi t b) (Spec.place phi t c) = signedArea a b c := by
    intro a b c
    have := Real.sin_sq_add_cos_sq phi
    simp only [Spec.place, signedArea]
    linear_combination ((b.1 - a.1) * (c.2 - a.2) - (b.2 - a.2) * (c.1 - a.1)) * this
  refine ⟨h.scale, ?_, ?_, ?_⟩
  · intro p hp q hq hne
    obtain ⟨p, hp', rfl⟩ := List.mem_map.1 hp
    obtain ⟨q, hq', rfl⟩ := List.mem_map.1 hq
    rw [e1]
    exact h.far p hp' q hq' fun e => hne (by rw [e])
  · intro p hp q hq
    obtain ⟨p, hp', rfl⟩ := List.mem_map.1 hp
    obtain ⟨q, hq', rfl⟩ := List.mem_map.1 hq
    rw [e1]
    exact h.near p hp' q hq'
  · intro a ha b hb c hc
    obtain ⟨a, ha', rfl⟩ := List.mem_map.1 ha
    obtain ⟨b, hb', rfl⟩ := List.mem_map.1 hb
    obtain ⟨c, hc', rfl⟩ := List.mem_map.1 hc
    rw [e2]
    exact h.sides a ha' b hb' c hc'

theorem ell_not_closed {a b c d psi height phi : ℝ} {s t : Vec3 ℝ} {k : Nat} {plan : List (ℝ × ℝ)}
    {wallNames : Option (List Str)} {fn cn rnd1 rnd2 : Str} {S : SolidG} (hb : 0 < b) (hc : 0 < c) (ha : c < a) (hd : b < d)
    (hh : 0 < height) (hk : k ∈ [3, 4])
    (hplan : plan = ellPlan a b c d psi s k ∨ plan = (ellPlan a b c d psi s k).reverse)
    (h : floorPlan plan height t phi wallNames fn cn rnd1 rnd2 = .ok S) : ¬ Closed ((allPolys S).map Poly.pts) := by
  have hk6 : k < 6 := by
    simp only [List.mem_cons, List.not_mem_nil, or_false] at hk
    omega
  obtain ⟨ar1, ar2⟩ := area2_ell a b c d psi s hk6
  have hAp : 0 < a * b + c * (d - b) := by nlinarith [mul_pos hb hc, mul_pos hb (sub_pos.2 ha), mul_pos hc (sub_pos.2 hd)]
  have ends : ∀ {α : Type} (l : List α), l.length = 6 → ∃ (p0 p1 : α) (r1 : List α) (q l' : α) (r2 : List α),
      l = p0 :: p1 :: r1 ∧ l = r2 ++ [q, l'] := by
    intro α l hl
    match l, hl with
    | [x0, x1, x2, x3, x4, x5], _ => exact ⟨x0, x1, _, x4, x5, [x0, x1, x2, x3], rfl, rfl⟩
  obtain ⟨p0, p1, r1, q, l, r2, h1, h2⟩ := ends plan (by rcases hplan with rfl | rfl <;> simp [ellPlan, ellShape])
  rcases hplan with hp | hp
  · refine (C32_reflex (sg := 1) h hh h1 h2 (.inl rfl) (by rw [hp, ar1]; linarith) ?_).2
    have := (turns_ell hb hc ha hd).2.2.1 hk (hp ▸ h1) (hp ▸ h2)
    simpa using this
  · refine (C32_reflex (sg := -1) h hh h1 h2 (.inr rfl) (by rw [hp, ar2]; linarith) ?_).2
    have := (turns_ell hb hc ha hd).2.2.2 hk (hp ▸ h1) (hp ▸ h2)
    rcases this with h | h
    · left; linarith
    · right; linarith

/-- **C32, the other L-shaped plans.**  If the reflex corner is the first or the last one of the plan, `floor_plan` gives
a solid without an exception, but its surface is not closed. -/
theorem C32_ell_reflex {m a b c d psi height phi : ℝ} {s t : Vec3 ℝ} {k : Nat} {plan : List (ℝ × ℝ)}
    {wallNames : Option (List Str)} {fn cn rnd1 rnd2 : Str} {names : List Str} (h : EllSize m a b c d)
    (hk : k ∈ [3, 4]) (hplan : plan = ellPlan a b c d psi s k ∨ plan = (ellPlan a b c d psi s k).reverse)
    (hh : m ≤ height ∧ height ≤ 50 * m)
    (hr : ∀ p ∈ placed plan t phi, Reach m (level (planShift t).z p) ∧ Reach m (level ((planShift t).z + height) p))
    (hnames : planNames 6 wallNames = .ok names)
    (hnv : ∀ n ∈ names ++ [fn, cn], validateName n = .ok n) (hnd : (names ++ [fn, cn]).Nodup) :
    ∃ S, floorPlan plan height t phi wallNames fn cn rnd1 rnd2 = .ok S ∧ ¬ Closed ((allPolys S).map Poly.pts) := by
  have hm : 0 < m := lt_of_lt_of_le (by norm_num) h.scale
  have hb : 0 < b := hm.trans_le h.foot
  have hc : 0 < c := hm.trans_le h.arm
  have ha : c < a := by linarith [h.width]
  have hd : b < d := by linarith [h.height]
  suffices hS : ∃ S, floorPlan plan height t phi wallNames fn cn rnd1 rnd2 = .ok S by
    obtain ⟨S, hS⟩ := hS
    exact ⟨S, hS, ell_not_closed hb hc ha hd (by linarith [hh.1]) hk hplan hS⟩
  obtain ⟨E, hE⟩ : ∃ E, E = (ellShape a b c d).rotate k := ⟨_, rfl⟩
  have hEl : E.length = 6 := by rw [hE, List.length_rotate]; rfl
  have hEm : ∀ p, p ∈ E ↔ p ∈ ellShape a b c d := fun p => by rw [hE]; exact List.mem_rotate
  have hlen : plan.length = 6 := by
    rcases hplan with rfl | rfl <;> simp [ellPlan, ellShape]
  have hEc : Crisp m E := (ell_crisp h).subset fun p hp => (hEm p).1 hp
  have hpc : Crisp m plan := by
    rcases hplan with rfl | rfl
    · unfold ellPlan; rw [← hE]; exact hEc.place _ _
    · refine (hEc.place psi s).subset fun p hp => ?_
      unfold ellPlan at hp
      rw [← hE] at hp
      exact List.mem_reverse.1 hp
  have hEnd : E.Nodup := by
    rw [hE, List.nodup_rotate]
    exact ell_nodup hb hc ha hd
  have hpn : plan.Nodup := by
    have : (ellPlan a b c d psi s k).Nodup := by
      unfold ellPlan
      rw [← hE]
      exact hEnd.map fun x y h => placed_inj h
    rcases hplan with rfl | rfl
    · exact this
    · exact List.nodup_reverse.2 this
  have hp := place_of_reach hpc hpn (by rw [hlen]; norm_num) hh hr
  obtain ⟨phi', hphi⟩ : ∃ phi', phi' = planAngle phi + psi := ⟨_, rfl⟩
  obtain ⟨s', hs'⟩ : ∃ s' : Vec3 ℝ, s' = ⟨Real.cos (planAngle phi) * s.x - Real.sin (planAngle phi) * s.y + (planShift t).x,
    Real.sin (planAngle phi) * s.x + Real.cos (planAngle phi) * s.y + (planShift t).y, 0⟩ := ⟨_, rfl⟩
  have hg : placed plan t phi = E.map (place phi' s') ∨ placed plan t phi = (E.map (place phi' s')).reverse := by
    have key : (ellPlan a b c d psi s k).map (place (planAngle phi) (planShift t)) = E.map (place phi' s') := by
      unfold ellPlan
      rw [← hE, List.map_map, hphi, hs']
      exact List.map_congr_left fun p _ => place_place _ _ _ _ p
    rcases hplan with rfl | rfl
    · exact .inl key
    · exact .inr (by unfold placed; rw [List.map_reverse, key])
  have hmem : ∀ p ∈ ellShape a b c d, place phi' s' p ∈ placed plan t phi := by
    intro p hp
    have : place phi' s' p ∈ E.map (place phi' s') := List.mem_map.2 ⟨p, (hEm p).2 hp, rfl⟩
    rcases hg with hg | hg <;> rw [hg]
    · exact this
    · exact List.mem_reverse.2 this
  have hlev : ∀ z, (E.map (place phi' s')).map (level z) = E.map (inPlane ⟨s'.x, s'.y, z⟩ (axisU phi') (axisW phi')) := by
    intro z
    rw [List.map_map]
    exact List.map_congr_left fun p _ => level_place _ _ _ _
  have hreach : ∀ z, z = (planShift t).z ∨ z = (planShift t).z + height →
      ∀ p ∈ ellShape a b c d, Reach m (inPlane ⟨s'.x, s'.y, z⟩ (axisU phi') (axisW phi') p) := by
    intro z hz p hp
    rw [← level_place]
    rcases hz with rfl | rfl
    · exact (hr _ (hmem p hp)).1
    · exact (hr _ (hmem p hp)).2
  have pol : ∀ z, z = (planShift t).z ∨ z = (planShift t).z + height →
      ∃ P Q v v', (v = 1 ∨ v = -1) ∧ (v' = 1 ∨ v' = -1) ∧
        polygonNew (E.map (inPlane ⟨s'.x, s'.y, z⟩ (axisU phi') (axisW phi'))) none none = .ok P ∧
        polygonNew (E.map (inPlane ⟨s'.x, s'.y, z⟩ (axisU phi') (axisW phi'))).reverse none none = .ok Q ∧
        P.vn = some ⟨0, 0, v⟩ ∧ Q.vn = some ⟨0, 0, v'⟩ ∧
        (P.pts = E.map (inPlane ⟨s'.x, s'.y, z⟩ (axisU phi') (axisW phi')) ∨
          P.pts = (E.map (inPlane ⟨s'.x, s'.y, z⟩ (axisU phi') (axisW phi'))).reverse) ∧
        (Q.pts = E.map (inPlane ⟨s'.x, s'.y, z⟩ (axisU phi') (axisW phi')) ∨
          Q.pts = (E.map (inPlane ⟨s'.x, s'.y, z⟩ (axisU phi') (axisW phi'))).reverse) := by
    intro z hz
    have neg : ((-1 : ℝ) • (⟨0, 0, 1⟩ : Vec3 ℝ)) = ⟨0, 0, -1⟩ := by ext <;> simp
    simp only [List.mem_cons, List.not_mem_nil, or_false] at hk
    rcases hk with rfl | rfl
    · obtain ⟨P, a1, a2, a3⟩ := ell_polygon_reflex h (axes_turned phi') (hreach z hz)
      obtain ⟨Q, b1, b2, b3⟩ := ell_reverse_first h (axes_turned phi') (hreach z hz)
      rw [← hE] at a1 a2 b1 b2
      rw [cross_turned, neg] at a3 b3
      exact ⟨P, Q, -1, -1, .inr rfl, .inr rfl, a1, b1, a3, b3, .inr a2, .inr b2⟩
    · obtain ⟨P, -, a1, a2, a3, -⟩ := ell_polygon (k := 4) h (axes_turned phi') (hreach z hz) (by simp)
      obtain ⟨Q, b1, b2, b3⟩ := ell_reverse_reflex h (axes_turned phi') (hreach z hz)
      rw [← hE] at a1 a2 b1 b2
      rw [cross_turned] at a3 b3
      exact ⟨P, Q, 1, 1, .inl rfl, .inl rfl, a1, b1, a3, b3, .inl a2, .inl b2⟩
  have lev : ∀ z, z = (planShift t).z ∨ z = (planShift t).z + height → ∀ name rnd want, validateName name = .ok name →
      (want = 1 ∨ want = -1) → ∃ F, levelPolygon ((placed plan t phi).map (level z)) name rnd ⟨0, 0, want⟩ = .ok F ∧
        (F.2.pts = (placed plan t phi).map (level z) ∨ F.2.pts = ((placed plan t phi).map (level z)).reverse) := by
    intro z hz name rnd want hv hwant
    obtain ⟨P, Q, v, v', h1, h2, h3, h4, h5, h6, h7, h8⟩ := pol z hz
    rcases hg with hg | hg
    · rw [hg, hlev]
      exact level_any hv hwant h1 h3 h4 h5 h7 h8
    · rw [hg, List.map_reverse, hlev]
      exact level_any hv hwant h2 h4 (by rw [List.reverse_reverse]; exact h3) h6
        (by rw [List.reverse_reverse]; exact h8.symm) (by rw [List.reverse_reverse]; exact h7.symm)
  rw [floorPlan_eq (by rintro rfl; simp at hlen) (by rw [hlen]; exact hnames)]
  obtain ⟨F, hF, hFp⟩ := lev _ (.inl rfl) fn rnd1 (-1) (hnv fn (by simp)) (.inr rfl)
  obtain ⟨C, hC, -⟩ := lev _ (.inr rfl) cn rnd2 1 (hnv cn (by simp)) (.inl rfl)
  exact solid_of_levels hpc hpn (by rw [hlen]; norm_num) hp (by rw [hlen]; exact planNames_length hnames) hnv hnd hF hFp hC

/-- Non-vacuity of `C32_ell` and `C32_ell_reflex`: an L-shaped flat of 10 m by 8 m on the third floor, turned by one
radian, clockwise. -/
example : ∃ S, floorPlan (ellPlan 10 3 4 8 1 ⟨20, 30, 0⟩ 2).reverse 3 ⟨5, 5, 9⟩ 0 none "floor".toList "ceiling".toList
    "a".toList "b".toList = .ok S ∧ Closed ((allPolys S).map Poly.pts) := by
  obtain ⟨S, h1, h2, -⟩ := C32_ell (m := 1) (a := 10) (b := 3) (c := 4) (d := 8) (psi := 1) (s := ⟨20, 30, 0⟩) (k := 2)
    (height := 3) (t := ⟨5, 5, 9⟩) (phi := 0) (wallNames := none) (fn := "floor".toList) (cn := "ceiling".toList)
    (rnd1 := "a".toList) (rnd2 := "b".toList)
    (names := ["wall-0", "wall-1", "wall-2", "wall-3", "wall-4", "wall-5"].map String.toList)
    (by constructor <;> norm_num) (by simp) (.inr rfl) (by norm_num)
    (by
      intro p hp
      have e1 : planShift ⟨5, 5, 9⟩ = ⟨5, 5, 9⟩ := by norm_num [planShift]
      have e2 : planAngle 0 = 0 := by norm_num [planAngle]
      rw [placed, e1, e2] at hp
      obtain ⟨q, hq, rfl⟩ := List.mem_map.1 hp
      obtain ⟨r, hr, rfl⟩ := List.mem_map.1 (List.mem_reverse.1 hq)
      have hr := List.mem_rotate.1 hr
      rw [e1, place_place]
      have c0 := Real.abs_cos_le_one (0 + 1)
      have s0 := Real.abs_sin_le_one (0 + 1)
      rw [abs_le] at c0 s0
      have hr1 : 0 ≤ r.1 ∧ r.1 ≤ 10 ∧ 0 ≤ r.2 ∧ r.2 ≤ 8 := by
        simp only [ellShape, List.mem_cons, List.not_mem_nil, or_false] at hr
        rcases hr with rfl | rfl | rfl | rfl | rfl | rfl <;> norm_num
      obtain ⟨a1, a2, a3, a4⟩ := hr1
      simp only [Reach, level, place, Real.cos_zero, Real.sin_zero, abs_le]
      norm_num
      norm_num at c0 s0
      refine ⟨⟨?_, ?_⟩, ?_, ?_⟩ <;> nlinarith)
    (show planNames 6 none = _ by decide +kernel) (by decide +kernel) (by decide +kernel)
  exact ⟨S, h1, h2⟩

end B3d.Solids
