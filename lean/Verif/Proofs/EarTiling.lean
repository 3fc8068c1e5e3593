import Verif.Spec.Simple
import Verif.Proofs.Region
import Verif.Proofs.Prism

/-! # Cutting an ear off a simple outline -/

set_option linter.unusedSectionVars false

namespace B3d.Tiling

open Spec Triangles

abbrev V := Vec3 ℝ

/-! ### Sides along a line -/

theorem side_seg (n p q a b : V) (t : ℝ) :
    sideOf n (a + t • (b - a)) p q = (1 - t) * sideOf n a p q + t * sideOf n b p q := by
  simp only [sideOf, Vec3.dot, Vec3.cross_x, Vec3.cross_y, Vec3.cross_z, Vec3.sub_x, Vec3.sub_y, Vec3.sub_z,
    Vec3.smul_x, Vec3.smul_y, Vec3.smul_z, Vec3.add_x, Vec3.add_y, Vec3.add_z]
  ring

theorem dot_seg {n a b : V} {e : ℝ} (ha : Vec3.dot n a = e) (hb : Vec3.dot n b = e) (t : ℝ) :
    Vec3.dot n (a + t • (b - a)) = e := by
  rw [Vec3.dot_add_right, Vec3.dot_smul_right, Vec3.dot_sub_right, ha, hb]; ring

theorem side_end (n p q : V) : sideOf n p p q = 0 := by
  simp only [sideOf, sub_self, Vec3.cross_zero_right, Vec3.dot_zero_right]

theorem side_end' (n p q : V) : sideOf n q p q = 0 := by
  simp only [sideOf, Vec3.cross_self, Vec3.dot_zero_right]

theorem onSegment_left (p q : V) : OnSegment p q p := ⟨0, le_refl _, zero_le_one, by simp⟩

theorem onSegment_right (p q : V) : OnSegment p q q := ⟨1, zero_le_one, le_refl _, by simp⟩

theorem onSegment_symm {p q x : V} (h : OnSegment p q x) : OnSegment q p x := by
  obtain ⟨t, h0, h1, rfl⟩ := h
  refine ⟨1 - t, by linarith, by linarith, ?_⟩
  ext <;> simp <;> ring

section ear

variable {n p c q : V} {e : ℝ} (hn : n ≠ 0) (hp : Vec3.dot n p = e) (hc : Vec3.dot n c = e) (hq : Vec3.dot n q = e)
  (hD : 0 < Vec3.dot n (Vec3.cross (c - p) (q - p)))

include hn hp hc hq hD

/-- A point of the triangle on the line through two corners is on the side. -/
theorem onSegment_cq {x : V} (hx : Vec3.dot n x = e) (h0 : sideOf n x c q = 0) (h1 : 0 ≤ sideOf n x q p)
    (h2 : 0 ≤ sideOf n x p c) : OnSegment c q x := by
  obtain ⟨e1, e2⟩ := comb_of_sides hn hp hc hq hx rfl hD.ne'
  rw [h0, zero_div, zero_add] at e1
  rw [h0, zero_div, zero_smul, zero_add] at e2
  refine ⟨_, div_nonneg h2 hD.le, ?_, ?_⟩
  · have := div_nonneg h1 hD.le
    linarith
  · rw [show sideOf n x q p / Vec3.dot n (Vec3.cross (c - p) (q - p)) =
      1 - sideOf n x p c / Vec3.dot n (Vec3.cross (c - p) (q - p)) by linarith] at e2
    generalize sideOf n x p c / Vec3.dot n (Vec3.cross (c - p) (q - p)) = t at e2
    rw [e2]
    ext <;> simp <;> ring

theorem onSegment_pc {x : V} (hx : Vec3.dot n x = e) (h0 : sideOf n x p c = 0) (h1 : 0 ≤ sideOf n x c q)
    (h2 : 0 ≤ sideOf n x q p) : OnSegment p c x := by
  refine onSegment_cq hn hq hp hc ?_ hx h0 h1 h2
  rw [← area_rot n p c q, ← area_rot n c q p] at hD
  exact hD

omit hn hp hc hq hD in
theorem slide {f g s : ℝ} (hs : 0 ≤ s) (hs1 : s ≤ 1) (hf : 0 ≤ f) (hg : 0 ≤ g) : 0 ≤ (1 - s) * f + s * g :=
  add_nonneg (mul_nonneg (by linarith) hf) (mul_nonneg hs hg)

/-- From a point of the triangle off the two sides towards a point outside the triangle, but not beyond the diagonal:
the way out is through one of the two sides. -/
theorem way_out {r a : V} (hr : Vec3.dot n r = e) (ha : Vec3.dot n a = e) (r1 : 0 < sideOf n r c q)
    (r2 : 0 < sideOf n r p c) (r3 : 0 ≤ sideOf n r q p) (a3 : 0 ≤ sideOf n a q p)
    (hout : sideOf n a c q < 0 ∨ sideOf n a p c < 0) :
    ∃ s : ℝ, 0 < s ∧ s < 1 ∧ (OnSegment p c (r + s • (a - r)) ∨ OnSegment c q (r + s • (a - r))) := by
  have key : ∀ {F G : ℝ} {f g : ℝ}, 0 < F → f < 0 → 0 < G → (F / (F - f)) * (G - g) ≤ G →
      0 < F / (F - f) ∧ F / (F - f) < 1 ∧ (1 - F / (F - f)) * F + F / (F - f) * f = 0 ∧
      0 ≤ (1 - F / (F - f)) * G + F / (F - f) * g := by
    intro F G f g hF hf hG h
    have hd : 0 < F - f := by linarith
    refine ⟨div_pos hF hd, (div_lt_one hd).2 (by linarith), by field_simp; ring, by linarith⟩
  have le_of : ∀ {F G f g : ℝ}, 0 < F → f < 0 → 0 < G → 0 ≤ g → (F / (F - f)) * (G - g) ≤ G := by
    intro F G f g hF hf hG hg
    have hd : 0 < F - f := by linarith
    rw [div_mul_eq_mul_div, div_le_iff₀ hd]
    nlinarith
  have first : sideOf n a c q < 0 → sideOf n r c q / (sideOf n r c q - sideOf n a c q) *
      (sideOf n r p c - sideOf n a p c) ≤ sideOf n r p c →
      ∃ s : ℝ, 0 < s ∧ s < 1 ∧ (OnSegment p c (r + s • (a - r)) ∨ OnSegment c q (r + s • (a - r))) := by
    intro h1 h2
    obtain ⟨k1, k2, k3, k4⟩ := key r1 h1 r2 h2
    refine ⟨_, k1, k2, .inr (onSegment_cq hn hp hc hq hD (dot_seg hr ha _) ?_ ?_ ?_)⟩
    · rw [side_seg]; exact k3
    · rw [side_seg]; exact slide k1.le k2.le r3 a3
    · rw [side_seg]; exact k4
  have second : sideOf n a p c < 0 → sideOf n r p c / (sideOf n r p c - sideOf n a p c) *
      (sideOf n r c q - sideOf n a c q) ≤ sideOf n r c q →
      ∃ s : ℝ, 0 < s ∧ s < 1 ∧ (OnSegment p c (r + s • (a - r)) ∨ OnSegment c q (r + s • (a - r))) := by
    intro h1 h2
    obtain ⟨k1, k2, k3, k4⟩ := key r2 h1 r1 h2
    refine ⟨_, k1, k2, .inl (onSegment_pc hn hp hc hq hD (dot_seg hr ha _) ?_ ?_ ?_)⟩
    · rw [side_seg]; exact k3
    · rw [side_seg]; exact k4
    · rw [side_seg]; exact slide k1.le k2.le r3 a3
  rcases lt_or_ge (sideOf n a c q) 0 with h1 | h1 <;> rcases lt_or_ge (sideOf n a p c) 0 with h2 | h2
  · rcases le_total (sideOf n r c q * (sideOf n r p c - sideOf n a p c))
      (sideOf n r p c * (sideOf n r c q - sideOf n a c q)) with h | h
    · refine first h1 ?_
      rw [div_mul_eq_mul_div, div_le_iff₀ (by linarith)]
      exact h
    · refine second h2 ?_
      rw [div_mul_eq_mul_div, div_le_iff₀ (by linarith)]
      exact h
  · exact first h1 (le_of r1 h1 r2 h2)
  · exact second h2 (le_of r2 h2 r1 h1)
  · rcases hout with h | h <;> linarith

/-- An end of a segment which meets the triangle off the two sides, if the segment meets the two sides only in its
ends: it is beyond the diagonal or in the triangle. -/
theorem end_beyond {a b r : V} (ha : Vec3.dot n a = e) (hb : Vec3.dot n b = e) (hr : OnSegment a b r)
    (r1 : 0 < sideOf n r c q) (r2 : 0 < sideOf n r p c) (r3 : 0 ≤ sideOf n r q p)
    (hs : ∀ m, OnSegment a b m → OnSegment p c m ∨ OnSegment c q m → m = a ∨ m = b) :
    sideOf n a q p < 0 ∨ InTriangle p c q a := by
  by_contra hcon
  push Not at hcon
  obtain ⟨a3, hT⟩ := hcon
  rw [inTriangle_iff hn hp hc hq ha hD] at hT
  have hout : sideOf n a c q < 0 ∨ sideOf n a p c < 0 := by
    by_contra h
    push Not at h
    exact hT ⟨h.2, h.1, a3⟩
  obtain ⟨t, t0, t1, rfl⟩ := hr
  have hrp : Vec3.dot n (a + t • (b - a)) = e := dot_seg ha hb t
  obtain ⟨s, s0, s1, hm⟩ := way_out hn hp hc hq hD hrp ha r1 r2 r3 a3 hout
  have em : a + t • (b - a) + s • (a - (a + t • (b - a))) = a + ((1 - s) * t) • (b - a) := by
    ext <;> simp <;> ring
  rw [em] at hm
  have ht1 : (1 - s) * t ≤ 1 := by nlinarith
  have ht0 : 0 ≤ (1 - s) * t := mul_nonneg (by linarith) t0
  have key : ∀ k : ℝ, k ≠ 0 → k • (b - a) = 0 → b = a := by
    intro k hk h
    have := (smul_eq_zero.1 h).resolve_left hk
    exact sub_eq_zero.1 this
  have bad : b ≠ a := by
    rintro rfl
    apply hT
    have : b + t • (b - b) = b := by simp
    rw [this] at r1 r2 r3
    exact ⟨r2.le, r1.le, r3⟩
  rcases hs _ ⟨_, ht0, ht1, rfl⟩ hm with h | h
  · -- the way out is `a`
    rw [h] at hm
    rcases hm with hm | hm
    · obtain ⟨k, k0, k1, rfl⟩ := hm
      rcases hout with h' | h'
      · rw [side_seg, side_end] at h'
        have : sideOf n p c q = Vec3.dot n (Vec3.cross (c - p) (q - p)) := by
          rw [← area_rot]; rfl
        rw [this] at h'
        nlinarith
      · rw [side_seg, side_end, side_end'] at h'
        simp at h'
    · obtain ⟨k, k0, k1, rfl⟩ := hm
      rcases hout with h' | h'
      · rw [side_seg, side_end, side_end'] at h'
        simp at h'
      · rw [side_seg, side_end'] at h'
        have : sideOf n q p c = Vec3.dot n (Vec3.cross (c - p) (q - p)) := rfl
        rw [this] at h'
        nlinarith
  · have h' : ((1 - s) * t - 1) • (b - a) = 0 := by
      rw [sub_smul, one_smul, sub_eq_zero]
      have := congrArg (· - a) h
      simpa using this
    by_cases hk : (1 - s) * t - 1 = 0
    · nlinarith
    · exact bad (key _ hk h')

/-- A segment whose ends are beyond the diagonal or among its ends, and not both among them, does not meet the triangle
off the two sides. -/
theorem not_meets {a b r : V} (hr : OnSegment a b r) (ha : sideOf n a q p < 0 ∨ a = p ∨ a = q)
    (hb : sideOf n b q p < 0 ∨ b = p ∨ b = q) (hab : ¬ ((a = p ∨ a = q) ∧ (b = p ∨ b = q)))
    (r1 : 0 < sideOf n r c q) (r2 : 0 < sideOf n r p c) (r3 : 0 ≤ sideOf n r q p) : False := by
  have hz : ∀ x, x = p ∨ x = q → sideOf n x q p = 0 ∧ (sideOf n x c q = 0 ∨ sideOf n x p c = 0) := by
    rintro x (rfl | rfl)
    · exact ⟨side_end' .., .inr (side_end ..)⟩
    · exact ⟨side_end .., .inl (side_end' ..)⟩
  obtain ⟨t, t0, t1, rfl⟩ := hr
  have one : ∀ x, x = p ∨ x = q → 0 < sideOf n x c q → 0 < sideOf n x p c → False := by
    intro x hx h1 h2
    rcases (hz x hx).2 with h | h <;> linarith
  rw [side_seg] at r3
  rcases eq_or_lt_of_le t0 with rfl | t0'
  · simp only [zero_smul, add_zero] at r1 r2
    rcases ha with ha | ha
    · linarith
    · exact one _ ha r1 r2
  rcases eq_or_lt_of_le t1 with rfl | t1'
  · have : a + (1 : ℝ) • (b - a) = b := by simp
    rw [this] at r1 r2
    rcases hb with hb | hb
    · linarith
    · exact one _ hb r1 r2
  rcases ha with ha | ha <;> rcases hb with hb | hb
  · nlinarith [mul_pos t0' (neg_pos.2 hb), mul_pos (sub_pos.2 t1') (neg_pos.2 ha)]
  · rw [(hz b hb).1] at r3
    nlinarith [mul_pos (sub_pos.2 t1') (neg_pos.2 ha)]
  · rw [(hz a ha).1] at r3
    nlinarith [mul_pos t0' (neg_pos.2 hb)]
  · exact hab ⟨ha, hb⟩

end ear

/-! ### Simple outlines -/

/-- Two edges have nothing in common but the corner from the one to the other. -/
def Apart2 (f g : V × V) : Prop :=
  ∀ x, OnSegment f.1 f.2 x → OnSegment g.1 g.2 x → (x = f.2 ∧ x = g.1) ∨ (x = f.1 ∧ x = g.2)

/-- A simple outline, in terms of its edges. -/
structure Simp (L : List V) : Prop where
  nodup : L.Nodup
  apart : ∀ f ∈ cycEdges L, ∀ g ∈ cycEdges L, f ≠ g → Apart2 f g

theorem Simp.rotated {L L' : List V} (h : Simp L) (hr : L.IsRotated L') : Simp L' := by
  obtain ⟨A, B, rfl, rfl⟩ : ∃ A B, L = A ++ B ∧ L' = B ++ A := by
    obtain ⟨k, hk, rfl⟩ := List.isRotated_iff_mod.1 hr
    refine ⟨L.take k, L.drop k, (List.take_append_drop k L).symm, ?_⟩
    exact List.rotate_eq_drop_append_take hk
  refine ⟨(List.perm_append_comm.nodup_iff).1 h.nodup, ?_⟩
  intro f hf g hg
  exact h.apart f ((cycEdges_append_perm A B).mem_iff.2 hf) g ((cycEdges_append_perm A B).mem_iff.2 hg)

theorem cycEdges_rotated {β : Type} {L L' : List β} (hr : L.IsRotated L') : (cycEdges L).Perm (cycEdges L') := by
  obtain ⟨k, hk, rfl⟩ := List.isRotated_iff_mod.1 hr
  rw [List.rotate_eq_drop_append_take hk]
  conv_lhs => rw [← List.take_append_drop k L]
  exact cycEdges_append_perm _ _

/-- The part of the outline which is not next to the ear. -/
def rest (p q : V) (X : List V) : List (V × V) := pathEdges (q :: X ++ [p])

theorem cycEdges_ear (p c q : V) (X : List V) : cycEdges (p :: c :: q :: X) = (p, c) :: (c, q) :: rest p q X := by
  rw [cycEdges_cons]; rfl

theorem cycEdges_cut (p q : V) (X : List V) : cycEdges (p :: q :: X) = (p, q) :: rest p q X := by
  rw [cycEdges_cons]; rfl

section cut

variable {n p c q : V} {e : ℝ} {X : List V} (hn : n ≠ 0) (hpl : ∀ x ∈ p :: c :: q :: X, Vec3.dot n x = e)
  (hD : 0 < Vec3.dot n (Vec3.cross (c - p) (q - p))) (hS : Simp (p :: c :: q :: X)) (hX : X ≠ [])
  (hE : ∀ x ∈ X, ¬ InTriangle p c q x)

theorem mem_rest {f : V × V} (hf : f ∈ rest p q X) :
    (f.1 = p ∨ f.1 = q ∨ f.1 ∈ X) ∧ (f.2 = p ∨ f.2 = q ∨ f.2 ∈ X) := by
  obtain ⟨a, b⟩ := f
  have := mem_pathEdges hf
  simp only [List.cons_append, List.mem_cons, List.mem_append, List.not_mem_nil, or_false] at this
  exact ⟨by tauto, by tauto⟩

include hS in
theorem corners : p ≠ c ∧ p ≠ q ∧ p ∉ X ∧ c ≠ q ∧ c ∉ X ∧ q ∉ X := by
  have := hS.nodup
  simp only [List.nodup_cons, List.mem_cons, not_or] at this
  tauto

include hS hX in
theorem rest_ends {f : V × V} (hf : f ∈ rest p q X) : ¬ ((f.1 = p ∨ f.1 = q) ∧ (f.2 = p ∨ f.2 = q)) := by
  obtain ⟨h1, h2, h3, h4, h5, h6⟩ := corners hS
  have hnd : (q :: X ++ [p]).Nodup := by
    have := hS.nodup
    have hp : List.Perm (q :: X ++ [p]) (p :: q :: X) := List.perm_append_comm
    rw [hp.nodup_iff]
    exact this.sublist (List.Sublist.cons_cons _ (List.sublist_cons_self _ _))
  obtain ⟨a, b⟩ := f
  have e1 := pathEdges_ends rfl hnd hf
  rintro ⟨ha | ha, hb | hb⟩
  · exact e1.1 ha
  · exact e1.1 ha
  · simp only at ha hb
    subst ha hb
    match X, hX with
    | y :: Y, _ =>
      simp only [rest, List.cons_append, pathEdges, List.mem_cons, Prod.mk.injEq] at hf
      rcases hf with ⟨-, rfl⟩ | hf
      · simp at h3
      · have := (mem_pathEdges hf).1
        simp only [List.mem_cons, List.mem_append, List.not_mem_nil, or_false] at this h6
        rcases this with rfl | h | rfl
        · simp at h6
        · exact h6 (.inr h)
        · exact h2 rfl
  · exact e1.2 hb

include hS in
theorem rest_sides {f : V × V} (hf : f ∈ rest p q X) {m : V} (hm : OnSegment f.1 f.2 m) :
    (OnSegment p c m → m = f.2 ∧ m = p) ∧ (OnSegment c q m → m = f.1 ∧ m = q) := by
  obtain ⟨h1, h2, h3, h4, h5, h6⟩ := corners hS
  obtain ⟨m1, m2⟩ := mem_rest hf
  have hfm : f ∈ cycEdges (p :: c :: q :: X) := by rw [cycEdges_ear]; simp [hf]
  have nc1 : f.1 ≠ c := by
    rintro h; rw [h] at m1; rcases m1 with h | h | h
    · exact h1 h.symm
    · exact h4 h
    · exact h5 h
  have nc2 : f.2 ≠ c := by
    rintro h; rw [h] at m2; rcases m2 with h | h | h
    · exact h1 h.symm
    · exact h4 h
    · exact h5 h
  constructor
  · intro h
    rcases hS.apart f hfm (p, c) (by rw [cycEdges_ear]; simp) (by rintro rfl; exact nc2 rfl) m hm h with h | h
    · exact h
    · exact absurd (h.1.symm.trans h.2) nc1
  · intro h
    rcases hS.apart f hfm (c, q) (by rw [cycEdges_ear]; simp) (by rintro rfl; exact nc1 rfl) m hm h with h | h
    · exact absurd (h.1.symm.trans h.2) nc2
    · exact h

include hn hpl hD hS hX hE

/-- The rest of the outline does not meet the ear, but in the ends of the diagonal. -/
theorem rest_misses {f : V × V} (hf : f ∈ rest p q X) {r : V} (hr : OnSegment f.1 f.2 r) (r1 : 0 < sideOf n r c q)
    (r2 : 0 < sideOf n r p c) (r3 : 0 ≤ sideOf n r q p) : False := by
  have hp := hpl p (by simp)
  have hc := hpl c (by simp)
  have hq := hpl q (by simp)
  obtain ⟨m1, m2⟩ := mem_rest hf
  have pl : ∀ x, x = p ∨ x = q ∨ x ∈ X → Vec3.dot n x = e := by
    rintro x (rfl | rfl | h)
    · exact hp
    · exact hq
    · exact hpl x (by simp [h])
  have hs : ∀ m, OnSegment f.1 f.2 m → OnSegment p c m ∨ OnSegment c q m → m = f.1 ∨ m = f.2 := by
    rintro m hm (h | h)
    · exact .inr ((rest_sides hS hf hm).1 h).1
    · exact .inl ((rest_sides hS hf hm).2 h).1
  have fin : ∀ x, x = p ∨ x = q ∨ x ∈ X → sideOf n x q p < 0 ∨ InTriangle p c q x →
      sideOf n x q p < 0 ∨ x = p ∨ x = q := by
    intro x hx h
    rcases h with h | h
    · exact .inl h
    · rcases hx with h' | h' | h'
      · exact .inr (.inl h')
      · exact .inr (.inr h')
      · exact absurd h (hE x h')
  refine not_meets hn hp hc hq hD hr (fin _ m1 ?_) (fin _ m2 ?_) (rest_ends hS hX hf) r1 r2 r3
  · exact end_beyond hn hp hc hq hD (pl _ m1) (pl _ m2) hr r1 r2 r3 hs
  · exact end_beyond hn hp hc hq hD (pl _ m2) (pl _ m1) (onSegment_symm hr) r1 r2 r3
      fun m hm h => (hs m (onSegment_symm hm) h).symm

/-- What is left after the cut is a simple outline. -/
theorem cut_simple : Simp (p :: q :: X) := by
  obtain ⟨h1, h2, h3, h4, h5, h6⟩ := corners hS
  have hp := hpl p (by simp)
  have hc := hpl c (by simp)
  have hq := hpl q (by simp)
  refine ⟨hS.nodup.sublist (List.Sublist.cons_cons _ (List.sublist_cons_self _ _)), ?_⟩
  have diag : ∀ g ∈ rest p q X, ∀ x, OnSegment p q x → OnSegment g.1 g.2 x → (x = q ∧ x = g.1) ∨ (x = p ∧ x = g.2) := by
    rintro g hg x ⟨t, t0, t1, rfl⟩ hx
    rcases eq_or_lt_of_le t0 with rfl | t0'
    · rw [zero_smul, add_zero] at hx ⊢
      exact .inr ⟨rfl, ((rest_sides hS hg hx).1 (onSegment_left p c)).1⟩
    rcases eq_or_lt_of_le t1 with rfl | t1'
    · have e1 : p + (1 : ℝ) • (q - p) = q := by simp
      rw [e1] at hx ⊢
      exact .inl ⟨rfl, ((rest_sides hS hg hx).2 (onSegment_right c q)).1⟩
    exfalso
    have e1 : sideOf n p c q = Vec3.dot n (Vec3.cross (c - p) (q - p)) := by rw [← area_rot]; rfl
    have e2 : sideOf n q p c = Vec3.dot n (Vec3.cross (c - p) (q - p)) := rfl
    refine rest_misses hn hpl hD hS hX hE hg hx ?_ ?_ ?_
    · rw [side_seg, side_end', e1, mul_zero, add_zero]; exact mul_pos (by linarith) hD
    · rw [side_seg, side_end, e2, mul_zero, zero_add]; exact mul_pos t0' hD
    · rw [side_seg, side_end, side_end']; simp
  intro f hf g hg hne x hx hy
  rw [cycEdges_cut, List.mem_cons] at hf hg
  rcases hf with rfl | hf <;> rcases hg with rfl | hg
  · exact absurd rfl hne
  · exact diag g hg x hx hy
  · rcases diag f hf x hy hx with ⟨a, b⟩ | ⟨a, b⟩
    · exact .inr ⟨b, a⟩
    · exact .inl ⟨b, a⟩
  · exact hS.apart f (by rw [cycEdges_ear]; simp [hf]) g (by rw [cycEdges_ear]; simp [hg]) hne x hx hy

end cut

end B3d.Tiling
