import Verif.Props.RoundedPlan
import Verif.Props.RoundedArea
import Verif.Props.RoundedSlanted
import Verif.Proofs.Prism
import Verif.Proofs.PointExact

/-!
# Property C137: floor and ceiling of convex floor plans with rounding errors

With 64-bit numbers `floor_plan` makes the polygons of floor and ceiling of every convex plan that is not too thin, wherever it is
put and however it is turned; the floor looks down, the ceiling up, their areas are nearly that of the plan, and the test of the
direction of side walls gives the right answer for each of them.
-/

namespace B3d.RotationRounded

open Rounded Rotation Spec

variable {A : Arith} {S : Sine}

/-! ## Specification -/

/-- A convex plan with its corners in counter-clockwise order, not too thin: any two corners are at least `√2 m` and at most `70 m`
apart, any three corners make a triangle of at least `m²`. -/
structure WideConvex (m : ℝ) (plan : List (ℝ × ℝ)) : Prop where
  scale : 1 / 10 ^ 3 ≤ m
  corners : 3 ≤ plan.length
  far : plan.Pairwise fun p q => 2 * m ^ 2 ≤ distSq p q
  near : ∀ p ∈ plan, ∀ q ∈ plan, distSq p q ≤ 4900 * m ^ 2
  turns : ∀ a b c, List.Sublist [a, b, c] plan → 2 * m ^ 2 ≤ signedArea a b c

/-! ## Helper facts -/

theorem distSq_comm' (p q : ℝ × ℝ) : distSq p q = distSq q p := by unfold distSq; ring

theorem WideConvex.mirror {m : ℝ} {l : List (ℝ × ℝ)} (h : WideConvex m l) : WideConvex m (l.reverse.map Prod.swap) := by
  refine ⟨h.scale, by simpa using h.corners, ?_, ?_, ?_⟩
  · rw [List.pairwise_map, List.pairwise_reverse]
    refine h.far.imp fun {p q} hpq => hpq.trans (le_of_eq ?_)
    unfold distSq; simp; ring
  · intro p hp q hq
    obtain ⟨p, hp', rfl⟩ := List.mem_map.1 hp
    obtain ⟨q, hq', rfl⟩ := List.mem_map.1 hq
    have := h.near p (List.mem_reverse.1 hp') q (List.mem_reverse.1 hq')
    unfold distSq at this ⊢
    simp only [Prod.fst_swap, Prod.snd_swap]
    linarith
  · intro a b c hs
    obtain ⟨l', hl, e⟩ := List.sublist_map_iff.1 hs
    match l', e with
    | [x, y, z], e =>
      simp only [List.map_cons, List.map_nil, List.cons.injEq, and_true] at e
      obtain ⟨rfl, rfl, rfl⟩ := e
      have hr : List.Sublist [z, y, x] l := by simpa using hl.reverse
      have := h.turns z y x hr
      unfold signedArea at this ⊢
      simp only [Prod.fst_swap, Prod.snd_swap]
      linarith

theorem distSq_place (phi : ℝ) (t : Vec3 ℝ) (p q : ℝ × ℝ) : distSq (place phi t p) (place phi t q) = distSq p q := by
  have h := Real.sin_sq_add_cos_sq phi
  unfold distSq place
  linear_combination ((p.1 - q.1) ^ 2 + (p.2 - q.2) ^ 2) * h

theorem signedArea_place (phi : ℝ) (t : Vec3 ℝ) (a b c : ℝ × ℝ) :
    signedArea (place phi t a) (place phi t b) (place phi t c) = signedArea a b c := by
  have h := Real.sin_sq_add_cos_sq phi
  unfold signedArea place
  linear_combination ((b.1 - a.1) * (c.2 - a.2) - (b.2 - a.2) * (c.1 - a.1)) * h

theorem WideConvex.place {m : ℝ} {l : List (ℝ × ℝ)} (h : WideConvex m l) (phi : ℝ) (t : Vec3 ℝ) :
    WideConvex m (l.map (place phi t)) := by
  refine ⟨h.scale, by simpa using h.corners, ?_, ?_, ?_⟩
  · rw [List.pairwise_map]
    exact h.far.imp fun {p q} hpq => by rwa [distSq_place]
  · intro p hp q hq
    obtain ⟨p, hp', rfl⟩ := List.mem_map.1 hp
    obtain ⟨q, hq', rfl⟩ := List.mem_map.1 hq
    rw [distSq_place]
    exact h.near p hp' q hq'
  · intro a b c hs
    obtain ⟨l', hl, e⟩ := List.sublist_map_iff.1 hs
    match l', e with
    | [x, y, z], e =>
      simp only [List.map_cons, List.map_nil, List.cons.injEq, and_true] at e
      obtain ⟨rfl, rfl, rfl⟩ := e
      rw [signedArea_place]
      exact h.turns x y z hl

theorem leg_le {m : ℝ} {p q : ℝ × ℝ} (hm : 0 ≤ m) (h : distSq p q ≤ 4900 * m ^ 2) : |p.1 - q.1| ≤ 70 * m ∧ |p.2 - q.2| ≤ 70 * m := by
  unfold distSq at h
  constructor
  · apply abs_le_of_sq_le_sq _ (by linarith)
    nlinarith [sq_nonneg (p.2 - q.2)]
  · apply abs_le_of_sq_le_sq _ (by linarith)
    nlinarith [sq_nonneg (p.1 - q.1)]

/-- Two coordinates of points differ by nearly as much as those of the points beside them. -/
theorem leg_near {a b a' b' m : ℝ} (ha : |a' - a| ≤ m / 10 ^ 9) (hb : |b' - b| ≤ m / 10 ^ 9) :
    |(b' - a') - (b - a)| ≤ 2 * (m / 10 ^ 9) := by
  rw [abs_le] at ha hb ⊢
  constructor <;> linarith

theorem product_near {x y x' y' m : ℝ} (hx : |x' - x| ≤ 2 * (m / 10 ^ 9)) (hy : |y' - y| ≤ 2 * (m / 10 ^ 9))
    (bx : |x| ≤ 70 * m) (by' : |y| ≤ 70 * m) : |x' * y' - x * y| ≤ m ^ 2 / 10 ^ 6 := by
  refine (near_mul hx hy bx by').trans ?_
  have : 0 ≤ m ^ 2 := sq_nonneg m
  nlinarith

/-- A pair of a point and a point beside it. -/
def Beside (m : ℝ) (z : (ℝ × ℝ) × (ℝ × ℝ)) : Prop := |z.2.1 - z.1.1| ≤ m / 10 ^ 9 ∧ |z.2.2 - z.1.2| ≤ m / 10 ^ 9

theorem dist_near {m : ℝ} (hm : 0 ≤ m) {y z : (ℝ × ℝ) × (ℝ × ℝ)} (hy : Beside m y) (hz : Beside m z)
    (h : distSq y.1 z.1 ≤ 4900 * m ^ 2) : |distSq y.2 z.2 - distSq y.1 z.1| ≤ m ^ 2 / 10 ^ 5 := by
  obtain ⟨l1, l2⟩ := leg_le hm h
  have n1 := leg_near hz.1 hy.1
  have n2 := leg_near hz.2 hy.2
  have p1 := abs_le.1 (product_near n1 n1 l1 l1)
  have p2 := abs_le.1 (product_near n2 n2 l2 l2)
  unfold distSq
  have : 0 ≤ m ^ 2 := sq_nonneg m
  rw [abs_le]
  constructor <;> nlinarith

theorem area_near {m : ℝ} (hm : 0 ≤ m) {a b c : (ℝ × ℝ) × (ℝ × ℝ)} (ha : Beside m a) (hb : Beside m b) (hc : Beside m c)
    (hab : distSq b.1 a.1 ≤ 4900 * m ^ 2) (hac : distSq c.1 a.1 ≤ 4900 * m ^ 2) :
    |signedArea a.2 b.2 c.2 - signedArea a.1 b.1 c.1| ≤ m ^ 2 / 10 ^ 5 := by
  obtain ⟨b1, b2⟩ := leg_le hm hab
  obtain ⟨c1, c2⟩ := leg_le hm hac
  have p1 := abs_le.1 (product_near (leg_near ha.1 hb.1) (leg_near ha.2 hc.2) b1 c2)
  have p2 := abs_le.1 (product_near (leg_near ha.2 hb.2) (leg_near ha.1 hc.1) b2 c1)
  unfold signedArea
  have : 0 ≤ m ^ 2 := sq_nonneg m
  rw [abs_le]
  constructor <;> linarith

/-- Points beside the corners of a wide convex plan are a convex outline without doubtful cases. -/
theorem crisp_beside {m : ℝ} {Z : List ((ℝ × ℝ) × (ℝ × ℝ))} (hZ : ∀ z ∈ Z, Beside m z) (h : WideConvex m (Z.map Prod.fst)) :
    Crisp m (Z.map Prod.snd) ∧ (Z.map Prod.snd).Nodup ∧ ∀ a b c, List.Sublist [a, b, c] (Z.map Prod.snd) → 0 < signedArea a b c := by
  have hs := h.scale
  have hm : 0 ≤ m := by linarith
  have hpos : 0 < m ^ 2 := by have : 0 < m := by linarith
                              positivity
  have near : ∀ y ∈ Z, ∀ z ∈ Z, distSq y.1 z.1 ≤ 4900 * m ^ 2 := fun y hy z hz =>
    h.near _ (List.mem_map_of_mem hy) _ (List.mem_map_of_mem hz)
  have far : Z.Pairwise fun y z => m ^ 2 ≤ distSq y.2 z.2 := by
    have hf := List.pairwise_map.1 h.far
    refine hf.imp_of_mem fun {y z} hy hz hyz => ?_
    have := abs_le.1 (dist_near hm (hZ y hy) (hZ z hz) (near y hy z hz))
    linarith
  have turn : ∀ a b c, List.Sublist [a, b, c] (Z.map Prod.snd) → m ^ 2 ≤ signedArea a b c := by
    intro a b c hsub
    obtain ⟨l', hl, e⟩ := List.sublist_map_iff.1 hsub
    match l', e with
    | [x, y, z], e =>
      simp only [List.map_cons, List.map_nil, List.cons.injEq, and_true] at e
      obtain ⟨rfl, rfl, rfl⟩ := e
      have t := h.turns x.1 y.1 z.1 (hl.map Prod.fst)
      have hx := hl.subset (show x ∈ [x, y, z] by simp)
      have hy := hl.subset (show y ∈ [x, y, z] by simp)
      have hz := hl.subset (show z ∈ [x, y, z] by simp)
      have := abs_le.1 (area_near hm (hZ x hx) (hZ y hy) (hZ z hz) (near y hy x hx) (near z hz x hx))
      linarith
  have farL : (Z.map Prod.snd).Pairwise fun p q => m ^ 2 ≤ distSq p q := List.pairwise_map.2 far
  refine ⟨⟨hs, ?_, ?_, ?_⟩, ?_, fun a b c hsub => hpos.trans_le (turn a b c hsub)⟩
  · intro p hp q hq hne
    have f1 : (Z.map Prod.snd).Pairwise fun p q => p ≠ q → m ^ 2 ≤ distSq p q := farL.imp fun {a b} h => fun _ : a ≠ b => h
    have f2 : (Z.map Prod.snd).Pairwise (flip fun p q => p ≠ q → m ^ 2 ≤ distSq p q) := farL.imp fun {a b} h => fun _ : b ≠ a => by
      rw [distSq_comm']
      exact h
    exact List.Pairwise.forall_of_forall_of_flip (fun x _ hc => absurd rfl hc) f1 f2 hp hq hne
  · intro p hp q hq
    obtain ⟨y, hy, rfl⟩ := List.mem_map.1 hp
    obtain ⟨z, hz, rfl⟩ := List.mem_map.1 hq
    have := abs_le.1 (dist_near hm (hZ y hy) (hZ z hz) (near y hy z hz))
    have := near y hy z hz
    linarith
  · intro a ha b hb c hc
    by_cases hab : a = b
    · left; subst hab; unfold signedArea; ring
    by_cases hbc : b = c
    · left; subst hbc; unfold signedArea; ring
    by_cases hac : a = c
    · left; subst hac; unfold signedArea; ring
    right
    obtain ⟨l, hp, hs⟩ := List.subperm_of_subset (l₁ := [a, b, c]) (l₂ := Z.map Prod.snd) (by simp [hab, hbc, hac])
      (by intro x hx; simp only [List.mem_cons, List.not_mem_nil, or_false] at hx; rcases hx with rfl | rfl | rfl <;> assumption)
    have hl := hp.length_eq
    match l, hl with
    | [x, y, z], _ =>
      have mem : ∀ t ∈ [x, y, z], t = a ∨ t = b ∨ t = c := by
        intro t ht
        simpa using hp.subset ht
      have t := turn x y z hs
      rw [le_abs]
      unfold signedArea at t ⊢
      rcases mem x (by simp) with rfl | rfl | rfl <;> rcases mem y (by simp) with rfl | rfl | rfl <;>
        rcases mem z (by simp) with rfl | rfl | rfl <;>
        first
        | (left; linarith)
        | (right; linarith)
  · exact farL.imp fun {a b} h e => by
      subst e
      unfold distSq at h
      simp at h
      linarith

theorem level_axes (z : ℝ) (p : ℝ × ℝ) : inPlane ⟨0, 0, z⟩ ⟨1, 0, 0⟩ ⟨0, 1, 0⟩ p = level z p := by
  ext <;> simp [inPlane, level]

theorem level_swapped (z : ℝ) (p : ℝ × ℝ) : inPlane ⟨0, 0, z⟩ ⟨0, 1, 0⟩ ⟨1, 0, 0⟩ p.swap = level z p := by
  ext <;> simp [inPlane, level]

/-- The triangles of a convex outline with `n` corners. -/
def fan (n : ℕ) : List Triangles.Tri := (List.range (n - 2)).map fun i => (n - 1, i, i + 1)

/-- The polygons in both directions. -/
theorem polygons {m z : ℝ} {Z : List ((ℝ × ℝ) × (ℝ × ℝ))} (hZ : ∀ z ∈ Z, Beside m z) (h : WideConvex m (Z.map Prod.fst))
    (hm : m ≤ 10 ^ 6) (hr : ∀ p ∈ Z, Reach m (level z p.2)) :
    (∃ v, WithinBy (1 / 10 ^ 13) v ⟨0, 0, 1⟩ ∧ Rounded.polygonNew A ((Z.map Prod.snd).map (level z)) =
        .ok ((Z.map Prod.snd).map (level z), v, fan Z.length)) ∧
      ∃ v, WithinBy (1 / 10 ^ 13) v ⟨0, 0, -1⟩ ∧ Rounded.polygonNew A ((Z.map Prod.snd).map (level z)).reverse =
        .ok (((Z.map Prod.snd).map (level z)).reverse, v, fan Z.length) := by
  have hn : 3 ≤ Z.length := by simpa using h.corners
  constructor
  · obtain ⟨hc, hd, ht⟩ := crisp_beside hZ h
    obtain ⟨v, h1, h2⟩ := C109_convex A (o := ⟨0, 0, z⟩) (u := ⟨1, 0, 0⟩) (w := ⟨0, 1, 0⟩) ⟨by simp [Vec3.dot], by simp [Vec3.dot], by
      simp [Vec3.dot]⟩ (.inr (.inr ⟨rfl, rfl⟩)) hc hm (by simpa using hn) hd ht (fun p hp => by
        obtain ⟨q, hq, rfl⟩ := List.mem_map.1 hp
        rw [level_axes]
        exact hr q hq)
    have e : inPlane ⟨0, 0, z⟩ ⟨1, 0, 0⟩ ⟨0, 1, 0⟩ = level z := funext (level_axes z)
    rw [e, List.length_map] at h2
    refine ⟨v, ?_, h2⟩
    have ec : Vec3.cross (⟨1, 0, 0⟩ : Vec3 ℝ) ⟨0, 1, 0⟩ = ⟨0, 0, 1⟩ := by ext <;> simp
    rwa [ec] at h1
  · have hZ' : ∀ z ∈ Z.reverse.map (fun z => (z.1.swap, z.2.swap)), Beside m z := by
      intro y hy
      obtain ⟨q, hq, rfl⟩ := List.mem_map.1 hy
      have := hZ q (List.mem_reverse.1 hq)
      exact ⟨this.2, this.1⟩
    have h' : WideConvex m ((Z.reverse.map (fun z => (z.1.swap, z.2.swap))).map Prod.fst) := by
      have := h.mirror
      rw [← List.map_reverse, List.map_map] at this
      rw [List.map_map]
      exact this
    obtain ⟨hc, hd, ht⟩ := crisp_beside hZ' h'
    obtain ⟨v, h1, h2⟩ := C109_convex A (o := ⟨0, 0, z⟩) (u := ⟨0, 1, 0⟩) (w := ⟨1, 0, 0⟩) ⟨by simp [Vec3.dot], by simp [Vec3.dot], by
      simp [Vec3.dot]⟩ (.inr (.inr ⟨rfl, rfl⟩)) hc hm (by simpa using hn) hd ht (fun p hp => by
        simp only [List.mem_map, List.mem_reverse] at hp
        obtain ⟨-, ⟨q, hq, rfl⟩, rfl⟩ := hp
        rw [level_swapped]
        exact hr q hq)
    have e : ((Z.reverse.map (fun z => (z.1.swap, z.2.swap))).map Prod.snd).map (inPlane ⟨0, 0, z⟩ ⟨0, 1, 0⟩ ⟨1, 0, 0⟩) =
        ((Z.map Prod.snd).map (level z)).reverse := by
      rw [List.map_map, List.map_map, List.map_map, List.map_reverse]
      congr 1
      apply List.map_congr_left
      intro q _
      exact level_swapped z q.2
    rw [e] at h2
    simp only [List.length_map, List.length_reverse] at h2
    refine ⟨v, ?_, h2⟩
    have ec : Vec3.cross (⟨0, 1, 0⟩ : Vec3 ℝ) ⟨1, 0, 0⟩ = ⟨0, 0, -1⟩ := by ext <;> simp
    rwa [ec] at h1

theorem close_level {v : Vec3 ℝ} {s : ℝ} (hs : |s| = 1) (h : WithinBy (1 / 10 ^ 13) v ⟨0, 0, s⟩) :
    Rounded.allClose A v ⟨0, 0, s⟩ NP_RTOL NP_ATOL ∧ ¬ Rounded.allClose A v ⟨0, 0, -s⟩ NP_RTOL NP_ATOL := by
  obtain ⟨h1, h2, h3⟩ := h
  constructor
  · refine ⟨?_, ?_, ?_⟩ <;> refine isClose_of A (by norm_num [NP_RTOL]) (by norm_num [NP_ATOL]) ?_ <;> unfold NP_RTOL NP_ATOL
    · refine h1.trans ?_; norm_num
    · refine h2.trans ?_; norm_num
    · refine h3.trans ?_; rw [hs]; norm_num
  · intro hc
    have := le_of_isClose A (by norm_num [NP_RTOL]) (by norm_num [NP_ATOL]) hc.2.2
    simp only [abs_neg, hs] at this
    unfold NP_RTOL NP_ATOL at this
    simp only at h3
    rw [abs_le] at this h3
    rcases (abs_eq one_pos.le).1 hs with rfl | rfl <;> linarith

theorem _root_.B3d.Spec.Bounded.reach {m : ℝ} {v : Vec3 ℝ} (h : Bounded (3001 * m) v) (hs : 1 / 10 ^ 3 ≤ m) : Reach m v :=
  ⟨h.1.trans (by linarith), h.2.1.trans (by linarith), h.2.2.trans (by linarith)⟩

/-- The corners of floor and ceiling, each beside the place where it should be. -/
theorem corners {m height phi : ℝ} {plan : List (ℝ × ℝ)} {t : Vec3 ℝ} (hs : 1 / 10 ^ 3 ≤ m) (hn : 3 ≤ plan.length)
    (hM : ∀ p ∈ plan, |p.1| ≤ 1000 * m ∧ |p.2| ≤ 1000 * m) (hh : |height| ≤ 1000 * m)
    (ht : |t.x| ≤ 1000 * m ∧ |t.y| ≤ 1000 * m ∧ |t.z| ≤ 1000 * m) (hphi : phi = 0 ∨ 2 / 10 ^ 8 ≤ |phi|) (hphi' : |phi| ≤ 10)
    (ht' : t = 0 ∨ 2 / 10 ^ 8 ≤ |t.x| ∨ 2 / 10 ^ 8 ≤ |t.y| ∨ 2 / 10 ^ 8 ≤ |t.z|) (hfh : fl height = height) (hft : fl t.z = t.z) :
    ∃ (Z : List ((ℝ × ℝ) × (ℝ × ℝ))) (z0 z1 : ℝ), Z.map Prod.fst = plan.map (place phi t) ∧ (∀ z ∈ Z, Beside m z) ∧
      (∀ p ∈ Z, Bounded (3001 * m) (level z0 p.2) ∧ Bounded (3001 * m) (level z1 p.2)) ∧
      planPoints binary S plan height t phi =
        .ok ((Z.map Prod.snd).map (level z0), (Z.map Prod.snd).map (level z1), z0) := by
  have hplan : plan ≠ [] := by rintro rfl; simp at hn
  obtain ⟨F, C, z0, e, l1, l2, hz, hk⟩ := C136_positions (A := binary) (S := S) plan height t phi hplan hM hh ht hphi hphi' ht'
  obtain ⟨F', C', z', e', -, -, -, hu⟩ := C136_upright (S := S) plan height t phi hplan hfh hft
  obtain ⟨rfl, e''⟩ := Prod.mk.inj (Except.ok.inj (e.symm.trans e'))
  obtain ⟨rfl, rfl⟩ := Prod.mk.inj e''
  have hF : F = (F.map fun f => (f.x, f.y)).map (level z0) := by
    rw [List.map_map]
    refine List.ext_getElem (by simp) fun i h1 h2 => ?_
    have k := hu i F[i] (C[i]'(by omega)) (List.getElem?_eq_getElem h1) (List.getElem?_eq_getElem (by omega))
    rw [List.getElem_map]
    ext <;> simp [level, k.1]
  have hC : C = (F.map fun f => (f.x, f.y)).map (level (fl (height + z0))) := by
    rw [List.map_map]
    refine List.ext_getElem (by simp; omega) fun i h1 h2 => ?_
    have k := hu i (F[i]'(by omega)) C[i] (List.getElem?_eq_getElem (by omega)) (List.getElem?_eq_getElem h1)
    rw [List.getElem_map]
    ext <;> simp [level, k.2.1, k.2.2.1, k.2.2.2]
  have e1 : ((plan.map (place phi t)).zip (F.map fun f => (f.x, f.y))).map Prod.fst = plan.map (place phi t) :=
    List.map_fst_zip (by simp [l1])
  have e2 : ((plan.map (place phi t)).zip (F.map fun f => (f.x, f.y))).map Prod.snd = F.map fun f => (f.x, f.y) :=
    List.map_snd_zip (by simp [l1])
  have key : ∀ z ∈ (plan.map (place phi t)).zip (F.map fun f => (f.x, f.y)), ∃ (i : ℕ) (p : ℝ × ℝ) (f c : Vec3 ℝ), plan[i]? = some p ∧
      F[i]? = some f ∧ C[i]? = some c ∧ z = (place phi t p, (f.x, f.y)) := by
    intro z hz
    obtain ⟨i, hi, rfl⟩ := List.mem_iff_getElem.1 hz
    have hi' : i < plan.length := by simp at hi; omega
    exact ⟨i, plan[i], F[i]'(by omega), C[i]'(by omega), List.getElem?_eq_getElem hi', List.getElem?_eq_getElem (by omega),
      List.getElem?_eq_getElem (by omega), by simp⟩
  refine ⟨_, z0, fl (height + z0), e1, ?_, ?_, ?_⟩
  · intro z hz
    obtain ⟨i, p, f, c, h1, h2, h3, rfl⟩ := key z hz
    obtain ⟨k1, k2, -⟩ := hk i p f c h1 h2 h3
    exact ⟨k1.trans (by linarith), k2.trans (by linarith)⟩
  · intro z hz'
    obtain ⟨i, p, f, c, h1, h2, h3, rfl⟩ := key z hz'
    obtain ⟨k1, k2, k3, k4, k5, k6⟩ := hk i p f c h1 h2 h3
    obtain ⟨u1, u2, u3, u4⟩ := hu i f c h2 h3
    obtain ⟨b1, b2⟩ := hM p (List.mem_of_getElem? h1)
    have hsin := Real.abs_sin_le_one phi
    have hcos := Real.abs_cos_le_one phi
    have prod : ∀ s x : ℝ, |s| ≤ 1 → |x| ≤ 1000 * m → |s * x| ≤ 1000 * m := fun s x h1 h2 => by
      rw [abs_mul]
      nlinarith [abs_nonneg s, abs_nonneg x]
    have q1 := abs_le.1 (prod _ _ hcos b1)
    have q2 := abs_le.1 (prod _ _ hsin b2)
    have q3 := abs_le.1 (prod _ _ hsin b1)
    have q4 := abs_le.1 (prod _ _ hcos b2)
    obtain ⟨t1, t2, t3⟩ := ht
    rw [← u4]
    rw [abs_le] at k1 k2 k6 t1 t2 t3 hh
    have x1 : |f.x| ≤ 3001 * m := by rw [abs_le]; constructor <;> linarith
    have x2 : |f.y| ≤ 3001 * m := by rw [abs_le]; constructor <;> linarith
    have x3 : |z0| ≤ 3001 * m := by rw [hz, abs_le]; constructor <;> linarith
    have x4 : |c.z| ≤ 3001 * m := by rw [abs_le]; constructor <;> linarith
    exact ⟨⟨x1, x2, x3⟩, ⟨x1, x2, x4⟩⟩
  · rw [e2, ← hF, ← hC]
    exact e

/-- If the polygon is made with the wanted normal, it is kept. -/
theorem level_keep {q : List (Vec3 ℝ)} {v : Vec3 ℝ} {s : ℝ} {tri : List Triangles.Tri} (hs : |s| = 1)
    (h : WithinBy (1 / 10 ^ 13) v ⟨0, 0, s⟩) (hp : Rounded.polygonNew A q = .ok (q, v, tri)) :
    levelPolygon A q ⟨0, 0, s⟩ = .ok (q, v, tri) := by
  unfold levelPolygon
  simp only [hp]
  rw [if_neg (not_not.2 (close_level hs h).1)]

/-- If it is made with the opposite normal, it is flipped. -/
theorem level_flip {q : List (Vec3 ℝ)} {v v' : Vec3 ℝ} {s : ℝ} {tri tri' : List Triangles.Tri} (hs : |s| = 1)
    (h : WithinBy (1 / 10 ^ 13) v ⟨0, 0, s⟩) (hp : Rounded.polygonNew A q = .ok (q, v, tri))
    (hr : Rounded.polygonNew A q.reverse = .ok (q.reverse, v', tri')) :
    levelPolygon A q ⟨0, 0, -s⟩ = .ok (q.reverse, v', tri') := by
  unfold levelPolygon
  simp only [hp]
  rw [if_pos (close_level hs h).2, hr]

theorem far_direction {m : ℝ} {plan : List (ℝ × ℝ)} (h : plan.Pairwise fun p q => 2 * m ^ 2 ≤ distSq p q) :
    plan.Pairwise fun p q => (5 / 10 ^ 5 * (1000 * m)) ^ 2 ≤ (p.1 - q.1) ^ 2 + (p.2 - q.2) ^ 2 :=
  h.imp fun {p q} hpq => by
    unfold distSq at hpq
    nlinarith [sq_nonneg m]

/-! ## The property -/

/-- **C137, counter-clockwise plans.**  With 64-bit numbers the polygons of floor and ceiling of a convex plan are made and cut into
triangles; the floor gets the corners in reversed order and looks down, the ceiling keeps them and looks up, and all side walls
are found to be directed outwards and kept. -/
theorem C137_counter_clockwise (plan : List (ℝ × ℝ)) (height : ℝ) (t : Vec3 ℝ) (phi : ℝ) {m : ℝ} (hw : WideConvex m plan)
    (hm : m ≤ 10 ^ 6) (hM : ∀ p ∈ plan, |p.1| ≤ 1000 * m ∧ |p.2| ≤ 1000 * m) (hh : |height| ≤ 1000 * m)
    (ht : |t.x| ≤ 1000 * m ∧ |t.y| ≤ 1000 * m ∧ |t.z| ≤ 1000 * m) (hphi : phi = 0 ∨ 2 / 10 ^ 8 ≤ |phi|) (hphi' : |phi| ≤ 10)
    (ht' : t = 0 ∨ 2 / 10 ^ 8 ≤ |t.x| ∨ 2 / 10 ^ 8 ≤ |t.y| ∨ 2 / 10 ^ 8 ≤ |t.z|) (hfh : fl height = height) (hft : fl t.z = t.z)
    (h0 : height ≠ 0) (hfar : |t.z| ≤ 10 ^ 14 * |height|) :
    ∃ F C z0 down up, planPoints binary S plan height t phi = .ok (F, C, z0) ∧
      WithinBy (1 / 10 ^ 13) down ⟨0, 0, -1⟩ ∧ levelPolygon binary F ⟨0, 0, -1⟩ = .ok (F.reverse, down, fan plan.length) ∧
      WithinBy (1 / 10 ^ 13) up ⟨0, 0, 1⟩ ∧ levelPolygon binary C ⟨0, 0, 1⟩ = .ok (C, up, fan plan.length) ∧
      ∀ (i : ℕ) (w : List (Vec3 ℝ)), (Solids.sideOutlines F C plan.length)[i]? = some w →
        directionOk binary w F.reverse z0 = .ok true := by
  obtain ⟨Z, z0, z1, e1, hb, hr, hp⟩ := corners (S := S) hw.scale hw.corners hM hh ht hphi hphi' ht' hfh hft
  have hl : Z.length = plan.length := by simpa using congrArg List.length e1
  have hw' : WideConvex m (Z.map Prod.fst) := e1 ▸ hw.place phi t
  obtain ⟨⟨v1, f1, f2⟩, v2, f3, f4⟩ := polygons (A := binary) hb hw' hm fun p hp => (hr p hp).1.reach hw.scale
  obtain ⟨⟨v3, c1, c2⟩, -⟩ := polygons (A := binary) hb hw' hm fun p hp => (hr p hp).2.reach hw.scale
  rw [hl] at f2 f4 c2
  refine ⟨_, _, z0, v2, v3, hp, f3, level_flip (by norm_num) f1 f2 f4, c1, level_keep (by norm_num) c1 c2, ?_⟩
  intro i w hiw
  have hs := hw.scale
  exact (C136_direction plan height t phi hw.corners hM (by linarith) hh ht hphi hphi' ht' (far_direction hw.far) hfh hft h0 hfar hp
    hiw).2

/-- **C137, clockwise plans.**  The floor keeps the order of the corners, the ceiling gets the reversed order, and all side walls are
found to be directed inwards, so that they are flipped. -/
theorem C137_clockwise (plan : List (ℝ × ℝ)) (height : ℝ) (t : Vec3 ℝ) (phi : ℝ) {m : ℝ} (hw : WideConvex m plan.reverse)
    (hm : m ≤ 10 ^ 6) (hM : ∀ p ∈ plan, |p.1| ≤ 1000 * m ∧ |p.2| ≤ 1000 * m) (hh : |height| ≤ 1000 * m)
    (ht : |t.x| ≤ 1000 * m ∧ |t.y| ≤ 1000 * m ∧ |t.z| ≤ 1000 * m) (hphi : phi = 0 ∨ 2 / 10 ^ 8 ≤ |phi|) (hphi' : |phi| ≤ 10)
    (ht' : t = 0 ∨ 2 / 10 ^ 8 ≤ |t.x| ∨ 2 / 10 ^ 8 ≤ |t.y| ∨ 2 / 10 ^ 8 ≤ |t.z|) (hfh : fl height = height) (hft : fl t.z = t.z)
    (h0 : height ≠ 0) (hfar : |t.z| ≤ 10 ^ 14 * |height|) :
    ∃ F C z0 down up, planPoints binary S plan height t phi = .ok (F, C, z0) ∧
      WithinBy (1 / 10 ^ 13) down ⟨0, 0, -1⟩ ∧ levelPolygon binary F ⟨0, 0, -1⟩ = .ok (F, down, fan plan.length) ∧
      WithinBy (1 / 10 ^ 13) up ⟨0, 0, 1⟩ ∧ levelPolygon binary C ⟨0, 0, 1⟩ = .ok (C.reverse, up, fan plan.length) ∧
      ∀ (i : ℕ) (w : List (Vec3 ℝ)), (Solids.sideOutlines F C plan.length)[i]? = some w →
        directionOk binary w F z0 = .ok false := by
  have hn : 3 ≤ plan.length := by simpa using hw.corners
  obtain ⟨Z, z0, z1, e1, hb, hr, hp⟩ := corners (S := S) hw.scale hn hM hh ht hphi hphi' ht' hfh hft
  have hl : Z.reverse.length = plan.length := by simpa using congrArg List.length e1
  have hw' : WideConvex m (Z.reverse.map Prod.fst) := by
    have := hw.place phi t
    rw [List.map_reverse] at this ⊢
    rwa [e1]
  have hb' : ∀ z ∈ Z.reverse, Beside m z := fun z hz => hb z (List.mem_reverse.1 hz)
  obtain ⟨-, v2, f3, f4⟩ := polygons (A := binary) hb' hw' hm fun p hp => (hr p (List.mem_reverse.1 hp)).1.reach hw.scale
  obtain ⟨⟨v3, c1, c2⟩, v4, c3, c4⟩ := polygons (A := binary) hb' hw' hm fun p hp => (hr p (List.mem_reverse.1 hp)).2.reach hw.scale
  rw [hl] at f4 c2 c4
  simp only [List.map_reverse, List.reverse_reverse] at f4 c2 c4
  refine ⟨_, _, z0, v2, v3, hp, f3, level_keep (by norm_num) f3 f4, c1, ?_, ?_⟩
  · have := level_flip (by norm_num) c3 c4 c2
    rwa [neg_neg] at this
  intro i w hiw
  have hs := hw.scale
  exact (C136_direction plan height t phi hn hM (by linarith) hh ht hphi hphi' ht' (far_direction (by
    have := List.pairwise_reverse.1 hw.far
    exact this.imp fun {p q} h => by rwa [distSq_comm'])) hfh hft h0 hfar hp hiw).1

/-! ### Areas -/

theorem sum_near {α : Type} {e : ℝ} (f g : α → ℝ) : ∀ l : List α, (∀ a ∈ l, |f a - g a| ≤ e) →
    |(l.map f).sum - (l.map g).sum| ≤ e * l.length
  | [], _ => by simp
  | a :: l, h => by
    have h1 := abs_le.1 (h a (by simp))
    have h2 := abs_le.1 (sum_near f g l fun b hb => h b (by simp [hb]))
    simp only [List.map_cons, List.sum_cons, List.length_cons, Nat.cast_add, Nat.cast_one]
    rw [abs_le]
    constructor <;> linarith

theorem edges_count {α : Type} (l : List α) : (cycEdges l).length = l.length := by
  cases l <;> simp [cycEdges]

/-- The area of the rounded corners is nearly that of the turned ones. -/
theorem area2_near {m : ℝ} {Z : List ((ℝ × ℝ) × (ℝ × ℝ))} (hZ : ∀ z ∈ Z, Beside m z)
    (hb : ∀ z ∈ Z, |z.1.1| ≤ 3002 * m ∧ |z.1.2| ≤ 3002 * m) :
    |area2 (Z.map Prod.snd) - area2 (Z.map Prod.fst)| ≤ 2 / 10 ^ 5 * m ^ 2 * Z.length := by
  unfold area2
  rw [cycSum_map, cycSum_map, cycSum_eq_edges, cycSum_eq_edges, ← edges_count Z]
  refine sum_near _ _ _ fun e he => ?_
  obtain ⟨h1, h2⟩ := B3d.PointExact.cycEdges_mem he
  have b1 := hb _ h1
  have b2 := hb _ h2
  have n1 := hZ _ h1
  have n2 := hZ _ h2
  have p1 := abs_le.1 (near_mul n1.1 n2.2 b1.1 b2.2)
  have p2 := abs_le.1 (near_mul n1.2 n2.1 b1.2 b2.1)
  have hk : m / 10 ^ 9 * (3002 * m) + 3002 * m * (m / 10 ^ 9) + m / 10 ^ 9 * (m / 10 ^ 9) ≤ 1 / 10 ^ 5 * m ^ 2 := by
    have : 0 ≤ m ^ 2 := sq_nonneg m
    nlinarith
  simp only [cross2]
  rw [abs_le]
  constructor <;> linarith

/-- The area computed from level corners. -/
theorem level_area {R z s : ℝ} {L : List (ℝ × ℝ)} {v : Vec3 ℝ} (hs : |s| = 1) (hv : WithinBy (1 / 10 ^ 13) v ⟨0, 0, s⟩)
    (hb : ∀ p ∈ L, Bounded R (level z p)) (hn : (L.length : ℝ) ≤ 10 ^ 12) (h3 : 3 ≤ L.length) :
    |Rounded.polygonArea A (L.map (level z)) v - |area2 L| / 2| ≤ 1 / 10 ^ 12 * (L.length : ℝ) ^ 2 * R ^ 2 := by
  have h := C110_area (A := A) (R := R) (pts := L.map (level z)) (v := ⟨0, 0, s⟩) (v' := v) (fun p hp => by
    obtain ⟨q, hq, rfl⟩ := List.mem_map.1 hp
    exact hb q hq) (by rwa [List.length_map]) (by
      have : Vec3.normSq (⟨0, 0, s⟩ : Vec3 ℝ) = 1 := by
        simp only [Vec3.normSq, Vec3.dot]
        nlinarith [sq_abs s]
      rw [Vec3.norm, this, Real.sqrt_one]) hv
  have e : Polygon.polygonArea (L.map (level z)) ⟨0, 0, s⟩ = |area2 L| / 2 := by
    rw [Polygon.polygonArea, if_neg (by simp; omega), Polygon.areaTotal_eq, Solids.area_level]
    simp only [Vec3.dot]
    rw [abs_div, show (0 : ℝ) * 0 + 0 * 0 + area2 L * s = area2 L * s by ring, abs_mul, hs, mul_one, abs_two]
  rw [e, List.length_map] at h
  exact h

/-- **C137, areas.**  The areas of floor and ceiling are that of the plan up to `2e-5 n² m²`, for `n` corners. -/
theorem C137_area (plan : List (ℝ × ℝ)) (height : ℝ) (t : Vec3 ℝ) (phi : ℝ) {m : ℝ}
    (hw : WideConvex m plan ∨ WideConvex m plan.reverse) (hn : (plan.length : ℝ) ≤ 10 ^ 12)
    (hm : m ≤ 10 ^ 6) (hM : ∀ p ∈ plan, |p.1| ≤ 1000 * m ∧ |p.2| ≤ 1000 * m) (hh : |height| ≤ 1000 * m)
    (ht : |t.x| ≤ 1000 * m ∧ |t.y| ≤ 1000 * m ∧ |t.z| ≤ 1000 * m) (hphi : phi = 0 ∨ 2 / 10 ^ 8 ≤ |phi|) (hphi' : |phi| ≤ 10)
    (ht' : t = 0 ∨ 2 / 10 ^ 8 ≤ |t.x| ∨ 2 / 10 ^ 8 ≤ |t.y| ∨ 2 / 10 ^ 8 ≤ |t.z|) (hfh : fl height = height) (hft : fl t.z = t.z)
    (h0 : height ≠ 0) (hfar : |t.z| ≤ 10 ^ 14 * |height|) {F C q : List (Vec3 ℝ)} {z0 : ℝ} {v : Vec3 ℝ} {tri : List Triangles.Tri}
    (hp : planPoints binary S plan height t phi = .ok (F, C, z0))
    (hq : levelPolygon binary F ⟨0, 0, -1⟩ = .ok (q, v, tri) ∨ levelPolygon binary C ⟨0, 0, 1⟩ = .ok (q, v, tri)) :
    |Rounded.polygonArea binary q v - |area2 plan| / 2| ≤ 2 / 10 ^ 5 * (plan.length : ℝ) ^ 2 * m ^ 2 := by
  have hs : 1 / 10 ^ 3 ≤ m := hw.elim (·.scale) (·.scale)
  have h3 : 3 ≤ plan.length := hw.elim (·.corners) fun h => by simpa using h.corners
  obtain ⟨Z, z', z1, e1, hb, hr, hp'⟩ := corners (S := S) hs h3 hM hh ht hphi hphi' ht' hfh hft
  obtain ⟨rfl, e⟩ := Prod.mk.inj (Except.ok.inj (hp.symm.trans hp'))
  obtain ⟨rfl, rfl⟩ := Prod.mk.inj e
  have hl : Z.length = plan.length := by simpa using congrArg List.length e1
  have hn2 : (3 : ℝ) ≤ plan.length := by exact_mod_cast h3
  have near := area2_near hb (fun z hz => by
    have n := hb z hz
    have b := (hr z hz).1
    simp only [Beside, Bounded, level, abs_le] at n b ⊢
    refine ⟨⟨?_, ?_⟩, ?_, ?_⟩ <;> linarith [n.1.1, n.1.2, n.2.1, n.2.2, b.1.1, b.1.2, b.2.1.1, b.2.1.2])
  rw [e1, hl, Solids.area2_place] at near
  have near' : |(|area2 (Z.map Prod.snd)| / 2 - |area2 plan| / 2)| ≤ 1 / 10 ^ 5 * m ^ 2 * plan.length := by
    have := (abs_abs_sub_abs_le (area2 (Z.map Prod.snd)) (area2 plan)).trans near
    rw [abs_le] at this ⊢
    constructor <;> linarith
  have key : ∀ (z s : ℝ) (L : List (ℝ × ℝ)), |s| = 1 → WithinBy (1 / 10 ^ 13) v ⟨0, 0, s⟩ → q = L.map (level z) →
      (∀ p ∈ L, Bounded (3001 * m) (level z p)) → (L = Z.map Prod.snd ∨ L = (Z.map Prod.snd).reverse) →
      |Rounded.polygonArea binary q v - |area2 plan| / 2| ≤ 2 / 10 ^ 5 * (plan.length : ℝ) ^ 2 * m ^ 2 := by
    intro z s L h1 h2 h4 h5 h6
    have hL : L.length = plan.length := by rcases h6 with rfl | rfl <;> simpa using hl
    have ha : |area2 L| = |area2 (Z.map Prod.snd)| := by
      rcases h6 with rfl | rfl
      · rfl
      · rw [Solids.area2_reverse, abs_neg]
    have h7 := level_area (A := binary) h1 h2 h5 (by rwa [hL]) (by omega)
    rw [← h4, hL, ha] at h7
    have n1 : m ^ 2 * plan.length ≤ m ^ 2 * (plan.length : ℝ) ^ 2 / 3 := by
      have : 0 ≤ m ^ 2 := sq_nonneg m
      have h8 : (plan.length : ℝ) ≤ (plan.length : ℝ) ^ 2 / 3 := by nlinarith
      have := mul_le_mul_of_nonneg_left h8 this
      linarith
    have n2 : 0 ≤ m ^ 2 * (plan.length : ℝ) ^ 2 := by positivity
    have e9 : 1 / 10 ^ 12 * (plan.length : ℝ) ^ 2 * (3001 * m) ^ 2 = 9006001 / 10 ^ 12 * (m ^ 2 * (plan.length : ℝ) ^ 2) := by ring
    have e10 : 2 / 10 ^ 5 * (plan.length : ℝ) ^ 2 * m ^ 2 = 2 / 10 ^ 5 * (m ^ 2 * (plan.length : ℝ) ^ 2) := by ring
    have e11 : 1 / 10 ^ 5 * m ^ 2 * (plan.length : ℝ) = 1 / 10 ^ 5 * (m ^ 2 * plan.length) := by ring
    rw [e9] at h7
    rw [e11] at near'
    rw [e10]
    generalize m ^ 2 * (plan.length : ℝ) ^ 2 = X at *
    generalize m ^ 2 * (plan.length : ℝ) = Y at *
    rw [abs_le] at h7 near' ⊢
    constructor <;> linarith
  have bF : ∀ p ∈ Z.map Prod.snd, Bounded (3001 * m) (level z0 p) := fun p hp => by
    obtain ⟨y, hy, rfl⟩ := List.mem_map.1 hp
    exact (hr y hy).1
  have bC : ∀ p ∈ Z.map Prod.snd, Bounded (3001 * m) (level z1 p) := fun p hp => by
    obtain ⟨y, hy, rfl⟩ := List.mem_map.1 hp
    exact (hr y hy).2
  rcases hw with hw | hw
  · obtain ⟨F', C', z', d, u, k1, k2, k3, k4, k5, -⟩ := C137_counter_clockwise (S := S) plan height t phi hw hm hM hh ht hphi hphi' ht'
      hfh hft h0 hfar
    obtain ⟨rfl, e⟩ := Prod.mk.inj (Except.ok.inj (k1.symm.trans hp))
    obtain ⟨rfl, rfl⟩ := Prod.mk.inj e
    rcases hq with hq | hq
    · obtain ⟨rfl, e⟩ := Prod.mk.inj (Except.ok.inj (k3.symm.trans hq))
      obtain ⟨rfl, -⟩ := Prod.mk.inj e
      exact key z' (-1) _ (by norm_num) k2 (by rw [← List.map_reverse]) (fun p hp => bF p (List.mem_reverse.1 hp)) (.inr rfl)
    · obtain ⟨rfl, e⟩ := Prod.mk.inj (Except.ok.inj (k5.symm.trans hq))
      obtain ⟨rfl, -⟩ := Prod.mk.inj e
      exact key z1 1 _ (by norm_num) k4 rfl bC (.inl rfl)
  · obtain ⟨F', C', z', d, u, k1, k2, k3, k4, k5, -⟩ := C137_clockwise (S := S) plan height t phi hw hm hM hh ht hphi hphi' ht'
      hfh hft h0 hfar
    obtain ⟨rfl, e⟩ := Prod.mk.inj (Except.ok.inj (k1.symm.trans hp))
    obtain ⟨rfl, rfl⟩ := Prod.mk.inj e
    rcases hq with hq | hq
    · obtain ⟨rfl, e⟩ := Prod.mk.inj (Except.ok.inj (k3.symm.trans hq))
      obtain ⟨rfl, -⟩ := Prod.mk.inj e
      exact key z' (-1) _ (by norm_num) k2 rfl bF (.inl rfl)
    · obtain ⟨rfl, e⟩ := Prod.mk.inj (Except.ok.inj (k5.symm.trans hq))
      obtain ⟨rfl, -⟩ := Prod.mk.inj e
      exact key z1 1 _ (by norm_num) k4 (by rw [← List.map_reverse]) (fun p hp => bC p (List.mem_reverse.1 hp)) (.inr rfl)

/-- The rectangle of 4 × 3 is such a plan. -/
theorem rectangle_wide : WideConvex 2 [(0, 0), (4, 0), (4, 3), (0, 3)] := by
  refine ⟨by norm_num, by simp, by norm_num [distSq], ?_, ?_⟩
  · simp only [List.mem_cons, List.not_mem_nil, or_false]
    rintro p (rfl | rfl | rfl | rfl) q (rfl | rfl | rfl | rfl) <;> norm_num [distSq]
  · intro a b c hs
    refine mem_three (p := fun a b c => 2 * (2 : ℝ) ^ 2 ≤ signedArea a b c) ?_ hs
    simp only [List.triplewise_cons, List.pairwise_cons, List.forall_mem_cons, List.not_mem_nil, false_imp_iff]
    norm_num [signedArea]

example : ∃ F C z0 down up, planPoints binary S [(0, 0), (4, 0), (4, 3), (0, 3)] 3 ⟨1, 2, 3⟩ (1 / 2) = .ok (F, C, z0) ∧
    WithinBy (1 / 10 ^ 13) down ⟨0, 0, -1⟩ ∧ levelPolygon binary F ⟨0, 0, -1⟩ = .ok (F.reverse, down, [(3, 0, 1), (3, 1, 2)]) ∧
    levelPolygon binary C ⟨0, 0, 1⟩ = .ok (C, up, [(3, 0, 1), (3, 1, 2)]) := by
  have h3 : fl 3 = 3 := by dyadic (-51) 6755399441055744
  obtain ⟨F, C, z0, d, u, h1, h2, h4, -, h5, -⟩ := C137_counter_clockwise (S := S) [(0, 0), (4, 0), (4, 3), (0, 3)] 3 ⟨1, 2, 3⟩ (1 / 2)
    rectangle_wide (by norm_num)
    (by simp only [List.mem_cons, List.not_mem_nil, or_false]; rintro p (rfl | rfl | rfl | rfl) <;> norm_num) (by norm_num)
    (by norm_num) (.inr (by rw [abs_of_pos] <;> norm_num)) (by rw [abs_of_pos] <;> norm_num) (.inr (.inl (by norm_num))) h3 h3
    (by norm_num) (by norm_num)
  exact ⟨F, C, z0, d, u, h1, h2, h4, h5⟩

example : ∃ F C z0 down up, planPoints binary S [(0, 3), (4, 3), (4, 0), (0, 0)] 3 ⟨1, 2, 3⟩ (1 / 2) = .ok (F, C, z0) ∧
    levelPolygon binary F ⟨0, 0, -1⟩ = .ok (F, down, [(3, 0, 1), (3, 1, 2)]) ∧
    WithinBy (1 / 10 ^ 13) up ⟨0, 0, 1⟩ ∧ levelPolygon binary C ⟨0, 0, 1⟩ = .ok (C.reverse, up, [(3, 0, 1), (3, 1, 2)]) := by
  have h3 : fl 3 = 3 := by dyadic (-51) 6755399441055744
  obtain ⟨F, C, z0, d, u, h1, -, h2, h4, h5, -⟩ := C137_clockwise (S := S) [(0, 3), (4, 3), (4, 0), (0, 0)] 3 ⟨1, 2, 3⟩ (1 / 2)
    rectangle_wide (by norm_num)
    (by simp only [List.mem_cons, List.not_mem_nil, or_false]; rintro p (rfl | rfl | rfl | rfl) <;> norm_num) (by norm_num)
    (by norm_num) (.inr (by rw [abs_of_pos] <;> norm_num)) (by rw [abs_of_pos] <;> norm_num) (.inr (.inl (by norm_num))) h3 h3
    (by norm_num) (by norm_num)
  exact ⟨F, C, z0, d, u, h1, h2, h4, h5⟩

example : ∃ F C z0 up, planPoints binary S [(0, 0), (4, 0), (4, 3), (0, 3)] 3 ⟨1, 2, 3⟩ (1 / 2) = .ok (F, C, z0) ∧
    levelPolygon binary C ⟨0, 0, 1⟩ = .ok (C, up, [(3, 0, 1), (3, 1, 2)]) ∧ |Rounded.polygonArea binary C up - 12| ≤ 2 / 10 ^ 3 := by
  have h3 : fl 3 = 3 := by dyadic (-51) 6755399441055744
  have hM : ∀ p ∈ ([(0, 0), (4, 0), (4, 3), (0, 3)] : List (ℝ × ℝ)), |p.1| ≤ 1000 * 2 ∧ |p.2| ≤ 1000 * 2 := by
    simp only [List.mem_cons, List.not_mem_nil, or_false]; rintro p (rfl | rfl | rfl | rfl) <;> norm_num
  have hphi : (1 / 2 : ℝ) = 0 ∨ 2 / 10 ^ 8 ≤ |(1 / 2 : ℝ)| := .inr (by rw [abs_of_pos] <;> norm_num)
  have hphi' : |(1 / 2 : ℝ)| ≤ 10 := by rw [abs_of_pos] <;> norm_num
  obtain ⟨F, C, z0, d, u, h1, -, -, -, h5, -⟩ := C137_counter_clockwise (S := S) [(0, 0), (4, 0), (4, 3), (0, 3)] 3 ⟨1, 2, 3⟩ (1 / 2)
    rectangle_wide (by norm_num) hM (by norm_num) (by norm_num) hphi hphi' (.inr (.inl (by norm_num))) h3 h3 (by norm_num) (by norm_num)
  have := C137_area (S := S) [(0, 0), (4, 0), (4, 3), (0, 3)] 3 ⟨1, 2, 3⟩ (1 / 2) (.inl rectangle_wide) (by norm_num) (by norm_num) hM
    (by norm_num) (by norm_num) hphi hphi' (.inr (.inl (by norm_num))) h3 h3 (by norm_num) (by norm_num) h1 (.inr h5)
  have e : |area2 [(0, 0), (4, 0), (4, 3), (0, 3)]| / 2 = 12 := by
    norm_num [area2, cycSum, pathSum, cross2]
  rw [e] at this
  refine ⟨F, C, z0, u, h1, h5, this.trans ?_⟩
  norm_num

/-! ### Not every such plan becomes a solid -/

/-- A triangle one kilometre from the origin. -/
def farPlan : List (ℝ × ℝ) := [(997, 3), (993, 7), (993, 3)]

/-- **C137 does not extend to the side walls.**  A triangle with legs of four metres, one kilometre from the origin, is such a plan,
so that floor and ceiling are made.  But with 53 binary digits the outline of its first side wall is refused with an
AssertionError, although its corners are exactly in a plane. -/
theorem C137_wall_refused : WideConvex 2 farPlan ∧ (∀ p ∈ farPlan, |p.1| ≤ 1000 * 2 ∧ |p.2| ≤ 1000 * 2) ∧
    ∃ F C w, planPoints binary S farPlan 3 0 0 = .ok (F, C, 0) ∧ (Solids.sideOutlines F C farPlan.length)[0]? = some w ∧
      Rounded.polygonNew binary w = .error .assertionError := by
  refine ⟨⟨by norm_num, by simp [farPlan], by norm_num [distSq, farPlan], ?_, ?_⟩, ?_, ?_⟩
  · simp only [farPlan, List.mem_cons, List.not_mem_nil, or_false]
    rintro p (rfl | rfl | rfl) q (rfl | rfl | rfl) <;> norm_num [distSq]
  · intro a b c hs
    have := hs.eq_of_length (by simp [farPlan])
    simp only [farPlan, List.cons.injEq, and_true] at this
    obtain ⟨rfl, rfl, rfl⟩ := this
    norm_num [signedArea]
  · simp only [farPlan, List.mem_cons, List.not_mem_nil, or_false]
    rintro p (rfl | rfl | rfl) <;> norm_num
  · have hc : Rounded.allClose binary (0 : Vec3 ℝ) ⟨0, 0, 0⟩ NP_RTOL NP_ATOL := ⟨close_zero, close_zero, close_zero⟩
    refine ⟨farPlan.map fun p => ⟨p.1, p.2, 0⟩, farPlan.map fun p => ⟨p.1, p.2, 3⟩, diagonalWall, ?_, ?_, C109_slanted_fails.2⟩
    · unfold planPoints
      rw [if_neg (by simp [farPlan])]
      simp only [planRotate, if_neg (not_not.2 (close_zero (A := binary))), planTranslate, if_neg (not_not.2 hc)]
    · simp [Solids.sideOutlines, farPlan, diagonalWall]

end B3d.RotationRounded
