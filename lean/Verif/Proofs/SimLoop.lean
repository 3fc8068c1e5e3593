import Verif.Props.VoxelGrid
import Mathlib.Algebra.BigOperators.Group.List.Basic
import Mathlib.Algebra.Order.BigOperators.Group.List

/-! # Helper lemmas: simulation loop -/

set_option linter.unusedSectionVars false

namespace B3d.Sim

variable {K : Type} [Field K] [LinearOrder K] [IsStrictOrderedRing K] [FloorRing K]
variable {P : Params K}

/-! ### Reflection -/

theorem normSq_mirror {n v : Vec3 K} (hn : Vec3.normSq n = 1) :
    Vec3.normSq (mirror n v) = Vec3.normSq v := by
  unfold mirror Vec3.normSq at *
  rw [Vec3.dot_sub_left, Vec3.dot_sub_right, Vec3.dot_sub_right, Vec3.dot_smul_left,
    Vec3.dot_smul_right, Vec3.dot_smul_left, Vec3.dot_smul_right, hn, Vec3.dot_comm v n]
  ring

theorem normSq_bounced {geo : Geo K} (hn : ∀ k, Vec3.normSq (geo.vn k) = 1) (ks : List Nat)
    (v : Vec3 K) : Vec3.normSq (bounced geo v ks) = Vec3.normSq v := by
  unfold bounced
  induction ks generalizing v with
  | nil => rfl
  | cons k ks ih => rw [List.foldl_cons, ih, normSq_mirror (hn k)]

theorem reflect_vel (pn : Nat) (e : K) (r : Ray K) :
    (reflect P pn e r).vel = mirror (P.geo.vn pn) r.vel := rfl

/-- Polygons near a cell. -/
def nearOf (P : Params K) (c : Cell) : List Nat := findNearby P.setIter c P.grid

/-- What one run of the reflection loop does. -/
inductive Outcome (P : Params K) (c : Cell) (r : Ray K) : Ray K → Option Nat → Prop
  /-- the loop ends with the ray alive (or as it was) -/
  | flies (ks : List Nat) (d : Vec3 K) (t : Option Nat)
      (chain : Chain P.geo P.trans (nearOf P c) P.reflDist r.pos r.vel ks)
      (alive : ks ≠ [] → P.eps < r.energy - (ks.map P.absorption).sum)
      (hd : d = if ks = [] then r.delta else P.timeStep • bounced P.geo r.vel ks)
      (ht : t = findTarget P.geo P.trans (nearOf P c) r.pos (bounced P.geo r.vel ks))
      (stop : ∀ pn, t = some pn → ¬ (P.geo.dist r.pos pn < P.reflDist ∧
        P.eps < r.energy - (ks.map P.absorption).sum)) :
      Outcome P c r ⟨r.pos, bounced P.geo r.vel ks, d, r.energy - (ks.map P.absorption).sum⟩ t
  /-- the last reflection takes the rest of the energy -/
  | dies (ks : List Nat) (k : Nat) (d : Vec3 K)
      (chain : Chain P.geo P.trans (nearOf P c) P.reflDist r.pos r.vel (ks ++ [k]))
      (alive : P.eps < r.energy - (ks.map P.absorption).sum)
      (dead : r.energy - ((ks ++ [k]).map P.absorption).sum ≤ P.eps)
      (hd : d = if ks = [] then r.delta else P.timeStep • bounced P.geo r.vel ks) :
      Outcome P c r ⟨r.pos, bounced P.geo r.vel ks, d, 0⟩ (some k)

theorem target_eq (c : Cell) (r : Ray K) :
    target P c r = findTarget P.geo P.trans (nearOf P c) r.pos r.vel := rfl

theorem isNearest_of_target {c : Cell} {r : Ray K} {k : Nat} (h : target P c r = some k) :
    IsNearest P.geo P.trans (nearOf P c) r.pos r.vel k := C45_nearest _ _ _ _ _ _ h

theorem reflectLoop_outcome (c : Cell) : ∀ (fuel : Nat) (r : Ray K) (r' : Ray K) (t' : Option Nat),
    reflectLoop P c fuel r (target P c r) = some (r', t') → Outcome P c r r' t' := by
  intro fuel
  induction fuel with
  | zero => intro r r' t' h; simp [reflectLoop] at h
  | succ fuel ih =>
    intro r r' t' h
    cases ht : target P c r with
    | none =>
      rw [ht, reflectLoop] at h
      simp only [Option.some.injEq, Prod.mk.injEq] at h
      obtain ⟨rfl, rfl⟩ := h
      have := Outcome.flies (P := P) (c := c) (r := r) [] r.delta none trivial (by simp) (by simp)
        (by rw [← ht]; rfl) (by simp)
      simpa [bounced] using this
    | some k =>
      rw [ht, reflectLoop] at h
      by_cases hc : P.geo.dist r.pos k < P.reflDist ∧ P.eps < r.energy
      · rw [if_pos hc] at h
        have hn := isNearest_of_target ht
        by_cases he : r.energy - P.absorption k ≤ P.eps
        · rw [if_pos he] at h
          simp only [Option.some.injEq, Prod.mk.injEq] at h
          obtain ⟨rfl, rfl⟩ := h
          have := Outcome.dies (P := P) (c := c) (r := r) [] k r.delta ⟨hn, hc.1, trivial⟩
            (by simpa using hc.2) (by simpa using he) (by simp)
          simpa [bounced, Ray.withEnergy] using this
        · rw [if_neg he] at h
          have h' := ih _ _ _ h
          have hp : (reflect P k (r.energy - P.absorption k) r).pos = r.pos := rfl
          have hv : (reflect P k (r.energy - P.absorption k) r).vel = mirror (P.geo.vn k) r.vel := rfl
          have hen : (reflect P k (r.energy - P.absorption k) r).energy = r.energy - P.absorption k :=
            rfl
          have hdl : (reflect P k (r.energy - P.absorption k) r).delta
              = P.timeStep • mirror (P.geo.vn k) r.vel := rfl
          cases h' with
          | flies ks d t chain alive hd ht' stop =>
            rw [hp, hv] at chain
            rw [hen] at alive stop
            rw [hdl, hv] at hd
            rw [hp, hv] at ht'
            rw [hp] at stop
            have e1 : r.energy - ((k :: ks).map P.absorption).sum
                = r.energy - P.absorption k - (ks.map P.absorption).sum := by
              rw [List.map_cons, List.sum_cons]; ring
            have := Outcome.flies (P := P) (c := c) (r := r) (k :: ks) d t' ⟨hn, hc.1, chain⟩
              (by
                intro _
                rw [e1]
                by_cases hks : ks = []
                · subst hks
                  simpa using not_le.1 he
                · exact alive hks)
              (by
                rw [hd, if_neg (by simp : ¬ (k :: ks = []))]
                by_cases hks : ks = []
                · subst hks; rw [if_pos rfl]; rfl
                · rw [if_neg hks]; rfl)
              ht' (by rw [e1]; exact stop)
            rw [e1] at this
            exact this
          | dies ks k2 d chain alive dead hd =>
            rw [hp, hv] at chain
            rw [hen] at alive dead
            rw [hdl, hv] at hd
            have e1 : r.energy - ((k :: ks).map P.absorption).sum
                = r.energy - P.absorption k - (ks.map P.absorption).sum := by
              rw [List.map_cons, List.sum_cons]; ring
            have e2 : r.energy - ((k :: ks ++ [k2]).map P.absorption).sum
                = r.energy - P.absorption k - ((ks ++ [k2]).map P.absorption).sum := by
              rw [List.cons_append, List.map_cons, List.sum_cons]; ring
            exact Outcome.dies (P := P) (c := c) (r := r) (k :: ks) k2 d ⟨hn, hc.1, chain⟩
              (by rw [e1]; exact alive) (by rw [e2]; exact dead)
              (by
                rw [hd, if_neg (by simp : ¬ (k :: ks = []))]
                by_cases hks : ks = []
                · subst hks; rw [if_pos rfl]; rfl
                · rw [if_neg hks]; rfl)
      · rw [if_neg hc] at h
        simp only [Option.some.injEq, Prod.mk.injEq] at h
        obtain ⟨rfl, rfl⟩ := h
        have := Outcome.flies (P := P) (c := c) (r := r) [] r.delta (some k) trivial (by simp)
          (by simp) (by rw [← ht]; rfl) (by
            intro pn hpn
            simp only [Option.some.injEq] at hpn
            subst hpn
            simpa using hc)
        simpa [bounced] using this

/-! ### Absorbers -/

theorem absorbLoop_length (sq : K) (pos : Vec3 K) (as : List (Vec3 K)) (hs : List K) (e : K) :
    (absorbLoop sq pos as hs e).1.length = hs.length := by
  induction as generalizing hs e with
  | nil => simp [absorbLoop]
  | cons a as ih =>
    cases hs with
    | nil => simp [absorbLoop]
    | cons h hs =>
      rw [absorbLoop]
      split <;> simp [ih]

/-- Energy zero adds nothing. -/
theorem absorbLoop_zero (sq : K) (pos : Vec3 K) (as : List (Vec3 K)) (hs : List K) :
    absorbLoop sq pos as hs 0 = (hs, 0) := by
  induction as generalizing hs with
  | nil => simp [absorbLoop]
  | cons a as ih =>
    cases hs with
    | nil => simp [absorbLoop]
    | cons h hs =>
      rw [absorbLoop, ih]
      split <;> simp

/-- The energy goes to the first absorber that contains the position. -/
theorem absorbLoop_eq (sq : K) (pos : Vec3 K) (as : List (Vec3 K)) (hs : List K) (e : K)
    (hl : hs.length = as.length) :
    absorbLoop sq pos as hs e =
      match as.findIdx? (fun a => Vec3.normSq (pos - a) < sq) with
      | none => (hs, e)
      | some i => (hs.modify i (· + e), 0) := by
  induction as generalizing hs with
  | nil => simp [absorbLoop]
  | cons a as ih =>
    cases hs with
    | nil => simp at hl
    | cons h hs =>
      rw [absorbLoop, List.findIdx?_cons]
      by_cases hc : Vec3.normSq (pos - a) < sq
      · simp [hc, absorbLoop_zero]
      · rw [if_neg hc, ih hs (by simpa using hl)]
        simp only [hc, decide_false, Bool.false_eq_true, if_false]
        cases as.findIdx? (fun a => Vec3.normSq (pos - a) < sq) with
        | none => rfl
        | some i => rfl

/-- The ray after the absorber check. -/
def afterAbsorb (P : Params K) (r : Ray K) : Ray K :=
  if r.energy ≤ P.eps then r
  else if (firstAbsorber P.absorberRadius P.absorbers r.pos).isSome then r.withEnergy 0 else r

theorem absorbRay_eq (hs : List K) (hl : hs.length = P.absorbers.length) (r : Ray K) :
    absorbRay P hs r =
      (if r.energy ≤ P.eps then hs else
        match firstAbsorber P.absorberRadius P.absorbers r.pos with
        | none => hs
        | some i => hs.modify i (· + r.energy), afterAbsorb P r) := by
  unfold absorbRay afterAbsorb
  by_cases he : r.energy ≤ P.eps
  · simp [he]
  · simp only [he, if_false]
    rw [absorbLoop_eq _ _ _ _ _ hl]
    unfold firstAbsorber
    cases P.absorbers.findIdx? (fun a => Vec3.normSq (r.pos - a) < P.absorberRadius ^ 2) with
    | none => simp [Ray.withEnergy]
    | some i => simp

theorem absorbRay_length (hs : List K) (r : Ray K) : (absorbRay P hs r).1.length = hs.length := by
  unfold absorbRay
  split
  · rfl
  · exact absorbLoop_length _ _ _ _ _

theorem absorbAll_length (hs : List K) (rs : List (Ray K)) :
    (absorbAll P hs rs).1.length = hs.length := by
  induction rs generalizing hs with
  | nil => rfl
  | cons r rs ih => rw [absorbAll]; simp only []; rw [ih, absorbRay_length]

theorem absorbAll_rays (hs : List K) (hl : hs.length = P.absorbers.length) (rs : List (Ray K)) :
    (absorbAll P hs rs).2 = rs.map (afterAbsorb P) := by
  induction rs generalizing hs with
  | nil => rfl
  | cons r rs ih =>
    rw [absorbAll]
    simp only [List.map_cons]
    rw [ih _ (by rw [absorbRay_length, hl]), absorbRay_eq _ hl]

/-- Energy a ray gives to absorber `i`. -/
def given (P : Params K) (i : Nat) (r : Ray K) : K :=
  if P.eps < r.energy ∧ firstAbsorber P.absorberRadius P.absorbers r.pos = some i then r.energy else 0

theorem absorbRay_hit (hs : List K) (hl : hs.length = P.absorbers.length) (r : Ray K) (i : Nat) :
    (absorbRay P hs r).1[i]? = hs[i]?.map (· + given P i r) := by
  rw [absorbRay_eq hs hl]
  unfold given
  by_cases he : r.energy ≤ P.eps
  · simp [he, not_lt.2 he]
  · simp only [he, if_false]
    cases h : firstAbsorber P.absorberRadius P.absorbers r.pos with
    | none => simp
    | some j =>
      simp only [not_le.1 he, true_and, Option.some.injEq]
      rw [List.getElem?_modify]
      by_cases hij : j = i
      · subst hij; simp
      · simp [hij]

theorem absorbAll_hit (hs : List K) (hl : hs.length = P.absorbers.length) (rs : List (Ray K))
    (i : Nat) :
    (absorbAll P hs rs).1[i]? = hs[i]?.map (· + (rs.map (given P i)).sum) := by
  induction rs generalizing hs with
  | nil => simp [absorbAll]
  | cons r rs ih =>
    rw [absorbAll]
    simp only [List.map_cons, List.sum_cons]
    rw [ih _ (by rw [absorbRay_length, hl]), absorbRay_hit _ hl, Option.map_map]
    congr 1
    funext x
    simp only [Function.comp]
    ring

theorem sum_modify (hs : List K) (i : Nat) (h : i < hs.length) (e : K) :
    (hs.modify i (· + e)).sum = hs.sum + e := by
  induction hs generalizing i with
  | nil => simp at h
  | cons a hs ih =>
    cases i with
    | zero => simp; ring
    | succ i =>
      rw [List.modify_succ_cons, List.sum_cons, List.sum_cons, ih i (by simpa using h)]
      ring

/-- Energy removed by the absorbers equals energy recorded. -/
theorem absorbRay_sum (hs : List K) (hl : hs.length = P.absorbers.length) (r : Ray K) :
    (absorbRay P hs r).1.sum + (afterAbsorb P r).energy = hs.sum + r.energy := by
  rw [absorbRay_eq hs hl]
  unfold afterAbsorb
  by_cases he : r.energy ≤ P.eps
  · simp [he]
  · simp only [he, if_false]
    cases h : firstAbsorber P.absorberRadius P.absorbers r.pos with
    | none => simp
    | some i =>
      have hi : i < hs.length := by
        rw [hl]
        exact (List.findIdx?_eq_some_iff_getElem.1 h).1
      simp only [Option.isSome_some, if_true]
      rw [sum_modify _ _ hi]
      simp [Ray.withEnergy]

theorem absorbAll_sum (hs : List K) (hl : hs.length = P.absorbers.length) (rs : List (Ray K)) :
    (absorbAll P hs rs).1.sum + ((rs.map (afterAbsorb P)).map Ray.energy).sum
      = hs.sum + (rs.map Ray.energy).sum := by
  induction rs generalizing hs with
  | nil => simp [absorbAll]
  | cons r rs ih =>
    rw [absorbAll]
    simp only [List.map_cons, List.sum_cons]
    have h1 := ih (absorbRay P hs r).1 (by rw [absorbRay_length, hl])
    have h2 := absorbRay_sum hs hl r
    linarith

/-! ### One ray -/

theorem advance_cases (r : Ray K) (t : Option Nat) :
    (advance P r t = r ∧ (P.eps < r.energy → ∃ pn, t = some pn ∧
        P.geo.dist r.pos pn ≤ P.reflDist)) ∨
    (advance P r t = ⟨r.pos + r.delta, r.vel, r.delta, r.energy⟩ ∧ P.eps < r.energy ∧
      ∀ pn, t = some pn → P.reflDist < P.geo.dist r.pos pn) := by
  unfold advance
  by_cases h : (decide (P.eps < r.energy) && farEnough P r.pos t) = true
  · right
    rw [if_pos h]
    rw [Bool.and_eq_true, decide_eq_true_eq] at h
    refine ⟨rfl, h.1, ?_⟩
    rintro pn rfl
    simpa [farEnough] using h.2
  · left
    rw [if_neg h]
    refine ⟨rfl, ?_⟩
    intro he
    cases t with
    | none => simp [farEnough, he] at h
    | some pn =>
      refine ⟨pn, rfl, ?_⟩
      simpa [farEnough, he] using h

theorem advance_vel (r : Ray K) (t : Option Nat) : (advance P r t).vel = r.vel ∧
    (advance P r t).energy = r.energy ∧ (advance P r t).delta = r.delta := by
  rcases advance_cases (P := P) r t with ⟨h, _⟩ | ⟨h, _⟩ <;> rw [h] <;> exact ⟨rfl, rfl, rfl⟩

theorem checkLeft_cases (r : Ray K) : checkLeft P r = r ∨ checkLeft P r = r.withEnergy 0 := by
  unfold checkLeft
  split
  · right; rfl
  · left; rfl

theorem moveRay_dead (fuel : Nat) (r : Ray K) (h : r.energy ≤ P.eps) :
    moveRay P fuel r = some r := by
  unfold moveRay
  rw [if_pos h]

/-- A ray that starts an iteration with energy. -/
theorem moveRay_live {fuel : Nat} {r r' : Ray K} (he : P.eps < r.energy)
    (h : moveRay P fuel r = some r') :
    ∃ r2 t, Outcome P (cellOf r.pos P.gridStep) (checkLeft P r) r2 t ∧ r' = advance P r2 t := by
  unfold moveRay at h
  rw [if_neg (not_le.2 he)] at h
  simp only [] at h
  have hp : (checkLeft P r).pos = r.pos := by
    rcases checkLeft_cases (P := P) r with h | h <;> rw [h]
    rfl
  rw [hp] at h
  split at h
  · cases h
  · rename_i r2 t heq
    simp only [Option.some.injEq] at h
    exact ⟨r2, t, reflectLoop_outcome _ _ _ _ _ heq, h.symm⟩

theorem sum_nonneg_absorption (ha : ∀ k, 0 ≤ P.absorption k) (ks : List Nat) :
    0 ≤ (ks.map P.absorption).sum := by
  apply List.sum_nonneg
  intro x hx
  obtain ⟨k, _, rfl⟩ := List.mem_map.1 hx
  exact ha k

theorem outcome_energy {c : Cell} {r r' : Ray K} {t : Option Nat} (h : Outcome P c r r' t)
    (heps : 0 ≤ P.eps) (ha : ∀ k, 0 ≤ P.absorption k) (h0 : 0 ≤ r.energy) :
    0 ≤ r'.energy ∧ r'.energy ≤ r.energy := by
  cases h with
  | flies ks d t chain alive hd ht stop =>
    have hs := sum_nonneg_absorption ha ks
    refine ⟨?_, ?_⟩
    · show 0 ≤ r.energy - (ks.map P.absorption).sum
      by_cases hk : ks = []
      · subst hk; simpa using h0
      · exact heps.trans (alive hk).le
    · show r.energy - (ks.map P.absorption).sum ≤ r.energy
      linarith
  | dies ks k d chain alive dead hd => exact ⟨le_refl _, h0⟩

theorem moveRay_energy {fuel : Nat} {r r' : Ray K} (h : moveRay P fuel r = some r')
    (heps : 0 ≤ P.eps) (ha : ∀ k, 0 ≤ P.absorption k) (h0 : 0 ≤ r.energy) :
    0 ≤ r'.energy ∧ r'.energy ≤ r.energy := by
  by_cases he : r.energy ≤ P.eps
  · rw [moveRay_dead _ _ he] at h
    simp only [Option.some.injEq] at h
    subst h
    exact ⟨h0, le_refl _⟩
  · obtain ⟨r2, t, ho, rfl⟩ := moveRay_live (not_le.1 he) h
    rw [(advance_vel r2 t).2.1]
    rcases checkLeft_cases (P := P) r with hc | hc <;> rw [hc] at ho
    · exact outcome_energy ho heps ha h0
    · have := outcome_energy ho heps ha (le_refl _)
      exact ⟨this.1, this.2.trans h0⟩

theorem outcome_vel {c : Cell} {r r' : Ray K} {t : Option Nat} (h : Outcome P c r r' t)
    (hn : ∀ k, Vec3.normSq (P.geo.vn k) = 1) : Vec3.normSq r'.vel = Vec3.normSq r.vel := by
  cases h with
  | flies ks d t chain alive hd ht stop => exact normSq_bounced hn ks r.vel
  | dies ks k d chain alive dead hd => exact normSq_bounced hn ks r.vel

theorem outcome_delta {c : Cell} {r r' : Ray K} {t : Option Nat} (h : Outcome P c r r' t)
    (hd0 : r.delta = P.timeStep • r.vel) : r'.delta = P.timeStep • r'.vel := by
  cases h with
  | flies ks d t chain alive hd ht stop =>
    show d = _
    rw [hd]
    by_cases hk : ks = []
    · subst hk; rw [if_pos rfl, hd0]; rfl
    · rw [if_neg hk]
  | dies ks k d chain alive dead hd =>
    show d = _
    rw [hd]
    by_cases hk : ks = []
    · subst hk; rw [if_pos rfl, hd0]; rfl
    · rw [if_neg hk]

theorem outcome_pos {c : Cell} {r r' : Ray K} {t : Option Nat} (h : Outcome P c r r' t) :
    r'.pos = r.pos := by
  cases h <;> rfl

theorem checkLeft_same (r : Ray K) : (checkLeft P r).pos = r.pos ∧ (checkLeft P r).vel = r.vel ∧
    (checkLeft P r).delta = r.delta := by
  rcases checkLeft_cases (P := P) r with h | h <;> rw [h] <;> exact ⟨rfl, rfl, rfl⟩

theorem moveRay_vel {fuel : Nat} {r r' : Ray K} (h : moveRay P fuel r = some r')
    (hn : ∀ k, Vec3.normSq (P.geo.vn k) = 1) : Vec3.normSq r'.vel = Vec3.normSq r.vel := by
  by_cases he : r.energy ≤ P.eps
  · rw [moveRay_dead _ _ he] at h
    simp only [Option.some.injEq] at h
    rw [h]
  · obtain ⟨r2, t, ho, rfl⟩ := moveRay_live (not_le.1 he) h
    rw [(advance_vel r2 t).1, outcome_vel ho hn, (checkLeft_same r).2.1]

theorem moveRay_delta {fuel : Nat} {r r' : Ray K} (h : moveRay P fuel r = some r')
    (hd : r.delta = P.timeStep • r.vel) : r'.delta = P.timeStep • r'.vel := by
  by_cases he : r.energy ≤ P.eps
  · rw [moveRay_dead _ _ he] at h
    simp only [Option.some.injEq] at h
    rw [← h, hd]
  · obtain ⟨r2, t, ho, rfl⟩ := moveRay_live (not_le.1 he) h
    rw [(advance_vel r2 t).1, (advance_vel r2 t).2.2]
    exact outcome_delta ho (by rw [(checkLeft_same r).2.1, (checkLeft_same r).2.2, hd])

theorem moveRay_pos {fuel : Nat} {r r' : Ray K} (h : moveRay P fuel r = some r') :
    r'.pos = r.pos ∨ (r'.pos = r.pos + r'.delta ∧ P.eps < r'.energy) := by
  by_cases he : r.energy ≤ P.eps
  · rw [moveRay_dead _ _ he] at h
    simp only [Option.some.injEq] at h
    left; rw [h]
  · obtain ⟨r2, t, ho, rfl⟩ := moveRay_live (not_le.1 he) h
    have hp : r2.pos = r.pos := by rw [outcome_pos ho, (checkLeft_same r).1]
    rcases advance_cases (P := P) r2 t with ⟨h, _⟩ | ⟨h, h2, _⟩
    · left; rw [h, hp]
    · right; rw [h]; exact ⟨by rw [hp], h2⟩

/-! ### All rays -/

theorem moveAll_forall {fuel : Nat} {rs rs' : List (Ray K)} :
    moveAll P fuel rs = some rs' ↔ List.Forall₂ (fun r r' => moveRay P fuel r = some r') rs rs' := by
  induction rs generalizing rs' with
  | nil =>
    rw [moveAll]
    constructor
    · intro h
      simp only [Option.some.injEq] at h
      subst h
      exact .nil
    · intro h
      cases h
      rfl
  | cons r rs ih =>
    rw [moveAll]
    constructor
    · intro h
      split at h
      · cases h
      · rename_i r' hr
        split at h
        · cases h
        · rename_i rs'' hrs
          simp only [Option.some.injEq] at h
          subst h
          exact .cons hr (ih.1 hrs)
    · intro h
      cases h with
      | cons h1 h2 =>
        rw [h1]
        simp only []
        rw [ih.2 h2]

/-- One step for one ray. -/
def RayStep (P : Params K) (fuel : Nat) (r r' : Ray K) : Prop :=
  moveRay P fuel (afterAbsorb P r) = some r'

theorem step_iff {fuel : Nat} {s s' : St K} (hl : s.hits.length = P.absorbers.length) :
    step P fuel s = some s' ↔
      List.Forall₂ (RayStep P fuel) s.rays s'.rays ∧
        s'.hits = (absorbAll P (s.hits.map fun _ => 0) s.rays).1 := by
  unfold step
  simp only []
  rw [absorbAll_rays _ (by simpa using hl)]
  constructor
  · intro h
    split at h
    · cases h
    · rename_i rs hrs
      simp only [Option.some.injEq] at h
      subst h
      rw [moveAll_forall, List.forall₂_map_left_iff] at hrs
      exact ⟨hrs, rfl⟩
  · rintro ⟨h1, h2⟩
    have : moveAll P fuel (s.rays.map (afterAbsorb P)) = some s'.rays := by
      rw [moveAll_forall, List.forall₂_map_left_iff]
      exact h1
    rw [this]
    simp only [Option.some.injEq]
    cases s'
    simp only [St.mk.injEq, true_and]
    exact h2.symm

theorem step_hits_length {fuel : Nat} {s s' : St K} (h : step P fuel s = some s') :
    s'.hits.length = s.hits.length := by
  unfold step at h
  simp only [] at h
  split at h
  · cases h
  · simp only [Option.some.injEq] at h
    subst h
    simp [absorbAll_length]

theorem afterAbsorb_cases (r : Ray K) :
    afterAbsorb P r = r ∨ (afterAbsorb P r = r.withEnergy 0 ∧ P.eps < r.energy) := by
  unfold afterAbsorb
  split
  · left; rfl
  · rename_i h
    split
    · right; exact ⟨rfl, not_le.1 h⟩
    · left; rfl

theorem rayStep_dead {fuel : Nat} {r r' : Ray K} (h : RayStep P fuel r r') (he : r.energy ≤ P.eps) :
    r' = r := by
  unfold RayStep at h
  have : afterAbsorb P r = r := by
    unfold afterAbsorb
    rw [if_pos he]
  rw [this, moveRay_dead _ _ he] at h
  simpa using h.symm

theorem rayStep_energy {fuel : Nat} {r r' : Ray K} (h : RayStep P fuel r r')
    (heps : 0 ≤ P.eps) (ha : ∀ k, 0 ≤ P.absorption k) (h0 : 0 ≤ r.energy) :
    0 ≤ r'.energy ∧ r'.energy ≤ (afterAbsorb P r).energy ∧
      (afterAbsorb P r).energy ≤ r.energy := by
  unfold RayStep at h
  rcases afterAbsorb_cases (P := P) r with hc | ⟨hc, _⟩
  · rw [hc] at h ⊢
    have := moveRay_energy h heps ha h0
    exact ⟨this.1, this.2, le_refl _⟩
  · rw [hc] at h ⊢
    have := moveRay_energy h heps ha (le_refl _)
    exact ⟨this.1, this.2, h0⟩

theorem rayStep_vel {fuel : Nat} {r r' : Ray K} (h : RayStep P fuel r r')
    (hn : ∀ k, Vec3.normSq (P.geo.vn k) = 1) : Vec3.normSq r'.vel = Vec3.normSq r.vel := by
  have := moveRay_vel h hn
  rw [this]
  rcases afterAbsorb_cases (P := P) r with hc | ⟨hc, _⟩ <;> rw [hc]
  rfl

theorem rayStep_delta {fuel : Nat} {r r' : Ray K} (h : RayStep P fuel r r')
    (hd : r.delta = P.timeStep • r.vel) : r'.delta = P.timeStep • r'.vel := by
  apply moveRay_delta h
  rcases afterAbsorb_cases (P := P) r with hc | ⟨hc, _⟩ <;> rw [hc] <;> exact hd

theorem rayStep_pos {fuel : Nat} {r r' : Ray K} (h : RayStep P fuel r r') :
    r'.pos = r.pos ∨ (r'.pos = r.pos + r'.delta ∧ P.eps < r'.energy) := by
  have := moveRay_pos h
  rcases afterAbsorb_cases (P := P) r with hc | ⟨hc, _⟩ <;> rw [hc] at this <;> exact this

/-! ### Many steps -/

theorem steps_length {fuel n : Nat} {s : St K} {l : List (St K)} (h : steps P fuel n s = some l) :
    l.length = n + 1 := by
  induction n generalizing s l with
  | zero => simp only [steps, Option.some.injEq] at h; subst h; rfl
  | succ n ih =>
    rw [steps] at h
    split at h
    · cases h
    · split at h
      · cases h
      · rename_i hl
        simp only [Option.some.injEq] at h
        subst h
        simp [ih hl]

theorem steps_head {fuel n : Nat} {s : St K} {l : List (St K)} (h : steps P fuel n s = some l) :
    l[0]? = some s := by
  cases n with
  | zero => simp only [steps, Option.some.injEq] at h; subst h; rfl
  | succ n =>
    rw [steps] at h
    split at h
    · cases h
    · split at h
      · cases h
      · simp only [Option.some.injEq] at h
        subst h
        rfl

/-- Consecutive states are related by one step. -/
theorem steps_succ {fuel n : Nat} {s : St K} {l : List (St K)} (h : steps P fuel n s = some l) :
    ∀ (i : Nat) (a b : St K), l[i]? = some a → l[i + 1]? = some b → step P fuel a = some b := by
  induction n generalizing s l with
  | zero =>
    simp only [steps, Option.some.injEq] at h
    subst h
    intro i a b _ h2
    simp at h2
  | succ n ih =>
    rw [steps] at h
    split at h
    · cases h
    · rename_i s' hs
      split at h
      · cases h
      · rename_i l' hl
        simp only [Option.some.injEq] at h
        subst h
        intro i a b ha hb
        cases i with
        | zero =>
          simp only [List.getElem?_cons_zero, Option.some.injEq, zero_add,
            List.getElem?_cons_succ] at ha hb
          rw [steps_head hl] at hb
          simp only [Option.some.injEq] at hb
          rw [← ha, ← hb, hs]
        | succ i =>
          rw [List.getElem?_cons_succ] at ha hb
          exact ih hl i a b ha hb

/-- An invariant of single steps holds in all states. -/
theorem steps_invariant {fuel n : Nat} {s : St K} {l : List (St K)} (h : steps P fuel n s = some l)
    (I : St K → Prop) (h0 : I s) (hI : ∀ a b, I a → step P fuel a = some b → I b) :
    ∀ (i : Nat) (a : St K), l[i]? = some a → I a := by
  intro i
  induction i with
  | zero =>
    intro a ha
    rw [steps_head h] at ha
    simp only [Option.some.injEq] at ha
    rw [← ha]; exact h0
  | succ i ih =>
    intro a ha
    have hi : i < l.length := by
      have := (List.getElem?_eq_some_iff.1 ha).1
      omega
    obtain ⟨b, hb⟩ : ∃ b, l[i]? = some b := ⟨_, List.getElem?_eq_getElem hi⟩
    exact hI b a (ih b hb) (steps_succ h i b a hb ha)

/-- A reflexive and transitive relation kept by single steps holds between any two states. -/
theorem steps_relation {fuel n : Nat} {s : St K} {l : List (St K)} (h : steps P fuel n s = some l)
    (I : St K → Prop) (h0 : I s) (hI : ∀ a b, I a → step P fuel a = some b → I b)
    (R : St K → St K → Prop) (hrefl : ∀ a, I a → R a a) (htrans : ∀ a b c, R a b → R b c → R a c)
    (hR : ∀ a b, I a → step P fuel a = some b → R a b) :
    ∀ (i j : Nat) (a b : St K), i ≤ j → l[i]? = some a → l[j]? = some b → R a b := by
  intro i j a b hij ha hb
  induction j, hij using Nat.le_induction generalizing b with
  | base =>
    rw [ha] at hb
    simp only [Option.some.injEq] at hb
    subst hb
    exact hrefl a (steps_invariant h I h0 hI i a ha)
  | succ j hij ih =>
    have hj : j < l.length := by
      have := (List.getElem?_eq_some_iff.1 hb).1
      omega
    obtain ⟨c, hc⟩ : ∃ c, l[j]? = some c := ⟨_, List.getElem?_eq_getElem hj⟩
    exact htrans _ _ _ (ih c hc) (hR c b (steps_invariant h I h0 hI j c hc) (steps_succ h j c b hc hb))

/-- Rows and states. -/
theorem simulationLoop_states {fuel n : Nat} {a : Arrays K} {rows : List (Row K)}
    (h : simulationLoop P fuel n a = some rows) :
    ∃ l, steps P fuel n (start P a) = some l ∧ rows = l.map rowOf := by
  unfold simulationLoop at h
  rw [Option.map_eq_some_iff] at h
  obtain ⟨l, h1, h2⟩ := h
  exact ⟨l, h1, h2.symm⟩

theorem forall₂_getElem? {α β : Type} {R : α → β → Prop} {l : List α} {m : List β}
    (h : List.Forall₂ R l m) {i : Nat} {a : α} {b : β} (ha : l[i]? = some a) (hb : m[i]? = some b) :
    R a b := by
  induction h generalizing i with
  | nil => simp at ha
  | cons h1 h2 ih =>
    cases i with
    | zero =>
      simp only [List.getElem?_cons_zero, Option.some.injEq] at ha hb
      rw [← ha, ← hb]; exact h1
    | succ i =>
      rw [List.getElem?_cons_succ] at ha hb
      exact ih ha hb

end B3d.Sim
