import Verif.Spec.Output
import Verif.Proofs.Tactics
import Mathlib.Algebra.Order.BigOperators.Group.List

/-! # Lemmas about simulation results -/

namespace B3d.Output

set_option linter.unusedSectionVars false

/-! ### Impulse response -/

section response

variable {K : Type} [Field K] [LinearOrder K] [IsStrictOrderedRing K]

theorem foldl_max_spec (xs : List K) : ∀ x : K, (x ≤ xs.foldl max x ∧ ∀ y ∈ xs, y ≤ xs.foldl max x) ∧
    (xs.foldl max x = x ∨ xs.foldl max x ∈ xs) := by
  induction xs with
  | nil => intro x; simp
  | cons y ys ih =>
    intro x
    simp only [List.foldl_cons]
    obtain ⟨⟨h1, h2⟩, h3⟩ := ih (max x y)
    refine ⟨⟨le_trans (le_max_left x y) h1, ?_⟩, ?_⟩
    · intro z hz
      rcases List.mem_cons.1 hz with rfl | hz
      · exact le_trans (le_max_right _ _) h1
      · exact h2 z hz
    · rcases h3 with h3 | h3
      · rcases max_choice x y with h | h
        · left; rw [h3, h]
        · right; rw [h3, h]; exact List.mem_cons_self
      · right; exact List.mem_cons_of_mem _ h3

theorem maxOf_ok {l : List K} {s : K} (h : maxOf l = .ok s) : s ∈ l ∧ ∀ y ∈ l, y ≤ s := by
  cases l with
  | nil => simp [maxOf] at h
  | cons x xs =>
    simp only [maxOf, Except.ok.injEq] at h
    obtain ⟨⟨h1, h2⟩, h3⟩ := foldl_max_spec xs x
    rw [h] at h1 h2 h3
    refine ⟨?_, ?_⟩
    · rcases h3 with h3 | h3
      · rw [h3]; exact List.mem_cons_self
      · exact List.mem_cons_of_mem _ h3
    · intro y hy
      rcases List.mem_cons.1 hy with rfl | hy
      · exact h1
      · exact h2 y hy

theorem sum_div (l : List K) (s : K) : (l.map fun x => x / s).sum = l.sum / s := by
  induction l with
  | nil => simp
  | cons x xs ih => simp only [List.map_cons, List.sum_cons, ih]; ring

end response

/-! ### Trails -/

variable {α : Type}

theorem entry_ok {pb : List (List α)} {w t ray : Nat} (hr : Rect pb w) (ht : t < pb.length)
    (hw : ray < w) : ∃ x, entry pb t ray = .ok x ∧ at? pb t ray = some x := by
  have hl : (pb[t]).length = w := hr _ (List.getElem_mem _)
  refine ⟨(pb[t])[ray], ?_, ?_⟩
  · simp only [entry, List.getElem?_eq_getElem ht]
    rw [List.getElem?_eq_getElem (by omega)]
  · simp only [at?, List.getElem?_eq_getElem ht, Option.bind_some]
    rw [List.getElem?_eq_getElem (by omega)]

/-- The positions of a ray, at the given times. -/
def colAt (pb : List (List α)) (ray : Nat) (ts : List Nat) : List α := ts.filterMap fun t => at? pb t ray

theorem colAt_length {pb : List (List α)} {w ray : Nat} (hr : Rect pb w) (hw : ray < w) :
    ∀ ts : List Nat, (∀ t ∈ ts, t < pb.length) → (colAt pb ray ts).length = ts.length
  | [], _ => rfl
  | t :: ts, h => by
    obtain ⟨x, _, hx⟩ := entry_ok hr (h t List.mem_cons_self) hw
    have ih := colAt_length hr hw ts fun u hu => h u (List.mem_cons_of_mem _ hu)
    simp only [colAt, List.filterMap_cons, hx, List.length_cons] at ih ⊢
    rw [ih]

theorem colAt_get {pb : List (List α)} {w ray : Nat} (hr : Rect pb w) (hw : ray < w) :
    ∀ ts : List Nat, (∀ t ∈ ts, t < pb.length) → ∀ (k t : Nat), ts[k]? = some t →
      (colAt pb ray ts)[k]? = at? pb t ray
  | [], _, k, t, hk => by simp at hk
  | u :: ts, h, k, t, hk => by
    obtain ⟨x, _, hx⟩ := entry_ok hr (h u List.mem_cons_self) hw
    have ih := colAt_get hr hw ts fun u hu => h u (List.mem_cons_of_mem _ hu)
    have e : colAt pb ray (u :: ts) = x :: colAt pb ray ts := by
      simp only [colAt, List.filterMap_cons, hx]
    rw [e]
    cases k with
    | zero =>
      simp only [List.getElem?_cons_zero, Option.some.injEq] at hk
      subst hk
      rw [List.getElem?_cons_zero, hx]
    | succ k =>
      rw [List.getElem?_cons_succ] at hk ⊢
      exact ih k t hk

theorem trailLoop_eq {pb : List (List α)} {w ray : Nat} (hr : Rect pb w) (hw : ray < w) :
    ∀ (ts : List Nat), (∀ t ∈ ts, t < pb.length) → ∀ st : Lines α,
      trailLoop pb ray ts st = .ok ⟨st.varr ++ colAt pb ray ts,
        st.index ++ (List.range ts.length).map (fun i => st.curr + i), st.curr + ts.length⟩
  | [], _, st => by simp [trailLoop, colAt]
  | t :: ts, h, st => by
    obtain ⟨x, he, hx⟩ := entry_ok hr (h t List.mem_cons_self) hw
    have ih := trailLoop_eq hr hw ts fun u hu => h u (List.mem_cons_of_mem _ hu)
    simp only [trailLoop, he]
    rw [ih]
    have e : colAt pb ray (t :: ts) = x :: colAt pb ray ts := by
      simp only [colAt, List.filterMap_cons, hx]
    rw [e, List.length_cons, List.range_succ_eq_map]
    simp only [List.append_assoc, List.singleton_append, List.map_cons, List.map_map, Nat.add_zero]
    congr 2
    · congr 2
      apply List.map_congr_left
      intro i _
      simp only [Function.comp]
      omega
    · omega

/-- The trail of one ray, as indices. -/
def trailOf (len c : Nat) : List Nat := (List.range len).map fun i => c + i

/-- The trails of `n` rays from index `c` on. -/
def trailsFrom (len : Nat) : Nat → Nat → List (List Nat)
  | 0, _ => []
  | n + 1, c => trailOf len c :: trailsFrom len n (c + len)

theorem trailsFrom_length (len : Nat) : ∀ n c, (trailsFrom len n c).length = n
  | 0, _ => rfl
  | n + 1, c => by simp [trailsFrom, trailsFrom_length len n]

theorem trailsFrom_get (len : Nat) : ∀ n c r, r < n → (trailsFrom len n c)[r]? = some (trailOf len (c + r * len))
  | 0, _, r, h => by omega
  | n + 1, c, 0, _ => by simp [trailsFrom]
  | n + 1, c, r + 1, h => by
    simp only [trailsFrom, List.getElem?_cons_succ]
    rw [trailsFrom_get len n _ r (by omega)]
    congr 2
    ring

theorem trailsFrom_flatten (len : Nat) : ∀ n c, (trailsFrom len n c).flatten = List.range' c (n * len)
  | 0, c => by simp [trailsFrom]
  | n + 1, c => by
    rw [trailsFrom, List.flatten_cons, trailsFrom_flatten len n, trailOf, ← List.range'_eq_map_range,
      List.range'_append_1]
    congr 1
    ring

theorem raysLoop_eq {pb : List (List α)} {w : Nat} (hr : Rect pb w) :
    ∀ (rays : List Nat), (∀ r ∈ rays, r < w) → ∀ st : Lines α,
      raysLoop pb rays st = .ok ⟨st.varr ++ rays.flatMap (fun r => colAt pb r (List.range pb.length)),
        st.index ++ encode (trailsFrom pb.length rays.length st.curr), st.curr + rays.length * pb.length⟩
  | [], _, st => by simp [raysLoop, encode, trailsFrom]
  | r :: rays, h, st => by
    have ih := raysLoop_eq hr rays fun u hu => h u (List.mem_cons_of_mem _ hu)
    simp only [raysLoop]
    rw [trailLoop_eq hr (h r List.mem_cons_self) _ (fun t ht => List.mem_range.1 ht)]
    simp only []
    rw [ih]
    simp only [List.flatMap_cons, List.append_assoc, List.length_range, List.length_cons, trailsFrom, encode,
      trailOf, List.length_map, List.cons_append]
    congr 2
    ring

theorem flatMap_get {w : Nat} {n : Nat} {f : Nat → List α} :
    ∀ (rays : List Nat), (∀ r ∈ rays, (f r).length = n) → ∀ (k r t : Nat), rays[k]? = some r → t < n →
      (rays.flatMap f)[k * n + t]? = (f r)[t]?
  | [], _, k, r, t, hk, _ => by simp at hk
  | u :: rays, h, k, r, t, hk, ht => by
    have hu := h u List.mem_cons_self
    have ih := flatMap_get (w := w) rays fun u hu => h u (List.mem_cons_of_mem _ hu)
    rw [List.flatMap_cons]
    cases k with
    | zero =>
      simp only [List.getElem?_cons_zero, Option.some.injEq] at hk
      subst hk
      rw [Nat.zero_mul, Nat.zero_add, List.getElem?_append_left (by omega)]
    | succ k =>
      rw [List.getElem?_cons_succ] at hk
      rw [List.getElem?_append_right (by rw [hu, Nat.succ_mul]; omega), hu]
      have e : (k + 1) * n + t - n = k * n + t := by rw [Nat.succ_mul]; omega
      rw [e]
      exact ih k r t hk ht

theorem flatMap_len {n : Nat} {f : Nat → List α} :
    ∀ (rays : List Nat), (∀ r ∈ rays, (f r).length = n) → (rays.flatMap f).length = rays.length * n
  | [], _ => by simp
  | u :: rays, h => by
    rw [List.flatMap_cons, List.length_append, h u List.mem_cons_self,
      flatMap_len rays fun u hu => h u (List.mem_cons_of_mem _ hu), List.length_cons]
    ring

/-- The points of the trails. -/
def trailPoints (pb : List (List α)) (n : Nat) : List α :=
  (List.range n).flatMap fun r => colAt pb r (List.range pb.length)

theorem bufferToLines_eq {pb : List (List α)} {n : Nat} (hr : Rect pb n) :
    bufferToLines pb n = .ok (trailPoints pb n, encode (trailsFrom pb.length n 0)) := by
  simp only [bufferToLines]
  rw [raysLoop_eq hr _ (fun r h => List.mem_range.1 h)]
  simp [trailPoints]

theorem trails_are {pb : List (List α)} {n : Nat} (hr : Rect pb n) :
    AreTrails pb n (trailPoints pb n) (trailsFrom pb.length n 0) := by
  have hc : ∀ r ∈ List.range n, (colAt pb r (List.range pb.length)).length = pb.length := by
    intro r h
    rw [colAt_length hr (List.mem_range.1 h) _ (fun t ht => List.mem_range.1 ht), List.length_range]
  have hlen : (trailPoints pb n).length = n * pb.length := by
    rw [trailPoints, flatMap_len _ hc, List.length_range]
  refine ⟨trailsFrom_length _ _ _, hlen, ?_, ?_⟩
  · rw [trailsFrom_flatten]; exact List.nodup_range'
  intro r h
  refine ⟨_, trailsFrom_get _ _ _ _ h, by simp [trailOf], ?_⟩
  intro t ht
  refine ⟨0 + r * pb.length + t, by simp [trailOf, ht], ?_, ?_⟩
  · rw [hlen]
    have : (r + 1) * pb.length ≤ n * pb.length := Nat.mul_le_mul_right _ h
    rw [Nat.succ_mul] at this
    omega
  · rw [Nat.zero_add, trailPoints, flatMap_get (w := n) _ hc r r t (by simp [h]) ht]
    exact colAt_get hr h _ (fun t ht => List.mem_range.1 ht) t t (by simp [ht])

theorem column_eq {pb : List (List α)} {w ray : Nat} (hr : Rect pb w) (hw : ray < w) :
    ∀ ts : List Nat, (∀ t ∈ ts, t < pb.length) → column pb ray ts = .ok (colAt pb ray ts)
  | [], _ => rfl
  | t :: ts, h => by
    obtain ⟨x, he, hx⟩ := entry_ok hr (h t List.mem_cons_self) hw
    simp only [column, he, column_eq hr hw ts fun u hu => h u (List.mem_cons_of_mem _ hu)]
    simp only [colAt, List.filterMap_cons, hx]

theorem plotLoop_eq {pb : List (List α)} {w : Nat} (hr : Rect pb w) :
    ∀ (rays : List Nat), (∀ r ∈ rays, r < w) → ∀ (curr : Nat) (verts : List α) (lines : List (List Nat)),
      plotLoop pb rays curr verts lines =
        .ok (verts ++ rays.flatMap (fun r => colAt pb r (List.range pb.length)),
          lines ++ trailsFrom pb.length rays.length curr)
  | [], _, curr, verts, lines => by simp [plotLoop, trailsFrom]
  | r :: rays, h, curr, verts, lines => by
    simp only [plotLoop]
    rw [column_eq hr (h r List.mem_cons_self) _ (fun t ht => List.mem_range.1 ht)]
    simp only []
    rw [plotLoop_eq hr rays fun u hu => h u (List.mem_cons_of_mem _ hu)]
    simp [trailsFrom, trailOf]

theorem getLines_eq {pb : List (List α)} {n : Nat} (hr : Rect pb n) :
    getLines pb n = if n * pb.length = 0 then .error .valueError
      else .ok (trailPoints pb n, trailsFrom pb.length n 0) := by
  simp only [getLines]
  rw [plotLoop_eq hr _ (fun r h => List.mem_range.1 h)]
  simp only [List.nil_append, List.length_range]
  have := (trails_are hr).2.1
  rw [trailPoints] at this
  rw [this]
  rfl

/-! ### Movie -/

theorem window_eq (pb : List (List α)) (L i : Nat) : window pb L i = (pb.take i).drop (i - L) := by
  simp only [window]
  split
  · congr 1; omega
  · rfl

theorem window_len (pb : List (List α)) {L i : Nat} (hi : i ≤ pb.length) :
    (window pb L i).length = min i L := by
  rw [window_eq, List.length_drop, List.length_take]
  omega

theorem window_get (pb : List (List α)) {L i k : Nat} (hk : k < min i L) :
    (window pb L i)[k]? = pb[i - min i L + k]? := by
  rw [window_eq, List.getElem?_drop, List.getElem?_take]
  have e : i - L = i - min i L := by omega
  rw [e, if_pos (by omega)]

theorem window_last (pb : List (List α)) {L i : Nat} (hi : i ≤ pb.length) (h1 : 1 ≤ i) (hL : 1 ≤ L) :
    (window pb L i).getLast? = pb[i - 1]? := by
  rw [List.getLast?_eq_getElem?, window_len pb hi, window_get pb (by omega)]
  congr 1
  omega

theorem rect_window {pb : List (List α)} {n : Nat} (hr : Rect pb n) (L i : Nat) :
    Rect (window pb L i) n := by
  intro r h
  rw [window_eq] at h
  exact hr r (List.mem_of_mem_take (List.mem_of_mem_drop h))

variable {β : Type}

theorem frameLoop_get {pos : List (List α)} {enr : List (List β)} {n L : Nat} :
    ∀ (is : List Nat) (fs : List (Frame α β)), frameLoop pos enr n L is = .ok fs →
      fs.length = is.length ∧
      ∀ (k i : Nat), is[k]? = some i → ∃ f, fs[k]? = some f ∧ frame pos enr n L i = .ok f
  | [], fs, h => by
    simp only [frameLoop, Except.ok.injEq] at h
    subst h
    exact ⟨rfl, fun k i hk => by simp at hk⟩
  | j :: is, fs, h => by
    simp only [frameLoop] at h
    cases hf : frame pos enr n L j with
    | error e => rw [hf] at h; cases h
    | ok f =>
      rw [hf] at h
      simp only at h
      cases hl : frameLoop pos enr n L is with
      | error e => rw [hl] at h; cases h
      | ok fs' =>
        rw [hl] at h
        simp only [Except.ok.injEq] at h
        subst h
        obtain ⟨h1, h2⟩ := frameLoop_get is fs' hl
        refine ⟨by simp [h1], ?_⟩
        intro k i hk
        cases k with
        | zero =>
          simp only [List.getElem?_cons_zero, Option.some.injEq] at hk
          subst hk
          exact ⟨f, rfl, hf⟩
        | succ k =>
          rw [List.getElem?_cons_succ] at hk
          exact h2 k i hk

theorem frameLoop_ok {pos : List (List α)} {enr : List (List β)} {n L : Nat} :
    ∀ (is : List Nat), (∀ i ∈ is, ∃ f, frame pos enr n L i = .ok f) →
      ∃ fs, frameLoop pos enr n L is = .ok fs
  | [], _ => ⟨[], rfl⟩
  | j :: is, h => by
    obtain ⟨f, hf⟩ := h j List.mem_cons_self
    obtain ⟨fs, hfs⟩ := frameLoop_ok is fun i hi => h i (List.mem_cons_of_mem _ hi)
    exact ⟨f :: fs, by simp [frameLoop, hf, hfs]⟩

theorem flatten_get {n : Nat} : ∀ (rows : List (List β)), Rect rows n → ∀ t r, t < rows.length → r < n →
    rows.flatten[t * n + r]? = at? rows t r
  | [], _, t, r, ht, _ => by simp at ht
  | row :: rows, h, t, r, ht, hr => by
    have hl := h row List.mem_cons_self
    rw [List.flatten_cons]
    cases t with
    | zero =>
      rw [Nat.zero_mul, Nat.zero_add, List.getElem?_append_left (by omega)]
      rfl
    | succ t =>
      rw [List.getElem?_append_right (by rw [hl, Nat.succ_mul]; omega), hl]
      have e : (t + 1) * n + r - n = t * n + r := by rw [Nat.succ_mul]; omega
      rw [e, flatten_get rows (fun r hr => h r (List.mem_cons_of_mem _ hr)) t r (by simpa using ht) hr]
      rfl

theorem frame_eq {pos : List (List α)} {enr : List (List β)} {n L i : Nat} (hp : Rect pos n)
    (hlen : pos.length = enr.length) (h1 : 1 ≤ i) (hi : i ≤ pos.length) (hL : 1 ≤ L) :
    ∃ p e, pos[i - 1]? = some p ∧ enr[i - 1]? = some e ∧ frame pos enr n L i =
      .ok ⟨p, e, (trailPoints (window pos L i) n, encode (trailsFrom (window pos L i).length n 0)),
        (window enr L i).flatten⟩ := by
  refine ⟨pos[i - 1], enr[i - 1], List.getElem?_eq_getElem (by omega),
    List.getElem?_eq_getElem (by omega), ?_⟩
  simp only [frame]
  rw [window_last pos hi h1 hL, window_last enr (by omega) h1 hL, List.getElem?_eq_getElem (by omega),
    List.getElem?_eq_getElem (by omega)]
  simp only [bufferToLines_eq (rect_window hp L i)]

end B3d.Output
