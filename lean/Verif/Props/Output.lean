import Verif.Proofs.Output

/-! # Impulse response, trails and movie frames: C57, C58, C69 -/

namespace B3d.Output

set_option linter.unusedSectionVars false

/-! ### C57: impulse response

The full property: one row for each time step, row `k` at time `k * time_step`, values normalised to at
most 1.  The times are wrong: `np.linspace(0, N * dt, N)` includes the end, so the rows are
`N * dt / (N - 1)` apart (`C57_time_wrong`). -/

section response

variable {K : Type} [Field K] [LinearOrder K] [IsStrictOrderedRing K]

/-- **C57 (values).**  Of a buffer of non-negative hits: one column for each absorber, one value for each
row, all values are the hits divided by the same positive number, are between 0 and 1, and the column sums
are at most 1, one of them exactly 1. -/
theorem C57_normalised_partial {rows : List (List K)} {width : Nat} {dt : K} {r : Response K}
    (hr : Rect rows width) (h0 : ∀ row ∈ rows, ∀ x ∈ row, 0 ≤ x)
    (h : impulseResponse rows width dt = .ok r) :
    r.time.length = rows.length ∧ r.columns.length = width ∧
    (∃ s, 0 < s ∧ ∀ an, an < width → ∃ c, r.columns[an]? = some c ∧ c.length = rows.length ∧
      ∀ k, k < rows.length → ∃ x, at? rows k an = some x ∧ c[k]? = some (x / s)) ∧
    (∀ c ∈ r.columns, c.sum ≤ 1 ∧ ∀ x ∈ c, 0 ≤ x ∧ x ≤ 1) ∧
    ∃ c ∈ r.columns, c.sum = 1 := by
  simp only [impulseResponse] at h
  cases hm : maxOf ((List.range width).map (colSum rows)) with
  | error e => rw [hm] at h; cases h
  | ok s =>
    rw [hm] at h
    simp only at h
    split at h
    · rename_i hs
      simp only [Except.ok.injEq] at h
      subst h
      obtain ⟨hmem, hmax⟩ := maxOf_ok hm
      have hcol : ∀ an, an < width → ∀ x ∈ rows.map (fun r => r.getD an 0), 0 ≤ x := by
        intro an han x hx
        obtain ⟨row, hrow, rfl⟩ := List.mem_map.1 hx
        have hl := hr row hrow
        rw [List.getD_eq_getElem?_getD, List.getElem?_eq_getElem (by omega)]
        exact h0 row hrow _ (List.getElem_mem _)
      have hsum : ∀ an, (rows.map fun r => r.getD an 0 / s).sum = colSum rows an / s := by
        intro an
        rw [colSum, ← sum_div, List.map_map]
        rfl
      refine ⟨by simp [linspace], by simp, ⟨s, hs, ?_⟩, ?_, ?_⟩
      · intro an han
        refine ⟨rows.map fun r => r.getD an 0 / s, by simp [han], by simp, ?_⟩
        intro k hk
        have hl := hr _ (List.getElem_mem hk)
        refine ⟨(rows[k])[an], ?_, ?_⟩
        · simp [at?, hk, hl, han]
        · simp [hk, hl, han]
      · intro c hc
        obtain ⟨an, han, rfl⟩ := List.mem_map.1 hc
        rw [List.mem_range] at han
        have hle : colSum rows an ≤ s := hmax _ (List.mem_map.2 ⟨an, List.mem_range.2 han, rfl⟩)
        refine ⟨?_, ?_⟩
        · rw [hsum]; exact (div_le_one hs).2 hle
        · intro x hx
          obtain ⟨row, hrow, rfl⟩ := List.mem_map.1 hx
          have hin : row.getD an 0 ∈ rows.map (fun r => r.getD an 0) := List.mem_map.2 ⟨row, hrow, rfl⟩
          refine ⟨div_nonneg (hcol an han _ hin) hs.le, (div_le_one hs).2 ?_⟩
          exact le_trans (List.single_le_sum (hcol an han) _ hin) hle
      · obtain ⟨an, han, he⟩ := List.mem_map.1 hmem
        refine ⟨_, List.mem_map.2 ⟨an, han, rfl⟩, ?_⟩
        rw [hsum, he, div_self hs.ne']
    · cases h

/-- **C57 (errors).**  Without absorbers the result is `ValueError`; with absorbers the call succeeds exactly
if some absorber was hit (some column sum is positive), and raises `AssertionError` otherwise. -/
theorem C57_errors (rows : List (List K)) (width : Nat) (dt : K) :
    (width = 0 → impulseResponse rows width dt = .error .valueError) ∧
    (0 < width → (∃ an, an < width ∧ 0 < (rows.map fun r => r.getD an 0).sum) →
      ∃ r, impulseResponse rows width dt = .ok r) ∧
    (0 < width → (∀ an, an < width → (rows.map fun r => r.getD an 0).sum ≤ 0) →
      impulseResponse rows width dt = .error .assertionError) := by
  have hpos : 0 < width → ∃ s, maxOf ((List.range width).map (colSum rows)) = .ok s := by
    intro h
    cases hl : (List.range width).map (colSum rows) with
    | nil =>
      have := congrArg List.length hl
      simp at this
      omega
    | cons x xs => exact ⟨_, rfl⟩
  refine ⟨?_, ?_, ?_⟩
  · rintro rfl
    simp [impulseResponse, maxOf]
  · rintro h ⟨an, han, hs⟩
    obtain ⟨s, hm⟩ := hpos h
    have := (maxOf_ok hm).2 _ (List.mem_map.2 ⟨an, List.mem_range.2 han, rfl⟩)
    simp only [impulseResponse, hm]
    rw [if_pos (lt_of_lt_of_le hs this)]
    exact ⟨_, rfl⟩
  · intro h hs
    obtain ⟨s, hm⟩ := hpos h
    obtain ⟨an, han, he⟩ := List.mem_map.1 (maxOf_ok hm).1
    simp only [impulseResponse, hm]
    rw [if_neg]
    rw [← he]
    exact not_lt.2 (hs an (List.mem_range.1 han))

/-- **C57 (times).**  The first row is at time 0, the last at `N * dt`, and the rows are equally spaced. -/
theorem C57_time {rows : List (List K)} {width : Nat} {dt : K} {r : Response K}
    (h : impulseResponse rows width dt = .ok r) :
    (rows.length = 1 → r.time = [0]) ∧
    (2 ≤ rows.length → ∀ k, k < rows.length →
      r.time[k]? = some ((k : K) * (((rows.length : K) * dt) / ((rows.length : K) - 1)))) := by
  simp only [impulseResponse] at h
  cases hm : maxOf ((List.range width).map (colSum rows)) with
  | error e => rw [hm] at h; cases h
  | ok s =>
    rw [hm] at h
    simp only at h
    split at h
    · simp only [Except.ok.injEq] at h
      subst h
      refine ⟨?_, ?_⟩
      · intro h1
        simp [linspace, h1]
      · intro h2 k hk
        have h1 : rows.length ≠ 1 := by omega
        simp [linspace, hk, h1]
    · cases h

/-- **C57 (disagreement).**  With at least two rows no row but the first is at a multiple of the time step
equal to its number. -/
theorem C57_time_wrong {rows : List (List K)} {width : Nat} {dt : K} {r : Response K} (hdt : dt ≠ 0)
    (h : impulseResponse rows width dt = .ok r) (h2 : 2 ≤ rows.length) (k : Nat) (hk : k < rows.length)
    (hk0 : 0 < k) : r.time[k]? ≠ some ((k : K) * dt) := by
  rw [(C57_time h).2 h2 k hk]
  intro he
  rw [Option.some.injEq] at he
  have hn : (2 : K) ≤ (rows.length : K) := by exact_mod_cast h2
  have hk' : (k : K) ≠ 0 := by exact_mod_cast hk0.ne'
  have hn1 : (rows.length : K) - 1 ≠ 0 := by
    have : (0 : K) < (rows.length : K) - 1 := by linarith
    exact this.ne'
  have h3 := mul_left_cancel₀ hk' he
  rw [div_eq_iff hn1] at h3
  have : dt = 0 := by linear_combination h3
  exact hdt this

-- Two absorbers, three steps.
example : impulseResponse (K := ℚ) [[1, 0], [2, 1], [1, 0]] 2 (1/10) =
    .ok ⟨[0, 3/20, 3/10], [[1/4, 1/2, 1/4], [0, 1/4, 0]]⟩ := by decide +kernel
example : Rect [[1, 0], [2, 1], [1, 0]] 2 := by unfold Rect; decide

end response

/-! ### C58: trails -/

variable {α β : Type}

/-- **C58 (movie).**  For every buffer, the arrays encode one polyline for each ray, which visits the
positions of that ray in time order. -/
theorem C58_lines {pb : List (List α)} {numRays : Nat} (hr : Rect pb numRays) :
    ∃ verts lines, bufferToLines pb numRays = .ok (verts, encode lines) ∧
      AreTrails pb numRays verts lines :=
  ⟨_, _, bufferToLines_eq hr, trails_are hr⟩

/-- **C58 (plotter).**  The same for `RayBuffPlotter`, whose lines are arrays of indices; without rays or
rows it raises `ValueError`. -/
theorem C58_plot {pb : List (List α)} {numRays : Nat} (hr : Rect pb numRays) :
    (0 < numRays → 0 < pb.length → ∃ verts lines, getLines pb numRays = .ok (verts, lines) ∧
      AreTrails pb numRays verts lines) ∧
    ((numRays = 0 ∨ pb = []) → getLines pb numRays = .error .valueError) := by
  refine ⟨fun h1 h2 => ⟨_, _, ?_, trails_are hr⟩, ?_⟩
  · rw [getLines_eq hr, if_neg (by have := Nat.mul_pos h1 h2; omega)]
  · intro h
    rw [getLines_eq hr, if_pos]
    rcases h with rfl | rfl <;> simp

theorem entry_outside {pb : List (List α)} {width t ray : Nat} (hr : Rect pb width) (ht : t < pb.length) :
    (ray < width → ∃ x, entry pb t ray = .ok x) ∧ (width ≤ ray → entry pb t ray = .error .indexError) := by
  have hl := hr _ (List.getElem_mem ht)
  refine ⟨fun h => ⟨(pb[t])[ray], ?_⟩, fun h => ?_⟩
  · simp [entry, ht, hl, h]
  · simp [entry, ht, hl, h]

theorem trailLoop_outside {pb : List (List α)} {width ray : Nat} (hr : Rect pb width) :
    ∀ (ts : List Nat) (st : Lines α), (∀ t ∈ ts, t < pb.length) →
      (ray < width → ∃ st', trailLoop pb ray ts st = .ok st') ∧
      (width ≤ ray → ts ≠ [] → trailLoop pb ray ts st = .error .indexError)
  | [], st, _ => ⟨fun _ => ⟨st, rfl⟩, fun _ h => absurd rfl h⟩
  | t :: ts, st, h => by
    obtain ⟨h1, h2⟩ := entry_outside (ray := ray) hr (h t List.mem_cons_self)
    refine ⟨fun hw => ?_, fun hw _ => by rw [trailLoop, h2 hw]⟩
    obtain ⟨x, hx⟩ := h1 hw
    rw [trailLoop, hx]
    exact (trailLoop_outside hr ts _ fun t ht => h t (List.mem_cons_of_mem _ ht)).1 hw

theorem column_outside {pb : List (List α)} {width ray : Nat} (hr : Rect pb width) :
    ∀ ts : List Nat, (∀ t ∈ ts, t < pb.length) →
      (ray < width → ∃ c, column pb ray ts = .ok c) ∧
      (width ≤ ray → ts ≠ [] → column pb ray ts = .error .indexError)
  | [], _ => ⟨fun _ => ⟨[], rfl⟩, fun _ h => absurd rfl h⟩
  | t :: ts, h => by
    obtain ⟨h1, h2⟩ := entry_outside (ray := ray) hr (h t List.mem_cons_self)
    refine ⟨fun hw => ?_, fun hw _ => by rw [column, h2 hw]⟩
    obtain ⟨x, hx⟩ := h1 hw
    obtain ⟨c, hc⟩ := (column_outside hr ts fun t ht => h t (List.mem_cons_of_mem _ ht)).1 hw
    exact ⟨x :: c, by rw [column, hx]; simp only [hc]⟩

/-- **C58, too many rays.**  If more rays are asked for than the buffer holds, both raise `IndexError`. -/
theorem C58_too_many_rays {pb : List (List α)} {width numRays : Nat} (hr : Rect pb width) (hne : pb ≠ [])
    (hn : width < numRays) :
    bufferToLines pb numRays = .error .indexError ∧ getLines pb numRays = .error .indexError := by
  have hts : ∀ t ∈ List.range pb.length, t < pb.length := fun t ht => List.mem_range.1 ht
  have hr0 : List.range pb.length ≠ [] := by simpa using hne
  have l1 : ∀ (rays : List Nat) (st : Lines α), (∃ ray ∈ rays, width ≤ ray) →
      raysLoop pb rays st = .error .indexError := by
    intro rays
    induction rays with
    | nil => rintro st ⟨_, h, _⟩; cases h
    | cons ray rays ih =>
      intro st h
      obtain ⟨t1, t2⟩ := trailLoop_outside (ray := ray) hr _ { st with index := st.index ++ [pb.length] } hts
      rw [raysLoop]
      rcases lt_or_ge ray width with hw | hw
      · obtain ⟨st', hst⟩ := t1 hw
        rw [hst]
        obtain ⟨x, hx, hx'⟩ := h
        rcases List.mem_cons.1 hx with rfl | hx
        · omega
        · exact ih _ ⟨x, hx, hx'⟩
      · rw [t2 hw hr0]
  have l2 : ∀ (rays : List Nat) (curr : Nat) (verts : List α) (lines : List (List Nat)), (∃ ray ∈ rays, width ≤ ray) →
      plotLoop pb rays curr verts lines = .error .indexError := by
    intro rays
    induction rays with
    | nil => rintro _ _ _ ⟨_, h, _⟩; cases h
    | cons ray rays ih =>
      intro curr verts lines h
      obtain ⟨t1, t2⟩ := column_outside (ray := ray) hr _ hts
      rw [plotLoop]
      rcases lt_or_ge ray width with hw | hw
      · obtain ⟨st', hst⟩ := t1 hw
        rw [hst]
        obtain ⟨x, hx, hx'⟩ := h
        rcases List.mem_cons.1 hx with rfl | hx
        · omega
        · exact ih _ _ _ ⟨x, hx, hx'⟩
      · rw [t2 hw hr0]
  have hk : ∃ ray ∈ List.range numRays, width ≤ ray := ⟨width, List.mem_range.2 hn, le_rfl⟩
  constructor
  · rw [bufferToLines, l1 _ _ hk]
  · rw [getLines, l2 _ _ _ _ hk]

-- Three times, two rays.
example : bufferToLines [["a0", "b0"], ["a1", "b1"], ["a2", "b2"]] 2 =
    .ok (["a0", "a1", "a2", "b0", "b1", "b2"], [3, 0, 1, 2, 3, 3, 4, 5]) := by decide +kernel
example : getLines [["a0", "b0"], ["a1", "b1"]] 2 =
    .ok (["a0", "a1", "b0", "b1"], [[0, 1], [2, 3]]) := by decide +kernel
example : Rect [["a0", "b0"], ["a1", "b1"]] 2 := by unfold Rect; decide

/-! ### C69: movie frames

The full property: frame after frame, the movie shows the rays at consecutive times with trails of the
configured length, and each point, also those of the trails, is coloured by the energy that ray had at that
time.  The colours of the trails are wrong when there are two rays or more and two times or more
(`C69_colours_wrong`): the points are listed ray by ray, the energies time by time. -/

/-- `f` shows time `i`: the rays and their energies at that time and the trails of the last `len` rows up
to that time. -/
def Shows (pos : List (List α)) (enr : List (List β)) (numRays len i : Nat) (f : Frame α β) : Prop :=
  pos[i]? = some f.points ∧ enr[i]? = some f.pointColours ∧
  ∃ lines, f.trails.2 = encode lines ∧
    AreTrails ((pos.take (i + 1)).drop (i + 1 - len)) numRays f.trails.1 lines

/-- **C69 (frames).**  The movie of `N` steps has `N - 2` frames, and frame `k` shows time `k + 1`.
(The first row and the last row are not shown.) -/
theorem C69_frames_partial {pos : List (List α)} {enr : List (List β)} {numRays trail : Nat}
    (hp : Rect pos numRays) (hlen : pos.length = enr.length) (ht : 1 ≤ trail) :
    ∃ fs, movie pos enr numRays trail = .ok fs ∧ fs.length = pos.length - 2 ∧
      ∀ k, k < fs.length → ∃ f, fs[k]? = some f ∧ Shows pos enr numRays trail (k + 1) f := by
  have hall : ∀ i ∈ (List.range pos.length).drop 1, ∃ f, frame pos enr numRays trail i = .ok f := by
    intro i hi
    obtain ⟨j, hj, rfl⟩ := List.mem_iff_getElem.1 hi
    simp only [List.length_drop, List.length_range] at hj
    obtain ⟨p, e, _, _, hf⟩ := frame_eq (L := trail) (i := 1 + j) hp hlen (by omega) (by omega) ht
    exact ⟨_, by simpa using hf⟩
  obtain ⟨fs, hfs⟩ := frameLoop_ok _ hall
  obtain ⟨h1, h2⟩ := frameLoop_get _ _ hfs
  refine ⟨fs.drop 1, ?_, ?_, ?_⟩
  · simp only [movie]
    rw [if_neg (by simp [hlen]), hfs]
  · simp only [List.length_drop, h1, List.length_range]
    omega
  · intro k hk
    simp only [List.length_drop, h1, List.length_range] at hk
    obtain ⟨f, hf1, hf2⟩ := h2 (k + 1) (k + 2) (by
      rw [List.getElem?_drop, List.getElem?_range (by omega)]
      congr 1
      omega)
    refine ⟨f, ?_, ?_⟩
    · rw [List.getElem?_drop, Nat.add_comm]; exact hf1
    · obtain ⟨p, e, hp1, he1, hf⟩ := frame_eq (L := trail) (i := k + 2) hp hlen (by omega) (by omega) ht
      rw [hf2, Except.ok.injEq] at hf
      subst hf
      refine ⟨hp1, he1, _, rfl, ?_⟩
      have hw : (pos.take (k + 1 + 1)).drop (k + 1 + 1 - trail) = window pos trail (k + 2) :=
        (window_eq _ _ _).symm
      rw [hw]
      exact trails_are (rect_window hp _ _)

/-- Frames of a movie are frames of its loop. -/
theorem movie_frame {pos : List (List α)} {enr : List (List β)} {numRays trail : Nat} {fs : List (Frame α β)}
    (h : movie pos enr numRays trail = .ok fs) (k : Nat) {f : Frame α β} (hk : fs[k]? = some f) :
    pos.length = enr.length ∧ k + 2 < pos.length ∧ frame pos enr numRays trail (k + 2) = .ok f := by
  simp only [movie] at h
  split at h
  · cases h
  · rename_i hl
    cases hL : frameLoop pos enr numRays trail ((List.range pos.length).drop 1) with
    | error e => rw [hL] at h; cases h
    | ok gs =>
      rw [hL] at h
      simp only [Except.ok.injEq] at h
      subst h
      obtain ⟨h1, h2⟩ := frameLoop_get _ _ hL
      rw [List.getElem?_drop] at hk
      have hlt := (List.getElem?_eq_some_iff.1 hk).1
      simp only [h1, List.length_drop, List.length_range] at hlt
      obtain ⟨g, hg1, hg2⟩ := h2 (k + 1) (k + 2) (by
        rw [List.getElem?_drop, List.getElem?_range (by omega)]
        congr 1
        omega)
      rw [Nat.add_comm] at hk
      rw [hk, Option.some.injEq] at hg1
      subst hg1
      exact ⟨by simpa using hl, by omega, hg2⟩

/-- **C69 (colours of the trails, one ray or trails of one point).**  The colour attached to each point of a
trail is the energy of the ray at the time of the point: `lines` are the trails, and the colour at the index
of time `t` in the trail of ray `r` is the energy of `r` at that time. -/
theorem C69_colours_partial {pos : List (List α)} {enr : List (List β)} {numRays trail k : Nat}
    {fs : List (Frame α β)} {f : Frame α β} (hp : Rect pos numRays) (he : Rect enr numRays)
    (ht : 1 ≤ trail) (h : movie pos enr numRays trail = .ok fs) (hk : fs[k]? = some f)
    (h1 : numRays = 1 ∨ trail = 1) :
    ∃ lines, f.trails.2 = encode lines ∧
      ∀ r t, r < numRays → t < min (k + 2) trail → ∃ l i, lines[r]? = some l ∧ l[t]? = some i ∧
        f.colours[i]? = at? ((enr.take (k + 2)).drop (k + 2 - trail)) t r := by
  obtain ⟨hlen, hlt, hf⟩ := movie_frame h k hk
  obtain ⟨p, e, _, _, hf'⟩ := frame_eq (L := trail) (i := k + 2) hp hlen (by omega) (by omega) ht
  rw [hf, Except.ok.injEq] at hf'
  subst hf'
  refine ⟨_, rfl, ?_⟩
  intro r t hr ht'
  have hwl := window_len pos (L := trail) (i := k + 2) (by omega)
  have hwe := window_len enr (L := trail) (i := k + 2) (by omega)
  refine ⟨_, r * (window pos trail (k + 2)).length + t, trailsFrom_get _ _ _ _ hr, ?_, ?_⟩
  · simp [trailOf, hwl, ht']
  · have hw : (enr.take (k + 2)).drop (k + 2 - trail) = window enr trail (k + 2) := (window_eq _ _ _).symm
    rw [hw, ← flatten_get _ (rect_window he _ _) t r (by omega) hr]
    congr 1
    rw [hwl]
    rcases h1 with rfl | rfl
    · have : r = 0 := by omega
      subst this
      omega
    · have : t = 0 := by omega
      subst this
      have : min (k + 2) 1 = 1 := by omega
      rw [this]
      omega

/-- **C69 (disagreement).**  With two rays or more and trails of two points or more, in every frame the
second point of the trail of the first ray gets the colour of the second ray at the time of the first
point. -/
theorem C69_colours_wrong {pos : List (List α)} {enr : List (List β)} {numRays trail k : Nat}
    {fs : List (Frame α β)} {f : Frame α β} (hp : Rect pos numRays) (he : Rect enr numRays)
    (hn : 2 ≤ numRays) (ht : 2 ≤ trail) (h : movie pos enr numRays trail = .ok fs) (hk : fs[k]? = some f) :
    f.trails.1[1]? = at? pos (k + 2 - trail + 1) 0 ∧ f.colours[1]? = at? enr (k + 2 - trail) 1 := by
  obtain ⟨hlen, hlt, hf⟩ := movie_frame h k hk
  obtain ⟨p, e, _, _, hf'⟩ := frame_eq (L := trail) (i := k + 2) hp hlen (by omega) (by omega) (by omega)
  rw [hf, Except.ok.injEq] at hf'
  subst hf'
  have hwl := window_len pos (L := trail) (i := k + 2) (by omega)
  have hwe := window_len enr (L := trail) (i := k + 2) (by omega)
  refine ⟨?_, ?_⟩
  · obtain ⟨_, _, _, hT⟩ := trails_are (rect_window hp trail (k + 2))
    obtain ⟨l, hl, _, hl2⟩ := hT 0 (by omega)
    obtain ⟨i, hi, _, hi2⟩ := hl2 1 (by omega)
    rw [trailsFrom_get _ _ _ _ (by omega), Option.some.injEq] at hl
    subst hl
    have : i = 1 := by
      rw [trailOf, List.getElem?_map, List.getElem?_range (by omega)] at hi
      simpa using hi.symm
    subst this
    rw [hi2, at?, window_get pos (by omega), at?]
    congr 2
    omega
  · have := flatten_get _ (rect_window he trail (k + 2)) 0 1 (by omega) (by omega)
    rw [Nat.zero_mul, Nat.zero_add] at this
    show (window enr trail (k + 2)).flatten[1]? = _
    rw [this, at?, window_get enr (by omega), at?]
    congr 2
    omega

/-- A small movie: two rays, three steps. -/
def samplePos : List (List String) := [["a0", "b0"], ["a1", "b1"], ["a2", "b2"]]

example : (match movie samplePos [[10, 20], [11, 21], [12, 22]] 2 5 with
    | .ok fs => fs.map fun f => (f.points, f.pointColours, f.trails, f.colours)
    | .error _ => []) =
    [(["a1", "b1"], [11, 21], (["a0", "a1", "b0", "b1"], [2, 0, 1, 2, 2, 3]), [10, 20, 11, 21])] := by
  decide +kernel

end B3d.Output
