import Verif.Model.Mesh
import Verif.Proofs.Tactics

/-! # Lemmas about stacking meshes -/

namespace B3d.Mesh

open B3d.Triangles (Tri)
open B3d.Tree

variable {P : Type}

theorem setRow_append {α : Type} (A B : List α) (b v : α) :
    setRow (A ++ b :: B) A.length v = .ok (A ++ v :: B) := by
  unfold setRow
  rw [if_pos (by simp)]
  simp

/-- Rows after the first of a part. -/
theorem fillRows_succ {α : Type} (i prev : Nat) (f : α → α) (rows : List α) :
    ∀ (j offset : Nat) (A B C : List α), A.length = j + 1 + offset → B.length = rows.length →
      fillRows i prev f (j + 1) rows (A ++ B ++ C, offset) =
        .ok (A ++ rows.map f ++ C, offset) := by
  induction rows with
  | nil =>
    intro j offset A B C hA hB
    have : B = [] := by simpa using hB
    subst this
    simp [fillRows]
  | cons r rows ih =>
    intro j offset A B C hA hB
    obtain _ | ⟨b, B⟩ := B
    · simp at hB
    · have hB' : B.length = rows.length := by simpa using hB
      have hs := setRow_append A (B ++ C) b (f r)
      have e1 : A ++ b :: B ++ C = A ++ b :: (B ++ C) := by simp
      rw [fillRows, e1]
      have hoff : (if j + 1 = 0 ∧ i > 0 then offset + prev else offset) = offset := by simp
      simp only [hoff]
      rw [← hA, hs]
      have e2 : A ++ f r :: (B ++ C) = (A ++ [f r]) ++ B ++ C := by simp
      simp only [e2]
      rw [ih (j + 1) offset (A ++ [f r]) B C (by simp [hA]; omega) hB']
      simp

/-- All rows of one part, written at the right place. -/
theorem fillRows_zero {α : Type} (i prev offset : Nat) (f : α → α) (rows A B C : List α)
    (hne : rows ≠ []) (hA : A.length = if i > 0 then offset + prev else offset)
    (hB : B.length = rows.length) :
    fillRows i prev f 0 rows (A ++ B ++ C, offset) =
      .ok (A ++ rows.map f ++ C, A.length) := by
  obtain _ | ⟨r, rows⟩ := rows
  · exact absurd rfl hne
  · obtain _ | ⟨b, B⟩ := B
    · simp at hB
    · have hB' : B.length = rows.length := by simpa using hB
      have hs := setRow_append A (B ++ C) b (f r)
      have e1 : A ++ b :: B ++ C = A ++ b :: (B ++ C) := by simp
      have hoff : (if (0 : Nat) = 0 ∧ i > 0 then offset + prev else offset) = A.length := by
        rw [hA]; simp
      rw [fillRows, e1, hoff]
      rw [Nat.zero_add, hs]
      have e2 : A ++ f r :: (B ++ C) = (A ++ [f r]) ++ B ++ C := by simp
      simp only [e2]
      rw [fillRows_succ i prev f rows 0 A.length (A ++ [f r]) B C (by simp; omega) hB']
      simp

theorem fillRows_nil {α : Type} (i prev j : Nat) (f : α → α) (st : List α × Nat) :
    fillRows i prev f j [] st = .ok st := rfl

/-- Sizes of parts after which no row is written over an earlier part: an empty part is either
preceded by empty parts only or followed by empty parts only. -/
def NoGap : Nat → List Nat → Prop
  | _, [] => True
  | prev, n :: rest =>
    (n = 0 → (∀ m ∈ rest, m = 0) ∨ prev = 0) ∧ NoGap n rest

theorem noGap_of_ne_zero : ∀ (l : List Nat) (prev : Nat), (∀ n ∈ l, n ≠ 0) → NoGap prev l
  | [], _, _ => trivial
  | n :: l, _, h => ⟨fun h0 => absurd h0 (h n (by simp)),
      noGap_of_ne_zero l n fun m hm => h m (by simp [hm])⟩

/-- The condition in terms of positions. -/
theorem noGap_of_between (l : List Nat) :
    ∀ (pre : List Nat) (prev : Nat), (prev ≠ 0 → ∃ x ∈ pre, x ≠ 0) →
    (∀ i j k : Nat, i < j → j < k → (pre ++ l)[i]? ≠ some 0 → (pre ++ l)[i]? ≠ none →
      (pre ++ l)[k]? ≠ some 0 → (pre ++ l)[k]? ≠ none → (pre ++ l)[j]? ≠ some 0) →
    NoGap prev l := by
  induction l with
  | nil => intro _ _ _ _; trivial
  | cons n rest ih =>
    intro pre prev hprev hb
    refine ⟨?_, ?_⟩
    · intro hn
      subst hn
      by_cases hp : prev = 0
      · exact Or.inr hp
      · left
        intro m hm
        by_contra hm0
        obtain ⟨x, hx, hx0⟩ := hprev hp
        obtain ⟨i, hi, rfl⟩ := List.getElem_of_mem hx
        obtain ⟨k, hk, rfl⟩ := List.getElem_of_mem hm
        have e1 : (pre ++ 0 :: rest)[i]? = some pre[i] := by
          rw [List.getElem?_append_left hi]; simp
        have e2 : (pre ++ 0 :: rest)[pre.length + 1 + k]? = some rest[k] := by
          rw [List.getElem?_append_right (by omega)]
          have : pre.length + 1 + k - pre.length = k + 1 := by omega
          rw [this]; simp
        have e3 : (pre ++ 0 :: rest)[pre.length]? = some 0 := by simp
        exact hb i pre.length (pre.length + 1 + k) hi (by omega) (by rw [e1]; simpa using hx0)
          (by rw [e1]; simp) (by rw [e2]; simpa using hm0) (by rw [e2]; simp) e3
    · apply ih (pre ++ [n]) n
      · intro hn
        exact ⟨n, by simp, hn⟩
      · simpa using hb

/-- Concatenation of the faces, each part shifted by the number of points before it. -/
def shifted : Nat → List (List P × List Tri) → List Tri
  | _, [] => []
  | k, (pts, tri) :: rest => tri.map (shiftTri k) ++ shifted (k + pts.length) rest

theorem shifted_length (l : List (List P × List Tri)) :
    ∀ k, (shifted k l).length = (l.map fun m => m.2.length).sum := by
  induction l with
  | nil => intro k; rfl
  | cons m l ih => intro k; obtain ⟨pts, tri⟩ := m; simp [shifted, ih]

/-- One array of the main loop: either the offset is right, or nothing will be written any more. -/
private def OffsetOK (i off prev done : Nat) (rest : List Nat) : Prop :=
  (∀ m ∈ rest, m = 0) ∨ done = if i > 0 then off + prev else off

private theorem offset_step {α : Type} (i off prev : Nat) (f : α → α) (rows : List α)
    (rest : List Nat) (A Z : List α)
    (hok : OffsetOK i off prev A.length (rows.length :: rest))
    (hgap : NoGap prev (rows.length :: rest))
    (hp : i = 0 → prev = 0)
    (hZ : rows.length ≤ Z.length) :
    ∃ off', fillRows i prev f 0 rows (A ++ Z, off) =
        .ok (A ++ rows.map f ++ Z.drop rows.length, off') ∧
      OffsetOK (i + 1) off' rows.length (A ++ rows.map f).length rest := by
  by_cases hr : rows = []
  · subst hr
    refine ⟨off, by simp [fillRows], ?_⟩
    rcases hok with h | h
    · left; intro m hm; exact h m (by simp [hm])
    · rcases hgap.1 rfl with h0 | h0
      · left; exact h0
      · right
        subst h0
        simp at h ⊢
        exact h
  · refine ⟨A.length, ?_, ?_⟩
    · have hl : A.length = if i > 0 then off + prev else off := by
        rcases hok with h | h
        · exfalso
          have := h rows.length (by simp)
          exact hr (List.length_eq_zero_iff.1 this)
        · exact h
      have := fillRows_zero i prev off f rows A (Z.take rows.length) (Z.drop rows.length) hr hl
        (by simp [hZ])
      rw [List.append_assoc, List.take_append_drop] at this
      exact this
    · right; simp

theorem stackLoop_ok (l : List (List P × List Tri)) :
    ∀ (i prevP prevT k ot po : Nat) (V ZV : List P) (F ZF : List Tri),
      (i = 0 → prevP = 0 ∧ prevT = 0) →
      NoGap prevP (l.map fun m => m.1.length) → NoGap prevT (l.map fun m => m.2.length) →
      OffsetOK i po prevP V.length (l.map fun m => m.1.length) →
      OffsetOK i ot prevT F.length (l.map fun m => m.2.length) →
      ZV.length = (l.map fun m => m.1.length).sum → ZF.length = (l.map fun m => m.2.length).sum →
      ∃ st, stackLoop i prevP prevT l ⟨V ++ ZV, F ++ ZF, k, ot, po⟩ = .ok st ∧
        st.verts = V ++ (l.map Prod.fst).flatten ∧ st.faces = F ++ shifted k l := by
  induction l with
  | nil =>
    intro i prevP prevT k ot po V ZV F ZF _ _ _ _ _ hZV hZF
    have h1 : ZV = [] := by simpa using hZV
    have h2 : ZF = [] := by simpa using hZF
    subst h1; subst h2
    exact ⟨_, rfl, by simp, by simp [shifted]⟩
  | cons m l ih =>
    obtain ⟨pts, tri⟩ := m
    intro i prevP prevT k ot po V ZV F ZF hi hgP hgT hoP hoT hZV hZF
    simp only [List.map_cons, List.sum_cons] at hgP hgT hoP hoT hZV hZF
    obtain ⟨ot', hf, hto⟩ := offset_step i ot prevT (shiftTri k) tri _ F ZF hoT hgT
      (fun h => (hi h).2) (by omega)
    obtain ⟨po', hv, hpo⟩ := offset_step i po prevP id pts _ V ZV hoP hgP
      (fun h => (hi h).1) (by omega)
    rw [stackLoop]
    simp only [hf, hv]
    obtain ⟨st, hst, h1, h2⟩ := ih (i + 1) pts.length tri.length (k + pts.length) ot' po'
      (V ++ pts.map id) (ZV.drop pts.length) (F ++ tri.map (shiftTri k)) (ZF.drop tri.length)
      (fun h => absurd h (by omega)) hgP.2 hgT.2 hpo hto (by simp; omega) (by simp; omega)
    refine ⟨st, hst, ?_, ?_⟩
    · rw [h1]; simp
    · rw [h2]; simp [shifted]

/-- Without an empty part between non-empty ones the arrays are concatenated. -/
theorem vstackMesh_ok (zero : P) (l : List (List P × List Tri))
    (hP : NoGap 0 (l.map fun m => m.1.length)) (hT : NoGap 0 (l.map fun m => m.2.length)) :
    vstackMesh zero (l.map Prod.fst) (l.map Prod.snd) =
      .ok ((l.map Prod.fst).flatten, shifted 0 l) := by
  obtain ⟨st, hst, h1, h2⟩ := stackLoop_ok l 0 0 0 0 0 0 []
    (List.replicate (l.map fun m => m.1.length).sum zero) []
    (List.replicate (l.map fun m => m.2.length).sum (0, 0, 0))
    (fun _ => ⟨rfl, rfl⟩) hP hT (Or.inr rfl) (Or.inr rfl) (by simp) (by simp)
  unfold vstackMesh
  have hz : (l.map Prod.fst).zip (l.map Prod.snd) = l := by
    rw [List.zip_map']; simp
  have e1 : ((l.map Prod.fst).map List.length) = l.map fun m => m.1.length := by simp
  have e2 : ((l.map Prod.snd).map List.length) = l.map fun m => m.2.length := by simp
  rw [if_neg (by simp)]
  simp only [hz, e1, e2]
  simp only [List.nil_append] at hst h1 h2
  rw [hst]
  simp only [h1, h2]

/-! ### The call never fails -/

theorem fillRows_total {α : Type} (i prev : Nat) (f : α → α) (rows : List α) :
    ∀ (j offset bound : Nat) (arr : List α),
      bound = (if j = 0 ∧ i > 0 then offset + prev else offset) →
      j + bound + rows.length ≤ arr.length →
      ∃ arr' off', fillRows i prev f j rows (arr, offset) = .ok (arr', off') ∧
        arr'.length = arr.length ∧ off' ≤ bound ∧ (rows = [] → off' = offset) ∧
        (rows ≠ [] → off' = bound) := by
  induction rows with
  | nil =>
    intro j offset bound arr hb _
    refine ⟨arr, offset, rfl, rfl, ?_, fun _ => rfl, fun h => absurd rfl h⟩
    rw [hb]; split <;> omega
  | cons r rows ih =>
    intro j offset bound arr hb hl
    simp only [List.length_cons] at hl
    rw [fillRows]
    simp only [← hb]
    have hs : setRow arr (j + bound) (f r) = .ok (arr.set (j + bound) (f r)) := by
      unfold setRow; rw [if_pos (by omega)]
    rw [hs]
    obtain ⟨arr', off', h1, h2, h3, h4, h5⟩ := ih (j + 1) bound bound (arr.set (j + bound) (f r))
      (by simp) (by simp; omega)
    refine ⟨arr', off', h1, by simpa using h2, h3, by simp, fun _ => ?_⟩
    by_cases hr : rows = []
    · exact h4 hr
    · exact h5 hr

theorem stackLoop_total (l : List (List P × List Tri)) :
    ∀ (i prevP prevT : Nat) (st : VState P),
      (if i > 0 then st.ptsOffset + prevP else st.ptsOffset) +
        (l.map fun m => m.1.length).sum ≤ st.verts.length →
      (if i > 0 then st.triOffset + prevT else st.triOffset) +
        (l.map fun m => m.2.length).sum ≤ st.faces.length →
      ∃ st', stackLoop i prevP prevT l st = .ok st' ∧ st'.verts.length = st.verts.length ∧
        st'.faces.length = st.faces.length := by
  induction l with
  | nil => intro i prevP prevT st _ _; exact ⟨st, rfl, rfl, rfl⟩
  | cons m l ih =>
    obtain ⟨pts, tri⟩ := m
    intro i prevP prevT st hP hT
    simp only [List.map_cons, List.sum_cons] at hP hT
    obtain ⟨F, fo, hf, hF, hfo, hf0, hf1⟩ := fillRows_total i prevT (shiftTri st.numPtsAdded) tri 0
      st.triOffset (if i > 0 then st.triOffset + prevT else st.triOffset) st.faces (by simp)
      (by omega)
    obtain ⟨V, vo, hv, hV, hvo, hv0, hv1⟩ := fillRows_total i prevP id pts 0
      st.ptsOffset (if i > 0 then st.ptsOffset + prevP else st.ptsOffset) st.verts (by simp)
      (by omega)
    rw [stackLoop]
    simp only [hf, hv]
    obtain ⟨st', h1, h2, h3⟩ := ih (i + 1) pts.length tri.length
      ⟨V, F, st.numPtsAdded + pts.length, fo, vo⟩
      (by simp only [gt_iff_lt, Nat.zero_lt_succ, if_true]; omega)
      (by simp only [gt_iff_lt, Nat.zero_lt_succ, if_true]; omega)
    exact ⟨st', h1, by rw [h2]; exact hV, by rw [h3]; exact hF⟩

theorem vstackMesh_total (zero : P) (l : List (List P × List Tri)) :
    ∃ m, vstackMesh zero (l.map Prod.fst) (l.map Prod.snd) = .ok m ∧
      m.1.length = (l.map fun m => m.1.length).sum ∧
      m.2.length = (l.map fun m => m.2.length).sum := by
  have hz : (l.map Prod.fst).zip (l.map Prod.snd) = l := by
    rw [List.zip_map']; simp
  have e1 : ((l.map Prod.fst).map List.length) = l.map fun m => m.1.length := by simp
  have e2 : ((l.map Prod.snd).map List.length) = l.map fun m => m.2.length := by simp
  obtain ⟨st', h1, h2, h3⟩ := stackLoop_total l 0 0 0
    ⟨List.replicate (l.map fun m => m.1.length).sum zero,
      List.replicate (l.map fun m => m.2.length).sum (0, 0, 0), 0, 0, 0⟩ (by simp) (by simp)
  refine ⟨(st'.verts, st'.faces), ?_, ?_, ?_⟩
  · unfold vstackMesh
    rw [if_neg (by simp)]
    simp only [hz, e1, e2, h1]
  · rw [h2]; simp
  · rw [h3]; simp

theorem mapM_ok {X Y : Type} (f : X → Except PyErr Y) (g : X → Y) (xs : List X)
    (h : ∀ x ∈ xs, f x = .ok (g x)) : xs.mapM f = .ok (xs.map g) := by
  induction xs with
  | nil => rfl
  | cons x xs ih =>
    rw [List.mapM_cons, h x (by simp), ih fun y hy => h y (by simp [hy])]
    rfl

end B3d.Mesh
