import Verif.Model.Bboxes
import Verif.Proofs.Tactics

set_option linter.unusedSectionVars false

namespace B3d.Bboxes
variable {K : Type} [Field K] [LinearOrder K] [IsStrictOrderedRing K]

theorem foldl_min_le (t : List K) (a : K) :
    t.foldl min a ≤ a ∧ (∀ b ∈ t, t.foldl min a ≤ b) ∧ (t.foldl min a = a ∨ t.foldl min a ∈ t) := by
  induction t generalizing a with
  | nil => simp
  | cons b t ih =>
    obtain ⟨h1, h2, h3⟩ := ih (min a b)
    simp only [List.foldl_cons]
    refine ⟨h1.trans (min_le_left _ _), ?_, ?_⟩
    · intro c hc
      rcases List.mem_cons.1 hc with rfl | hc
      · exact h1.trans (min_le_right _ _)
      · exact h2 c hc
    · rcases h3 with h3 | h3
      · rw [h3]
        rcases min_choice a b with h | h
        · exact Or.inl h
        · right; rw [h]; simp
      · right; exact List.mem_cons_of_mem _ h3

theorem le_foldl_max (t : List K) (a : K) :
    a ≤ t.foldl max a ∧ (∀ b ∈ t, b ≤ t.foldl max a) ∧ (t.foldl max a = a ∨ t.foldl max a ∈ t) := by
  induction t generalizing a with
  | nil => simp
  | cons b t ih =>
    obtain ⟨h1, h2, h3⟩ := ih (max a b)
    simp only [List.foldl_cons]
    refine ⟨(le_max_left _ _).trans h1, ?_, ?_⟩
    · intro c hc
      rcases List.mem_cons.1 hc with rfl | hc
      · exact (le_max_right _ _).trans h1
      · exact h2 c hc
    · rcases h3 with h3 | h3
      · rw [h3]
        rcases max_choice a b with h | h
        · exact Or.inl h
        · right; rw [h]; simp
      · right; exact List.mem_cons_of_mem _ h3

theorem npMin_spec {l : List K} (h : l ≠ []) :
    ∃ m, npMin l = .ok m ∧ m ∈ l ∧ ∀ b ∈ l, m ≤ b := by
  obtain ⟨a, t, rfl⟩ := List.exists_cons_of_ne_nil h
  obtain ⟨h1, h2, h3⟩ := foldl_min_le t a
  refine ⟨_, rfl, ?_, ?_⟩
  · rcases h3 with h3 | h3
    · rw [h3]; simp
    · exact List.mem_cons_of_mem _ h3
  · intro b hb
    rcases List.mem_cons.1 hb with rfl | hb
    · exact h1
    · exact h2 b hb

theorem npMax_spec {l : List K} (h : l ≠ []) :
    ∃ m, npMax l = .ok m ∧ m ∈ l ∧ ∀ b ∈ l, b ≤ m := by
  obtain ⟨a, t, rfl⟩ := List.exists_cons_of_ne_nil h
  obtain ⟨h1, h2, h3⟩ := le_foldl_max t a
  refine ⟨_, rfl, ?_, ?_⟩
  · rcases h3 with h3 | h3
    · rw [h3]; simp
    · exact List.mem_cons_of_mem _ h3
  · intro b hb
    rcases List.mem_cons.1 hb with rfl | hb
    · exact h1
    · exact h2 b hb

/-- Full description of the bounding box of a non-empty list. -/
theorem boundingBox_spec {pts : List (Vec3 K)} (h : pts ≠ []) :
    ∃ lo hi, boundingBox pts = .ok (lo, hi) ∧
      (∀ p ∈ pts, lo.x ≤ p.x ∧ lo.y ≤ p.y ∧ lo.z ≤ p.z ∧ p.x ≤ hi.x ∧ p.y ≤ hi.y ∧ p.z ≤ hi.z) ∧
      (∃ p ∈ pts, p.x = lo.x) ∧ (∃ p ∈ pts, p.y = lo.y) ∧ (∃ p ∈ pts, p.z = lo.z) ∧
      (∃ p ∈ pts, p.x = hi.x) ∧ (∃ p ∈ pts, p.y = hi.y) ∧ (∃ p ∈ pts, p.z = hi.z) := by
  have hne : ∀ g : Vec3 K → K, pts.map g ≠ [] := fun g => by simpa using h
  obtain ⟨a, ha, ha1, ha2⟩ := npMin_spec (hne (·.x))
  obtain ⟨a', ha', ha1', ha2'⟩ := npMax_spec (hne (·.x))
  obtain ⟨b, hb, hb1, hb2⟩ := npMin_spec (hne (·.y))
  obtain ⟨b', hb', hb1', hb2'⟩ := npMax_spec (hne (·.y))
  obtain ⟨c, hc, hc1, hc2⟩ := npMin_spec (hne (·.z))
  obtain ⟨c', hc', hc1', hc2'⟩ := npMax_spec (hne (·.z))
  refine ⟨⟨a, b, c⟩, ⟨a', b', c'⟩, ?_, ?_, ?_, ?_, ?_, ?_, ?_, ?_⟩
  · simp only [boundingBox, ha, ha', hb, hb', hc, hc']; rfl
  · intro p hp
    exact ⟨ha2 _ (List.mem_map_of_mem hp), hb2 _ (List.mem_map_of_mem hp),
      hc2 _ (List.mem_map_of_mem hp), ha2' _ (List.mem_map_of_mem hp),
      hb2' _ (List.mem_map_of_mem hp), hc2' _ (List.mem_map_of_mem hp)⟩
  · simpa using ha1
  · simpa using hb1
  · simpa using hc1
  · simpa using ha1'
  · simpa using hb1'
  · simpa using hc1'

theorem anyLt_eq_false {a b : Vec3 K} :
    anyLt a b = false ↔ b.x ≤ a.x ∧ b.y ≤ a.y ∧ b.z ≤ a.z := by
  simp [anyLt, and_assoc]

theorem overlap_iff (b1 b2 : Vec3 K × Vec3 K) :
    areBboxesOverlapping b1 b2 = true ↔
      (b2.1.x ≤ b1.2.x ∧ b2.1.y ≤ b1.2.y ∧ b2.1.z ≤ b1.2.z) ∧
      (b1.1.x ≤ b2.2.x ∧ b1.1.y ≤ b2.2.y ∧ b1.1.z ≤ b2.2.z) := by
  unfold areBboxesOverlapping
  rw [← anyLt_eq_false, ← anyLt_eq_false]
  cases anyLt b1.2 b2.1 <;> cases anyLt b2.2 b1.1 <;> simp

end B3d.Bboxes
