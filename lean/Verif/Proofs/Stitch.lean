import Verif.Model.Stitch

/-!
# Stitching: names, and replacing a polygon by two

The names of the parts and `replace_polygon`.
-/

namespace B3d.Solids

open Polygon Slice

/-! ### Names -/

/-- The names of all polygons of a solid. -/
def polyNames (S : SolidG) : List Str := S.flatMap fun w => w.polys.map Prod.fst

/-- `n` is neither `m` nor the name of a part of `m`, of a part of a part, and so on. -/
def NameApart (m n : Str) : Prop := m ≠ n ∧ ¬ mainName m <+: n ∧ ¬ supName m <+: n

/-- No two polygons have the same name, and no name looks like the name of a part of another polygon. -/
def NamesApart (l : List Str) : Prop := l.Pairwise fun m n => NameApart m n ∧ NameApart n m

theorem tag_prefix {m n : Str} {c : Char} {t t' : List Char} (ht : c ∉ t) (ht' : c ∉ t')
    (h : m ++ c :: t <+: n ++ c :: t') : m ++ c :: t <+: n ∨ (m = n ∧ c :: t <+: c :: t') := by
  rcases Nat.lt_or_ge n.length (m ++ c :: t).length with hl | hl
  · right
    rcases Nat.lt_or_ge n.length m.length with hl' | hl'
    · exfalso
      have h1 : n <+: m := List.prefix_of_prefix_length_le (List.prefix_append n _)
        ((List.prefix_append m _).trans h) hl'.le
      obtain ⟨u, rfl⟩ := h1
      rw [List.append_assoc, List.prefix_append_right_inj] at h
      cases u with
      | nil => simp at hl'
      | cons d u =>
        rw [List.cons_append, List.cons_prefix_cons] at h
        exact ht' (h.2.subset (by simp))
    · have hm : m <+: n :=
        List.prefix_of_prefix_length_le ((List.prefix_append m _).trans h) (List.prefix_append n _) hl'
      obtain ⟨u, rfl⟩ := hm
      rw [List.append_assoc, List.prefix_append_right_inj] at h
      cases u with
      | nil => exact ⟨by simp, by simpa using h⟩
      | cons d u =>
        exfalso
        rw [List.cons_append, List.cons_prefix_cons] at h
        have h2 : u ++ [c] <+: t := by
          refine List.prefix_of_prefix_length_le (l₃ := u ++ c :: t') ⟨t', by simp⟩ h.2 ?_
          simp at hl ⊢
          omega
        exact ht (h2.subset (by simp))
  · left
    exact List.prefix_of_prefix_length_le h (List.prefix_append n _) hl

/-- The two tags. -/
def IsTag (t : List Char) : Prop := t = "main".toList ∨ t = "sup".toList

theorem isTag_dash {t : List Char} (h : IsTag t) : '-' ∉ t := by
  rcases h with rfl | rfl <;> decide

theorem mainName_eq (n : Str) : mainName n = n ++ '-' :: "main".toList := rfl

theorem supName_eq (n : Str) : supName n = n ++ '-' :: "sup".toList := rfl

theorem nameApart_iff {m n : Str} : NameApart m n ↔ m ≠ n ∧ ∀ t, IsTag t → ¬ m ++ '-' :: t <+: n := by
  unfold NameApart IsTag
  rw [mainName_eq, supName_eq]
  constructor
  · rintro ⟨h1, h2, h3⟩
    refine ⟨h1, ?_⟩
    rintro t (rfl | rfl)
    · exact h2
    · exact h3
  · rintro ⟨h1, h2⟩
    exact ⟨h1, h2 _ (.inl rfl), h2 _ (.inr rfl)⟩

/-- The name of a part is apart from every name from which the whole was apart. -/
theorem nameApart_part {m n : Str} (h : NameApart n m ∧ NameApart m n) {t : List Char} (ht : IsTag t) :
    NameApart (n ++ '-' :: t) m ∧ NameApart m (n ++ '-' :: t) := by
  rw [nameApart_iff, nameApart_iff] at h ⊢
  obtain ⟨⟨h1, h2⟩, ⟨-, h3⟩⟩ := h
  have hne : n ++ '-' :: t ≠ m := fun e => h2 t ht (by rw [e])
  refine ⟨⟨hne, fun t' ht' hp => h2 t ht ((List.prefix_append _ _).trans hp)⟩, ⟨hne.symm, fun t' ht' hp => ?_⟩⟩
  rcases tag_prefix (isTag_dash ht') (isTag_dash ht) hp with hp | ⟨rfl, -⟩
  · exact h3 t' ht' hp
  · exact h1 rfl

theorem nameApart_parts (n : Str) : NameApart (mainName n) (supName n) ∧ NameApart (supName n) (mainName n) := by
  rw [nameApart_iff, nameApart_iff, mainName_eq, supName_eq]
  refine ⟨⟨by simp, fun t ht h => ?_⟩, ⟨by simp, fun t ht h => ?_⟩⟩ <;>
    rw [List.append_assoc, List.prefix_append_right_inj] at h <;> revert h <;> simp

theorem namesApart_cons {n : Str} {l : List Str} :
    NamesApart (n :: l) ↔ (∀ m ∈ l, NameApart n m ∧ NameApart m n) ∧ NamesApart l := List.pairwise_cons

theorem NamesApart.perm {l l' : List Str} (h : NamesApart l) (p : l.Perm l') : NamesApart l' :=
  List.Pairwise.perm h p fun h => ⟨h.2, h.1⟩

theorem NamesApart.nodup {l : List Str} (h : NamesApart l) : l.Nodup := by
  refine List.Pairwise.imp ?_ h
  intro a b h
  exact h.1.1

/-- Names stay apart when one of them is replaced by those of its parts. -/
theorem NamesApart.parts {n : Str} {l : List Str} (h : NamesApart (n :: l)) :
    NamesApart (mainName n :: supName n :: l) := by
  rw [namesApart_cons] at h
  rw [namesApart_cons, namesApart_cons]
  refine ⟨?_, fun m hm => nameApart_part (h.1 m hm) (.inr rfl), h.2⟩
  intro m hm
  rcases List.mem_cons.1 hm with rfl | hm
  · exact nameApart_parts n
  · exact nameApart_part (h.1 m hm) (.inl rfl)

/-! ### Replacing -/

/-- `S'` is `S` with the polygon `p` of one wall taken out and `a`, `b` added to the same wall. -/
def Replaced (S : SolidG) (p a b : Str × Poly) (S' : SolidG) : Prop :=
  ∃ pre w u v post, S = pre ++ ⟨w, u ++ p :: v⟩ :: post ∧ S' = pre ++ ⟨w, u ++ v ++ [a, b]⟩ :: post

theorem replaced_names {S S' : SolidG} {p a b : Str × Poly} (h : Replaced S p a b S') :
    ∃ l, (polyNames S).Perm (p.1 :: l) ∧ (polyNames S').Perm (a.1 :: b.1 :: l) := by
  obtain ⟨pre, w, u, v, post, rfl, rfl⟩ := h
  refine ⟨polyNames pre ++ (u.map Prod.fst ++ v.map Prod.fst) ++ polyNames post, ?_, ?_⟩
  · simp only [polyNames, List.flatMap_append, List.flatMap_cons, List.map_append, List.map_cons]
    rw [List.perm_iff_count]
    intro x
    simp only [List.count_append, List.count_cons]
    omega
  · simp only [polyNames, List.flatMap_append, List.flatMap_cons, List.map_append, List.map_cons, List.map_nil]
    rw [List.perm_iff_count]
    intro x
    simp only [List.count_append, List.count_cons, List.count_nil]
    omega

theorem replaced_polys {S S' : SolidG} {p a b : Str × Poly} (h : Replaced S p a b S') :
    ∃ l, (allPolys S).Perm (p.2 :: l) ∧ (allPolys S').Perm (a.2 :: b.2 :: l) := by
  obtain ⟨pre, w, u, v, post, rfl, rfl⟩ := h
  refine ⟨allPolys pre ++ (u.map Prod.snd ++ v.map Prod.snd) ++ allPolys post, ?_, ?_⟩
  · simp only [allPolys, List.flatMap_append, List.flatMap_cons, List.map_append, List.map_cons]
    classical
    rw [List.perm_iff_count]
    intro x
    simp only [List.count_append, List.count_cons]
    omega
  · simp only [allPolys, List.flatMap_append, List.flatMap_cons, List.map_append, List.map_cons, List.map_nil]
    classical
    rw [List.perm_iff_count]
    intro x
    simp only [List.count_append, List.count_cons, List.count_nil]
    omega

theorem replaceLoop_skip {old : Str} {news : List (Str × Poly)} {l r : List (Nat × Str × Poly)} {s : SolidG}
    (h : ∀ e ∈ l, e.2.1 ≠ old) : replaceLoop old news (l ++ r) s = replaceLoop old news r s := by
  induction l with
  | nil => rfl
  | cons e l ih =>
    obtain ⟨i, name, P⟩ := e
    rw [List.cons_append, replaceLoop, if_neg (h (i, name, P) (by simp)), ih fun e he => h e (by simp [he])]

theorem wallsAndPolygons_append (pre post : SolidG) (w : WallG) :
    ∃ l r, wallsAndPolygons (pre ++ w :: post) = l ++ (w.polys.map fun p => (pre.length, p)) ++ r ∧
      (∀ e ∈ l, e.2.1 ∈ polyNames pre) ∧ ∀ e ∈ r, e.2.1 ∈ polyNames post := by
  refine ⟨pre.zipIdx.flatMap fun w => w.1.polys.map fun p => (w.2, p),
    (post.zipIdx (pre.length + 1)).flatMap fun w => w.1.polys.map fun p => (w.2, p), ?_, ?_, ?_⟩
  · simp [wallsAndPolygons, List.zipIdx_append, List.zipIdx_cons]
  · intro e he
    simp only [List.mem_flatMap, List.mem_map] at he
    obtain ⟨⟨w, i⟩, hw, p, hp, rfl⟩ := he
    simp only [polyNames, List.mem_flatMap, List.mem_map]
    exact ⟨w, List.fst_mem_of_mem_zipIdx hw, p, hp, rfl⟩
  · intro e he
    simp only [List.mem_flatMap, List.mem_map] at he
    obtain ⟨⟨w, i⟩, hw, p, hp, rfl⟩ := he
    simp only [polyNames, List.mem_flatMap, List.mem_map]
    exact ⟨w, List.fst_mem_of_mem_zipIdx hw, p, hp, rfl⟩

/-- `replace_polygon` replaces the polygon by the two parts if no other polygon of the solid has its name and the names
of the parts are free in its wall. -/
theorem replacePolygon_ok {pre post : SolidG} {w : Str} {u v : List (Str × Poly)} {p a b : Str × Poly}
    (hn : (polyNames (pre ++ ⟨w, u ++ p :: v⟩ :: post)).Nodup) (ha : a.1 ∉ (u ++ v).map Prod.fst)
    (hb : b.1 ∉ (u ++ v).map Prod.fst) (hab : a.1 ≠ b.1) :
    replacePolygon (pre ++ ⟨w, u ++ p :: v⟩ :: post) p.1 [a, b] = (pre ++ ⟨w, u ++ v ++ [a, b]⟩ :: post, .ok ()) := by
  obtain ⟨l, r, he, hl, hr⟩ := wallsAndPolygons_append pre post ⟨w, u ++ p :: v⟩
  simp only [polyNames, List.flatMap_append, List.flatMap_cons, List.map_append, List.map_cons] at hn
  have hn' : ∀ x, List.count x (polyNames pre ++ (u.map Prod.fst ++ p.1 :: v.map Prod.fst ++ polyNames post)) ≤ 1 :=
    List.nodup_iff_count_le_one.1 hn
  have h0 := hn' p.1
  simp only [List.count_append, List.count_cons_self] at h0
  have z : ∀ {L : List Str}, List.count p.1 L = 0 → p.1 ∉ L := fun h => List.count_eq_zero.1 h
  have hpre : p.1 ∉ polyNames pre := z (by omega)
  have hpost : p.1 ∉ polyNames post := z (by omega)
  have hu : p.1 ∉ u.map Prod.fst := z (by omega)
  have hv : p.1 ∉ v.map Prod.fst := z (by omega)
  have keep : ∀ {L : List (Str × Poly)}, p.1 ∉ L.map Prod.fst → L.filter (fun q => decide (q.1 ≠ p.1)) = L := by
    intro L hL
    rw [List.filter_eq_self]
    intro q hq
    simp only [ne_eq, decide_eq_true_eq]
    rintro e
    exact hL (e ▸ List.mem_map_of_mem hq)
  unfold replacePolygon
  rw [he]
  simp only [List.map_append, List.map_cons, List.append_assoc, List.cons_append]
  rw [replaceLoop_skip (old := p.1) (l := l) (fun e he hq => hpre (hq ▸ hl e he)),
    replaceLoop_skip (old := p.1) (l := u.map fun q => (pre.length, q)), replaceLoop, if_pos rfl]
  · have hi : (pre ++ (⟨w, u ++ p :: v⟩ : WallG) :: post)[pre.length]? = some ⟨w, u ++ p :: v⟩ := by simp
    rw [hi]
    have hw : wallReplace ⟨w, u ++ p :: v⟩ p.1 [a, b] = (⟨w, u ++ v ++ [a, b]⟩, .ok ()) := by
      unfold wallReplace
      rw [if_pos (by simp)]
      have hf : (u ++ p :: v).filter (fun q => decide (q.1 ≠ p.1)) = u ++ v := by
        rw [List.filter_append, List.filter_cons_of_neg (by simp), keep hu, keep hv]
      simp only [hf]
      rw [addPolysTo, if_neg ha, addPolysTo, if_neg, addPolysTo]
      · simp
      · simp only [List.map_append, List.map_cons, List.map_nil, List.mem_append, List.mem_singleton]
        rintro (h | h)
        · exact hb (by simpa using h)
        · exact hab h.symm
    simp only [hw]
    have hs : (pre ++ (⟨w, u ++ p :: v⟩ : WallG) :: post).set pre.length ⟨w, u ++ v ++ [a, b]⟩ =
        pre ++ ⟨w, u ++ v ++ [a, b]⟩ :: post := by simp
    rw [hs]
    have hrest : ∀ e ∈ (v.map fun q => (pre.length, q)) ++ r, e.2.1 ≠ p.1 := by
      intro e he hq
      rcases List.mem_append.1 he with he | he
      · obtain ⟨q, hq', rfl⟩ := List.mem_map.1 he
        exact hv (hq ▸ List.mem_map_of_mem hq')
      · exact hpost (hq ▸ hr e he)
    have := replaceLoop_skip (news := [a, b]) (r := []) (s := pre ++ ⟨w, u ++ v ++ [a, b]⟩ :: post) hrest
    rw [List.append_nil] at this
    rw [this, replaceLoop]
    simp
  · intro e he hq
    obtain ⟨q, hq', rfl⟩ := List.mem_map.1 he
    exact hu (hq ▸ List.mem_map_of_mem hq')

end B3d.Solids
