import Verif.Proofs.Stitch
import Verif.Props.SliceParts
import Verif.Props.Adjacent

/-!
# C81: stitching two solids
-/

namespace B3d.Solids

open Spec Polygon Slice Points Triangles

/-! ### What a run does to a solid -/

/-- A polygon, a line, and the two polygons which slicing along this line makes of it, named after it. -/
structure Cut where
  whole : Str × Poly
  line : List (Vec3 ℝ)
  part1 : Str × Poly
  part2 : Str × Poly

/-- The two parts are what `slice_polygon` returns. -/
def Cut.Made (c : Cut) : Prop :=
  ∃ rnd, slicePolygon c.whole.2 c.line none (some (c.whole.1 ++ "-main".toList)) none
    (some (c.whole.1 ++ "-sup".toList)) rnd rnd = .ok (c.part1, c.part2)

/-- The solid `S'` comes from `S` by slicing polygons, one after the other, and putting the two parts in the wall of the
polygon in place of it. -/
inductive CutInto : SolidG → List Cut → SolidG → Prop
  | done (S : SolidG) : CutInto S [] S
  | cut {S S' S'' : SolidG} {c : Cut} {cs : List Cut} : c.Made →
      Replaced S c.whole c.part1 c.part2 S' → CutInto S' cs S'' → CutInto S (c :: cs) S''

theorem CutInto.trans {S S' S'' : SolidG} {cs ds : List Cut} (h : CutInto S cs S') (h' : CutInto S' ds S'') :
    CutInto S (cs ++ ds) S'' := by
  induction h with
  | done => exact h'
  | cut h1 h2 _ ih => exact .cut h1 h2 (ih h')

theorem slice_named {P : Poly} {s : List (Vec3 ℝ)} {n1 n2 r1 r2 : Str} {a b : Str × Poly} {v : Vec3 ℝ}
    (hv : P.vn = some v) (h : slicePolygon P s none (some n1) none (some n2) r1 r2 = .ok (a, b)) :
    a.1 = n1 ∧ b.1 = n2 ∧ (∃ pts, polygonNew pts none (some v) = .ok a.2) ∧
      (∃ pts, polygonNew pts none (some v) = .ok b.2) ∧ a.2.vn = some v ∧ b.2.vn = some v := by
  unfold slicePolygon at h
  split at h
  · cases h
  split at h
  · cases h
  split at h
  · cases h
  split at h
  · cases h
  split at h
  · cases h
  next pts1 pts2 h3 =>
  split at h
  · cases h
  next q1 q2 hm =>
  unfold makePolygons at hm
  rw [hv] at hm
  split at hm
  · cases hm
  next poly1 g1 =>
  split at hm
  · cases hm
  next poly2 g2 =>
  have e1 : poly1.vn = some v := by
    obtain ⟨w, hw, e, -⟩ := C70_orientation g1
    rw [hw, e v rfl]
  have e2 : poly2.vn = some v := by
    obtain ⟨w, hw, e, -⟩ := C70_orientation g2
    rw [hw, e v rfl]
  simp only [nameParts, chooseNames, Option.getD_some, and_self, if_true, Except.ok.injEq, Prod.mk.injEq] at hm
  obtain ⟨rfl, rfl⟩ := hm
  rw [hv, checkNormal_ok e1] at h
  simp only at h
  rw [checkNormal_ok e2] at h
  cases h
  exact ⟨rfl, rfl, ⟨_, g1⟩, ⟨_, g2⟩, e1, e2⟩

theorem orientLike_same {P : Poly} {part : Str × Poly} {rnd : Str} {v : Vec3 ℝ} (h : P.vn = some v)
    (h' : part.2.vn = some v) : orientLike P part rnd = .ok part := by
  unfold orientLike
  simp only [h, h']
  rw [if_pos (allClose_self (by norm_num [NP_RTOL]) (by norm_num [NP_ATOL]))]

theorem sliceOne_some {p a b : Str × Poly} {s : List (Vec3 ℝ)} {rnd : Str} {v : Vec3 ℝ} (hv : p.2.vn = some v)
    (h : sliceOne p s rnd = .ok (some (a, b))) : ∃ line, (Cut.mk p line a b).Made := by
  unfold sliceOne at h
  split at h
  · cases h
  split at h
  · cases h
  next s' hs' =>
  split at h
  · cases h
  split at h
  · cases h
  · cases h
  next a' b' hsl =>
  obtain ⟨-, -, -, -, e1, e2⟩ := slice_named hv hsl
  rw [orientLike_same hv e1] at h
  simp only at h
  rw [orientLike_same hv e2] at h
  cases h
  exact ⟨s', rnd, hsl⟩

/-- The polygon with its name is in the solid. -/
def Holds (S : SolidG) (p : Str × Poly) : Prop := ∃ w ∈ S, p ∈ w.polys

/-- All polygons are made by the constructor, and the names are apart. -/
def Sound (S : SolidG) : Prop := Built S ∧ NamesApart (polyNames S)

theorem holds_split {S : SolidG} {p : Str × Poly} (h : Holds S p) :
    ∃ pre w u v post, S = pre ++ ⟨w, u ++ p :: v⟩ :: post := by
  obtain ⟨⟨w, l⟩, hw, hp⟩ := h
  obtain ⟨pre, post, rfl⟩ := List.append_of_mem hw
  obtain ⟨u, v, rfl⟩ := List.append_of_mem hp
  exact ⟨pre, w, u, v, post, rfl⟩

theorem holds_face {S : SolidG} {p : Str × Poly} (h : Holds S p) : p.2 ∈ facesOf S := by
  obtain ⟨w, hw, hp⟩ := h
  simp only [facesOf, List.mem_flatMap, List.mem_map]
  exact ⟨w, hw, p, hp, rfl⟩

theorem built_vn {S : SolidG} (h : Built S) {P : Poly} (hP : P ∈ facesOf S) : ∃ v, P.vn = some v := by
  obtain ⟨pts, vn, h⟩ := h P hP
  obtain ⟨v, hv, -⟩ := C70_orientation h
  exact ⟨v, hv⟩

theorem made_parts {c : Cut} {v : Vec3 ℝ} (hv : c.whole.2.vn = some v) (h : c.Made) :
    c.part1.1 = mainName c.whole.1 ∧ c.part2.1 = supName c.whole.1 ∧
      (∃ pts, polygonNew pts none (some v) = .ok c.part1.2) ∧ (∃ pts, polygonNew pts none (some v) = .ok c.part2.2) ∧
      c.part1.2.vn = some v ∧ c.part2.2.vn = some v := by
  obtain ⟨rnd, h⟩ := h
  exact slice_named hv h

theorem sound_replaced {S S' : SolidG} {c : Cut} (h : Sound S) (hm : c.Made)
    (hr : Replaced S c.whole c.part1 c.part2 S') : Sound S' ∧ Holds S' c.part1 := by
  obtain ⟨l, p1, p2⟩ := replaced_polys hr
  obtain ⟨m, n1, n2⟩ := replaced_names hr
  have hw : c.whole.2 ∈ facesOf S := by
    rw [← allPolys_eq]
    exact p1.symm.subset (by simp)
  obtain ⟨v, hv⟩ := built_vn h.1 hw
  obtain ⟨e1, e2, g1, g2, -, -⟩ := made_parts hv hm
  refine ⟨⟨?_, ?_⟩, ?_⟩
  · intro P hP
    rw [← allPolys_eq] at hP
    rcases List.mem_cons.1 (p2.subset hP) with rfl | hP
    · obtain ⟨pts, g⟩ := g1; exact ⟨pts, _, g⟩
    rcases List.mem_cons.1 hP with rfl | hP
    · obtain ⟨pts, g⟩ := g2; exact ⟨pts, _, g⟩
    · exact h.1 P (p1.symm.subset (by simp [hP]))
  · refine NamesApart.perm ?_ n2.symm
    rw [e1, e2]
    exact (h.2.perm n1).parts
  · obtain ⟨pre, w, u, v, post, -, rfl⟩ := hr
    exact ⟨⟨w, u ++ v ++ [c.part1, c.part2]⟩, by simp, by simp⟩

/-- One slice: nothing, or the polygon is replaced by its two parts.  There are no errors from replacing. -/
theorem sliceOneAndReplace_spec {S : SolidG} (h : Sound S) {p : Str × Poly} (hp : Holds S p) {s : List (Vec3 ℝ)}
    {rnd : Str} : ∃ cs, CutInto S cs (sliceOneAndReplace S p s rnd).1 ∧ Sound (sliceOneAndReplace S p s rnd).1 ∧
      (∀ a, (sliceOneAndReplace S p s rnd).2 = .ok (some a) → Holds (sliceOneAndReplace S p s rnd).1 a) ∧
      ∀ q, Holds S q → q ≠ p → Holds (sliceOneAndReplace S p s rnd).1 q := by
  unfold sliceOneAndReplace
  split
  · exact ⟨[], .done _, h, fun a ha => by simp at ha, fun q hq _ => hq⟩
  · exact ⟨[], .done _, h, fun a ha => by simp at ha, fun q hq _ => hq⟩
  next a b hab =>
  obtain ⟨v, hv⟩ := built_vn h.1 (holds_face hp)
  obtain ⟨line, hm⟩ := sliceOne_some hv hab
  obtain ⟨e1, e2, -⟩ := made_parts hv hm
  obtain ⟨pre, w, u, v, post, rfl⟩ := holds_split hp
  have hap : NamesApart (p.1 :: (u ++ v).map Prod.fst) := by
    have := h.2
    have hsub : List.Sublist ((u ++ p :: v).map Prod.fst) (polyNames (pre ++ ⟨w, u ++ p :: v⟩ :: post)) := by
      simp only [polyNames, List.flatMap_append, List.flatMap_cons]
      exact ((List.sublist_append_left _ _)).trans (List.sublist_append_right _ _)
    have h1 : NamesApart ((u ++ p :: v).map Prod.fst) := List.Pairwise.sublist hsub this
    refine NamesApart.perm h1 ?_
    simp only [List.map_append, List.map_cons]
    exact List.perm_middle
  have hparts := hap.parts
  rw [namesApart_cons, namesApart_cons] at hparts
  simp only at e1 e2
  have hrep := replacePolygon_ok (a := a) (b := b) h.2.nodup
    (fun hm => by
      rw [e1] at hm
      exact (hparts.1 _ (List.mem_cons_of_mem _ hm)).1.1 rfl)
    (fun hm => by
      rw [e2] at hm
      exact (hparts.2.1 _ hm).1.1 rfl)
    (by rw [e1, e2]; exact (nameApart_parts p.1).1.1)
  simp only [hrep]
  have hr : Replaced (pre ++ ⟨w, u ++ p :: v⟩ :: post) p a b (pre ++ ⟨w, u ++ v ++ [a, b]⟩ :: post) :=
    ⟨pre, w, u, v, post, rfl, rfl⟩
  obtain ⟨h1, h2⟩ := sound_replaced h hm hr
  refine ⟨[⟨p, line, a, b⟩], .cut hm hr (.done _), h1, ?_, ?_⟩
  · rintro a' ha'
    cases ha'
    exact h2
  · rintro q ⟨w', hw', hq⟩ hne
    rcases List.mem_append.1 hw' with hw' | hw'
    · exact ⟨w', by simp [hw'], hq⟩
    rcases List.mem_cons.1 hw' with rfl | hw'
    · refine ⟨⟨w, u ++ v ++ [a, b]⟩, by simp, ?_⟩
      simp only [List.mem_append, List.mem_cons] at hq ⊢
      rcases hq with hq | rfl | hq
      · exact .inl (.inl hq)
      · exact absurd rfl hne
      · exact .inl (.inr hq)
    · exact ⟨w', by simp [hw'], hq⟩

theorem sliceOnce_spec {S : SolidG} (h : Sound S) {p : Str × Poly} (hp : Holds S p) {s : List (Vec3 ℝ)} {rnd : Str} :
    ∃ cs, CutInto S cs (sliceOnce S p s rnd).1 ∧ Sound (sliceOnce S p s rnd).1 := by
  obtain ⟨cs, h1, h2, -⟩ := sliceOneAndReplace_spec h hp (s := s) (rnd := rnd)
  unfold sliceOnce
  split
  next hh => rw [hh] at h1 h2; exact ⟨cs, h1, h2⟩
  next hh => rw [hh] at h1 h2; exact ⟨cs, h1, h2⟩

theorem sliceTwice_spec {S : SolidG} (h : Sound S) {p : Str × Poly} (hp : Holds S p) {s t : List (Vec3 ℝ)} {rnd : Str} :
    ∃ cs, CutInto S cs (sliceTwice S p s t rnd).1 ∧ Sound (sliceTwice S p s t rnd).1 := by
  obtain ⟨cs, h1, h2, h3, -⟩ := sliceOneAndReplace_spec h hp (s := s) (rnd := rnd)
  unfold sliceTwice
  split
  next hh => rw [hh] at h1 h2; exact ⟨cs, h1, h2⟩
  next hh => rw [hh] at h1 h2; exact ⟨cs, h1, h2⟩
  next S' main hh =>
  rw [hh] at h1 h2 h3
  obtain ⟨ds, k1, k2, -⟩ := sliceOneAndReplace_spec h2 (h3 main rfl) (s := t) (rnd := rnd)
  split
  next hh => rw [hh] at k1 k2; exact ⟨cs ++ ds, h1.trans k1, k2⟩
  next hh => rw [hh] at k1 k2; exact ⟨cs ++ ds, h1.trans k1, k2⟩

theorem sliceBoth_spec {S1 S2 : SolidG} (h1 : Sound S1) (h2 : Sound S2) {p1 p2 : Str × Poly} (hp1 : Holds S1 p1)
    (hp2 : Holds S2 p2) {rnd : Str} :
    ∃ cs1 cs2, CutInto S1 cs1 (sliceBothAndReplace S1 p1 S2 p2 rnd).1.1 ∧
      CutInto S2 cs2 (sliceBothAndReplace S1 p1 S2 p2 rnd).1.2 ∧ Sound (sliceBothAndReplace S1 p1 S2 p2 rnd).1.1 ∧
      Sound (sliceBothAndReplace S1 p1 S2 p2 rnd).1.2 := by
  unfold sliceBothAndReplace
  split
  · exact ⟨[], [], .done _, .done _, h1, h2⟩
  split
  · split
    · exact ⟨[], [], .done _, .done _, h1, h2⟩
    split
    · exact ⟨[], [], .done _, .done _, h1, h2⟩
    next cut _ =>
    split
    · obtain ⟨cs, k1, k2⟩ := sliceTwice_spec h1 hp1 (s := cut) (t := p2.2.pts) (rnd := rnd)
      exact ⟨cs, [], k1, .done _, k2, h2⟩
    · obtain ⟨cs, k1, k2⟩ := sliceTwice_spec h2 hp2 (s := cut) (t := p1.2.pts) (rnd := rnd)
      exact ⟨[], cs, .done _, k1, h1, k2⟩
  split
  · obtain ⟨cs, k1, k2⟩ := sliceOnce_spec h2 hp2 (s := p1.2.pts) (rnd := rnd)
    exact ⟨[], cs, .done _, k1, h1, k2⟩
  split
  · obtain ⟨cs, k1, k2⟩ := sliceOnce_spec h1 hp1 (s := p2.2.pts) (rnd := rnd)
    exact ⟨cs, [], k1, .done _, k2, h2⟩
  · obtain ⟨cs, k1, k2⟩ := sliceOnce_spec h1 hp1 (s := p2.2.pts) (rnd := rnd)
    obtain ⟨ds, l1, l2⟩ := sliceOnce_spec h2 hp2 (s := p1.2.pts) (rnd := rnd)
    split
    next hh => rw [hh] at k1 k2; exact ⟨cs, [], k1, .done _, k2, h2⟩
    next hh => rw [hh] at k1 k2; exact ⟨cs, ds, k1, l1, k2, l2⟩

theorem mem_wallsAndPolygons {S : SolidG} {p : Str × Poly} : (∃ i, (i, p) ∈ wallsAndPolygons S) ↔ Holds S p := by
  unfold wallsAndPolygons Holds
  simp only [List.mem_flatMap, List.mem_map]
  constructor
  · rintro ⟨i, ⟨w, j⟩, hw, q, hq, he⟩
    simp only [Prod.mk.injEq] at he
    obtain ⟨rfl, rfl⟩ := he
    exact ⟨w, List.fst_mem_of_mem_zipIdx hw, hq⟩
  · rintro ⟨w, hw, hp⟩
    obtain ⟨i, hi⟩ := List.mem_iff_getElem?.1 hw
    exact ⟨i, (w, i), List.mem_zipIdx_iff_getElem?.2 hi, p, hp, rfl⟩

theorem firstSliceable_spec {l : List ((Str × Poly) × (Str × Poly))} :
    (∀ pq, firstSliceable l = .ok (some pq) → pq ∈ l ∧ canBeSliced pq.1.2 pq.2.2 = .ok true) ∧
    (firstSliceable l = .ok none ↔ ∀ pq ∈ l, canBeSliced pq.1.2 pq.2.2 = .ok false) := by
  induction l with
  | nil => simp [firstSliceable]
  | cons x l ih =>
    obtain ⟨p, q⟩ := x
    rw [firstSliceable]
    split
    next e h => simp [h]
    next h =>
      refine ⟨fun pq hh => ?_, ?_⟩
      · cases hh
        exact ⟨by simp, h⟩
      · simp [h]
    next h =>
      refine ⟨fun pq hh => ⟨by simp [(ih.1 pq hh).1], (ih.1 pq hh).2⟩, ?_⟩
      rw [ih.2]
      simp [h]

theorem mem_pairs {S1 S2 : SolidG} {pq : (Str × Poly) × (Str × Poly)} :
    pq ∈ (wallsAndPolygons S1).flatMap (fun p => (wallsAndPolygons S2).map fun q => (p.2, q.2)) ↔
      Holds S1 pq.1 ∧ Holds S2 pq.2 := by
  rw [← mem_wallsAndPolygons, ← mem_wallsAndPolygons]
  simp only [List.mem_flatMap, List.mem_map]
  constructor
  · rintro ⟨⟨i, p⟩, hp, ⟨j, q⟩, hq, rfl⟩
    exact ⟨⟨i, hp⟩, ⟨j, hq⟩⟩
  · rintro ⟨⟨i, hp⟩, ⟨j, hq⟩⟩
    exact ⟨(i, pq.1), hp, (j, pq.2), hq, rfl⟩

theorem canBeSliced_false {P Q : Poly} : canBeSliced P Q = .ok false ↔
    arePolygonsCrossing P.pts P.tri Q.pts Q.tri = .ok false ∧ containsPolygon P Q = .ok false ∧
      containsPolygon Q P = .ok false := by
  unfold canBeSliced
  split
  next h => simp [h]
  next o h =>
    split
    next h1 => simp [h1]
    next h1 => simp [h1]
    next h1 =>
      split
      next h2 => simp [h1, h2]
      next w h2 => simp [h, h1, h2, Bool.or_eq_false_iff]

/-- **C81, what stitching does.**  Whatever the outcome, also if an exception is raised: each of the two solids has been
changed only by slicing polygons and putting the two parts, named after the polygon, in its place in its wall.  No
polygon is lost, and the names are still apart. -/
theorem C81_pieces {rnd : Nat → Str} {fuel : Nat} {S1 S2 S1' S2' : SolidG} {r : Except PyErr Unit} (h1 : Sound S1)
    (h2 : Sound S2) (h : stitchSolids rnd fuel S1 S2 = some ((S1', S2'), r)) :
    ∃ cs1 cs2, CutInto S1 cs1 S1' ∧ CutInto S2 cs2 S2' ∧ Sound S1' ∧ Sound S2' := by
  induction fuel generalizing S1 S2 with
  | zero => cases h
  | succ fuel ih =>
    rw [stitchSolids] at h
    split at h
    · cases h
      exact ⟨[], [], .done _, .done _, h1, h2⟩
    · cases h
      exact ⟨[], [], .done _, .done _, h1, h2⟩
    next p1 p2 hn =>
    obtain ⟨g1, g2⟩ := mem_pairs.1 (firstSliceable_spec.1 _ hn).1
    obtain ⟨cs1, cs2, k1, k2, k3, k4⟩ := sliceBoth_spec h1 h2 g1 g2 (rnd := rnd fuel)
    split at h
    next hh =>
      rw [hh] at k1 k2 k3 k4
      cases h
      exact ⟨cs1, cs2, k1, k2, k3, k4⟩
    next hh =>
      rw [hh] at k1 k2 k3 k4
      obtain ⟨ds1, ds2, l1, l2, l3, l4⟩ := ih k3 k4 h
      exact ⟨cs1 ++ ds1, cs2 ++ ds2, k1.trans l1, k2.trans l2, l3, l4⟩

/-- **C81, when stitching ends.**  If it returns, then no polygon of the one solid crosses, contains or is contained in
a polygon of the other solid, as far as the tests of the library see. -/
theorem C81_returns {rnd : Nat → Str} {fuel : Nat} {S1 S2 S1' S2' : SolidG}
    (h : stitchSolids rnd fuel S1 S2 = some ((S1', S2'), .ok ())) :
    ∀ P ∈ facesOf S1', ∀ Q ∈ facesOf S2', arePolygonsCrossing P.pts P.tri Q.pts Q.tri = .ok false ∧
      containsPolygon P Q = .ok false ∧ containsPolygon Q P = .ok false := by
  induction fuel generalizing S1 S2 with
  | zero => cases h
  | succ fuel ih =>
    rw [stitchSolids] at h
    split at h
    · cases h
    next hn =>
      cases h
      intro P hP Q hQ
      rw [← canBeSliced_false]
      simp only [facesOf, List.mem_flatMap, List.mem_map] at hP hQ
      obtain ⟨w, hw, p, hp, rfl⟩ := hP
      obtain ⟨x, hx, q, hq, rfl⟩ := hQ
      exact firstSliceable_spec.2.1 hn (p, q) (mem_pairs.2 ⟨⟨w, hw, hp⟩, ⟨x, hx, hq⟩⟩)
    next p1 p2 hn =>
    split at h
    · cases h
    · exact ih h

theorem nothing_next {S1 S2 : SolidG} (h : ∀ P ∈ facesOf S1, ∀ Q ∈ facesOf S2,
    arePolygonsCrossing P.pts P.tri Q.pts Q.tri = .ok false ∧ containsPolygon P Q = .ok false ∧
      containsPolygon Q P = .ok false) : nextAdjacentPolygons S1 S2 = .ok none := by
  unfold nextAdjacentPolygons
  rw [firstSliceable_spec.2]
  intro pq hpq
  obtain ⟨g1, g2⟩ := mem_pairs.1 hpq
  exact canBeSliced_false.2 (h _ (holds_face g1) _ (holds_face g2))

/-- **C81, nothing to do.**  Solids no polygons of which cross or contain each other are left as they are. -/
theorem C81_nothing {rnd : Nat → Str} {fuel : Nat} {S1 S2 : SolidG} (h : ∀ P ∈ facesOf S1, ∀ Q ∈ facesOf S2,
    arePolygonsCrossing P.pts P.tri Q.pts Q.tri = .ok false ∧ containsPolygon P Q = .ok false ∧
      containsPolygon Q P = .ok false) : stitchSolids rnd (fuel + 1) S1 S2 = some ((S1, S2), .ok ()) := by
  rw [stitchSolids, nothing_next h]

/-- **C81, twice is once.**  Stitching what has been stitched changes nothing. -/
theorem C81_again {rnd rnd' : Nat → Str} {fuel fuel' : Nat} {S1 S2 S1' S2' : SolidG}
    (h : stitchSolids rnd fuel S1 S2 = some ((S1', S2'), .ok ())) :
    stitchSolids rnd' (fuel' + 1) S1' S2' = some ((S1', S2'), .ok ()) :=
  C81_nothing (C81_returns h)

end B3d.Solids
