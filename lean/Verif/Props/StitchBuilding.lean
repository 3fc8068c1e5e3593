import Verif.Model.StitchBuilding
import Verif.Props.StitchSurface
import Verif.Props.StitchRun
import Verif.Props.Graph

/-!
# C83: stitching the solids of a building
-/

namespace B3d.Solids

open Polygon Slice Spec

/-- The solids are stitched in pairs, one pair after the other. -/
inductive Stitched (rnd : Str → Str → Nat → Str) (fuel : Nat) : SolidDict → List (Str × Str) → SolidDict → Prop
  | done (B : SolidDict) : Stitched rnd fuel B [] B
  | pair {B B' : SolidDict} {s t : Str} {S T S' T' : SolidG} {vs : List (Str × Str)} : solidAt B s = some S →
      solidAt B t = some T → stitchSolids (rnd s t) fuel S T = some ((S', T'), .ok ()) →
      Stitched rnd fuel (putSolid (putSolid B s S') t T') vs B' → Stitched rnd fuel B ((s, t) :: vs) B'

theorem stitchLoop_visits {rnd : Str → Str → Nat → Str} {fuel : Nat} {pairs done l : List (Str × Str)}
    {B B' : SolidDict} (hl : Hier.stitchVisitsAux done pairs = .ok l)
    (h : stitchLoop rnd fuel done pairs B = some (B', .ok ())) : Stitched rnd fuel B l B' := by
  induction pairs generalizing done l B with
  | nil =>
    cases hl
    simp only [stitchLoop, Option.some.injEq, Prod.mk.injEq, and_true] at h
    subst h
    exact .done B
  | cons v rest ih =>
    obtain ⟨s, t⟩ := v
    unfold Hier.stitchVisitsAux at hl
    unfold stitchLoop at h
    split at hl
    · rename_i b1 z1 sName b2 z2 tName h1 h2
      rw [h1, h2] at h
      simp only [] at h
      by_cases hd : (sName, tName) ∈ done ∨ (tName, sName) ∈ done
      · rw [if_pos hd] at hl h
        exact ih hl h
      · rw [if_neg hd] at hl h
        split at hl
        · rename_i l' hl'
          cases hl
          split at h
          · rename_i S T hS hT
            split at h
            · cases h
            · simp at h
            · rename_i S' T' hst
              exact .pair hS hT hst (ih hl' h)
          · simp at h
        · cases hl
    · cases hl

/-- **C83, the pairs.**  If stitching a building returns, the pairs of solids that are visited have been stitched one
after the other, each once; `C61_stitch_visits_partial` says which pairs these are. -/
theorem C83_pairs {rnd : Str → Str → Nat → Str} {fuel : Nat} {g : Hier.GDict} {B B' : SolidDict}
    {l : List (Str × Str)} (hl : Hier.stitchVisits g = .ok l) (h : stitchBuilding rnd fuel g B = some (B', .ok ())) :
    Stitched rnd fuel B l B' := stitchLoop_visits hl h

theorem solidAt_some {B : SolidDict} {s : Str} {S : SolidG} (h : solidAt B s = some S) : (s, S) ∈ B := by
  unfold solidAt at h
  cases hf : B.find? fun e => e.1 = s with
  | none => rw [hf] at h; cases h
  | some e =>
    rw [hf] at h
    cases h
    have h1 := List.find?_some hf
    have h2 := List.mem_of_find?_eq_some hf
    simp only [decide_eq_true_eq] at h1
    rwa [← h1]

theorem solidAt_put_same {B : SolidDict} {s : Str} {S S' : SolidG} (h : solidAt B s = some S) :
    solidAt (putSolid B s S') s = some S' := by
  induction B with
  | nil => cases h
  | cons e rest ih =>
    unfold putSolid solidAt at *
    by_cases he : e.1 = s
    · simp [he]
    · simp only [List.find?_cons, he, decide_false, List.map_cons, if_false] at h ⊢
      exact ih h

theorem solidAt_put_other {B : SolidDict} {s t : Str} {S' : SolidG} (hst : t ≠ s) :
    solidAt (putSolid B s S') t = solidAt B t := by
  induction B with
  | nil => rfl
  | cons e rest ih =>
    unfold putSolid solidAt at *
    by_cases he : e.1 = s
    · have : ¬ s = t := fun h => hst h.symm
      simp only [List.map_cons, he, if_true, List.find?_cons, this, decide_false]
      exact ih
    · by_cases ht : e.1 = t
      · simp [ht, hst]
      · simp only [List.map_cons, he, if_false, List.find?_cons, ht, decide_false]
        exact ih

/-- What may happen to the solid at a path: it is cut, and only if it is in one of the pairs. -/
def CutOnly (pairs : List (Str × Str)) (e e' : Str × SolidG) : Prop :=
  e'.1 = e.1 ∧ Sound e'.2 ∧ (∃ cs, CutInto e.2 cs e'.2) ∧ ((∀ v ∈ pairs, v.1 ≠ e.1 ∧ v.2 ≠ e.1) → e' = e)

theorem cutOnly_refl {pairs : List (Str × Str)} {B : SolidDict} (hB : ∀ e ∈ B, Sound e.2) :
    List.Forall₂ (CutOnly pairs) B B := by
  rw [List.forall₂_same]
  exact fun e he => ⟨rfl, hB e he, ⟨[], .done _⟩, fun _ => rfl⟩

theorem cutOnly_put {pairs : List (Str × Str)} {B : SolidDict} (hB : ∀ e ∈ B, Sound e.2)
    (hn : (B.map Prod.fst).Nodup) {s t : Str} {S T S' T' : SolidG} (hs : (s, S) ∈ B) (ht : (t, T) ∈ B)
    (hp : (s, t) ∈ pairs) (hst : s ≠ t) (h1 : ∃ cs, CutInto S cs S') (h2 : ∃ cs, CutInto T cs T') (k1 : Sound S')
    (k2 : Sound T') : List.Forall₂ (CutOnly pairs) B (putSolid (putSolid B s S') t T') := by
  have key : ∀ e ∈ B, CutOnly pairs e
      (if (if e.1 = s then (e.1, S') else e).1 = t then ((if e.1 = s then (e.1, S') else e).1, T')
        else if e.1 = s then (e.1, S') else e) := by
    intro e he
    by_cases e1 : e.1 = s
    · obtain rfl : e = (s, S) := List.inj_on_of_nodup_map hn he hs e1
      simp only [if_true, hst, if_false]
      exact ⟨rfl, k1, h1, fun hv => absurd rfl (hv _ hp).1⟩
    · by_cases e2 : e.1 = t
      · obtain rfl : e = (t, T) := List.inj_on_of_nodup_map hn he ht e2
        simp only [hst.symm, if_false, if_true]
        exact ⟨rfl, k2, h2, fun hv => absurd rfl (hv _ hp).2⟩
      · simp only [e1, if_false, e2]
        exact ⟨rfl, hB e he, ⟨[], .done _⟩, fun _ => rfl⟩
  unfold putSolid
  rw [List.map_map, List.forall₂_map_right_iff, List.forall₂_same]
  exact key

theorem CutOnly.trans {pairs : List (Str × Str)} {B B' B'' : SolidDict} (h : List.Forall₂ (CutOnly pairs) B B')
    (h' : List.Forall₂ (CutOnly pairs) B' B'') : List.Forall₂ (CutOnly pairs) B B'' := by
  induction h generalizing B'' with
  | nil => exact h'
  | cons h1 _ ih =>
    cases h' with
    | cons h2 h3 =>
      refine .cons ?_ (ih h3)
      obtain ⟨a1, a2, ⟨cs, a3⟩, a4⟩ := h1
      obtain ⟨b1, b2, ⟨ds, b3⟩, b4⟩ := h2
      refine ⟨b1.trans a1, b2, ⟨_, a3.trans b3⟩, fun hv => ?_⟩
      have e := a4 hv
      rw [e] at b4
      rw [b4 hv]

theorem cutOnly_keys {pairs : List (Str × Str)} {B B' : SolidDict} (h : List.Forall₂ (CutOnly pairs) B B') :
    B'.map Prod.fst = B.map Prod.fst := by
  induction h with
  | nil => rfl
  | cons h1 _ ih => simp [h1.1, ih]

theorem cutOnly_sound {pairs : List (Str × Str)} {B B' : SolidDict} (h : List.Forall₂ (CutOnly pairs) B B') :
    ∀ e ∈ B', Sound e.2 := by
  induction h with
  | nil => simp
  | cons h1 _ ih =>
    intro e he
    rcases List.mem_cons.1 he with rfl | he
    · exact h1.2.1
    · exact ih e he

theorem stitchLoop_pieces {rnd : Str → Str → Nat → Str} {fuel : Nat} {all pairs done : List (Str × Str)}
    {B B' : SolidDict} {r : Except PyErr Unit} (hn : (B.map Prod.fst).Nodup) (hB : ∀ e ∈ B, Sound e.2)
    (hall : ∀ v ∈ pairs, v ∈ all ∧ v.1 ≠ v.2) (h : stitchLoop rnd fuel done pairs B = some (B', r)) :
    List.Forall₂ (CutOnly all) B B' := by
  induction pairs generalizing done B with
  | nil =>
    simp only [stitchLoop, Option.some.injEq, Prod.mk.injEq] at h
    obtain ⟨rfl, rfl⟩ := h
    exact cutOnly_refl hB
  | cons v rest ih =>
    obtain ⟨s, t⟩ := v
    obtain ⟨hm, hst⟩ := hall (s, t) (by simp)
    have hall' := fun v hv => hall v (List.mem_cons_of_mem _ hv)
    unfold stitchLoop at h
    split at h
    · rename_i b1 z1 sName b2 z2 tName h1 h2
      by_cases hd : (sName, tName) ∈ done ∨ (tName, sName) ∈ done
      · rw [if_pos hd] at h
        exact ih hn hB hall' h
      · rw [if_neg hd] at h
        split at h
        · rename_i S T hS hT
          have mS := solidAt_some hS
          have mT := solidAt_some hT
          split at h
          · cases h
          · rename_i S' T' e hrun
            cases h
            obtain ⟨cs1, cs2, c1, c2, k1, k2⟩ := C81_pieces (hB _ mS) (hB _ mT) hrun
            exact cutOnly_put hB hn mS mT hm hst ⟨_, c1⟩ ⟨_, c2⟩ k1 k2
          · rename_i S' T' hrun
            obtain ⟨cs1, cs2, c1, c2, k1, k2⟩ := C81_pieces (hB _ mS) (hB _ mT) hrun
            have hone := cutOnly_put hB hn mS mT hm hst ⟨_, c1⟩ ⟨_, c2⟩ k1 k2
            exact CutOnly.trans hone (ih (by rw [cutOnly_keys hone]; exact hn) (cutOnly_sound hone) hall' h)
        · cases h
          exact cutOnly_refl hB
    · cases h
      exact cutOnly_refl hB

/-- **C83, pieces.**  Whatever the outcome of stitching a building, also if an exception stops it, the building has the
same solids at the same paths.  Each of them comes from what it was by slicing polygons, one after the other, and putting
the two parts in their place; a solid that is in no pair of the graph is not changed. -/
theorem C83_pieces {rnd : Str → Str → Nat → Str} {fuel : Nat} {g : Hier.GDict} {B B' : SolidDict}
    {r : Except PyErr Unit} (hn : (B.map Prod.fst).Nodup) (hB : ∀ e ∈ B, Sound e.2)
    (hloop : ∀ kv ∈ g, kv.1 ∉ kv.2) (h : stitchBuilding rnd fuel g B = some (B', r)) :
    List.Forall₂ (fun e e' => e'.1 = e.1 ∧ Sound e'.2 ∧ (∃ cs, CutInto e.2 cs e'.2) ∧
      ((∀ kv ∈ g, kv.1 ≠ e.1 ∨ kv.2 = []) → (∀ kv ∈ g, e.1 ∉ kv.2) → e' = e)) B B' := by
  unfold stitchBuilding at h
  have := stitchLoop_pieces (all := g.flatMap fun kv => kv.2.map fun t => (kv.1, t)) hn hB (fun v hv => ⟨hv, by
    simp only [List.mem_flatMap, List.mem_map] at hv
    obtain ⟨kv, hkv, t, ht, rfl⟩ := hv
    intro he
    simp only [] at he
    exact hloop kv hkv (he ▸ ht)⟩) h
  refine this.imp ?_
  rintro e e' ⟨h1, h2, h3, h4⟩
  refine ⟨h1, h2, h3, fun k1 k2 => h4 fun v hv => ?_⟩
  simp only [List.mem_flatMap, List.mem_map] at hv
  obtain ⟨kv, hkv, t, ht, rfl⟩ := hv
  refine ⟨?_, fun he => k2 kv hkv (he ▸ ht)⟩
  rcases k1 kv hkv with h | h
  · exact h
  · rw [h] at ht; cases ht

theorem stitched_other {rnd : Str → Str → Nat → Str} {fuel : Nat} {B B' : SolidDict} {vs : List (Str × Str)}
    (h : Stitched rnd fuel B vs B') {s : Str} (hs : ∀ v ∈ vs, v.1 ≠ s ∧ v.2 ≠ s) : solidAt B' s = solidAt B s := by
  induction h with
  | done => rfl
  | @pair B B' s' t' S T S' T' vs _ _ _ _ ih =>
    obtain ⟨h1, h2⟩ := hs (s', t') (by simp)
    rw [ih fun v hv => hs v (List.mem_cons_of_mem _ hv), solidAt_put_other h2.symm, solidAt_put_other h1.symm]

/-- **C83, matching faces.**  If stitching a building returns, and neither of the two solids of a pair is in a pair
treated later, then no polygon of the one is found to cross, to contain or to be contained in a polygon of the other.

What is missing: pairs one of which is cut again later. -/
theorem C83_matched_partial {rnd : Str → Str → Nat → Str} {fuel : Nat} {B B' : SolidDict} {pre post : List (Str × Str)}
    {s t : Str} (h : Stitched rnd fuel B (pre ++ (s, t) :: post) B') (hst : s ≠ t)
    (hs : ∀ v ∈ post, v.1 ≠ s ∧ v.2 ≠ s) (ht : ∀ v ∈ post, v.1 ≠ t ∧ v.2 ≠ t) :
    ∃ S T, solidAt B' s = some S ∧ solidAt B' t = some T ∧ ∀ P ∈ facesOf S, ∀ Q ∈ facesOf T,
      arePolygonsCrossing P.pts P.tri Q.pts Q.tri = .ok false ∧ containsPolygon P Q = .ok false ∧
        containsPolygon Q P = .ok false := by
  induction pre generalizing B with
  | nil =>
    cases h with
    | @pair _ _ _ _ S T S' T' _ hS hT hrun hrest =>
      refine ⟨S', T', ?_, ?_, C81_returns hrun⟩
      · rw [stitched_other hrest hs, solidAt_put_other hst, solidAt_put_same hS]
      · rw [stitched_other hrest ht]
        exact solidAt_put_same (S := T) (by rw [solidAt_put_other hst.symm, hT])
  | cons v pre ih =>
    cases h with
    | pair _ _ _ hrest => exact ih hrest

/-- **C83 fails for the graph afterwards.**  Stitching asks for the graph of the building and leaves it in the cache.
Whatever happens to the polygons (`h'`, `r'` are the building and the relations between its polygons afterwards), asking
for the graph again gives the graph of the building before it was stitched, with overlapping polygons connected,
also if the facing ones are asked for. -/
theorem C83_graph_stale {P : Type} (setList : List Str → List Str) (ops : List (Hier.Op P))
    (hl : Hier.LinearFrom [] ops) (b : Nat) (B : Hier.Obj P) (hb : (Hier.exec ops)[b]? = some B)
    (hk : B.kind = .building) (r : Hier.Rels)
    (htwo : ∃ i j, i ≠ j ∧ Hier.IsPolygonOf (Hier.exec ops) b i ∧ Hier.IsPolygonOf (Hier.exec ops) b j)
    (h' : Hier.Heap P) (r' : Hier.Rels) (level : Hier.Level) (f : Hier.Flags) :
    (Hier.getGraph setList h' r' b
      (Hier.getGraph setList (Hier.exec ops) r b ⟨[], [], [], []⟩ false .solid ⟨true, true, false⟩).1 false level f).2 =
      Hier.levelGraph setList (Hier.exec ops) r ⟨true, true, false⟩ b level := by
  obtain ⟨-, o1, o2, o3, o4⟩ := Hier.C12_fresh_graph_partial setList (Hier.exec ops) r b ⟨[], [], [], []⟩ false .solid
    ⟨true, true, false⟩ (.inr rfl)
  obtain ⟨-, hkeys, -⟩ := Hier.C10_polygon_graph_exact ops hl b B hb hk r ⟨true, true, false⟩ htwo
  obtain ⟨i, -, -, hi, -⟩ := htwo
  have hne : Hier.graphPolygon (Hier.exec ops) r ⟨true, true, false⟩ b ≠ [] := by
    intro he
    have := (hkeys (Hier.path (Hier.exec ops) i)).2 ⟨i, hi, rfl⟩
    rw [he] at this
    cases this
  generalize (Hier.getGraph setList (Hier.exec ops) r b ⟨[], [], [], []⟩ false .solid ⟨true, true, false⟩).1 = c at *
  have hc : ¬ c.polygon.length = 0 := by
    rw [o1, List.length_eq_zero_iff]
    exact hne
  unfold Hier.getGraph Hier.levelGraph
  simp only [hc, if_false, Bool.false_eq_true]
  cases level <;> simp only [o1, o2, o3, o4]

/-- A building of two solids, with the walls of `C81_run`: it is stitched, and the theorems above apply. -/
theorem C83_run : ∃ (P Q P1 P2 : Poly) (g : Hier.GDict) (B B' : SolidDict) (l : List (Str × Str)),
    polygonNew square none none = .ok P ∧ polygonNew most none none = .ok Q ∧
    B = [("b/z/s".toList, [⟨"w".toList, [("p".toList, P)]⟩]), ("b/z/t".toList, [⟨"w".toList, [("p".toList, Q)]⟩])] ∧
    B' = [("b/z/s".toList, [⟨"w".toList, [("p-main".toList, P1), ("p-sup".toList, P2)]⟩]),
      ("b/z/t".toList, [⟨"w".toList, [("p".toList, Q)]⟩])] ∧ P1.pts = Q.pts.reverse ∧
    g = [("b/z/s".toList, ["b/z/t".toList]), ("b/z/t".toList, ["b/z/s".toList])] ∧
    Hier.stitchVisits g = .ok l ∧ l = [("b/z/s".toList, "b/z/t".toList)] ∧ (B.map Prod.fst).Nodup ∧
    (∀ e ∈ B, Sound e.2) ∧ (∀ kv ∈ g, kv.1 ∉ kv.2) ∧
    ∀ rnd fuel, stitchBuilding rnd (fuel + 2) g B = some (B', .ok ()) := by
  obtain ⟨P, Q, P1, P2, hP, hQ, -, -, -, hrev, hrun⟩ := C81_run
  have hv : Hier.stitchVisits [("b/z/s".toList, ["b/z/t".toList]), ("b/z/t".toList, ["b/z/s".toList])] =
      .ok [("b/z/s".toList, "b/z/t".toList)] := by decide +kernel
  have e1 : Str.split PATH_SEP "b/z/s".toList = ["b".toList, "z".toList, "s".toList] := by decide +kernel
  have e2 : Str.split PATH_SEP "b/z/t".toList = ["b".toList, "z".toList, "t".toList] := by decide +kernel
  have ne : "b/z/s".toList ≠ "b/z/t".toList := by decide +kernel
  refine ⟨P, Q, P1, P2, _, _, _, _, hP, hQ, rfl, rfl, hrev, rfl, hv, rfl, ?_, ?_, ?_, fun rnd fuel => ?_⟩
  · simp
  · intro e he
    simp only [List.mem_cons, List.not_mem_nil, or_false] at he
    rcases he with rfl | rfl
    · exact (hrun (fun _ => []) 0 _ [] _ []).2.1
    · exact (hrun (fun _ => []) 0 [] _ [] _).2.2.1
  · decide +kernel
  · have h1 := (hrun (rnd "b/z/s".toList "b/z/t".toList) fuel "p".toList "p".toList "w".toList "w".toList).1
    have m : "p".toList ++ "-main".toList = "p-main".toList := by decide +kernel
    have m' : "p".toList ++ "-sup".toList = "p-sup".toList := by decide +kernel
    rw [m, m'] at h1
    generalize "b/z/s".toList = s at *
    generalize "b/z/t".toList = t at *
    simp only [stitchBuilding, List.flatMap_cons, List.flatMap_nil, List.map_cons, List.map_nil, List.cons_append,
      List.nil_append, stitchLoop, e1, e2, solidAt, List.find?_cons, decide_true, Option.map_some, ne, decide_false,
      h1, putSolid, if_true, if_false, ne.symm, List.mem_cons, List.not_mem_nil, or_false, or_true, or_self]

end B3d.Solids
