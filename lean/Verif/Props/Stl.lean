import Verif.Proofs.Stl
import Verif.Spec.Stl

/-! # Properties C18, C19: STL files -/

namespace B3d.Stl

open B3d.Triangles (Tri)
open B3d.Tree
open B3d.ArrayFormat (rowAt)

variable {F T : Type} {render : F → Str} {parse : Str → Option F}
variable {mk : Tri3 F → Except PyErr T} {rid : Str}

/-! ## C18 -/

/-- The facets written for a list of triangles with their normals. -/
def facetText (render : F → Str) (fs : List (V3 F × Tri3 F)) : List Str :=
  fs.flatMap fun f => facetLines render f.1 f.2.1 f.2.2.1 f.2.2.2

theorem rowAt_some {α : Type} {l : List α} {k : Nat} {x : α} (h : l[k]? = some x) :
    rowAt l k = .ok x := by
  unfold rowAt; rw [h]

theorem polyLines_ok (n : V3 F) (pts : List (V3 F)) (ts : List Tri)
    (h : ∀ t ∈ ts, (cornersOf pts t).isSome) :
    polyLines render n pts ts
      = .ok (facetText render ((ts.filterMap (cornersOf pts)).map fun t => (n, t))) := by
  induction ts with
  | nil => rfl
  | cons t ts ih =>
    have ht := h t (by simp)
    obtain ⟨q, hq⟩ := Option.isSome_iff_exists.1 ht
    have hq' := hq
    unfold cornersOf at hq'
    split at hq'
    · rename_i a b c h1 h2 h3
      simp only [Option.some.injEq] at hq'
      rw [polyLines, rowAt_some h1, rowAt_some h2, rowAt_some h3,
        ih fun t ht => h t (by simp [ht])]
      simp only [List.filterMap_cons, hq, List.map_cons, facetText, List.flatMap_cons]
      rw [← hq']
    · simp at hq'

theorem linesOf_ok {X : Type} (f : X → Except PyErr (List Str)) (g : X → List (V3 F × Tri3 F))
    (xs : List X) (h : ∀ x ∈ xs, f x = .ok (facetText render (g x))) :
    linesOf f xs = .ok (facetText render (xs.flatMap g)) := by
  induction xs with
  | nil => rfl
  | cons x xs ih =>
    rw [linesOf, h x (by simp), ih fun y hy => h y (by simp [hy])]
    simp [facetText]

theorem linesOf_flat {X : Type} (f : X → Except PyErr (List Str)) (g : X → List Str)
    (xs : List X) (h : ∀ x ∈ xs, f x = .ok (g x)) : linesOf f xs = .ok (xs.flatMap g) := by
  induction xs with
  | nil => rfl
  | cons x xs ih =>
    rw [linesOf, h x (by simp), ih fun y hy => h y (by simp [hy])]
    simp

/-- Triangles of a solid with the normals written next to them. -/
def solidFacets (vn : Poly (V3 F) → V3 F) (s : Solid (V3 F)) : List (V3 F × Tri3 F) :=
  s.walls.flatMap fun w => w.polygons.flatMap fun p => (polyTris p).map fun t => (vn p, t)

theorem solidFacets_snd (vn : Poly (V3 F) → V3 F) (s : Solid (V3 F)) :
    (solidFacets vn s).map Prod.snd = solidTris s := by
  simp [solidFacets, solidTris, List.map_flatMap, Function.comp_def]

/-- The lines of a solid. -/
def solidText (render : F → Str) (vn : Poly (V3 F) → V3 F) (s : Solid (V3 F)) : List Str :=
  ("solid ".toList ++ s.uid ++ ['\n']) :: facetText render (solidFacets vn s)
    ++ ["endsolid ".toList ++ s.uid ++ ['\n']]

theorem solidLines_ok (vn : Poly (V3 F) → V3 F) (s : Solid (V3 F))
    (h : ∀ w ∈ s.walls, ∀ p ∈ w.polygons, PolyOk p) :
    solidLines render vn s = .ok (solidText render vn s) := by
  unfold solidLines
  rw [linesOf_ok (render := render) _ (fun w : Wall (V3 F) => w.polygons.flatMap fun p =>
    (polyTris p).map fun t => (vn p, t))]
  · rfl
  · intro w hw
    apply linesOf_ok
    intro p hp
    exact polyLines_ok (vn p) p.pts p.tri (h w hw p hp)

theorem isLine_fixed (s : Str) (h : '\n' ∉ s ∧ '\r' ∉ s) : IsLine (s ++ ['\n']) := ⟨s, rfl, h⟩

theorem facetLines_isLine (hf : FloatIO render parse) (n v1 v2 v3 : V3 F) :
    ∀ l ∈ facetLines render n v1 v2 v3, IsLine l := by
  have ht : ∀ (a : Str) (v : V3 F), '\n' ∉ a ∧ '\r' ∉ a → IsLine (a ++ triple render v ++ ['\n']) := by
    intro a v ha
    refine isLine_fixed _ ⟨?_, ?_⟩
    · intro hm
      rcases List.mem_append.1 hm with hm | hm
      · exact ha.1 hm
      · exact triple_not_mem hf v _ (by decide) (by decide) hm
    · intro hm
      rcases List.mem_append.1 hm with hm | hm
      · exact ha.2 hm
      · exact triple_not_mem hf v _ (by decide) (by decide) hm
  intro l hl
  simp only [facetLines, List.mem_cons, List.not_mem_nil, or_false] at hl
  rcases hl with rfl | rfl | rfl | rfl | rfl | rfl | rfl
  · exact ht _ _ (by decide)
  · exact ⟨"    outer loop".toList, by decide, by decide⟩
  · exact ht _ _ (by decide)
  · exact ht _ _ (by decide)
  · exact ht _ _ (by decide)
  · exact ⟨"    endloop".toList, by decide, by decide⟩
  · exact ⟨"  endfacet".toList, by decide, by decide⟩

theorem uidLine (a uid : Str) (ha : '\n' ∉ a ∧ '\r' ∉ a) (h : '\n' ∉ uid ∧ '\r' ∉ uid) :
    IsLine (a ++ uid ++ ['\n']) := by
  refine isLine_fixed _ ⟨?_, ?_⟩
  · intro hm
    rcases List.mem_append.1 hm with hm | hm
    · exact ha.1 hm
    · exact h.1 hm
  · intro hm
    rcases List.mem_append.1 hm with hm | hm
    · exact ha.2 hm
    · exact h.2 hm

theorem solidText_isLine (hf : FloatIO render parse) (vn : Poly (V3 F) → V3 F) (s : Solid (V3 F))
    (h : '\n' ∉ s.uid ∧ '\r' ∉ s.uid) : ∀ l ∈ solidText render vn s, IsLine l := by
  intro l hl
  simp only [solidText, List.cons_append, List.mem_cons, List.mem_append, List.not_mem_nil,
    or_false] at hl
  rcases hl with rfl | hl | rfl
  · exact uidLine _ _ (by decide) h
  · simp only [facetText, List.mem_flatMap] at hl
    obtain ⟨f, -, hl⟩ := hl
    exact facetLines_isLine hf _ _ _ _ l hl
  · exact uidLine _ _ (by decide) h

/-- The line opening a solid. -/
theorem strip_word (w : Str) (hw : Solid0 w) (uid : Str) :
    strip (w ++ ' ' :: uid ++ ['\n']) = w ++ rstrip (' ' :: uid ++ ['\n']) := by
  obtain ⟨⟨d, t, hd, hdw⟩, t', c, hc, hcw⟩ := hw
  have h1 : (w ++ ' ' :: uid ++ ['\n']).dropWhile isWs = w ++ ' ' :: uid ++ ['\n'] := by
    rw [hd]
    simp [hdw]
  rw [strip_eq, h1, List.append_assoc, hc, rstrip_append _ _ _ hcw]

theorem loop_open (uid : Str) (rest : List Str) (st : St T) :
    loop parse mk rid (("solid ".toList ++ uid ++ ['\n']) :: rest) st
      = loop parse mk rid rest
        ⟨st.walls ++ [[]], some (strip (rstrip (' ' :: uid ++ ['\n']))), st.solids⟩ := by
  have e : "solid ".toList ++ uid ++ ['\n'] = "solid".toList ++ ' ' :: uid ++ ['\n'] := by simp
  rw [loop, e, strip_word _ (solid0_of_all (by decide) (by decide)), if_pos (by rfl)]
  rfl

theorem loop_close (uid : Str) (rest : List Str) (ws : List (List T)) (w : List T)
    (ss : List Nat) :
    ∃ u, loop parse mk rid (("endsolid ".toList ++ uid ++ ['\n']) :: rest)
        ⟨ws ++ [w], some (strip (rstrip (' ' :: uid ++ ['\n']))), ss⟩
      = loop parse mk rid rest ⟨ws ++ [w], u, ss ++ [ws.length]⟩ := by
  have e : "endsolid ".toList ++ uid ++ ['\n'] = "endsolid".toList ++ ' ' :: uid ++ ['\n'] := by simp
  have hs := strip_word "endsolid".toList (solid0_of_all (by decide) (by decide)) uid
  have t1 : ¬ (("endsolid".toList ++ rstrip (' ' :: uid ++ ['\n'])).take 5 = "solid".toList) := by
    show ¬ ("endso".toList = "solid".toList)
    decide
  have t2 : ¬ (("endsolid".toList ++ rstrip (' ' :: uid ++ ['\n'])).take 5 = "facet".toList) := by
    show ¬ ("endso".toList = "facet".toList)
    decide
  have t3 : ("endsolid".toList ++ rstrip (' ' :: uid ++ ['\n'])).take 8 = "endsolid".toList := rfl
  have t4 : ("endsolid".toList ++ rstrip (' ' :: uid ++ ['\n'])).drop 8
      = rstrip (' ' :: uid ++ ['\n']) := rfl
  rw [loop, e, hs, if_neg t1, if_neg t2, if_pos t3, closeSolid, t4]
  simp only [ne_eq, not_true_eq_false, if_false]
  rw [if_neg (by simp)]
  have hl : (ws ++ [w]).length - 1 = ws.length := by simp
  simp only [hl]
  exact ⟨_, rfl⟩

theorem loop_facets (hf : FloatIO render parse) (rest : List Str) (u : Option Str)
    (ws : List (List T)) (ss : List Nat) (fs : List (V3 F × Tri3 F)) : ∀ w : List T,
    loop parse mk rid (facetText render fs ++ rest) ⟨ws ++ [w], u, ss⟩
      = match (fs.map Prod.snd).mapM mk with
        | .error e => .error e
        | .ok ps => loop parse mk rid rest ⟨ws ++ [w ++ ps], u, ss⟩ := by
  induction fs with
  | nil => intro w; simp [facetText, pure, Except.pure]
  | cons f fs ih =>
    intro w
    have e : facetText render (f :: fs) ++ rest
        = facetLines render f.1 f.2.1 f.2.2.1 f.2.2.2 ++ (facetText render fs ++ rest) := by
      simp [facetText]
    rw [e, loop_facet hf, List.map_cons, List.mapM_cons]
    show (match mk f.2 with | _ => _) = _
    cases hm : mk f.2 with
    | error er => rfl
    | ok p =>
      have ha : addPoly (⟨ws ++ [w], u, ss⟩ : St T) p = .ok ⟨ws ++ [w ++ [p]], u, ss⟩ := by
        simp [addPoly]
      simp only [ha, ih (w ++ [p])]
      cases (fs.map Prod.snd).mapM mk with
      | error er => rfl
      | ok ps =>
        show loop parse mk rid rest ⟨ws ++ [w ++ [p] ++ ps], u, ss⟩ = _
        simp only [List.append_assoc, List.singleton_append]
        rfl

theorem loop_solids (hf : FloatIO render parse) (vn : Poly (V3 F) → V3 F)
    (ss : List (Solid (V3 F))) : ∀ (ws : List (List T)) (u : Option Str) (ks : List Nat),
    ∃ u', loop parse mk rid (ss.flatMap (solidText render vn)) ⟨ws, u, ks⟩
      = match ss.mapM fun s => (solidTris s).mapM mk with
        | .error e => .error e
        | .ok pss => .ok ⟨ws ++ pss, u', ks ++ List.range' ws.length pss.length⟩ := by
  induction ss with
  | nil => intro ws u ks; exact ⟨u, by simp [loop, pure, Except.pure]⟩
  | cons s ss ih =>
    intro ws u ks
    have e : (s :: ss).flatMap (solidText render vn)
        = ("solid ".toList ++ s.uid ++ ['\n']) :: (facetText render (solidFacets vn s)
          ++ (("endsolid ".toList ++ s.uid ++ ['\n']) :: ss.flatMap (solidText render vn))) := by
      simp [solidText]
    rw [e, loop_open, List.mapM_cons]
    have h1 := loop_facets (mk := mk) (rid := rid) hf (("endsolid ".toList ++ s.uid ++ ['\n']) ::
      ss.flatMap (solidText render vn)) (some (strip (rstrip (' ' :: s.uid ++ ['\n'])))) ws ks
      (solidFacets vn s) []
    simp only []
    rw [h1, solidFacets_snd]
    cases (solidTris s).mapM mk with
    | error er => exact ⟨none, rfl⟩
    | ok ps =>
      simp only [List.nil_append]
      obtain ⟨u1, h2⟩ := loop_close (parse := parse) (mk := mk) (rid := rid) s.uid
        (ss.flatMap (solidText render vn)) ws ps ks
      rw [h2]
      obtain ⟨u2, h3⟩ := ih (ws ++ [ps]) u1 (ks ++ [ws.length])
      refine ⟨u2, ?_⟩
      rw [h3]
      cases ss.mapM fun s => (solidTris s).mapM mk with
      | error er => rfl
      | ok pss =>
        simp [bind, Except.bind, pure, Except.pure, List.range'_succ]

theorem mapM_length {X Y : Type} (f : X → Except PyErr Y) (xs : List X) : ∀ ys,
    xs.mapM f = .ok ys → ys.length = xs.length := by
  induction xs with
  | nil => intro ys h; simp [pure, Except.pure] at h; simp [← h]
  | cons x xs ih =>
    intro ys h
    rw [List.mapM_cons] at h
    cases hx : f x with
    | error e => rw [hx] at h; simp [bind, Except.bind] at h
    | ok y =>
      rw [hx] at h
      cases hr : xs.mapM f with
      | error e => rw [hr] at h; simp [bind, Except.bind] at h
      | ok zs =>
        rw [hr] at h
        simp only [bind, Except.bind, pure, Except.pure, Except.ok.injEq] at h
        rw [← h]
        simp [ih zs hr]

/-- C18: writing a building and reading the text gives, for every solid of the building in order, one
solid whose polygons are built from exactly the triangles of the original solid, in order and with
the same corners.  (If the polygon constructor refuses one of the triangles, its error is raised.) -/
theorem C18_round_trip (hf : FloatIO render parse) (vn : Poly (V3 F) → V3 F) (b : Bldg (V3 F))
    (hp : ∀ z ∈ b.zones, ∀ s ∈ z.solids, ∀ w ∈ s.walls, ∀ p ∈ w.polygons, PolyOk p)
    (hu : ∀ s ∈ solidsOf b, '\n' ∉ s.uid ∧ '\r' ∉ s.uid) :
    ∃ text, writeStl render vn b = .ok text ∧
      readStl parse mk rid text = (solidsOf b).mapM fun s => (solidTris s).mapM mk := by
  have hw : linesOf (fun z : Zone (V3 F) => linesOf (solidLines render vn) z.solids) b.zones
      = .ok ((solidsOf b).flatMap (solidText render vn)) := by
    rw [linesOf_flat _ (fun z : Zone (V3 F) => z.solids.flatMap (solidText render vn))]
    · simp [solidsOf, List.flatMap_assoc]
    · intro z hz
      apply linesOf_flat
      intro s hs
      exact solidLines_ok vn s (hp z hz s hs)
  refine ⟨((solidsOf b).flatMap (solidText render vn)).flatten, ?_, ?_⟩
  · unfold writeStl
    rw [hw]
  · have hl : readlines ((solidsOf b).flatMap (solidText render vn)).flatten
        = (solidsOf b).flatMap (solidText render vn) := by
      apply readlines_flatten
      intro l hl
      obtain ⟨s, hs, hl⟩ := List.mem_flatMap.1 hl
      exact solidText_isLine hf vn s (hu s hs) l hl
    obtain ⟨u, h⟩ := loop_solids (mk := mk) (rid := rid) hf vn (solidsOf b) [] none []
    unfold readStl
    rw [hl, h]
    cases hm : (solidsOf b).mapM fun s => (solidTris s).mapM mk with
    | error e => rfl
    | ok pss =>
      simp only [List.nil_append, List.length_nil, Except.ok.injEq]
      apply List.ext_getElem
      · simp
      · intro i h1 h2
        simp [List.getElem?_eq_getElem h2]

/-- C18: when the constructor accepts every triangle, nothing is lost: as many solids as in the
building, and in each as many polygons as the solid has triangles. -/
theorem C18_counts (hf : FloatIO render parse) (vn : Poly (V3 F) → V3 F) (b : Bldg (V3 F))
    (mk' : Tri3 F → T)
    (hp : ∀ z ∈ b.zones, ∀ s ∈ z.solids, ∀ w ∈ s.walls, ∀ p ∈ w.polygons, PolyOk p)
    (hu : ∀ s ∈ solidsOf b, '\n' ∉ s.uid ∧ '\r' ∉ s.uid)
    (hmk : ∀ s ∈ solidsOf b, ∀ t ∈ solidTris s, mk t = .ok (mk' t)) :
    ∃ text, writeStl render vn b = .ok text ∧
      readStl parse mk rid text = .ok ((solidsOf b).map fun s => (solidTris s).map mk') ∧
      ∀ s ∈ solidsOf b, (solidTris s).length
        = (s.walls.map fun w => (w.polygons.map fun p => p.tri.length).sum).sum := by
  obtain ⟨text, h1, h2⟩ := C18_round_trip (mk := mk) (rid := rid) hf vn b hp hu
  refine ⟨text, h1, ?_, ?_⟩
  · rw [h2]
    apply B3d.Mesh.mapM_ok
    intro s hs
    exact B3d.Mesh.mapM_ok _ _ _ (hmk s hs)
  · intro s hs
    obtain ⟨z, hz, hs⟩ := List.mem_flatMap.1 hs
    have key : ∀ p : Poly (V3 F), PolyOk p → (polyTris p).length = p.tri.length := by
      intro p hp
      unfold polyTris
      unfold PolyOk at hp
      generalize p.tri = l at hp
      induction l with
      | nil => rfl
      | cons t l ih =>
        obtain ⟨q, hq⟩ := Option.isSome_iff_exists.1 (hp t (by simp))
        rw [List.filterMap_cons, hq]
        simp [ih fun t ht => hp t (by simp [ht])]
    have hps := hp z hz s hs
    unfold solidTris
    rw [List.length_flatMap]
    congr 1
    apply List.map_congr_left
    intro w hw
    rw [List.length_flatMap]
    congr 1
    apply List.map_congr_left
    intro p hp
    exact key p (hps w hw p hp)

/-! ### A concrete case for C18 -/

/-- Unary numbers as "floats". -/
def demoRender (n : Nat) : Str := '0' :: List.replicate n '1'

/-- Reading unary numbers. -/
def demoParse (s : Str) : Option Nat :=
  match s with
  | '0' :: t => if t.all (· = '1') then some t.length else none
  | _ => none

theorem demoFloatIO : FloatIO demoRender demoParse := by
  refine ⟨?_, ?_, ?_⟩
  · intro n; simp [demoRender, demoParse]
  · intro n; simp [demoRender]
  · intro n c hc
    simp only [demoRender, List.mem_cons, List.mem_replicate] at hc
    rcases hc with rfl | ⟨-, rfl⟩ <;> decide

/-- A square in one solid and a triangle in another one whose uid has blanks. -/
def demoStl : Bldg (V3 Nat) :=
  ⟨['b'], ['u'], [⟨['z'], ['u'], [⟨['s'], ['s', '1'],
      [⟨['a'], ['u'], [⟨['q'], ['u'], [(0, 0, 0), (1, 0, 0), (1, 1, 0), (0, 1, 0)],
        [(0, 1, 2), (0, 2, 3)], none⟩], none⟩], none⟩,
    ⟨['t'], [' '], [⟨['a'], ['u'], [⟨['p'], ['u'], [(0, 0, 1), (2, 0, 1), (0, 1, 1)], [(2, 1, 0)],
      none⟩], none⟩], none⟩], none⟩]⟩

/-- Its text read back. -/
def demoStlBack : Except PyErr (List (List (Tri3 Nat))) :=
  match writeStl demoRender (fun _ => (0, 0, 1)) demoStl with
  | .error e => .error e
  | .ok text => readStl demoParse Except.ok ['r'] text

set_option synthInstance.maxSize 10000 in
example : FloatIO demoRender demoParse ∧
    (∀ z ∈ demoStl.zones, ∀ s ∈ z.solids, ∀ w ∈ s.walls, ∀ p ∈ w.polygons, PolyOk p) ∧
    (∀ s ∈ solidsOf demoStl, '\n' ∉ s.uid ∧ '\r' ∉ s.uid) ∧
    demoStlBack = .ok [[((0, 0, 0), (1, 0, 0), (1, 1, 0)), ((0, 0, 0), (1, 1, 0), (0, 1, 0))],
      [((0, 1, 1), (2, 0, 1), (0, 0, 1))]] := by
  refine ⟨demoFloatIO, ?_, by decide, by decide +kernel⟩
  unfold PolyOk
  decide

/-! ## C19 -/

theorem prefix_of_take {n : Nat} {s w : Str} (_hw : w.length = n) (h : s.take n = w) :
    s = w ++ s.drop n := by
  rw [← h, List.take_append_drop]

theorem not_prefix_of_take {n : Nat} {s w : Str} (hw : w.length = n) (h : ¬ s.take n = w) :
    ∀ u, s ≠ w ++ u := by
  rintro u rfl
  exact h (by rw [← hw]; simp)

theorem mapM_option {X Y : Type} (f : X → Option Y) (xs : List X) : ∀ ys,
    xs.mapM f = some ys → xs.map f = ys.map some := by
  induction xs with
  | nil => intro ys h; simp at h; simp [← h]
  | cons x xs ih =>
    intro ys h
    rw [List.mapM_cons] at h
    cases hx : f x with
    | none => rw [hx] at h; simp at h
    | some y =>
      rw [hx] at h
      cases hr : xs.mapM f with
      | none => rw [hr] at h; simp at h
      | some zs =>
        rw [hr] at h
        simp at h
        rw [← h]
        simp [hx, ih zs hr]

theorem vertexLine_of {l : Str} {v : V3 F} (h : parseVertex parse (strip l) = .ok v) :
    VertexLine parse l v := by
  unfold parseVertex at h
  by_cases h1 : (strip l).take 6 ≠ "vertex".toList
  · rw [if_pos h1] at h; simp at h
  · rw [if_neg h1] at h
    have h1 := not_not.1 h1
    refine ⟨(strip l).drop 6, prefix_of_take (by decide) h1, ?_⟩
    split at h
    · rename_i x y z hm
      simp only [Except.ok.injEq] at h
      left
      rw [mapM_option _ _ _ hm, ← h]
      rfl
    · rename_i x hm
      simp only [Except.ok.injEq] at h
      right
      rw [mapM_option _ _ _ hm, ← h]
      exact ⟨rfl, rfl, rfl⟩
    · simp at h

theorem expectLine_inv {text : Str} {ls r : List Str} (h : expectLine text ls = .ok r) :
    ∃ l, ls = l :: r ∧ strip l = text := by
  cases ls with
  | nil => simp [expectLine] at h
  | cons l ls =>
    rw [expectLine] at h
    by_cases hl : strip l ≠ text
    · rw [if_pos hl] at h; simp at h
    · rw [if_neg hl] at h
      simp only [Except.ok.injEq] at h
      exact ⟨l, by rw [h], not_not.1 hl⟩

theorem readVertex_inv {ls r : List Str} {v : V3 F} (h : readVertex parse ls = .ok (v, r)) :
    ∃ l, ls = l :: r ∧ VertexLine parse l v := by
  cases ls with
  | nil => simp [readVertex] at h
  | cons l ls =>
    rw [readVertex] at h
    cases hp : parseVertex parse (strip l) with
    | error e => rw [hp] at h; simp at h
    | ok v' =>
      rw [hp] at h
      simp only [Except.ok.injEq, Prod.mk.injEq] at h
      obtain ⟨rfl, rfl⟩ := h
      exact ⟨l, rfl, vertexLine_of hp⟩

theorem facetBody_inv {ls : List Str} {t : Tri3 F} (h : facetBody parse ls = .ok t) :
    ∃ l0 l1 l2 l3 l4 r, ls = l0 :: l1 :: l2 :: l3 :: l4 :: r ∧ strip l0 = "outer loop".toList ∧
      VertexLine parse l1 t.1 ∧ VertexLine parse l2 t.2.1 ∧ VertexLine parse l3 t.2.2 ∧
      strip l4 = "endloop".toList := by
  unfold facetBody at h
  cases h0 : expectLine "outer loop".toList ls with
  | error e => rw [h0] at h; simp at h
  | ok r0 =>
    rw [h0] at h
    simp only [] at h
    cases h1 : readVertex parse r0 with
    | error e => rw [h1] at h; simp at h
    | ok p1 =>
      obtain ⟨v1, r1⟩ := p1
      rw [h1] at h
      simp only [] at h
      cases h2 : readVertex parse r1 with
      | error e => rw [h2] at h; simp at h
      | ok p2 =>
        obtain ⟨v2, r2⟩ := p2
        rw [h2] at h
        simp only [] at h
        cases h3 : readVertex parse r2 with
        | error e => rw [h3] at h; simp at h
        | ok p3 =>
          obtain ⟨v3, r3⟩ := p3
          rw [h3] at h
          simp only [] at h
          cases h4 : expectLine "endloop".toList r3 with
          | error e => rw [h4] at h; simp at h
          | ok r4 =>
            rw [h4] at h
            simp only [Except.ok.injEq] at h
            subst h
            obtain ⟨l0, rfl, e0⟩ := expectLine_inv h0
            obtain ⟨l1, rfl, e1⟩ := readVertex_inv h1
            obtain ⟨l2, rfl, e2⟩ := readVertex_inv h2
            obtain ⟨l3, rfl, e3⟩ := readVertex_inv h3
            obtain ⟨l4, rfl, e4⟩ := expectLine_inv h4
            exact ⟨l0, l1, l2, l3, l4, r4, rfl, e0, e1, e2, e3, e4⟩

/-- Effect of the statements of a file. -/
def runItems (mk : Tri3 F → Except PyErr T) (rid : Str) : List (Item F) → St T → Except PyErr (St T)
  | [], st => .ok st
  | .opened u :: its, st =>
    runItems mk rid its { st with walls := st.walls ++ [[]], uid := some u }
  | .facet t :: its, st =>
    match mk t with
    | .error e => .error e
    | .ok p =>
      match addPoly st p with
      | .error e => .error e
      | .ok st => runItems mk rid its st
  | .closed u :: its, st =>
    if some u ≠ st.uid then .error .assertionError
    else if st.walls = [] then .error .valueError
    else runItems mk rid its { st with uid := if st.uid = some [] then some rid else st.uid,
                                       solids := st.solids ++ [st.walls.length - 1] }

theorem loop_says : ∀ (n : Nat) (ls : List Str), ls.length ≤ n → ∀ (st st' : St T),
    loop parse mk rid ls st = .ok st' →
    ∃ its, Says parse ls its ∧ runItems mk rid its st = .ok st' := by
  intro n
  induction n with
  | zero =>
    intro ls hl st st' h
    have : ls = [] := List.length_eq_zero_iff.1 (by omega)
    subst this
    exact ⟨[], .nil, by rw [loop] at h; exact h⟩
  | succ n ih =>
    intro ls hl st st' h
    cases ls with
    | nil => exact ⟨[], .nil, by rw [loop] at h; exact h⟩
    | cons l rest =>
      have hr : rest.length ≤ n := by simpa using hl
      rw [loop] at h
      by_cases h1 : (strip l).take 5 = "solid".toList
      · rw [if_pos h1] at h
        obtain ⟨its, hs, hi⟩ := ih rest hr _ _ h
        exact ⟨_, .opened (prefix_of_take (by decide) h1) hs, hi⟩
      · rw [if_neg h1] at h
        by_cases h2 : (strip l).take 5 = "facet".toList
        · rw [if_pos h2] at h
          cases hc : checkNormal parse (strip l) with
          | error e => rw [hc] at h; simp at h
          | ok _ =>
            rw [hc] at h
            simp only [] at h
            cases hb : facetBody parse rest with
            | error e => rw [hb] at h; simp at h
            | ok t =>
              rw [hb] at h
              simp only [] at h
              obtain ⟨l0, l1, l2, l3, l4, r, rfl, e0, e1, e2, e3, e4⟩ := facetBody_inv hb
              cases hm : mk t with
              | error e => rw [hm] at h; simp at h
              | ok p =>
                rw [hm] at h
                simp only [] at h
                cases ha : addPoly st p with
                | error e => rw [ha] at h; simp at h
                | ok st1 =>
                  rw [ha] at h
                  simp only [] at h
                  obtain ⟨its, hs, hi⟩ := ih r (by simp at hr; omega) _ _ h
                  refine ⟨_, .facet (prefix_of_take (by decide) h2) hc e0 e1 e2 e3 e4 hs, ?_⟩
                  rw [runItems]
                  simp only [hm, ha]
                  exact hi
        · rw [if_neg h2] at h
          by_cases h3 : (strip l).take 8 = "endsolid".toList
          · rw [if_pos h3] at h
            cases hc : closeSolid rid st (strip l) with
            | error e => rw [hc] at h; simp at h
            | ok st1 =>
              rw [hc] at h
              simp only [] at h
              obtain ⟨its, hs, hi⟩ := ih rest hr _ _ h
              refine ⟨_, .closed (prefix_of_take (by decide) h3) hs, ?_⟩
              rw [closeSolid] at hc
              rw [runItems]
              by_cases c1 : some (strip ((strip l).drop 8)) ≠ st.uid
              · rw [if_pos c1] at hc; simp at hc
              · rw [if_neg c1] at hc ⊢
                by_cases c2 : st.walls = []
                · rw [if_pos c2] at hc; simp at hc
                · rw [if_neg c2] at hc ⊢
                  simp only [Except.ok.injEq] at hc
                  rw [hc]
                  exact hi
          · rw [if_neg h3] at h
            obtain ⟨its, hs, hi⟩ := ih rest hr _ _ h
            exact ⟨its, .other (not_prefix_of_take (by decide) h1)
              (not_prefix_of_take (by decide) h2) (not_prefix_of_take (by decide) h3) hs, hi⟩

/-- `mk` accepts the triangles `ts` and gives the polygons `ps`. -/
def Built (mk : Tri3 F → Except PyErr T) (ts : List (Tri3 F)) (ps : List T) : Prop :=
  List.Forall₂ (fun t p => mk t = .ok p) ts ps

/-- Number of the wall of every solid. -/
def owners : Nat → List (Segment F) → List Nat
  | _, [] => []
  | k, s :: segs => List.replicate (closings s.body) k ++ owners (k + 1) segs

/-- The last wall gets more polygons. -/
def addLast (ws : List (List T)) (ps : List T) : List (List T) :=
  match ws.getLast? with
  | none => []
  | some w => ws.dropLast ++ [w ++ ps]

theorem addLast_nil (ws : List (List T)) : addLast ws [] = ws := by
  unfold addLast
  rcases List.eq_nil_or_concat ws with rfl | ⟨l, w, rfl⟩
  · rfl
  · simp

theorem addLast_addLast (ws : List (List T)) (w p : List T) (ps : List T) :
    addLast (ws ++ [w ++ p]) ps = addLast (ws ++ [w]) (p ++ ps) := by
  simp [addLast]

theorem run_inv (its : List (Item F)) : ∀ (st st' : St T), runItems mk rid its st = .ok st' →
    ∃ body segs pb pss, its = body ++ segs.flatMap Segment.items ∧ NoOpen body ∧
      (st.walls = [] → body = []) ∧
      (∀ v, Item.closed v ∈ body → some v = st.uid ∨ (st.uid = some [] ∧ v = rid)) ∧
      (∀ s ∈ segs, NoOpen s.body ∧
        ∀ v, Item.closed v ∈ s.body → v = s.uid ∨ (s.uid = [] ∧ v = rid)) ∧
      Built mk (facetsIn body) pb ∧
      List.Forall₂ (fun s ps => Built mk (facetsIn s.body) ps) segs pss ∧
      st'.walls = addLast st.walls pb ++ pss ∧
      st'.solids = st.solids ++ List.replicate (closings body) (st.walls.length - 1)
        ++ owners st.walls.length segs := by
  induction its with
  | nil =>
    intro st st' h
    simp only [runItems, Except.ok.injEq] at h
    subst h
    refine ⟨[], [], [], [], rfl, ?_, fun _ => rfl, ?_, ?_, .nil, .nil, ?_, ?_⟩
    · intro u hu; simp at hu
    · intro v hv; simp at hv
    · intro s hs; simp at hs
    · simp [addLast_nil]
    · simp [closings, owners]
  | cons it its ih =>
    intro st st' h
    cases it with
    | opened u =>
      rw [runItems] at h
      obtain ⟨body, segs, pb, pss, e, hno, -, hu, hsegs, hb, hf, hw, hs⟩ := ih _ _ h
      refine ⟨[], ⟨u, body⟩ :: segs, [], pb :: pss, ?_, ?_, fun _ => rfl, ?_, ?_, .nil,
        .cons hb hf, ?_, ?_⟩
      · rw [e]; simp [Segment.items]
      · intro u hu; simp at hu
      · intro v hv; simp at hv
      · intro s hs
        rcases List.mem_cons.1 hs with rfl | hs
        · refine ⟨hno, ?_⟩
          intro v hv
          rcases hu v hv with h1 | ⟨h1, h2⟩
          · exact Or.inl (Option.some.inj h1)
          · exact Or.inr ⟨Option.some.inj h1, h2⟩
        · exact hsegs s hs
      · rw [hw, addLast_nil]
        simp [addLast]
      · rw [hs]
        simp [closings, owners]
    | facet t =>
      rw [runItems] at h
      cases hm : mk t with
      | error e => rw [hm] at h; simp at h
      | ok p =>
        rw [hm] at h
        simp only [] at h
        cases ha : addPoly st p with
        | error e => rw [ha] at h; simp at h
        | ok st1 =>
          rw [ha] at h
          simp only [] at h
          obtain ⟨body, segs, pb, pss, e, hno, -, hu, hsegs, hb, hf, hw, hs⟩ := ih _ _ h
          have hne : st.walls ≠ [] := by
            intro h0
            unfold addPoly at ha
            rw [h0] at ha
            simp at ha
          obtain ⟨ws, w, hws⟩ : ∃ ws w, st.walls = ws ++ [w] := by
            rcases List.eq_nil_or_concat st.walls with h0 | ⟨l, w, h0⟩
            · exact absurd h0 hne
            · exact ⟨l, w, by simpa using h0⟩
          have h1 : st1 = ⟨ws ++ [w ++ [p]], st.uid, st.solids⟩ := by
            unfold addPoly at ha
            rw [hws] at ha
            simp at ha
            exact ha.symm
          subst h1
          refine ⟨.facet t :: body, segs, p :: pb, pss, by rw [e]; rfl, ?_,
            fun h0 => absurd h0 hne, ?_, hsegs, .cons hm hb, hf, ?_, ?_⟩
          · intro u hu
            rcases List.mem_cons.1 hu with h2 | h2
            · simp at h2
            · exact hno u h2
          · intro v hv
            rcases List.mem_cons.1 hv with h2 | h2
            · simp at h2
            · exact hu v h2
          · rw [hw, hws]
            simp only [addLast_addLast, List.singleton_append]
          · rw [hs, hws]
            simp [closings]
    | closed u =>
      rw [runItems] at h
      by_cases c1 : some u ≠ st.uid
      · rw [if_pos c1] at h; simp at h
      · rw [if_neg c1] at h
        by_cases c2 : st.walls = []
        · rw [if_pos c2] at h; simp at h
        · rw [if_neg c2] at h
          have c1 := not_not.1 c1
          obtain ⟨body, segs, pb, pss, e, hno, -, hu, hsegs, hb, hf, hw, hs⟩ := ih _ _ h
          refine ⟨.closed u :: body, segs, pb, pss, by rw [e]; rfl, ?_, fun h0 => absurd h0 c2, ?_,
            hsegs, hb, hf, hw, ?_⟩
          · intro u hu
            rcases List.mem_cons.1 hu with h2 | h2
            · simp at h2
            · exact hno u h2
          · intro v hv
            rcases List.mem_cons.1 hv with h2 | h2
            · simp only [Item.closed.injEq] at h2
              rw [h2]
              exact Or.inl c1
            · have h3 := hu v h2
              simp only [] at h3
              by_cases h4 : st.uid = some []
              · rw [if_pos h4] at h3
                rcases h3 with h3 | ⟨h3, h5⟩
                · exact Or.inr ⟨h4, Option.some.inj h3⟩
                · exact Or.inr ⟨h4, h5⟩
              · rw [if_neg h4] at h3
                exact h3
          · rw [hs]
            simp [closings, List.replicate_succ]

theorem owners_map (segs : List (Segment F)) : ∀ (pss pre : List (List T)),
    segs.length = pss.length →
    (owners pre.length segs).map (fun k => (pre ++ pss).getD k [])
      = (segs.zip pss).flatMap fun e => List.replicate (closings e.1.body) e.2 := by
  induction segs with
  | nil => intro pss pre _; simp [owners]
  | cons s segs ih =>
    intro pss pre hl
    cases pss with
    | nil => simp at hl
    | cons ps pss =>
      have := ih pss (pre ++ [ps]) (by simpa using hl)
      simp only [List.length_append, List.length_singleton, List.append_assoc,
        List.singleton_append] at this
      rw [owners, List.map_append, this]
      simp

/-- C19 (part): whenever the reader accepts a text, the text consists of segments, each starting with
a line that opens a solid, in which every facet is a complete block; closing lines carry the name of
the segment; the facets of a segment are exactly the polygons of its wall, in order; and the zone gets
that wall once for every closing line of the segment.

Missing from C19: a facet may stand after the line closing its solid (see
`C19_facet_after_endsolid`), and the facets of a solid that is never closed are dropped
(`C19_unclosed_solid_dropped`). -/
theorem C19_accepted_partial (text : Str) (R : List (List T))
    (h : readStl parse mk rid text = .ok R) :
    ∃ segs pss, Says parse (readlines text) (segs.flatMap Segment.items) ∧
      (∀ s ∈ segs, NoOpen s.body ∧
        ∀ v, Item.closed v ∈ s.body → v = s.uid ∨ (s.uid = [] ∧ v = rid)) ∧
      List.Forall₂ (fun s ps => Built mk (facetsIn s.body) ps) segs pss ∧
      R = (segs.zip pss).flatMap fun e => List.replicate (closings e.1.body) e.2 := by
  unfold readStl at h
  cases hl : loop parse mk rid (readlines text) ⟨[], none, []⟩ with
  | error e => rw [hl] at h; simp at h
  | ok st =>
    rw [hl] at h
    simp only [Except.ok.injEq] at h
    obtain ⟨its, hs, hr⟩ := loop_says _ _ (Nat.le_refl _) _ _ hl
    obtain ⟨body, segs, pb, pss, e, -, hb, -, hsegs, hbu, hf, hw, hso⟩ := run_inv its _ _ hr
    have hb := hb rfl
    subst hb
    refine ⟨segs, pss, by rw [e] at hs; simpa using hs, hsegs, hf, ?_⟩
    rw [← h, hso, hw]
    have := owners_map segs pss [] hf.length_eq
    simpa [closings, addLast] using this

/-! ### Well-formed files are read completely -/

theorem vertexLine_parse {l : Str} {v : V3 F} (h : VertexLine parse l v) :
    parseVertex parse (strip l) = .ok v := by
  have key : ∀ (xs : List Str) (ys : List F), xs.map parse = ys.map some → xs.mapM parse = some ys := by
    intro xs
    induction xs with
    | nil => intro ys h; cases ys with
      | nil => rfl
      | cons y ys => simp at h
    | cons x xs ih =>
      intro ys h
      cases ys with
      | nil => simp at h
      | cons y ys =>
        simp only [List.map_cons, List.cons.injEq] at h
        rw [List.mapM_cons, h.1, ih ys h.2]
        rfl
  obtain ⟨text, ht, h⟩ := h
  have e1 : (strip l).take 6 = "vertex".toList := by rw [ht]; rfl
  have e2 : (strip l).drop 6 = text := by rw [ht]; rfl
  unfold parseVertex
  rw [e1, e2]
  simp only [ne_eq, not_true_eq_false, if_false]
  rcases h with h | ⟨h, h2, h3⟩
  · rw [key _ [v.1, v.2.1, v.2.2] h]
  · rw [key _ [v.1] h]
    simp only [Except.ok.injEq]
    rw [Prod.ext_iff, Prod.ext_iff]
    exact ⟨rfl, h2.symm, h3.symm⟩

theorem take_append_word (w u : Str) (n : Nat) (h : w.length = n) : (w ++ u).take n = w := by
  rw [← h]; simp

theorem drop_append_word (w u : Str) (n : Nat) (h : w.length = n) : (w ++ u).drop n = u := by
  rw [← h]; simp

theorem loop_of_says {ls : List Str} {its : List (Item F)} (h : Says parse ls its) :
    ∀ st : St T, loop parse mk rid ls st = runItems mk rid its st := by
  induction h with
  | nil => intro st; rfl
  | @opened l ls u its hl hs ih =>
    intro st
    rw [loop, hl, if_pos (take_append_word _ _ _ (by decide)), drop_append_word _ _ _ (by decide), ih,
      runItems]
  | @facet l l0 l1 l2 l3 l4 ls u v1 v2 v3 its hl hn h0 h1 h2 h3 h4 hs ih =>
    intro st
    have hb : facetBody parse (l0 :: l1 :: l2 :: l3 :: l4 :: ls) = .ok (v1, v2, v3) := by
      unfold facetBody
      simp only [expectLine, readVertex, h0, h4, vertexLine_parse h1, vertexLine_parse h2,
        vertexLine_parse h3, ne_eq, not_true_eq_false, if_false]
    have t1 : (strip l).take 5 = "facet".toList := by
      rw [hl]; exact take_append_word _ _ _ (by decide)
    rw [loop, t1, if_neg (by decide), if_pos rfl, hn]
    simp only [hb]
    rw [runItems]
    cases mk (v1, v2, v3) with
    | error e => rfl
    | ok p =>
      simp only []
      cases addPoly st p with
      | error e => rfl
      | ok st => exact ih st
  | @closed l ls u its hl hs ih =>
    intro st
    have t1 : (strip l).take 5 = "endso".toList := by rw [hl]; rfl
    have t3 : (strip l).take 8 = "endsolid".toList := by rw [hl]; rfl
    have t4 : (strip l).drop 8 = u := by rw [hl]; rfl
    rw [loop, t1, if_neg (by decide), if_neg (by decide), if_pos t3, closeSolid, t4, runItems]
    by_cases c1 : some (strip u) ≠ st.uid
    · rw [if_pos c1, if_pos c1]
    · rw [if_neg c1, if_neg c1]
      by_cases c2 : st.walls = []
      · rw [if_pos c2, if_pos c2]
      · rw [if_neg c2, if_neg c2]
        exact ih _
  | @other l ls its h1 h2 h3 hs ih =>
    intro st
    have n1 : ¬ (strip l).take 5 = "solid".toList := fun h => h1 _ (prefix_of_take (by decide) h)
    have n2 : ¬ (strip l).take 5 = "facet".toList := fun h => h2 _ (prefix_of_take (by decide) h)
    have n3 : ¬ (strip l).take 8 = "endsolid".toList := fun h => h3 _ (prefix_of_take (by decide) h)
    rw [loop, if_neg n1, if_neg n2, if_neg n3, ih]

theorem run_facets (mk' : Tri3 F → T) (its : List (Item F)) (ts : List (Tri3 F))
    (h : ∀ t ∈ ts, mk t = .ok (mk' t)) : ∀ (ws : List (List T)) (w : List T) (u : Option Str)
    (ks : List Nat),
    runItems mk rid (ts.map Item.facet ++ its) ⟨ws ++ [w], u, ks⟩
      = runItems mk rid its ⟨ws ++ [w ++ ts.map mk'], u, ks⟩ := by
  induction ts with
  | nil => intro ws w u ks; simp
  | cons t ts ih =>
    intro ws w u ks
    rw [List.map_cons, List.cons_append, runItems, h t (by simp)]
    have ha : addPoly (⟨ws ++ [w], u, ks⟩ : St T) (mk' t) = .ok ⟨ws ++ [w ++ [mk' t]], u, ks⟩ := by
      simp [addPoly]
    simp only [ha]
    rw [ih fun t ht => h t (by simp [ht])]
    simp

theorem run_wellformed (mk' : Tri3 F → T) (sols : List (Str × List (Tri3 F)))
    (h : ∀ s ∈ sols, ∀ t ∈ s.2, mk t = .ok (mk' t)) : ∀ (ws : List (List T)) (u : Option Str)
    (ks : List Nat), ∃ u',
    runItems mk rid (sols.flatMap fun s => .opened s.1 :: (s.2.map Item.facet ++ [.closed s.1]))
      ⟨ws, u, ks⟩ = .ok ⟨ws ++ sols.map fun s => s.2.map mk', u',
        ks ++ List.range' ws.length sols.length⟩ := by
  induction sols with
  | nil => intro ws u ks; exact ⟨u, by simp [runItems]⟩
  | cons s sols ih =>
    intro ws u ks
    have e : ((s :: sols).flatMap fun s => Item.opened s.1 :: (s.2.map Item.facet ++ [.closed s.1]))
        = Item.opened s.1 :: (s.2.map Item.facet ++ (Item.closed s.1 ::
          (sols.flatMap fun s => Item.opened s.1 :: (s.2.map Item.facet ++ [.closed s.1])))) := by
      simp
    rw [e, runItems]
    simp only []
    rw [run_facets mk' _ _ (h s (by simp)), runItems]
    simp only [ne_eq, not_true_eq_false, if_false]
    rw [if_neg (by simp)]
    obtain ⟨u', h'⟩ := ih (fun s hs => h s (by simp [hs])) (ws ++ [[] ++ s.2.map mk'])
      (if some s.1 = some [] then some rid else some s.1)
      (ks ++ [(ws ++ [[] ++ s.2.map mk']).length - 1])
    refine ⟨u', h'.trans ?_⟩
    simp [List.range'_succ]

/-- C19: a file made of solids that are opened, consist of complete facet blocks (and lines the format
does not know) and are closed under their name is read completely: one solid for each, with exactly
its facets in order. -/
theorem C19_wellformed (mk' : Tri3 F → T) (text : Str) (sols : List (Str × List (Tri3 F)))
    (hs : Says parse (readlines text)
      (sols.flatMap fun s => .opened s.1 :: (s.2.map Item.facet ++ [.closed s.1])))
    (h : ∀ s ∈ sols, ∀ t ∈ s.2, mk t = .ok (mk' t)) :
    readStl parse mk rid text = .ok (sols.map fun s => s.2.map mk') := by
  obtain ⟨u, hr⟩ := run_wellformed (mk := mk) (rid := rid) mk' sols h [] none []
  unfold readStl
  rw [loop_of_says hs, hr]
  simp only [List.nil_append, List.length_nil, Except.ok.injEq]
  apply List.ext_getElem
  · simp
  · intro i h1 h2
    simp [List.getElem?_eq_getElem (show i < sols.length by simpa using h2)]

/-- C19: a facet before any solid, or a closing line before any solid, is never accepted. -/
theorem C19_needs_solid (text : Str) (it : Item F) (its : List (Item F))
    (hs : Says parse (readlines text) (it :: its)) (hit : ∀ u, it ≠ .opened u) :
    ∃ e, readStl parse mk rid text = .error e := by
  unfold readStl
  rw [loop_of_says hs]
  cases it with
  | opened u => exact absurd rfl (hit u)
  | facet t =>
    rw [runItems]
    cases mk t with
    | error e => exact ⟨e, rfl⟩
    | ok p => exact ⟨.valueError, rfl⟩
  | closed u =>
    rw [runItems]
    simp only [ne_eq, reduceCtorEq, not_false_eq_true, if_true]
    exact ⟨_, rfl⟩

/-- The text with every line break replaced by `nl`. -/
def withBreaks (nl text : Str) : Str := text.flatMap fun c => if c = '\n' then nl else [c]

theorem readlines_withBreaks (nl : Str) (hnl : nl = ['\r'] ∨ nl = ['\r', '\n']) (text : Str)
    (h : '\r' ∉ text) : readlines (withBreaks nl text) = readlines text := by
  induction text with
  | nil => rfl
  | cons c t ih =>
    rw [List.mem_cons, not_or] at h
    have ih := ih h.2
    have hhead : (withBreaks nl t).head? ≠ some '\n' := by
      cases t with
      | nil => simp [withBreaks]
      | cons d r =>
        unfold withBreaks
        by_cases hd : d = '\n'
        · rcases hnl with rfl | rfl <;> simp [hd]
        · simp [hd]
    by_cases hc : c = '\n'
    · subst hc
      have e : withBreaks nl ('\n' :: t) = nl ++ withBreaks nl t := by simp [withBreaks]
      rw [e]
      rcases hnl with rfl | rfl
      · rw [List.singleton_append, readlines, readlines, if_neg (by simp [hhead]), ih]
        simp
      · rw [List.cons_append, List.singleton_append, readlines, if_pos (by simp), readlines,
          readlines, ih]
        simp
    · have e : withBreaks nl (c :: t) = c :: withBreaks nl t := by simp [withBreaks, hc]
      have hr : ¬ c = '\r' := fun h' => h.1 h'.symm
      rw [e, readlines, readlines, ih]
      simp [hc, hr]

/-- C19: the line break convention of the file does not matter: a text with carriage returns, or
carriage returns and line feeds, instead of line feeds is read in the same way. -/
theorem C19_line_breaks (nl : Str) (hnl : nl = ['\r'] ∨ nl = ['\r', '\n']) (text : Str)
    (h : '\r' ∉ text) :
    readStl parse mk rid (withBreaks nl text) = readStl parse mk rid text := by
  unfold readStl
  rw [readlines_withBreaks nl hnl text h]

example : withBreaks ['\r', '\n'] "solid a\nendsolid a\n".toList
    = "solid a\r\nendsolid a\r\n".toList ∧ '\r' ∉ "solid a\nendsolid a\n".toList := by
  decide +kernel

/-- A facet block for examples. -/
def demoFacet : Str :=
  "facet normal 0 0 01\n outer loop\nvertex 0 0 0\nvertex 01 0 0\nvertex 0 01 0\nendloop\n".toList

set_option synthInstance.maxSize 10000 in
/-- C19 fails as stated: a facet that stands after the line closing the solid is accepted and becomes
part of that solid. -/
theorem C19_facet_after_endsolid :
    readStl demoParse Except.ok ['r'] ("solid a\nendsolid a\n".toList ++ demoFacet)
      = .ok [[((0, 0, 0), (1, 0, 0), (0, 1, 0))]] := by decide +kernel

set_option synthInstance.maxSize 10000 in
/-- C19 fails as stated: a solid that is never closed is accepted and its facets are dropped. -/
theorem C19_unclosed_solid_dropped :
    readStl demoParse Except.ok ['r'] ("solid a\n".toList ++ demoFacet) = .ok [] := by
  decide +kernel

set_option synthInstance.maxSize 10000 in
/-- A second closing line repeats the solid. -/
theorem C19_second_endsolid_repeats :
    readStl demoParse Except.ok ['r']
        ("solid a\n".toList ++ demoFacet ++ "endsolid a\nendsolid a\n".toList)
      = .ok [[((0, 0, 0), (1, 0, 0), (0, 1, 0))], [((0, 0, 0), (1, 0, 0), (0, 1, 0))]] := by
  decide +kernel

set_option synthInstance.maxSize 10000 in
/-- A vertex line with one number is accepted. -/
theorem C19_one_number_vertex :
    readStl demoParse Except.ok ['r']
        "solid a\nfacet normal 0 0 01\nouter loop\nvertex 0\nvertex 01 0 0\nvertex 0 01 0\nendloop\nendsolid a".toList
      = .ok [[((0, 0, 0), (1, 0, 0), (0, 1, 0))]] := by
  decide +kernel

/-- A text meeting the hypothesis of `C19_wellformed` (with an empty line inside). -/
example : Says demoParse (readlines ("solid a\n\n".toList ++ demoFacet ++ "endfacet\nendsolid a".toList))
    ([(['a'], [((0, 0, 0), (1, 0, 0), (0, 1, 0))])].flatMap fun s =>
      .opened s.1 :: (s.2.map Item.facet ++ [.closed s.1])) := by
  have hv : ∀ (l : Str) (v : V3 Nat) (t : Str), strip l = "vertex".toList ++ t →
      (Str.split ' ' (strip t)).map demoParse = [some v.1, some v.2.1, some v.2.2] →
      VertexLine demoParse l v := fun l v t h1 h2 => ⟨t, h1, Or.inl h2⟩
  have hother : ∀ (w s : Str) (n : Nat), w.length = n → ¬ s.take n = w → ∀ u, s ≠ w ++ u :=
    fun w s n h1 h2 => not_prefix_of_take h1 h2
  have e : readlines ("solid a\n\n".toList ++ demoFacet ++ "endfacet\nendsolid a".toList)
      = ["solid a\n".toList, "\n".toList, "facet normal 0 0 01\n".toList, " outer loop\n".toList,
        "vertex 0 0 0\n".toList, "vertex 01 0 0\n".toList, "vertex 0 01 0\n".toList,
        "endloop\n".toList, "endfacet\n".toList, "endsolid a".toList] := by decide +kernel
  rw [e]
  refine .opened (u := " a".toList) (by decide +kernel) (.other ?_ ?_ ?_ (.facet
    (u := " normal 0 0 01".toList) (by decide +kernel) (by decide +kernel) (by decide +kernel)
    (hv _ _ " 0 0 0".toList (by decide +kernel) (by decide +kernel))
    (hv _ _ " 01 0 0".toList (by decide +kernel) (by decide +kernel))
    (hv _ _ " 0 01 0".toList (by decide +kernel) (by decide +kernel)) (by decide +kernel)
    (.other ?_ ?_ ?_ (.closed (u := " a".toList) (by decide +kernel) .nil))))
  all_goals first
    | exact hother _ _ 5 (by decide) (by decide +kernel)
    | exact hother _ _ 8 (by decide) (by decide +kernel)

end B3d.Stl
