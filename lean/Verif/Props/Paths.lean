import Verif.Props.Config

/-!
# C112: paths as strings, and lookups which find nothing
-/

namespace B3d.Hier

variable {P V : Type}

/-- **C112, splitting.**  Splitting a path never fails, not even for the empty path; it gives at least one part, no part
contains the separator, and joined with the separator the parts are the path. -/
theorem C112_split (p : Str) : ∃ names, splitPath p = .ok names ∧ names ≠ [] ∧ (∀ n ∈ names, '/' ∉ n) ∧
    Str.join '/' names = p := by
  refine ⟨Str.split '/' p, ?_, Str.split_ne_nil _ _, Str.split_no_sep _ _, Str.join_split _ _⟩
  unfold splitPath
  simp only
  rw [if_neg]
  · rfl
  · intro h
    exact Str.split_ne_nil _ _ (List.length_eq_zero_iff.1 h)

/-- **C112, joining.**  A list of names that validate_name accepts is what splitting the joined path gives back. -/
theorem C112_join (names : List Str) (hne : names ≠ []) (h : ∀ n ∈ names, validateName n = .ok n) :
    splitPath (Str.join '/' names) = .ok names := by
  have h' : ∀ n ∈ names, PATH_SEP ∉ n := by
    intro n hn hs
    have := h n hn
    unfold validateName at this
    rw [if_pos hs] at this
    cases this
  unfold splitPath
  simp only
  rw [show Str.join '/' names = Str.join PATH_SEP names from rfl, Str.split_join PATH_SEP names hne h', if_neg]
  intro h
  exact hne (List.length_eq_zero_iff.1 h)

/-- **C112, names.**  A name is accepted unchanged if it does not contain the separator and is a ValueError otherwise. -/
theorem C112_names (n : Str) : ('/' ∉ n → validateName n = .ok n) ∧ ('/' ∈ n → validateName n = .error .valueError) :=
  ⟨fun h => if_neg h, fun h => if_pos h⟩

/-- Non-vacuity of `C112_join`. -/
example : ∀ n ∈ ["b".toList, "".toList, "wall-1".toList], validateName n = .ok n := by decide

/-- **C08, vertices.**  The sixth component of a path, after the path of a polygon: if it is not an integer, a ValueError is
raised; if it is one, it counts from the first vertex, or from behind if it is negative, and an IndexError is raised if there
is no such vertex. -/
theorem C08_vertex_exact (parseInt : Str → Option Int) (ops : List (Op P)) (hl : LinearFrom [] ops) (b : Nat) (B : Obj P)
    (hb : (exec ops)[b]? = some B) (hk : B.kind = .building) (i : Nat) (o : Obj P) (hi : Within (exec ops) b i)
    (ho : (exec ops)[i]? = some o) (hp : o.kind = .polygon) (digits : Str) (hd : '/' ∉ digits) :
    (parseInt digits = none → get parseInt (exec ops) b (path (exec ops) i ++ '/' :: digits) = .error .valueError) ∧
    ∀ n : Int, parseInt digits = some n →
      (∀ k : Nat, ((k : Int) = n ∨ (k : Int) = n + o.pts.length ∧ n < 0) → ∀ p, o.pts[k]? = some p →
        get parseInt (exec ops) b (path (exec ops) i ++ '/' :: digits) = .ok (.point p)) ∧
      ((o.pts.length : Int) ≤ n ∨ n < -(o.pts.length : Int) →
        get parseInt (exec ops) b (path (exec ops) i ++ '/' :: digits) = .error .indexError) := by
  have w : WF (exec ops) := WF.exec ops
  have q : ParentOK (exec ops) := ParentOK.foldl ops WF.nil ParentOK.nil hl
  have hroot := root_of_building w hb hk
  obtain ⟨keys, ch⟩ := hi.chain
  obtain ⟨o', ho', hr⟩ := ch.rank w hb
  rw [ho] at ho'; cases ho'
  have hlen : keys.length = 4 := by rw [hk, hp] at hr; simp [Kind.rank] at hr; omega
  match keys, hlen with
  | [z, s, wl, pg], _ =>
  have hpath : path (exec ops) i = Str.join PATH_SEP [B.name, z, s, wl, pg] :=
    ch.path w q hb hroot 5 (by simp)
  have hsep : ∀ k ∈ [B.name, z, s, wl, pg, digits], PATH_SEP ∉ k := by
    intro k hk'
    simp only [List.mem_cons, List.not_mem_nil, or_false] at hk'
    have hns := ch.no_sep w
    rcases hk' with rfl | rfl | rfl | rfl | rfl | rfl
    · exact w.name b B hb
    · exact hns _ (by simp)
    · exact hns _ (by simp)
    · exact hns _ (by simp)
    · exact hns _ (by simp)
    · exact hd
  have hjoin : path (exec ops) i ++ '/' :: digits =
      Str.join PATH_SEP [B.name, z, s, wl, pg, digits] := by
    rw [hpath]; simp [Str.join, PATH_SEP]
  have hget : get parseInt (exec ops) b (path (exec ops) i ++ '/' :: digits) =
      match parseInt digits with
      | none => .error .valueError
      | some n => (pyIndex o.pts n).map .point := by
    rw [hjoin]
    unfold get
    rw [hb]
    simp only []
    rw [Str.split_join _ _ (by simp) hsep]
    simp only [ne_eq, not_true_eq_false, if_false]
    have hit := ch.items w
    cases parseInt digits with
    | none => rfl
    | some n => simp only [hit, ho]
  rw [hget]
  refine ⟨fun h => by rw [h], fun n h => ?_⟩
  rw [h]
  simp only
  constructor
  · intro k hk' p hkp
    have hkl := (List.getElem?_eq_some_iff.1 hkp).1
    unfold pyIndex
    have e : (if n < 0 then n + o.pts.length else n) = k := by
      rcases hk' with h | ⟨h, h0⟩
      · rw [if_neg (by omega), h]
      · rw [if_pos h0, h]
    simp only [e]
    rw [if_neg (by omega), Int.toNat_natCast, hkp]
    rfl
  · intro hn
    unfold pyIndex
    rcases hn with hn | hn
    · rw [if_neg (show ¬ n < 0 by omega)]
      simp only
      rw [if_neg (by omega), List.getElem?_eq_none (by omega)]
      rfl
    · rw [if_pos (show n < 0 by omega)]
      simp only
      rw [if_pos (by omega)]
      rfl

/-- **C54, vertices.**  A surface parameter cannot be set for a vertex: a TypeError is raised and nothing changes. -/
theorem C54_vertex (parseInt : Str → Option Int) (ops : List (Op P)) (hl : LinearFrom [] ops) (b : Nat) (B : Obj P)
    (hb : (exec ops)[b]? = some B) (hk : B.kind = .building) (i : Nat) (o : Obj P) (hi : Within (exec ops) b i)
    (ho : (exec ops)[i]? = some o) (hp : o.kind = .polygon) (digits : Str) (n : Nat) (p : P)
    (hd : '/' ∉ digits) (hpi : parseInt digits = some (n : Int)) (hn : o.pts[n]? = some p) (s : Config.Surfaces V)
    (param : Str) (v : V) :
    Config.setSurfaceParam parseInt (exec ops) b s param (path (exec ops) i ++ '/' :: digits) v = (s, .error .typeError) := by
  unfold Config.setSurfaceParam
  rw [C08_get_vertex parseInt ops hl b B hb hk i o hi ho hp digits n p hd hpi hn]

/-- **C07, objects outside of a building.**  Asking an object with a lookup fails with a RecursionError if the outermost
object around it is not a building. -/
theorem C07_no_building (parseInt : Str → Option Int) (ops : List (Op P)) (hl : LinearFrom [] ops) (c : Nat) (C : Obj P)
    (hc : (exec ops)[c]? = some C) (hroot : C.parent = none) (hk : C.kind ≠ .building) (i : Nat)
    (hi : Within (exec ops) c i) (s : Str) : objGet parseInt (exec ops) 5 i s = .error .runtimeError := by
  have w : WF (exec ops) := WF.exec ops
  have q : ParentOK (exec ops) := ParentOK.foldl ops WF.nil ParentOK.nil hl
  obtain ⟨keys, ch⟩ := hi.chain
  have key : ∀ fuel, objGet parseInt (exec ops) fuel i s = .error .runtimeError := by
    induction ch with
    | nil =>
      intro fuel
      cases fuel with
      | zero => rfl
      | succ f =>
        unfold objGet
        rw [hc]
        simp only [hroot, if_neg hk]
    | snoc ch' hi' hk' ih =>
      intro fuel
      cases fuel with
      | zero => rfl
      | succ f =>
        obtain ⟨oj, h1, h2⟩ := q _ _ _ _ hi' hk'
        unfold objGet
        rw [h1]
        simp only [h2]
        exact ih ch'.within f
  exact key 5

/-- Non-vacuity of `C08_vertex_exact` and `C54_vertex`: polygon 6 of the demo history is in building 4 and has three
vertices.  (`demoOps` is linear, see `Props/Hierarchy.lean`.) -/
example : Within (exec demoOps) 4 6 ∧ ((exec demoOps)[6]?).map (fun o => (o.kind, o.pts)) = some (.polygon, [1, 2, 3]) ∧
    ((exec demoOps)[4]?).map (·.kind) = some .building := by
  refine ⟨(chain_of_items [['z'], ['s'], ['w'], ['q']] [] 4 6 .nil (by decide +kernel)).within, by decide +kernel, by decide +kernel⟩

/-- Non-vacuity of `C07_no_building`: a wall which is in no solid. -/
example : ((exec [.construct .polygon ['p'] [7, 8, 9] none [], .construct .wall ['w'] [] none [0]] : Heap Nat)[1]?).map
    (fun o => (o.kind, o.parent, o.children)) = some (.wall, none, [(['p'], 0)]) := by decide +kernel

end B3d.Hier
