import Verif.Spec.Display
import Verif.Props.Output

/-! # C85: plotting -/

namespace B3d.Display

variable {α κ : Type}

theorem cells_unique {flat : List Nat} {c c' : List (List Nat)} (h : Cells flat c) (h' : Cells flat c') : c = c' := by
  induction h generalizing c' with
  | nil => cases h'; rfl
  | @cons flat cells l h ih =>
    generalize hf : l.length :: (l ++ flat) = F at h'
    cases h' with
    | nil => cases hf
    | @cons flat' cells' l' h' =>
      obtain ⟨e1, e2⟩ := List.cons.inj hf
      obtain ⟨rfl, rfl⟩ := List.append_inj e2 e1
      rw [ih h']

theorem cells_append {f1 f2 : List Nat} {c1 c2 : List (List Nat)} (h1 : Cells f1 c1) (h2 : Cells f2 c2) :
    Cells (f1 ++ f2) (c1 ++ c2) := by
  induction h1 with
  | nil => exact h2
  | cons c _ ih =>
    have := Cells.cons c ih
    simpa using this

theorem facesFlat_cells (faces : List (Nat × Nat × Nat)) :
    Cells (facesFlat faces) (faces.map fun f => [f.1, f.2.1, f.2.2]) := by
  have key : ∀ (fs : List (Nat × Nat × Nat)) (flat : List Nat) (cells : List (List Nat)), Cells flat cells →
      Cells (fs.foldl (fun flat f => flat ++ [3, f.1, f.2.1, f.2.2]) flat)
        (cells ++ fs.map fun f => [f.1, f.2.1, f.2.2]) := by
    intro fs
    induction fs with
    | nil => intro flat cells h; simpa using h
    | cons f fs ih =>
      intro flat cells h
      have := ih _ _ (cells_append h (Cells.cons [f.1, f.2.1, f.2.2] Cells.nil))
      simpa using this
  exact key faces [] [] .nil

theorem segment_eq (l : List Nat) : segment l = l.length :: l := by
  have key : ∀ (l acc : List Nat), l.foldl (fun seg v => seg ++ [v]) acc = acc ++ l := by
    intro l
    induction l with
    | nil => simp
    | cons a l ih => intro acc; simp [ih]
  rw [segment, key]; rfl

theorem linesFlat_cells (lines : List (List Nat)) : Cells (linesFlat lines) lines := by
  have key : ∀ (ls : List (List Nat)) (flat : List Nat) (cells : List (List Nat)), Cells flat cells →
      Cells (ls.foldl (fun flat l => flat ++ segment l) flat) (cells ++ ls) := by
    intro ls
    induction ls with
    | nil => intro flat cells h; simpa using h
    | cons l ls ih =>
      intro flat cells h
      have := ih _ _ (cells_append h (Cells.cons l Cells.nil))
      simpa [segment_eq] using this
  exact key lines [] [] .nil

theorem drawObject_ok {white col : κ} {rand : Nat → κ} {colors : List κ} {n i : Nat} {o : Plottable α}
    (hc : colourOf white rand colors n i = .ok col) (ho : Ready o) :
    ∃ d, drawObject white rand colors n i o = .ok d ∧ Pictures o col d := by
  obtain ⟨h1, h2, h3, h4⟩ := ho
  have hne : ¬ (o.getMesh.isNone ∧ o.getLines.isNone ∧ o.getPoints.isNone) := by
    rintro ⟨a, b, c⟩
    simp_all
  unfold drawObject
  rw [hc]
  simp only
  rw [if_neg hne]
  have ha : ∃ a, drawMesh col o = .ok a ∧ (match o.getMesh with
      | none => a = []
      | some r => ∃ verts faces flat, r = .ok (verts, faces) ∧ a = [⟨.faces, verts, flat, col⟩] ∧
          Cells flat (faces.map fun f => [f.1, f.2.1, f.2.2])) := by
    unfold drawMesh
    match hm : o.getMesh with
    | none => exact ⟨[], rfl, rfl⟩
    | some (.error e) => exact absurd hm (h2 e)
    | some (.ok (verts, faces)) => exact ⟨_, rfl, verts, faces, _, rfl, rfl, facesFlat_cells faces⟩
  have hb : ∃ b, drawLines col o = .ok b ∧ (match o.getLines with
      | none => b = []
      | some r => ∃ verts lines flat, r = .ok (verts, lines) ∧ b = [⟨.lines, verts, flat, col⟩] ∧ Cells flat lines) := by
    unfold drawLines
    match hm : o.getLines with
    | none => exact ⟨[], rfl, rfl⟩
    | some (.error e) => exact absurd hm (h3 e)
    | some (.ok (verts, lines)) => exact ⟨_, rfl, verts, lines, _, rfl, rfl, linesFlat_cells lines⟩
  have hp : ∃ c, drawPoints col o = .ok c ∧ (match o.getPoints with
      | none => c = []
      | some r => ∃ verts, r = .ok verts ∧ c = [⟨.points, verts, [], col⟩]) := by
    unfold drawPoints
    match hm : o.getPoints with
    | none => exact ⟨[], rfl, rfl⟩
    | some (.error e) => exact absurd hm (h4 e)
    | some (.ok verts) => exact ⟨_, rfl, verts, rfl, rfl⟩
  obtain ⟨a, ea, pa⟩ := ha
  obtain ⟨b, eb, pb⟩ := hb
  obtain ⟨c, ec, pc⟩ := hp
  rw [ea]; simp only
  rw [eb]; simp only
  rw [ec]
  exact ⟨_, rfl, a, b, c, rfl, pa, pb, pc⟩

theorem drawLoop_ok {white : κ} {rand : Nat → κ} {colors : List κ} {n : Nat} {col : Nat → κ} :
    ∀ (os : List (Plottable α)) (i : Nat) (acc : List (Drawing α κ)),
      (∀ k, k < os.length → colourOf white rand colors n (i + k) = .ok (col (i + k))) → (∀ o ∈ os, Ready o) →
      ∃ ds : List (List (Drawing α κ)), drawLoop white rand colors n i os acc = .ok (acc ++ ds.flatten) ∧
        ds.length = os.length ∧ ∀ k o d, os[k]? = some o → ds[k]? = some d → Pictures o (col (i + k)) d
  | [], i, acc, _, _ => ⟨[], by simp [drawLoop], rfl, by simp⟩
  | o :: os, i, acc, hc, ho => by
    obtain ⟨d, hd, hp⟩ := drawObject_ok (hc 0 (by simp)) (ho o (by simp))
    obtain ⟨ds, h1, h2, h3⟩ := drawLoop_ok (white := white) (rand := rand) (colors := colors) (n := n)
      (col := col) os (i + 1) (acc ++ d)
      (fun k hk => by
        rw [show i + 1 + k = i + (k + 1) by omega]
        exact hc (k + 1) (by simpa using hk))
      (fun o h => ho o (by simp [h]))
    refine ⟨d :: ds, ?_, by simp [h2], ?_⟩
    · rw [drawLoop]
      rw [Nat.add_zero] at hd
      simp only [hd, h1, List.flatten_cons, List.append_assoc]
    · intro k o' d' e1 e2
      cases k with
      | zero =>
        simp only [List.getElem?_cons_zero, Option.some.injEq] at e1 e2
        subst e1; subst e2
        exact hp
      | succ k =>
        simp only [List.getElem?_cons_succ] at e1 e2
        have := h3 k o' d' e1 e2
        rwa [show i + 1 + k = i + (k + 1) by omega] at this

/-- **C85 (partial: at least two objects, or no colours).**  Every object is drawn, in the order given, with all its
triangles, lines and points, as far as it has them, and in its colour: the one given for it, a random one if none are
given, white if it is alone.

Missing: a single object with a colour, see `C85_single_colour`. -/
theorem C85_drawn_partial {white : κ} {rand : Nat → κ} {objects : List (Plottable α)} {colors : List κ}
    (hn : objects ≠ []) (hc : colors = [] ∨ (colors.length = objects.length ∧ 2 ≤ objects.length))
    (ho : ∀ o ∈ objects, Ready o) :
    ∃ ds : List (List (Drawing α κ)), plotObjects white rand objects colors = .ok ds.flatten ∧
      ds.length = objects.length ∧
      ∀ k o d, objects[k]? = some o → ds[k]? = some d →
        ∃ col, Pictures o col d ∧ (colors ≠ [] → colors[k]? = some col) ∧
          (colors = [] → col = if objects.length = 1 then white else rand k) := by
  have hl : 0 < objects.length := List.length_pos_iff.2 hn
  obtain ⟨col, hcol⟩ : ∃ col : Nat → κ, col = fun i => (colors[i]?).getD (if objects.length = 1 then white else rand i) :=
    ⟨_, rfl⟩
  obtain ⟨ds, h1, h2, h3⟩ := drawLoop_ok (white := white) (rand := rand) (colors := colors) (n := objects.length)
    (col := col) objects 0 [] (by
      intro k hk
      rw [Nat.zero_add, hcol]
      unfold colourOf
      rcases hc with rfl | ⟨hc, h2⟩
      · by_cases h1 : objects.length = 1
        · simp [h1]
        · rw [if_pos ⟨by omega, rfl⟩]; simp [h1]
      · rw [if_neg (by omega), if_pos ⟨by omega, hc⟩]
        have : k < colors.length := by omega
        simp [this]) ho
  refine ⟨ds, ?_, h2, ?_⟩
  · unfold plotObjects
    rw [if_neg (by omega), if_neg (by rcases hc with rfl | ⟨hc, -⟩ <;> simp_all)]
    simpa using h1
  · intro k o d e1 e2
    refine ⟨_, h3 k o d e1 e2, ?_, ?_⟩
    · intro hne
      rcases hc with h | ⟨hc, -⟩
      · exact absurd h hne
      · have : k < colors.length := by rw [hc]; exact (List.getElem?_eq_some_iff.1 e1).1
        rw [Nat.zero_add, hcol]
        simp [this]
    · rintro rfl
      rw [Nat.zero_add, hcol]
      simp

/-- **C85, rejected calls.**  No objects, or a wrong number of colours: `ValueError`.  An object without any of the
three methods: `AssertionError`, provided that those before it can be drawn. -/
theorem C85_errors {white : κ} {rand : Nat → κ} :
    (∀ colors : List κ, plotObjects (α := α) white rand [] colors = .error .valueError) ∧
    (∀ (objects : List (Plottable α)) (colors : List κ), colors ≠ [] → colors.length ≠ objects.length →
      plotObjects white rand objects colors = .error .valueError) ∧
    (∀ (pre post : List (Plottable α)), (∀ o ∈ pre, Ready o) →
      plotObjects white rand (pre ++ ⟨none, none, none⟩ :: post) [] = .error .assertionError) := by
  refine ⟨fun colors => rfl, ?_, ?_⟩
  · intro objects colors h1 h2
    unfold plotObjects
    split
    · rfl
    · rw [if_pos ⟨List.length_pos_iff.2 h1, h2⟩]
  · intro pre post hp
    unfold plotObjects
    rw [if_neg (by simp), if_neg (by simp)]
    obtain ⟨n, hn⟩ : ∃ n, n = (pre ++ (⟨none, none, none⟩ : Plottable α) :: post).length := ⟨_, rfl⟩
    have hn0 : 0 < n := by rw [hn]; simp
    rw [← hn]
    have hcol : ∀ i, ∃ c, colourOf white rand [] n i = .ok c := by
      intro i
      unfold colourOf
      by_cases h1 : n = 1
      · simp [h1]
      · rw [if_pos ⟨by omega, rfl⟩]; exact ⟨_, rfl⟩
    clear hn
    generalize 0 = i
    generalize ([] : List (Drawing α κ)) = acc
    induction pre generalizing i acc with
    | nil =>
      obtain ⟨c, hc⟩ := hcol i
      simp [drawLoop, drawObject, hc]
    | cons o pre ih =>
      obtain ⟨c, hc⟩ := hcol i
      obtain ⟨d, hd, -⟩ := drawObject_ok hc (hp o (by simp))
      simp only [List.cons_append, drawLoop, hd]
      exact ih (fun o h => hp o (by simp [h])) _ _

/-- **C85 is false for a single object with a colour.**  The object is drawn white, whatever colour was given. -/
theorem C85_single_colour {white c : κ} {rand : Nat → κ} {o : Plottable α} (ho : Ready o) :
    ∃ d, plotObjects white rand [o] [c] = .ok d ∧ Pictures o white d := by
  obtain ⟨d, hd, hp⟩ := drawObject_ok (white := white) (rand := rand) (colors := [c]) (n := 1) (i := 0) (col := white)
    (by simp [colourOf]) ho
  refine ⟨d, ?_, hp⟩
  simp [plotObjects, drawLoop, hd]

/-- **C85, the ray plotter.**  `RayBuffPlotter.plot` draws the building in white, one red line for each ray through its
positions in time order, and red points at the last positions. -/
theorem C85_rays {white red : κ} {rand : Nat → κ} {verts : List α} {faces : List (Nat × Nat × Nat)}
    {pb : List (List α)} {last : List α} {numRays : Nat} (hr : Output.Rect pb numRays) (hn : 0 < numRays)
    (hl : pb.getLast? = some last) :
    ∃ flatF flatL vertsL lines, plotRays white red rand ⟨some (.ok (verts, faces)), none, none⟩ pb numRays =
        .ok [⟨.faces, verts, flatF, white⟩, ⟨.lines, vertsL, flatL, red⟩, ⟨.points, last, [], red⟩] ∧
      Cells flatF (faces.map fun f => [f.1, f.2.1, f.2.2]) ∧ Cells flatL lines ∧
      Output.AreTrails pb numRays vertsL lines := by
  have hpb : 0 < pb.length := by
    cases pb with
    | nil => simp at hl
    | cons a t => simp
  obtain ⟨vertsL, lines, h1, h2⟩ := (Output.C58_plot hr).1 hn hpb
  refine ⟨facesFlat faces, linesFlat lines, vertsL, lines, ?_, facesFlat_cells faces, linesFlat_cells lines, h2⟩
  simp [plotRays, plotObjects, drawLoop, drawObject, colourOf, drawMesh, drawLines, drawPoints, rays, h1, lastRow, hl]

/-- Non-vacuity: a square and two rays. -/
example : plotRays "white" "red" (fun _ => "?") ⟨some (.ok (["a", "b", "c", "d"], [(3, 0, 1), (3, 1, 2)])), none, none⟩
    [["p0", "q0"], ["p1", "q1"]] 2 =
    .ok [⟨.faces, ["a", "b", "c", "d"], [3, 3, 0, 1, 3, 3, 1, 2], "white"⟩,
      ⟨.lines, ["p0", "p1", "q0", "q1"], [2, 0, 1, 2, 2, 3], "red"⟩, ⟨.points, ["p1", "q1"], [], "red"⟩] := by
  decide +kernel

example : Ready (⟨some (.ok (["a", "b", "c", "d"], [(3, 0, 1), (3, 1, 2)])), none, none⟩ : Plottable String) := by
  simp [Ready]

example : plotObjects "white" (fun _ => "?") [(⟨some (.ok (["a", "b", "c"], [(2, 0, 1)])), none, none⟩ : Plottable String)]
    ["blue"] = .ok [⟨.faces, ["a", "b", "c"], [3, 2, 0, 1], "white"⟩] := by decide +kernel

end B3d.Display
