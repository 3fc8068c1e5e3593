import Verif.Model.GraphGeo
import Verif.Spec.Rooms
import Verif.Props.Graph
import Verif.Props.Adjacent
import Verif.Props.Crossing
import Verif.Props.Touching

/-!
# C91: walls between the rooms of a zone
-/

namespace B3d.Solids

open Polygon Spec Triangles

/-! ### Faces of a room -/

/-- The direction along an axis, forwards or backwards. -/
def dirVec : Axis → Bool → Vec3 ℝ
  | .x, f => ⟨if f then 1 else -1, 0, 0⟩
  | .y, f => ⟨0, if f then 1 else -1, 0⟩
  | .z, f => ⟨0, 0, if f then 1 else -1⟩

/-- The sizes of a room. -/
def size (r : Room) : Vec3 ℝ := r.hi - r.lo

/-- First edge of the far face. -/
def edge1 (r : Room) : Axis → Vec3 ℝ
  | .x => ⟨0, (size r).y, 0⟩
  | .y => ⟨0, 0, (size r).z⟩
  | .z => ⟨(size r).x, 0, 0⟩

/-- Second edge of the far face. -/
def edge2 (r : Room) : Axis → Vec3 ℝ
  | .x => ⟨0, 0, (size r).z⟩
  | .y => ⟨(size r).x, 0, 0⟩
  | .z => ⟨0, (size r).y, 0⟩

/-- The corner where a face begins. -/
def base (r : Room) : Axis → Bool → Vec3 ℝ
  | .x, f => ⟨r.side .x f, r.lo.y, r.lo.z⟩
  | .y, f => ⟨r.lo.x, r.side .y f, r.lo.z⟩
  | .z, f => ⟨r.lo.x, r.lo.y, r.side .z f⟩

/-- `P` is the face of the room on the given side. -/
structure FaceOf (r : Room) (a : Axis) (f : Bool) (P : Poly) : Prop where
  pos : ∀ b, coord b r.lo < coord b r.hi
  rect : RectFace P (base r a f) (if f then edge1 r a else edge2 r a) (if f then edge2 r a else edge1 r a) (dirVec a f)

namespace FaceOf

variable {r : Room} {a : Axis} {f : Bool} {P : Poly} (h : FaceOf r a f P)
include h

theorem mem (p : Vec3 ℝ) : p ∈ P.pts ↔ r.IsCorner p ∧ coord a p = r.side a f := by
  rw [h.rect.pts]
  simp only [List.mem_cons, List.not_mem_nil, or_false]
  constructor
  · rintro (rfl | rfl | rfl | rfl) <;> cases a <;> cases f <;>
      refine ⟨fun b => ?_, ?_⟩ <;> (try cases b) <;>
      simp [base, edge1, edge2, size, coord, Room.side]
  · rintro ⟨hc, ha⟩
    obtain ⟨fx, hx⟩ := hc .x
    obtain ⟨fy, hy⟩ := hc .y
    obtain ⟨fz, hz⟩ := hc .z
    cases a <;> cases f <;> cases fx <;> cases fy <;> cases fz <;>
      simp_all [base, edge1, edge2, size, coord, Room.side, Vec3.ext_iff]

theorem nodup : P.pts.Nodup := by
  rw [h.rect.pts]
  have hx := h.pos .x
  have hy := h.pos .y
  have hz := h.pos .z
  simp only [coord] at hx hy hz
  cases a <;> cases f <;>
    simp [base, edge1, edge2, size, Vec3.ext_iff, sub_eq_zero, hx.ne', hy.ne', hz.ne', hx.ne, hy.ne, hz.ne]

theorem length : P.pts.length = 4 := by rw [h.rect.pts]; rfl

end FaceOf

theorem opposite_of_close {a b : Axis} {f g : Bool} (h : allClose (dirVec a f) (-dirVec b g) GEOM_RTOL NP_ATOL) :
    a = b ∧ f = !g := by
  obtain ⟨h1, h2, h3⟩ := h
  unfold isClose at h1 h2 h3
  cases a <;> cases b <;> cases f <;> cases g <;>
    first
    | exact ⟨rfl, rfl⟩
    | (exfalso; norm_num [dirVec, GEOM_RTOL, NP_ATOL] at h1; done)
    | (exfalso; norm_num [dirVec, GEOM_RTOL, NP_ATOL] at h2; done)
    | (exfalso; norm_num [dirVec, GEOM_RTOL, NP_ATOL] at h3)

theorem opposite_dir (a : Axis) (f : Bool) : -dirVec a f = dirVec a (!f) := by
  cases a <;> cases f <;> ext <;> simp [dirVec]

/-- Points of told apart rooms which are close are equal. -/
theorem corner_eq {r s : Room} (h : r.ToldApart s) {p q : Vec3 ℝ} (hp : r.IsCorner p) (hq : s.IsCorner q)
    (hc : allClose p q NP_RTOL GEOM_ATOL) : p = q := by
  have key : ∀ a, isClose (coord a p) (coord a q) NP_RTOL GEOM_ATOL → coord a p = coord a q := by
    intro a hcl
    obtain ⟨f, hf⟩ := hp a
    obtain ⟨g, hg⟩ := hq a
    rw [hf, hg] at hcl ⊢
    rcases h a f g with e | e
    · exact e
    · exfalso
      unfold isClose at hcl
      norm_num [NP_RTOL, GEOM_ATOL] at hcl
      norm_num at e
      linarith
  ext
  · exact key .x hc.1
  · exact key .y hc.2.1
  · exact key .z hc.2.2

/-- The corner with the given sides. -/
def cornerAt (r : Room) (σ : Axis → Bool) : Vec3 ℝ := ⟨r.side .x (σ .x), r.side .y (σ .y), r.side .z (σ .z)⟩

theorem coord_cornerAt (r : Room) (σ : Axis → Bool) (a : Axis) : coord a (cornerAt r σ) = r.side a (σ a) := by
  cases a <;> rfl

/-- The same corners. -/
def SameCorners (P Q : Poly) : Prop := ∀ p, p ∈ P.pts ↔ p ∈ Q.pts

/-- Faces with the same corners are on the same axis, in the same plane and have the same extent. -/
theorem same_corners {r s : Room} {a b : Axis} {f g : Bool} {P Q : Poly} (hP : FaceOf r a f P) (hQ : FaceOf s b g Q)
    (h : SameCorners P Q) :
    a = b ∧ r.side a f = s.side a g ∧ ∀ c, c ≠ a → coord c r.lo = coord c s.lo ∧ coord c r.hi = coord c s.hi := by
  -- every corner of the first face is a corner of the second room
  have key : ∀ p, (r.IsCorner p ∧ coord a p = r.side a f) ↔ (s.IsCorner p ∧ coord b p = s.side b g) := by
    intro p
    rw [← hP.mem, ← hQ.mem]
    exact h p
  have hside : ∀ (r : Room) c, r.side c false = coord c r.lo ∧ r.side c true = coord c r.hi := fun _ _ => ⟨rfl, rfl⟩
  have hin : ∀ σ : Axis → Bool, σ a = f → s.IsCorner (cornerAt r σ) ∧ r.side b (σ b) = s.side b g := by
    intro σ hσ
    have := (key (cornerAt r σ)).1 ⟨fun c => ⟨_, coord_cornerAt r σ c⟩, by rw [coord_cornerAt, hσ]⟩
    rwa [coord_cornerAt] at this
  have hab : a = b := by
    by_contra hne
    have h1 := (hin (fun c => if c = a then f else false) (by simp)).2
    have h2 := (hin (fun c => if c = a then f else true) (by simp)).2
    simp only [if_neg (fun e : b = a => hne e.symm)] at h1 h2
    have := hP.pos b
    rw [← (hside r b).1, ← (hside r b).2, h1, h2] at this
    exact lt_irrefl _ this
  subst hab
  refine ⟨rfl, (hin (fun _ => f) rfl).2, fun c hc => ?_⟩
  obtain ⟨g1, h1⟩ := (hin (fun c => if c = a then f else false) (by simp)).1 c
  obtain ⟨g2, h2⟩ := (hin (fun c => if c = a then f else true) (by simp)).1 c
  rw [coord_cornerAt] at h1 h2
  simp only [if_neg hc] at h1 h2
  rw [(hside r c).1] at h1
  rw [(hside r c).2] at h2
  have p1 := hP.pos c
  have p2 := hQ.pos c
  rw [← (hside s c).1, ← (hside s c).2] at p2 ⊢
  cases g1 <;> cases g2
  · rw [h1, h2] at p1; exact absurd p1 (lt_irrefl _)
  · exact ⟨h1, h2⟩
  · rw [h1, h2] at p1; exact absurd (p1.trans p2) (lt_irrefl _)
  · rw [h1, h2] at p1; exact absurd p1 (lt_irrefl _)

/-- Faces of separate rooms with the same corners look into opposite directions. -/
theorem same_corners_opposite {r s : Room} {a b : Axis} {f g : Bool} {P Q : Poly} (hP : FaceOf r a f P)
    (hQ : FaceOf s b g Q) (hs : r.Separate s) (h : SameCorners P Q) : a = b ∧ g = !f := by
  obtain ⟨rfl, h1, h2⟩ := same_corners hP hQ h
  refine ⟨rfl, ?_⟩
  by_contra hne
  obtain rfl : g = f := by cases f <;> cases g <;> simp_all
  obtain ⟨c, hc⟩ := hs
  have p1 := hP.pos c
  have p2 := hQ.pos c
  by_cases hca : c = a
  · subst hca
    cases g <;> simp only [Room.side] at h1 <;> simp at h1 <;> rcases hc with hc | hc <;> linarith
  · obtain ⟨e1, e2⟩ := h2 c hca
    rcases hc with hc | hc <;> linarith

/-- Rectangles with the same corners on opposite sides face each other. -/
theorem facing_of_same {r s : Room} {a : Axis} {f : Bool} {P Q : Poly} (hP : FaceOf r a f P) (hQ : FaceOf s a (!f) Q)
    (hr : r.ToldApart r) (h : SameCorners P Q) : facing P Q = .ok true := by
  obtain ⟨-, h1, h2⟩ := same_corners hP hQ h
  have hb : base s a (!f) = base r a f := by
    cases a
    · have hy := h2 .y (by decide); have hz := h2 .z (by decide)
      simp only [coord] at hy hz; simp [base, hy.1, hz.1, h1]
    · have hy := h2 .x (by decide); have hz := h2 .z (by decide)
      simp only [coord] at hy hz; simp [base, hy.1, hz.1, h1]
    · have hy := h2 .x (by decide); have hz := h2 .y (by decide)
      simp only [coord] at hy hz; simp [base, hy.1, hz.1, h1]
  have he : edge1 s a = edge1 r a ∧ edge2 s a = edge2 r a := by
    cases a
    · have hy := h2 .y (by decide); have hz := h2 .z (by decide)
      simp only [coord] at hy hz; simp [edge1, edge2, size, hy, hz]
    · have hy := h2 .x (by decide); have hz := h2 .z (by decide)
      simp only [coord] at hy hz; simp [edge1, edge2, size, hy, hz]
    · have hy := h2 .x (by decide); have hz := h2 .y (by decide)
      simp only [coord] at hy hz; simp [edge1, edge2, size, hy, hz]
  have hq := hQ.rect
  rw [hb, he.1, he.2, ← opposite_dir] at hq
  refine facing_swap hP.rect ?_ fun p hp q hq hc => corner_eq hr ((hP.mem p).1 hp).1 ((hP.mem q).1 hq).1 hc
  cases f <;> simpa using hq

/-- Faces of told apart rooms which face each other have the same corners and look into opposite directions. -/
theorem same_of_facing {r s : Room} {a b : Axis} {f g : Bool} {P Q : Poly} (hP : FaceOf r a f P) (hQ : FaceOf s b g Q)
    (hrs : r.ToldApart s) (h : facing P Q = .ok true) : SameCorners P Q ∧ a = b ∧ f = !g := by
  obtain ⟨v, w, hv, hw, hn, -, js, hl, -, hjs⟩ := facing_sound h
  rw [hP.rect.vn, Option.some.injEq] at hv
  rw [hQ.rect.vn, Option.some.injEq] at hw
  subst hv hw
  obtain ⟨rfl, hfg⟩ := opposite_of_close hn
  refine ⟨?_, rfl, hfg⟩
  have hsub : P.pts ⊆ Q.pts := by
    intro p hp
    obtain ⟨k, hk⟩ := List.getElem?_of_mem hp
    obtain ⟨j, q, -, hq, hpq⟩ := hjs k p hk
    have hq := List.mem_of_getElem? hq
    rw [corner_eq hrs ((hP.mem p).1 hp).1 ((hQ.mem q).1 hq).1 hpq]
    exact hq
  have hperm : P.pts.Perm Q.pts :=
    (List.subperm_of_subset hP.nodup hsub).perm_of_length_le (by rw [hP.length, hQ.length])
  exact fun p => hperm.mem_iff

/-- The faces of a box. -/
theorem box_face {r : Room} (hr : BoxSize (size r).x (size r).y (size r).z r.lo) {S : SolidG}
    (hS : box (size r).x (size r).y (size r).z r.lo = .ok S) {P : Poly} (hP : P ∈ allPolys S) :
    ∃ a f, FaceOf r a f P := by
  obtain ⟨⟨P0, P1, P2, P3, P4, P5, b⟩, -⟩ := box_faces hr hS
  have hpos : ∀ b, coord b r.lo < coord b r.hi := by
    have := b.pos
    simp only [size, Vec3.sub_x, Vec3.sub_y, Vec3.sub_z, sub_pos] at this
    intro b
    cases b
    exacts [this.1, this.2.1, this.2.2]
  rw [allPolys_eq, b.faces] at hP
  simp only [List.mem_cons, List.not_mem_nil, or_false] at hP
  have h0 := b.floor; have h1 := b.front; have h2 := b.right; have h3 := b.back; have h4 := b.left
  have h5 := b.ceiling
  rcases hP with rfl | rfl | rfl | rfl | rfl | rfl
  · refine ⟨.z, false, hpos, ?_⟩
    simpa [base, edge1, edge2, dirVec, Room.side, coord, corner] using h0
  · refine ⟨.y, false, hpos, ?_⟩
    simpa [base, edge1, edge2, dirVec, Room.side, coord, corner] using h1
  · refine ⟨.x, true, hpos, ?_⟩
    simpa [base, edge1, edge2, dirVec, Room.side, coord, corner, size] using h2
  · refine ⟨.y, true, hpos, ?_⟩
    simpa [base, edge1, edge2, dirVec, Room.side, coord, corner, size] using h3
  · refine ⟨.x, false, hpos, ?_⟩
    simpa [base, edge1, edge2, dirVec, Room.side, coord, corner] using h4
  · refine ⟨.z, true, hpos, ?_⟩
    simpa [base, edge1, edge2, dirVec, Room.side, coord, corner, size] using h5

end B3d.Solids

namespace B3d.Hier

open Polygon Spec Solids

variable {P : Type}

/-- `s` is a solid of the building `b`. -/
def IsSolidOf (h : Heap P) (b s : Nat) : Prop := Within h b s ∧ ∃ o : Obj P, h[s]? = some o ∧ o.kind = .solid

/-- The rooms of a building: every solid is the result of `box` for its room, the rooms have at most walls in common,
and different planes of walls are told apart. -/
structure Rooms (h : Heap P) (b : Nat) (poly : Polys) (room : Nat → Room) : Prop where
  size : ∀ s, IsSolidOf h b s →
    BoxSize (Solids.size (room s)).x (Solids.size (room s)).y (Solids.size (room s)).z (room s).lo
  made : ∀ s, IsSolidOf h b s →
    box (Solids.size (room s)).x (Solids.size (room s)).y (Solids.size (room s)).z (room s).lo = .ok (solidAt h poly s)
  separate : ∀ s t, IsSolidOf h b s → IsSolidOf h b t → s ≠ t → (room s).Separate (room t)
  apart : ∀ s t, IsSolidOf h b s → IsSolidOf h b t → (room s).ToldApart (room t)

theorem leafIds_solidAt (h : Heap P) (poly : Polys) (s : Nat) : (leafIds h 2 s).map poly = allPolys (solidAt h poly s) := by
  unfold solidAt allPolys
  rw [leafIds]
  cases h[s]? with
  | none => rfl
  | some o =>
    simp only [List.map_flatMap, List.flatMap_map]
    congr 1
    funext kv
    rw [leafIds]
    cases h[kv.2]? with
    | none => rfl
    | some w =>
      simp only [List.map_flatMap, leafIds, List.map_cons, List.map_nil, List.map_map]
      induction w.children with
      | nil => rfl
      | cons e l ih => simp [ih]

theorem leaf_of_within {h : Heap P} (w : WF h) {s i : Nat} {os oi : Obj P} (hs : h[s]? = some os) (hks : os.kind = .solid)
    (hi : h[i]? = some oi) (hki : oi.kind = .polygon) (hw : Within h s i) : i ∈ leafIds h 2 s := by
  obtain ⟨keys, ch⟩ := hw.chain
  obtain ⟨o, ho, hr⟩ := ch.rank w hs
  rw [hi] at ho; cases ho
  rw [hki, hks] at hr
  simp only [Kind.rank, Nat.zero_add] at hr
  rw [leafIds_eq w, List.mem_filterMap]
  have hit := ch.items w
  exact ⟨keys, (mem_leafKeys w 2 s keys).2 ⟨hr, i, hit⟩, by rw [hit]; rfl⟩

theorem within_of_leaf {h : Heap P} (w : WF h) {s i : Nat} {os : Obj P} (hs : h[s]? = some os) (hks : os.kind = .solid)
    (hi : i ∈ leafIds h 2 s) : Within h s i ∧ ∃ o : Obj P, h[i]? = some o ∧ o.kind = .polygon := by
  rw [leafIds_eq w, List.mem_filterMap] at hi
  obtain ⟨ks, hk, hi⟩ := hi
  obtain ⟨hlen, j, hj⟩ := (mem_leafKeys w 2 s ks).1 hk
  rw [hj] at hi
  cases hi
  have ch := (chain_iff w).2 hj
  obtain ⟨o, ho, hr⟩ := ch.rank w hs
  rw [hks, hlen] at hr
  refine ⟨ch.within, o, ho, ?_⟩
  cases hkk : o.kind <;> rw [hkk] at hr <;> simp [Kind.rank] at hr ⊢

section
variable {h : Heap P} {b : Nat} {B : Obj P} {poly : Polys} {room : Nat → Room}

/-- Every polygon of the building is a face of the room of its solid. -/
theorem Rooms.face (R : Rooms h b poly room) (c : BCtx h b B) {i : Nat} (hi : IsPolygonOf h b i) :
    ∃ s a f, IsSolidOf h b s ∧ i ∈ leafIds h 2 s ∧ FaceOf (room s) a f (poly i) := by
  obtain ⟨hw, o, ho, hk⟩ := hi
  obtain ⟨s, os, hs, hos, hr, hsi⟩ := c.ancestor hw ho hk 2 (by omega)
  have hks : os.kind = .solid := by
    cases hkk : os.kind <;> rw [hkk] at hr <;> simp [Kind.rank] at hr ⊢
  have hS : IsSolidOf h b s := ⟨hs, os, hos, hks⟩
  have hl := leaf_of_within c.w hos hks ho hk hsi
  have hm : poly i ∈ allPolys (solidAt h poly s) := by
    rw [← leafIds_solidAt]
    exact List.mem_map_of_mem hl
  obtain ⟨a, f, hf⟩ := box_face (R.size s hS) (R.made s hS) hm
  exact ⟨s, a, f, hS, hl, hf⟩

/-- Polygons of one solid with the same corners are the same. -/
theorem Rooms.same_solid (R : Rooms h b poly room) {s i j : Nat} (hs : IsSolidOf h b s) (hi : i ∈ leafIds h 2 s)
    (hj : j ∈ leafIds h 2 s) (he : SameCorners (poly i) (poly j)) : i = j := by
  have hn : ((leafIds h 2 s).map poly).map Poly.vn |>.Nodup := by
    rw [leafIds_solidAt]
    obtain ⟨S, hS, -, -, -, hv, -⟩ := C31_box_partial (R.size s hs)
    rw [R.made s hs, Except.ok.injEq] at hS
    rw [hS, hv]
    norm_num
  have hfi : ∀ k ∈ leafIds h 2 s, ∃ a f, FaceOf (room s) a f (poly k) := fun k hk =>
    box_face (R.size s hs) (R.made s hs) (by rw [← leafIds_solidAt]; exact List.mem_map_of_mem hk)
  obtain ⟨a, f, h1⟩ := hfi i hi
  obtain ⟨a', f', h2⟩ := hfi j hj
  obtain ⟨rfl, e, -⟩ := same_corners h1 h2 he
  have hff : f = f' := by
    have := h1.pos a
    cases f <;> cases f' <;> simp [Room.side] at e ⊢ <;> linarith
  subst hff
  rw [List.map_map] at hn
  exact List.inj_on_of_nodup_map hn hi hj (by simp [h1.rect.vn, h2.rect.vn])

/-- In a building of rooms, facing means the same corners. -/
theorem Rooms.facing_iff (R : Rooms h b poly room) (c : BCtx h b B) {i j : Nat} (hi : IsPolygonOf h b i)
    (hj : IsPolygonOf h b j) (hne : i ≠ j) :
    facing (poly i) (poly j) = .ok true ↔ SameCorners (poly i) (poly j) := by
  obtain ⟨s, a, f, hs, hsi, h1⟩ := R.face c hi
  obtain ⟨t, a', f', ht, htj, h2⟩ := R.face c hj
  constructor
  · exact fun hf => (same_of_facing h1 h2 (R.apart s t hs ht) hf).1
  · intro he
    have hst : s ≠ t := by
      rintro rfl
      exact hne (R.same_solid hs hsi htj he)
    obtain ⟨rfl, rfl⟩ := same_corners_opposite h1 h2 (R.separate s t hs ht hst) he
    exact facing_of_same h1 h2 (R.apart s s hs hs) he

theorem boxesMeet_same {p q : Poly} (hne : p.pts ≠ []) (he : SameCorners p q) : boxesMeet p q = true := by
  obtain ⟨x, hx⟩ := List.exists_mem_of_ne_nil _ hne
  have hx' := (he x).1 hx
  obtain ⟨b1, b2, h1, h2, -⟩ := Bboxes.C26_overlap_iff_common_point p.pts q.pts hne (List.ne_nil_of_mem hx')
  unfold boxesMeet
  rw [h1, h2]
  have hin : Bboxes.InTriangle x x x x := ⟨1, 0, 0, by norm_num, le_refl _, le_refl _, by norm_num, by simp⟩
  exact Bboxes.C26_no_false_negative p.pts q.pts b1 b2 h1 h2 x x x x x x x hx hx hx hx' hx' hx' hin hin

theorem Rooms.adjacent_iff (R : Rooms h b poly room) (c : BCtx h b B) {i j : Nat} (hi : IsPolygonOf h b i)
    (hj : IsPolygonOf h b j) :
    Adjacent (geoRels poly) ⟨true, false, false⟩ i j ↔ i ≠ j ∧ SameCorners (poly i) (poly j) := by
  have hsym : SameCorners (poly i) (poly j) ↔ SameCorners (poly j) (poly i) :=
    ⟨fun e p => (e p).symm, fun e p => (e p).symm⟩
  have hne : ∀ {k}, IsPolygonOf h b k → (poly k).pts ≠ [] := by
    intro k hk
    obtain ⟨s, a, f, -, -, h1⟩ := R.face c hk
    intro e
    have := h1.length
    rw [e] at this
    cases this
  unfold Adjacent Asked
  simp only [geoRels, decide_eq_true_eq, Bool.false_eq_true, false_and, or_false, true_and]
  refine and_congr_right fun hij => ?_
  rw [R.facing_iff c hi hj hij, R.facing_iff c hj hi hij.symm]
  constructor
  · rintro (h1 | h1)
    exacts [h1.2, hsym.2 h1.2]
  · intro he
    exact .inl ⟨boxesMeet_same (hne hi) he, he⟩

theorem Rooms.unique (R : Rooms h b poly room) (c : BCtx h b B) {i j k : Nat} (hi : IsPolygonOf h b i)
    (hj : IsPolygonOf h b j) (hk : IsPolygonOf h b k) (hij : i ≠ j) (hik : i ≠ k)
    (e1 : SameCorners (poly i) (poly j)) (e2 : SameCorners (poly i) (poly k)) : j = k := by
  obtain ⟨s, a, f, hs, hsi, h1⟩ := R.face c hi
  obtain ⟨t, a', f', ht, htj, h2⟩ := R.face c hj
  obtain ⟨u, a'', f'', hu, huk, h3⟩ := R.face c hk
  have e3 : SameCorners (poly j) (poly k) := fun p => (e1 p).symm.trans (e2 p)
  have hst : s ≠ t := by
    rintro rfl
    exact hij (R.same_solid hs hsi htj e1)
  have hsu : s ≠ u := by
    rintro rfl
    exact hik (R.same_solid hs hsi huk e2)
  obtain ⟨rfl, rfl⟩ := same_corners_opposite h1 h2 (R.separate s t hs ht hst) e1
  obtain ⟨rfl, rfl⟩ := same_corners_opposite h1 h3 (R.separate s u hs hu hsu) e2
  by_cases htu : t = u
  · subst htu
    exact R.same_solid ht htj huk e3
  · obtain ⟨-, hh⟩ := same_corners_opposite h2 h3 (R.separate t u ht hu htu) e3
    simp at hh

end

/-- **C91.**  In a building of rooms made with `box`, with at most walls in common, the polygons found to be transparent are
exactly the walls which also belong to another room of the same zone: those for which another polygon of the same zone has
the same corners.
Missing: other solids than boxes; rooms with planes of walls closer than the tolerance; later calls after an edit
(`C56_cached_result_is_stale`). -/
theorem C91_rooms_partial (ops : List (Op P)) (hl : LinearFrom [] ops) (b : Nat) (B : Obj P)
    (hb : (exec ops)[b]? = some B) (hk : B.kind = .building) (poly : Polys) (room : Nat → Room)
    (R : Rooms (exec ops) b poly room)
    (cache : List (Nat × List Str)) (hcache : cache.lookup b = none) :
    let h := exec ops
    ∃ l, (findTransparent h (geoRels poly) cache b).2 = .ok l ∧
      ∀ s, s ∈ l ↔ ∃ i j z, IsPolygonOf h b i ∧ path h i = s ∧ IsPolygonOf h b j ∧ j ≠ i ∧
        (∀ p, p ∈ (poly i).pts ↔ p ∈ (poly j).pts) ∧
        (∃ o : Obj P, h[z]? = some o ∧ o.kind = .zone) ∧ Within h b z ∧ Within h z i ∧ Within h z j := by
  intro h
  have c : BCtx h b B := BCtx.of_ops hl hb hk
  by_cases hsome : ∃ s, IsSolidOf h b s
  case neg =>
    have hno : ∀ i, ¬ IsPolygonOf h b i := by
      intro i hi
      obtain ⟨s, -, -, hs, -⟩ := R.face c hi
      exact hsome ⟨s, hs⟩
    refine ⟨[], ?_, fun s => ⟨fun hs => by simp at hs, ?_⟩⟩
    · unfold findTransparent
      rw [hcache, C10_graph_of_one_polygon ops hl b B hb hk (geoRels poly) _ fun i j hi => absurd hi (hno i)]
      rfl
    · rintro ⟨i, -, -, hi, -⟩
      exact absurd hi (hno i)
  have htwo : ∃ i j, i ≠ j ∧ IsPolygonOf h b i ∧ IsPolygonOf h b j := by
    obtain ⟨s, hs⟩ := hsome
    obtain ⟨hw, os, hos, hks⟩ := hs
    have hs : IsSolidOf h b s := ⟨hw, os, hos, hks⟩
    obtain ⟨S, hS, -, -, -, hv, -⟩ := C31_box_partial (R.size s hs)
    rw [R.made s hs, Except.ok.injEq] at hS
    rw [← hS, ← leafIds_solidAt] at hv
    have hpoly : ∀ i ∈ leafIds h 2 s, IsPolygonOf h b i := by
      intro i hi
      obtain ⟨h1, h2⟩ := within_of_leaf c.w hos hks hi
      exact ⟨hw.trans h1, h2⟩
    generalize leafIds h 2 s = L at hv hpoly
    have hlen : L.length = 6 := by simpa using congrArg List.length hv
    match L, hlen with
    | i :: j :: L, _ =>
      refine ⟨i, j, ?_, hpoly i (by simp), hpoly j (by simp)⟩
      rintro rfl
      simp only [List.map_cons, List.cons.injEq] at hv
      rw [hv.1] at hv
      norm_num at hv
  obtain ⟨l, h1, h2, -⟩ := C56_find_transparent_partial ops hl b B hb hk (geoRels poly) cache hcache htwo (by
    intro i j j' hi hj hj' a1 a2
    obtain ⟨n1, e1⟩ := (R.adjacent_iff c hi hj).1 a1
    obtain ⟨n2, e2⟩ := (R.adjacent_iff c hi hj').1 a2
    exact R.unique c hi hj hj' n1 n2 e1 e2)
  refine ⟨l, h1, fun s => (h2 s).trans ⟨?_, ?_⟩⟩
  · rintro ⟨i, j, z, hi, hp, hj, ha, hz⟩
    obtain ⟨n1, e1⟩ := (R.adjacent_iff c hi hj).1 ha
    exact ⟨i, j, z, hi, hp, hj, n1.symm, e1, hz⟩
  · rintro ⟨i, j, z, hi, hp, hj, n1, e1, hz⟩
    exact ⟨i, j, z, hi, hp, hj, (R.adjacent_iff c hi hj).2 ⟨n1.symm, e1⟩, hz⟩

/-- **C91.**  The tests used for the graph raise no exception for polygons made by the constructor. -/
theorem C91_no_exception {pts1 pts2 : List (Vec3 ℝ)} {vn1 vn2 : Option (Vec3 ℝ)} {P Q : Poly}
    (h1 : polygonNew pts1 none vn1 = .ok P) (h2 : polygonNew pts2 none vn2 = .ok Q) :
    (∃ a b, Bboxes.boundingBox P.pts = .ok a ∧ Bboxes.boundingBox Q.pts = .ok b) ∧
    (∃ r, facing P Q = .ok r) ∧
    (∃ r, arePolygonsCrossing P.pts P.tri Q.pts Q.tri = .ok r) ∧
    ∃ r, arePolygonsTouching P.pts P.tri Q.pts Q.tri = .ok r := by
  have n1 := built_ne ⟨_, _, h1⟩
  have n2 := built_ne ⟨_, _, h2⟩
  obtain ⟨a, b, ha, hb, -⟩ := Bboxes.C26_overlap_iff_common_point P.pts Q.pts n1 n2
  refine ⟨⟨a, b, ha, hb⟩, ?_, C76_total h1 h2, C77_total h1 h2⟩
  unfold facing arePolygonsFacing
  rw [ha, hb]
  simp only
  repeat' split
  all_goals exact ⟨_, rfl⟩

/-! ### Two rooms side by side -/

/-- Two rooms made with `box` in one zone: polygons 0 to 5 and 13 to 18, walls, the solids 12 and 25, zone 26, building
27. -/
def roomOps : List (Op Nat) :=
  [ .construct .polygon "floor".toList [] none [], .construct .polygon "poly_0".toList [] none [],
    .construct .polygon "poly_1".toList [] none [], .construct .polygon "poly_2".toList [] none [],
    .construct .polygon "poly_3".toList [] none [], .construct .polygon "ceiling".toList [] none [],
    .construct .wall "floor".toList [] none [0], .construct .wall "wall_0".toList [] none [1],
    .construct .wall "wall_1".toList [] none [2], .construct .wall "wall_2".toList [] none [3],
    .construct .wall "wall_3".toList [] none [4], .construct .wall "ceiling".toList [] none [5],
    .construct .solid "r0".toList [] none [6, 7, 8, 9, 10, 11],
    .construct .polygon "floor".toList [] none [], .construct .polygon "poly_0".toList [] none [],
    .construct .polygon "poly_1".toList [] none [], .construct .polygon "poly_2".toList [] none [],
    .construct .polygon "poly_3".toList [] none [], .construct .polygon "ceiling".toList [] none [],
    .construct .wall "floor".toList [] none [13], .construct .wall "wall_0".toList [] none [14],
    .construct .wall "wall_1".toList [] none [15], .construct .wall "wall_2".toList [] none [16],
    .construct .wall "wall_3".toList [] none [17], .construct .wall "ceiling".toList [] none [18],
    .construct .solid "r1".toList [] none [19, 20, 21, 22, 23, 24],
    .construct .zone ['z'] [] none [12, 25], .construct .building ['b'] [] none [26] ]

/-- The walls of a box with their polygons. -/
theorem box_walls {r : Room} (hr : BoxSize (size r).x (size r).y (size r).z r.lo) :
    ∃ P0 P1 P2 P3 P4 P5, box (size r).x (size r).y (size r).z r.lo =
        .ok [⟨"floor".toList, [("floor".toList, P0)]⟩, ⟨"wall_0".toList, [("poly_0".toList, P1)]⟩,
          ⟨"wall_1".toList, [("poly_1".toList, P2)]⟩, ⟨"wall_2".toList, [("poly_2".toList, P3)]⟩,
          ⟨"wall_3".toList, [("poly_3".toList, P4)]⟩, ⟨"ceiling".toList, [("ceiling".toList, P5)]⟩] ∧
      P0.vn = some (dirVec .z false) ∧ P1.vn = some (dirVec .y false) ∧ P2.vn = some (dirVec .x true) ∧
      P3.vn = some (dirVec .y true) ∧ P4.vn = some (dirVec .x false) ∧ P5.vn = some (dirVec .z true) := by
  obtain ⟨S, hS, h1, h2, -, h3, -⟩ := C31_box_partial hr
  rw [hS]
  have hlen : S.length = 6 := by simpa using congrArg List.length h1
  match S, hlen with
  | [⟨n0, q0⟩, ⟨n1, q1⟩, ⟨n2, q2⟩, ⟨n3, q3⟩, ⟨n4, q4⟩, ⟨n5, q5⟩], _ =>
    simp only [List.map_cons, List.map_nil, List.cons.injEq, and_true] at h1 h2
    obtain ⟨rfl, rfl, rfl, rfl, rfl, rfl⟩ := h1
    obtain ⟨e0, e1, e2, e3, e4, e5⟩ := h2
    have one : ∀ {q : List (Str × Poly)} {n : Str}, q.map Prod.fst = [n] → ∃ P, q = [(n, P)] := by
      intro q n hq
      match q, hq with
      | [(m, P)], hq =>
        simp only [List.map_cons, List.map_nil, List.cons.injEq, and_true] at hq
        exact ⟨P, by rw [hq]⟩
    obtain ⟨P0, rfl⟩ := one e0
    obtain ⟨P1, rfl⟩ := one e1
    obtain ⟨P2, rfl⟩ := one e2
    obtain ⟨P3, rfl⟩ := one e3
    obtain ⟨P4, rfl⟩ := one e4
    obtain ⟨P5, rfl⟩ := one e5
    simp only [allPolys, List.flatMap_cons, List.flatMap_nil, List.map_cons, List.map_nil, List.append_nil,
      List.cons_append, List.nil_append, List.cons.injEq, and_true] at h3
    exact ⟨P0, P1, P2, P3, P4, P5, rfl, by simpa [dirVec] using h3⟩

/-- Names of the walls of a solid, with names and identities of their polygons. -/
def shape (h : Heap P) (s : Nat) : List (Str × List (Str × Nat)) :=
  match h[s]? with
  | none => []
  | some o => o.children.map fun kv => (kv.1, match h[kv.2]? with | none => [] | some w => w.children)

theorem solidAt_shape (h : Heap P) (poly : Polys) (s : Nat) :
    solidAt h poly s = (shape h s).map fun w => ⟨w.1, w.2.map fun e => (e.1, poly e.2)⟩ := by
  unfold solidAt shape
  cases h[s]? with
  | none => rfl
  | some o =>
    simp only [List.map_map]
    congr 1
    funext kv
    simp only [Function.comp]
    cases h[kv.2]? <;> rfl

theorem dirVec_inj {a b : Axis} {f g : Bool} (h : dirVec a f = dirVec b g) : a = b ∧ f = g := by
  cases a <;> cases b <;> cases f <;> cases g <;>
    first | exact ⟨rfl, rfl⟩ | norm_num [dirVec] at h

theorem roomOps_linear : LinearFrom [] roomOps := by
  refine ⟨?_, ?_, ?_, ?_, ?_, ?_, ?_, ?_, ?_, ?_, ?_, ?_, ?_, ?_, ?_, ?_, ?_, ?_, ?_, ?_, ?_, ?_, ?_, ?_, ?_, ?_, ?_, ?_,
    trivial⟩ <;> intro x hx <;> apply notElsewhere_of_all <;> revert x <;> decide +kernel

/-- The second room continues the first in the direction of the first axis. -/
structure SideBySide (r t : Room) : Prop where
  size1 : BoxSize (size r).x (size r).y (size r).z r.lo
  size2 : BoxSize (size t).x (size t).y (size t).z t.lo
  meet : r.hi.x = t.lo.x
  lo : r.lo.y = t.lo.y ∧ r.lo.z = t.lo.z
  hi : r.hi.y = t.hi.y ∧ r.hi.z = t.hi.z
  apart : r.ToldApart r ∧ r.ToldApart t ∧ t.ToldApart r ∧ t.ToldApart t

/-- **C91 for two rooms side by side.**  The common wall, and nothing else, is transparent. -/
theorem C91_two_rooms {r t : Room} (hrt : SideBySide r t) :
    ∃ poly, Rooms (exec roomOps) 27 poly (fun s => if s = 12 then r else t) ∧
      ∃ l, (findTransparent (exec roomOps) (geoRels poly) [] 27).2 = .ok l ∧
        ∀ s, s ∈ l ↔ s = "b/z/r0/wall_1/poly_1".toList ∨ s = "b/z/r1/wall_3/poly_3".toList := by
  obtain ⟨P0, P1, P2, P3, P4, P5, hS, v0, v1, v2, v3, v4, v5⟩ := box_walls hrt.size1
  obtain ⟨Q0, Q1, Q2, Q3, Q4, Q5, hT, w0, w1, w2, w3, w4, w5⟩ := box_walls hrt.size2
  obtain ⟨poly, hpoly⟩ : ∃ poly : Polys, poly = fun i => [P0, P1, P2, P3, P4, P5, P0, P0, P0, P0, P0, P0, P0,
    Q0, Q1, Q2, Q3, Q4, Q5].getD i P0 := ⟨_, rfl⟩
  have hB : ∃ B, (exec roomOps)[27]? = some B ∧ B.kind = .building := by decide +kernel
  obtain ⟨B, hb, hk⟩ := hB
  have c : BCtx (exec roomOps) 27 B := BCtx.of_ops roomOps_linear hb hk
  have hsol : ∀ s, IsSolidOf (exec roomOps) 27 s ↔ s = 12 ∨ s = 25 := by
    intro s
    have : IsSolidOf (exec roomOps) 27 s ↔ s ∈ leafIds (exec roomOps) 2 27 := by
      rw [c.mem_leafIds]
      unfold IsSolidOf
      constructor
      · rintro ⟨h1, o, h2, h3⟩; exact ⟨h1, o, h2, by rw [h3]; rfl⟩
      · rintro ⟨h1, o, h2, h3⟩
        exact ⟨h1, o, h2, by cases hkk : o.kind <;> rw [hkk] at h3 <;> simp [Kind.rank] at h3 ⊢⟩
    rw [this, show leafIds (exec roomOps) 2 27 = [12, 25] by decide +kernel]
    simp
  have hm1 : solidAt (exec roomOps) poly 12 = [⟨"floor".toList, [("floor".toList, P0)]⟩,
      ⟨"wall_0".toList, [("poly_0".toList, P1)]⟩, ⟨"wall_1".toList, [("poly_1".toList, P2)]⟩,
      ⟨"wall_2".toList, [("poly_2".toList, P3)]⟩, ⟨"wall_3".toList, [("poly_3".toList, P4)]⟩,
      ⟨"ceiling".toList, [("ceiling".toList, P5)]⟩] := by
    rw [solidAt_shape, show shape (exec roomOps) 12 = [("floor".toList, [("floor".toList, 0)]),
      ("wall_0".toList, [("poly_0".toList, 1)]), ("wall_1".toList, [("poly_1".toList, 2)]),
      ("wall_2".toList, [("poly_2".toList, 3)]), ("wall_3".toList, [("poly_3".toList, 4)]),
      ("ceiling".toList, [("ceiling".toList, 5)])] by decide +kernel, hpoly]
    rfl
  have hm2 : solidAt (exec roomOps) poly 25 = [⟨"floor".toList, [("floor".toList, Q0)]⟩,
      ⟨"wall_0".toList, [("poly_0".toList, Q1)]⟩, ⟨"wall_1".toList, [("poly_1".toList, Q2)]⟩,
      ⟨"wall_2".toList, [("poly_2".toList, Q3)]⟩, ⟨"wall_3".toList, [("poly_3".toList, Q4)]⟩,
      ⟨"ceiling".toList, [("ceiling".toList, Q5)]⟩] := by
    rw [solidAt_shape, show shape (exec roomOps) 25 = [("floor".toList, [("floor".toList, 13)]),
      ("wall_0".toList, [("poly_0".toList, 14)]), ("wall_1".toList, [("poly_1".toList, 15)]),
      ("wall_2".toList, [("poly_2".toList, 16)]), ("wall_3".toList, [("poly_3".toList, 17)]),
      ("ceiling".toList, [("ceiling".toList, 18)])] by decide +kernel, hpoly]
    rfl
  have hne : ¬ ((25 : Nat) = 12) := by decide
  have R : Rooms (exec roomOps) 27 poly (fun s => if s = 12 then r else t) := by
    refine ⟨?_, ?_, ?_, ?_⟩
    · intro s hs
      rcases (hsol s).1 hs with rfl | rfl
      · simpa using hrt.size1
      · simpa using hrt.size2
    · intro s hs
      rcases (hsol s).1 hs with rfl | rfl
      · rw [hm1]; simpa using hS
      · rw [hm2]; simpa using hT
    · intro s u hs hu hsu
      rcases (hsol s).1 hs with rfl | rfl <;> rcases (hsol u).1 hu with rfl | rfl
      · exact absurd rfl hsu
      · exact ⟨.x, .inl (by simpa [coord] using hrt.meet.le)⟩
      · exact ⟨.x, .inr (by simpa [coord] using hrt.meet.le)⟩
      · exact absurd rfl hsu
    · intro s u hs hu
      obtain ⟨a1, a2, a3, a4⟩ := hrt.apart
      rcases (hsol s).1 hs with rfl | rfl <;> rcases (hsol u).1 hu with rfl | rfl <;> simpa
  refine ⟨poly, R, ?_⟩
  obtain ⟨l, h1, h2⟩ := C91_rooms_partial roomOps roomOps_linear 27 B hb hk poly _ R [] rfl
  refine ⟨l, h1, fun s => (h2 s).trans ?_⟩
  have l1 : leafIds (exec roomOps) 2 12 = [0, 1, 2, 3, 4, 5] := by decide +kernel
  have l2 : leafIds (exec roomOps) 2 25 = [13, 14, 15, 16, 17, 18] := by decide +kernel
  have s12 : IsSolidOf (exec roomOps) 27 12 := (hsol 12).2 (.inl rfl)
  have s25 : IsSolidOf (exec roomOps) 27 25 := (hsol 25).2 (.inr rfl)
  -- the common wall
  have f1 : FaceOf r .x true P2 := by
    obtain ⟨a, f, hf⟩ := box_face hrt.size1 hS (P := P2) (by simp [allPolys])
    have := hf.rect.vn
    rw [v2, Option.some.injEq] at this
    obtain ⟨rfl, rfl⟩ := dirVec_inj this
    exact hf
  have f2 : FaceOf t .x false Q4 := by
    obtain ⟨a, f, hf⟩ := box_face hrt.size2 hT (P := Q4) (by simp [allPolys])
    have := hf.rect.vn
    rw [w4, Option.some.injEq] at this
    obtain ⟨rfl, rfl⟩ := dirVec_inj this
    exact hf
  have hsame : SameCorners P2 Q4 := by
    intro p
    rw [f1.mem, f2.mem]
    have e1 : r.side .x true = t.side .x false := hrt.meet
    have e2 : ∀ f, r.side .y f = t.side .y f := by
      intro f; cases f
      exacts [hrt.lo.1, hrt.hi.1]
    have e3 : ∀ f, r.side .z f = t.side .z f := by
      intro f; cases f
      exacts [hrt.lo.2, hrt.hi.2]
    constructor
    · rintro ⟨hc, hx⟩
      refine ⟨fun a => ?_, by rw [hx, e1]⟩
      cases a
      · exact ⟨false, by rw [hx, e1]⟩
      · obtain ⟨f, hf⟩ := hc .y; exact ⟨f, by rw [hf, e2]⟩
      · obtain ⟨f, hf⟩ := hc .z; exact ⟨f, by rw [hf, e3]⟩
    · rintro ⟨hc, hx⟩
      refine ⟨fun a => ?_, by rw [hx, e1]⟩
      cases a
      · exact ⟨true, by rw [hx, e1]⟩
      · obtain ⟨f, hf⟩ := hc .y; exact ⟨f, by rw [hf, e2]⟩
      · obtain ⟨f, hf⟩ := hc .z; exact ⟨f, by rw [hf, e3]⟩
  -- no other pair
  have honly : ∀ {i j a b f g}, i ∈ leafIds (exec roomOps) 2 12 → j ∈ leafIds (exec roomOps) 2 25 →
      FaceOf r a f (poly i) → FaceOf t b g (poly j) → SameCorners (poly i) (poly j) → i = 2 ∧ j = 17 := by
    intro i j a b f g hi hj hfi hfj he
    obtain ⟨rfl, hs, hc⟩ := same_corners hfi hfj he
    have px := f1.pos .x
    have px' := f2.pos .x
    have hax : a = .x := by
      by_contra hax
      have := (hc .x fun e => hax e.symm).1
      have := hrt.meet
      simp only [coord] at *
      linarith
    subst hax
    have hm := hrt.meet
    have hfg : f = true ∧ g = false := by
      cases f <;> cases g <;> simp [Room.side, coord] at hs px px' ⊢ <;> linarith
    obtain ⟨rfl, rfl⟩ := hfg
    have vi := hfi.rect.vn
    have vj := hfj.rect.vn
    rw [l1] at hi
    rw [l2] at hj
    simp only [List.mem_cons, List.not_mem_nil, or_false] at hi hj
    refine ⟨?_, ?_⟩
    · rcases hi with rfl | rfl | rfl | rfl | rfl | rfl <;> simp [hpoly, v0, v1, v2, v3, v4, v5] at vi ⊢ <;>
        exact absurd (dirVec_inj vi) (by simp)
    · rcases hj with rfl | rfl | rfl | rfl | rfl | rfl <;> simp [hpoly, w0, w1, w2, w3, w4, w5] at vj ⊢ <;>
        exact absurd (dirVec_inj vj) (by simp)
  have p2 : path (exec roomOps) 2 = "b/z/r0/wall_1/poly_1".toList := by decide +kernel
  have p17 : path (exec roomOps) 17 = "b/z/r1/wall_3/poly_3".toList := by decide +kernel
  constructor
  · rintro ⟨i, j, z, hi, rfl, hj, hij, he, -⟩
    obtain ⟨u, a, f, hu, hui, hfi⟩ := R.face c hi
    obtain ⟨v, b', g, hv, hvj, hfj⟩ := R.face c hj
    rcases (hsol u).1 hu with rfl | rfl <;> rcases (hsol v).1 hv with rfl | rfl
    · exact absurd (R.same_solid s12 hui hvj he).symm hij
    · obtain ⟨rfl, -⟩ := honly hui hvj (by simpa using hfi) (by simpa using hfj) he
      exact .inl p2
    · obtain ⟨-, rfl⟩ := honly hvj hui (by simpa using hfj) (by simpa using hfi) fun p => (he p).symm
      exact .inr p17
    · exact absurd (R.same_solid s25 hui hvj he).symm hij
  · have i2 : IsPolygonOf (exec roomOps) 27 2 := (isPolygonOf_iff c 2).1 (by decide +kernel)
    have i17 : IsPolygonOf (exec roomOps) 27 17 := (isPolygonOf_iff c 17).1 (by decide +kernel)
    have z26 : ∃ o : Obj Nat, (exec roomOps)[26]? = some o ∧ o.kind = .zone := by decide +kernel
    have wz : Within (exec roomOps) 27 26 :=
      ((chain_iff c.w).2 (show items (exec roomOps) 27 [['z']] = .ok 26 by decide +kernel)).within
    have wi : Within (exec roomOps) 26 2 := ((chain_iff c.w).2 (show items (exec roomOps) 26
      ["r0".toList, "wall_1".toList, "poly_1".toList] = .ok 2 by decide +kernel)).within
    have wj : Within (exec roomOps) 26 17 := ((chain_iff c.w).2 (show items (exec roomOps) 26
      ["r1".toList, "wall_3".toList, "poly_3".toList] = .ok 17 by decide +kernel)).within
    have e : SameCorners (poly 2) (poly 17) := by rw [hpoly]; exact hsame
    rintro (rfl | rfl)
    · exact ⟨2, 17, 26, i2, p2, i17, by decide, e, z26, wz, wi, wj⟩
    · exact ⟨17, 2, 26, i17, p17, i2, by decide, fun p => (e p).symm, z26, wz, wj, wi⟩

/-- Rooms of 4 m x 3 m and 5 m x 3 m, 3 m high. -/
example : SideBySide ⟨⟨0, 0, 0⟩, ⟨4, 3, 3⟩⟩ ⟨⟨4, 0, 0⟩, ⟨9, 3, 3⟩⟩ := by
  refine ⟨⟨by norm_num [size], by norm_num [size], by norm_num [size], 20, by norm_num [size]⟩,
    ⟨by norm_num [size], by norm_num [size], by norm_num [size], 20, by norm_num [size]⟩, rfl, ⟨rfl, rfl⟩, ⟨rfl, rfl⟩,
    ?_, ?_, ?_, ?_⟩ <;> intro a f g <;> cases a <;> cases f <;> cases g <;> norm_num [Room.side, coord]

end B3d.Hier
