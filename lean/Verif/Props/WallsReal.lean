import Verif.Model.SimGeo
import Verif.Props.Walls
import Verif.Props.DistanceCases

/-!
# C82 with the tests of the code

The functions `is_point_inside_projection` and `distance_point_to_polygon` notice a point of a polygon unless it is
close to an edge of a triangle, the ray is almost parallel to the polygon, or the ray starts right in front of an edge
between two triangles.
-/

namespace B3d.Sim

open Spec Polygon Triangles

/-- The polygon is made by the constructor, its corners lie in the plane `v · x = e` perpendicular to its normal, and
`w` is the unit normal of its first corner. -/
structure FlatPoly (Q : Poly) (v : Vec3 ℝ) (e : ℝ) (w : Vec3 ℝ) : Prop where
  made : ∃ pts vn, polygonNew pts none vn = .ok Q
  normal : Q.vn = some v
  plane : ∀ p ∈ Q.pts, Vec3.dot v p = e
  corner : CornerNormal Q.pts w

/-- `x` lies well inside one of the triangles of the polygon: not too close to the edges of the triangle. -/
def WellIn (Q : Poly) (x : Vec3 ℝ) : Prop := ∃ t ∈ Q.tri, TriangleWith Q.pts t fun a b c => WellInside a b c x

/-- The velocity is almost parallel to the plane with unit normal `w`. -/
def Grazing (w v : Vec3 ℝ) : Prop := |Vec3.dot w v| < 1 / 1000

/-- The point is in front of the polygon, close to an edge of its triangles: the foot of the perpendicular from `p` is in the polygon, but
neither well inside a triangle nor on the outline. -/
def BeforeSeam (Q : Poly) (w p : Vec3 ℝ) : Prop :=
  ∃ k : ℝ, Region Q.pts Q.tri (p - k • w) ∧ ¬ WellIn Q (p - k • w) ∧ ¬ OnOutline Q.pts (p - k • w)

theorem polyNormal_eq {Q : Poly} {w : Vec3 ℝ} (h : CornerNormal Q.pts w) : polyNormal Q = w := by
  obtain ⟨h1, l, o, q, hl, ho, hq, hlen, hcr⟩ := h
  unfold polyNormal Polygon.normal
  simp only [hl, ho, hq]
  generalize Vec3.cross (o - l) (q - l) = c at *
  have h0 : 0 < Vec3.norm c := lt_trans (by positivity) hlen
  have h2 : ¬ isClose (Vec3.norm c) 0 NP_RTOL NP_ATOL := by
    simp only [isClose, sub_zero, abs_zero, mul_zero, add_zero, NP_ATOL]
    rw [abs_of_nonneg (Vec3.norm_nonneg _)]
    norm_num at hlen ⊢
    exact hlen
  rw [if_neg h2]
  simp only [Option.getD_some]
  conv_lhs => rw [hcr]
  rw [Vec3.norm_smul, h1, mul_one, abs_of_pos h0]
  ext <;> simp <;> field_simp

theorem geoOf_normals {Ps : List Poly} (h : ∀ Q ∈ Ps, ∃ w, CornerNormal Q.pts w) (k : Nat) :
    Vec3.normSq ((geoOf Ps).vn k) = 1 := by
  simp only [geoOf]
  cases hk : Ps[k]? with
  | none => simp [Vec3.normSq, Vec3.dot]
  | some Q =>
    obtain ⟨w, hw⟩ := h Q (List.mem_of_getElem? hk)
    simp only []
    rw [polyNormal_eq hw, ← Vec3.norm_sq, hw.1]
    norm_num

/-- What the tests notice. -/
theorem noticed_of {Ps : List Poly} {k : Nat} {Q : Poly} {v w p u x : Vec3 ℝ} {e s : ℝ} (hk : Ps[k]? = some Q)
    (hQ : FlatPoly Q v e w) (hs : 0 ≤ s) (hx : x = p + s • u) (hin : WellIn Q x) (hgr : ¬ Grazing w u)
    (hseam : ¬ BeforeSeam Q w p) : Noticed (geoOf Ps) p u k x := by
  obtain ⟨pts, vn, hnew⟩ := hQ.made
  have hreg : Region Q.pts Q.tri x := by
    obtain ⟨t, ht, a, b, c, ha, hb, hc, hin⟩ := hin
    exact ⟨t, ht, a, b, c, ha, hb, hc, hin.1⟩
  constructor
  · simp only [geoOf, hk, decide_eq_true_eq]
    subst hx
    exact C73_hit_partial hnew hQ.normal hQ.plane hQ.corner (by norm_num) (not_lt.1 hgr) true (fun _ => hs) (.inl hin)
  · obtain ⟨κ, hκ, hvw⟩ := cornerNormal_plane hQ.corner (polygonNew_flat hnew hQ.normal hQ.plane).ne hQ.plane
    have hw2 : Vec3.dot w w = 1 := by
      rw [show Vec3.dot w w = Vec3.normSq w from rfl, ← Vec3.norm_sq, hQ.corner.1]; norm_num
    obtain ⟨k', hk'⟩ : ∃ k' : ℝ, Vec3.dot v (p - k' • w) = e := by
      refine ⟨Vec3.dot w p - e / κ, ?_⟩
      rw [hvw, Vec3.dot_smul_left, Vec3.dot_sub_right, Vec3.dot_smul_right, hw2]
      field_simp
      ring
    obtain ⟨r, hr, hmin⟩ := C72_distance_minimal_partial hnew hQ.normal hQ.plane hQ.corner (x := p) (x' := p - k' • w)
      (k := k') (by abel) hk' (by
        intro hin'
        by_contra hno
        rw [not_or] at hno
        exact hseam ⟨k', hin', hno.1, hno.2⟩)
    have hd : (geoOf Ps).dist p k = r := by
      simp only [geoOf, hk]
      rw [polyNormal_eq hQ.corner, hr]
    rw [hd, Vec3.norm_sub_comm]
    exact hmin x hreg

/-- **C82 with the tests of the code.**  If a ray comes to a point of an opaque polygon between two rows of the buffers,
then this point is close to an edge of one of the triangles of the polygon, or the ray is almost parallel to the polygon, or
the ray was right in front of an edge between two of its triangles.

What is missing: in these cases a ray can pass through the polygon, see `C82_leak`. -/
theorem C82_code_partial {P : Params ℝ} {Ps : List Poly} (hgeo : P.geo = geoOf Ps) (hsc : Scene P (Ps.map Poly.pts))
    (hvox : P.raySpeed * P.timeStep ≤ P.gridStep) (fuel n : Nat) (a : Arrays ℝ)
    (rows : List (Row ℝ)) (hl : a.hits.length = P.absorbers.length)
    (hv : ∀ r ∈ a.rays, Vec3.norm r.2.1 ≤ P.raySpeed) (h : simulationLoop P fuel n a = some rows) (i : Nat)
    (ri rj : Row ℝ) (hi : rows[i]? = some ri) (hj : rows[i + 1]? = some rj) :
    List.Forall₂ (fun p q => q = p ∨ ∀ (k : Nat) (Q : Poly) (v : Vec3 ℝ) (e : ℝ) (w x : Vec3 ℝ), Ps[k]? = some Q →
      (k : Int) ∉ P.trans → FlatPoly Q v e w → OnSegment p q x → Region Q.pts Q.tri x →
      ¬ WellIn Q x ∨ Grazing w ((1 / P.timeStep) • (q - p)) ∨ BeforeSeam Q w p) ri.pos rj.pos := by
  refine (C82_noticed hsc hvox fuel n a rows hl hv h i ri rj hi hj).imp ?_
  rintro p q ⟨-, hpq | hpq⟩
  · exact .inl hpq
  · refine .inr ?_
    intro k Q v e w x hk hop hQ hx hreg
    by_contra hno
    rw [not_or, not_or, not_not] at hno
    obtain ⟨h1, h2, h3⟩ := hno
    refine hpq (fun _ _ => True) k x hx ⟨⟨Q.pts, by rw [List.getElem?_map, hk]; rfl, ?_⟩, hop, trivial⟩ ?_
    · obtain ⟨t, ht, a, b, c, ha, hb, hc, r, s, u, hr, hs, hu, hsum, rfl⟩ := hreg
      exact ⟨a, List.mem_of_getElem? ha, b, List.mem_of_getElem? hb, c, List.mem_of_getElem? hc, r, s, u, hr, hs, hu,
        hsum, rfl⟩
    · obtain ⟨t, h0, -, rfl⟩ := hx
      have e : t • (q - p) = (t * P.timeStep) • (1 / P.timeStep) • (q - p) := by
        have := hsc.timeStep.ne'
        ext <;> simp <;> field_simp
      rw [hgeo]
      exact noticed_of hk hQ (mul_nonneg h0 hsc.timeStep.le) (by rw [← e]) h1 h2 h3

/-- **C82, how a ray can leave a room.**  Let flat opaque polygons close a room.  If the position of a ray is in the
room in one row of the buffers and outside in the next one, then on the way it has passed through an opaque polygon, at a
point close to an edge of a triangle, or almost parallel to the polygon, or starting right in front of an edge between two
triangles. -/
theorem C82_exit_partial {P : Params ℝ} {Ps : List Poly} (hgeo : P.geo = geoOf Ps) (hsc : Scene P (Ps.map Poly.pts))
    (hvox : P.raySpeed * P.timeStep ≤ P.gridStep) (hflat : ∀ Q ∈ Ps, ∃ v e w, FlatPoly Q v e w) (room : Vec3 ℝ → Prop)
    (hroom : Closes room fun k x => (k : Int) ∉ P.trans ∧ ∃ Q, Ps[k]? = some Q ∧ Region Q.pts Q.tri x)
    (fuel n : Nat) (a : Arrays ℝ)
    (rows : List (Row ℝ)) (hl : a.hits.length = P.absorbers.length)
    (hv : ∀ r ∈ a.rays, Vec3.norm r.2.1 ≤ P.raySpeed) (h : simulationLoop P fuel n a = some rows) (i : Nat)
    (ri rj : Row ℝ) (hi : rows[i]? = some ri) (hj : rows[i + 1]? = some rj) :
    List.Forall₂ (fun p q => room p → ¬ room q → ∃ (k : Nat) (Q : Poly) (w x : Vec3 ℝ), Ps[k]? = some Q ∧
      (k : Int) ∉ P.trans ∧ CornerNormal Q.pts w ∧ OnSegment p q x ∧ Region Q.pts Q.tri x ∧
      (¬ WellIn Q x ∨ Grazing w ((1 / P.timeStep) • (q - p)) ∨ BeforeSeam Q w p)) ri.pos rj.pos := by
  refine (C82_code_partial hgeo hsc hvox fuel n a rows hl hv h i ri rj hi hj).imp ?_
  rintro p q hpq hp hq
  rcases hpq with rfl | hpq
  · exact absurd hp hq
  · obtain ⟨x, k, hx, hop, Q, hk, hreg⟩ := hroom p q hp hq
    obtain ⟨v, e, w, hQ⟩ := hflat Q (List.mem_of_getElem? hk)
    exact ⟨k, Q, w, x, hk, hop, hQ.corner, hx, hreg, hpq k Q v e w x hk hop hQ hx hreg⟩

end B3d.Sim
