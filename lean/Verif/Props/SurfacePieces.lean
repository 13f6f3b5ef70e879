import Verif.Props.DtonInst

/-!
C87, the surface pieces of the two drivers in terms of the particles and of the mesh only: the spreading of a surface
field (`SL_to_Rhs`) and the subtraction of the mean rigid motion (`simple_layer`).
-/

namespace Cafes.Props
open Cafes Cafes.Driver Cafes.Particle Cafes.Geometry

variable {d N : ℕ} {A : Type*}

/-- The points of the surface of the particle `p` held by the process `r`: those whose cell is in its part of the
mesh and in the bounding box; cell and position in the cell. -/
noncomputable def heldPoints (D : Setup d N A) (p : Part d A) (r : Fin d → ℕ) : List (Pos d ℤ × Pos d ℝ) :=
  surfPoints p.surface ((getDMBounds D.L r true).boxInside p.bbox) D.h

/-- The vectors from the centre to these points. -/
noncomputable def heldRadii (D : Setup d N A) (p : Part d A) (r : Fin d → ℕ) : List (Pos d ℝ) :=
  radialPoints p.surface ((getDMBounds D.L r true).boxInside p.bbox) D.h p.center

/-- The number of points of the surface of `p` held by all the processes. -/
noncomputable def heldCount (D : Setup d N A) (p : Part d A) : ℕ := ∑ s ∈ procs D.L, (heldPoints D p s).length

theorem data_surf (D : Setup d N A) (i : ℕ) (hi : i < D.parts.length) (r : Fin d → ℕ) :
    (D.data i r).surf = heldPoints D D.parts[i] r ∧ (D.data i r).radial = heldRadii D D.parts[i] r ∧
    (D.data i r).nb = heldCount D D.parts[i] := by
  have e : D.data i r = setMaterials D.fluid D.L D.h D.scale D.parts[i] (fun _ => PartData.empty) r := by
    unfold Setup.data
    rw [List.getElem?_eq_getElem hi]
  rw [e]
  have := fun s => partMaterials_surf D.fluid (getDMBounds D.L s true) D.h D.scale D.parts[i]
  exact ⟨(this r).1, (this r).2.1, Finset.sum_congr rfl fun s _ => (this s).2.2⟩

theorem sum_zipIdx_map {α M : Type*} [AddCommMonoid M] (l : List α) (f : α × ℕ → M) :
    (l.zipIdx.map f).sum = ∑ k : Fin l.length, f (l[k], k) := by
  have : l.zipIdx.map f = List.ofFn fun k : Fin l.length => f (l[k], k) := by
    apply List.ext_getElem
    · simp
    · intro n h1 h2; simp
  rw [this, List.sum_ofFn]

/-- C87 (spreading): tested against any velocity `u`, the right-hand side made from the surface field `g` is the sum
over the particles and their held points of `g · u` at these points, each point with the weight
`area / number of points` of its particle. -/
theorem C87_spread (D : Setup d N A) (hL : ∀ i, (D.L i).WF) (hh : ∀ i, 0 < D.h i) (hel : IsQ1 D.elem)
    (g : SurfField d) (u : NodeVec d d ℝ) :
    Cafes.dot D.L (D.sl g) u = ∑ r ∈ procs D.L, ∑ i : Fin D.parts.length,
      D.parts[i].area / (heldCount D D.parts[i] : ℝ) * ∑ k : Fin (heldPoints D D.parts[i] r).length,
        ∑ c, g r i k c * interpPoint D.bf D.elem (globalToLocal D.L u) (heldPoints D D.parts[i] r)[k] c := by
  unfold Setup.sl
  rw [C51_adjoint D.L hL D.bf D.elem hel]
  · unfold surfaceProduct
    refine Finset.sum_congr rfl fun r _ => ?_
    rw [List.map_map, sum_zipIdx_map]
    refine Finset.sum_congr rfl fun i _ => ?_
    simp only [Function.comp_apply]
    obtain ⟨e1, -, e3⟩ := data_surf D i i.2 r
    rw [e1, e3, List.map_map, sum_zipIdx_map]
    rfl
  · intro r _ s hs x hx
    obtain ⟨q, hq, rfl⟩ := List.mem_map.1 hs
    obtain ⟨y, hy, rfl⟩ := List.mem_map.1 hx
    have hm := List.mem_zipIdx hq
    have hy' : y.1 ∈ (D.data q.2 r).surf := by
      have := List.mem_zipIdx hy
      rw [this.2.2]
      exact List.getElem_mem _
    have hlt : q.2 < D.parts.length := by omega
    unfold Setup.data at hy'
    rw [List.getElem?_eq_getElem hlt] at hy'
    exact C51_points D.fluid D.L D.h hh D.scale _ r y.1 hy'

theorem sum_flatten_map {α β M : Type*} [AddCommMonoid M] (l : List β) (f : β → List α) (φ : α → M) :
    ((l.map f).flatten.map φ).sum = (l.map fun b => ((f b).map φ).sum).sum := by
  induction l with
  | nil => rfl
  | cons b l ih => simp only [List.map_cons, List.flatten_cons, List.map_append, List.sum_append, List.sum_cons, ih]

/-- C87 (simple layer): on a held point, the field becomes its value minus the mean of the field over all the held
points of the particle, minus the rotation at that point of the mean rotation, which is `Cd_R / number of points` times
the sum of the moments of the field. -/
theorem C87_layer [AddCommGroup A] [Module ℝ A] (D : Setup d N A) (hrs : AllProcs D.L D.rs) (g : SurfField d)
    (r : Fin d → ℕ) (hr : r ∈ procs D.L) (i : Fin D.parts.length) (k : Fin (heldRadii D D.parts[i] r).length) :
    let n : ℝ := heldCount D D.parts[i]
    let mean : Pos d ℝ := n⁻¹ • ∑ r' ∈ procs D.L, ∑ j : Fin (heldRadii D D.parts[i] r').length, g r' i j
    let rot : A := (D.parts[i].cdR / n) • ∑ r' ∈ procs D.L, ∑ j : Fin (heldRadii D D.parts[i] r').length,
      D.S.cross (heldRadii D D.parts[i] r')[j] (g r' i j)
    D.layer g r i k = g r i k - mean - D.S.act rot (heldRadii D D.parts[i] r)[k] := by
  intro n mean rot
  have hidx : D.rs.idxOf r < D.rs.length := List.idxOf_lt_length_iff.2 ((hrs.2 r).2 hr)
  have hget : D.rs[D.rs.idxOf r] = r := List.getElem_idxOf hidx
  have hd : ∀ s, (D.data i s).radial = heldRadii D D.parts[i] s := fun s => (data_surf D i i.2 s).2.1
  have hn : (D.data i r).nb = heldCount D D.parts[i] := (data_surf D i i.2 r).2.2
  have hset : D.rs.toFinset = procs D.L := by
    ext s; rw [List.mem_toFinset]; exact hrs.2 s
  have hk : (k : ℕ) < (heldRadii D D.parts[i] r).length := k.2
  unfold Setup.layer
  rw [List.getElem?_eq_getElem i.2]
  simp only [simpleLayer_eq, hd, hn, sum_flatten_map, List.map_map, sum_zipIdx_map]
  rw [← List.sum_toFinset _ hrs.1, ← List.sum_toFinset _ hrs.1, hset]
  rw [List.getD_eq_getElem?_getD, List.getD_eq_getElem?_getD, List.getElem?_map, List.getElem?_eq_getElem hidx, hget]
  simp only [Option.map_some, Option.getD_some, Function.comp_apply, List.getElem?_map, List.getElem?_zipIdx]
  rw [List.getElem?_eq_getElem hk]
  simp only [Option.map_some, Option.getD_some, zero_add, Function.comp_apply]
  exact (sub_sub _ _ _).symm
/-- The data of `C87_example` meet the hypotheses. -/
example : (∀ i, (exD.L i).WF) ∧ (∀ i, 0 < exD.h i) ∧ IsQ1 exD.elem ∧ AllProcs exD.L exD.rs :=
  ⟨exD_wf, fun i => by fin_cases i <;> exact one_pos, isQ1_2, exD_procs⟩

end Cafes.Props
