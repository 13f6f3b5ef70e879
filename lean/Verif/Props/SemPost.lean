import Verif.Model.SemPost
import Verif.Props.SurfacePieces
import Verif.Props.WeakForm

/-!
C106: what SEM reports after `solve`, the new velocities, forces and torques of the particles.
-/

namespace Cafes.Props
open Cafes Cafes.Driver Cafes.Particle Cafes.Geometry

variable {d N : ℕ} {A : Type*}

/-- The samples of the surface of the particle `p` lie in the mesh and in its bounding box. -/
structure SurfaceIn (L : Fin d → Dir) (h : Pos d ℝ) (p : Part d A) : Prop where
  nonneg : ∀ x ∈ p.surface, ∀ i, 0 ≤ x i
  mesh : ∀ x ∈ p.surface, cell h x ∈ gridElems L
  bbox : ∀ x ∈ p.surface, cell h x ∈ p.bbox.halfOpen

theorem list_sum_at (l : List (Pos d ℝ)) (c : Fin d) : l.sum c = (l.map fun x => x c).sum := by
  induction l with
  | nil => rfl
  | cons x l ih => simp only [List.sum_cons, List.map_cons, Pi.add_apply, ih]

section
variable [AddCommGroup A] [Module ℝ A]

open Classical in
/-- The mean computed on any process, in terms of the samples of the surface. -/
theorem surfaceMean_eq (D : Setup d N A) (hL : GoodMesh D.L) (hh : ∀ i, 0 < D.h i) (hrs : AllProcs D.L D.rs)
    (i : ℕ) (hi : i < D.parts.length) (hs : SurfaceIn D.L D.h D.parts[i]) (u : NodeVec d d ℝ) (r : Fin d → ℕ) :
    D.surfaceMean u r i = (D.parts[i].surface.length : ℝ)⁻¹ • (D.parts[i].surface.map fun x =>
      interpPoint D.bf D.elem (globalToLocal D.L u) (cell D.h x, fun j => x j - node D.h (cell D.h x) j)).sum := by
  have hrad : ∀ s, (D.data i s).radial = heldRadii D D.parts[i] s := fun s => (data_surf D i hi s).2.1
  have hsf : ∀ s, (D.data i s).surf = heldPoints D D.parts[i] s := fun s => (data_surf D i hi s).1
  have hc : ∀ x ∈ D.parts[i].surface, surfIndex D.h x = cell D.h x := fun x hx =>
    funext fun j => surfIndex_of_nonneg D.h x hh j (hs.nonneg x hx j)
  have hdata : ∀ s, (D.data i s) = setMaterials D.fluid D.L D.h D.scale D.parts[i] (fun _ => PartData.empty) s := by
    intro s
    unfold Setup.data
    rw [List.getElem?_eq_getElem hi]
  have hnb : (D.data i r).nb = D.parts[i].surface.length := by
    rw [hdata]
    exact (radial_perm D.fluid D.L hL D.h hh D.scale D.parts[i] D.rs hrs.2 hrs.1 hs.nonneg hs.mesh hs.bbox
      (fun _ => PartData.empty) (fun _ => rfl)).2 r
  unfold Setup.surfaceMean
  rw [List.getElem?_eq_getElem hi]
  simp only [simpleLayer_eq, hnb]
  congr 1
  set φ : Pos d ℝ → Pos d ℝ := fun x =>
    interpPoint D.bf D.elem (globalToLocal D.L u) (cell D.h x, fun j => x j - node D.h (cell D.h x) j) with hφ
  have hone : ∀ s, ((D.data i s).radial.zipIdx.map fun x => (D.interp u s i x.2, x.1)).map Prod.fst =
      (D.parts[i].surface.filter fun x =>
        ((getDMBounds D.L s true).boxInside D.parts[i].bbox).pointInside (surfIndex D.h x)).map φ := by
    intro s
    have e1 : ((D.data i s).radial.zipIdx.map fun x => (D.interp u s i x.2, x.1)).map Prod.fst =
        (D.data i s).surf.map fun pt => interpPoint D.bf D.elem (globalToLocal D.L u) pt := by
      rw [List.map_map]
      apply List.ext_getElem
      · simp [data_aligned]
      · intro n h1 h2
        have hn : n < (D.data i s).surf.length := by simpa using h2
        simp only [List.getElem_map, List.getElem_zipIdx, Function.comp_apply, zero_add]
        unfold Setup.interp
        rw [List.getElem?_eq_getElem hn]
    rw [e1, hsf, heldPoints, surfPoints_eq, List.map_map]
    apply List.map_congr_left
    intro x hx
    simp only [Function.comp_apply, hφ]
    rw [hc x (List.mem_filter.1 hx).1]
  have hflat : ((D.rs.map fun s => (D.data i s).radial.zipIdx.map fun x => (D.interp u s i x.2, x.1)).flatten.map
      Prod.fst) = (D.rs.flatMap fun s => D.parts[i].surface.filter fun x =>
        ((getDMBounds D.L s true).boxInside D.parts[i].bbox).pointInside (surfIndex D.h x)).map φ := by
    rw [List.map_flatten, List.map_map, List.map_flatMap, List.flatMap_def]
    congr 1
    apply List.map_congr_left
    intro s _
    exact hone s
  rw [hflat]
  refine List.Perm.sum_eq (List.Perm.map φ ?_)
  apply perm_split D.rs hrs.1
  intro x hx
  obtain ⟨s, ⟨hr, hqr⟩, hu⟩ := (elems_partition D.L hL).1 _ ((mem_gridElems D.L _).1 (hs.mesh x hx))
  refine ⟨s, (hrs.2 s).2 hr, ?_, ?_⟩
  · rw [Box.pointInside_iff, hc x hx]
    exact (mem_boxInside _ _ _).2 ⟨hqr, hs.bbox x hx⟩
  · intro s' hs' hxs
    rw [Box.pointInside_iff, hc x hx] at hxs
    exact hu s' ⟨(hrs.2 s').1 hs', ((mem_boxInside _ _ _).1 hxs).1⟩

theorem update_loop (v w : Pos d ℝ) : (List.finRange d).foldl (fun v c => Function.update v c (w c)) v = w := by
  have gen : ∀ (l : List (Fin d)) (v : Pos d ℝ), l.foldl (fun v c => Function.update v c (w c)) v =
      fun c => if c ∈ l then w c else v c := by
    intro l
    induction l with
    | nil => intro v; simp
    | cons a l ih =>
      intro v
      rw [List.foldl_cons, ih]
      funext c
      by_cases hl : c ∈ l
      · simp [hl]
      · by_cases hca : c = a
        · subst hca; simp [hl]
        · simp [hl, hca, Function.update_of_ne hca]
  rw [gen]
  funext c
  simp

theorem newVelocities_getElem (D : Setup d N A) (u : NodeVec d d ℝ) (r : Fin d → ℕ) (i : ℕ) (hi : i < D.parts.length) :
    (D.newVelocities u r)[i]? = some { D.parts[i] with velocity := D.surfaceMean u r i } := by
  have e : ∀ p : Part d A × ℕ, ({ p.1 with
      velocity := (List.finRange d).foldl (fun v c => Function.update v c (D.surfaceMean u r p.2 c)) p.1.velocity } :
      Part d A) = { p.1 with velocity := D.surfaceMean u r p.2 } := by
    intro p
    rw [update_loop]
  unfold Setup.newVelocities
  simp only [e]
  rw [List.getElem?_map, List.getElem?_zipIdx, List.getElem?_eq_getElem hi]
  simp

/-- C106 (velocities, 2D): on every process, `get_new_velocities` leaves in each particle the mean, over the samples of
its surface, of the finite element velocity of the fluid at these points; nothing else in the particles changes. -/
theorem C106_velocities2 (D : Setup 2 4 A) (hL : GoodMesh D.L) (hh : ∀ i, 0 < D.h i) (hrs : AllProcs D.L D.rs)
    (hbf : D.bf = fun x => p1Integration2 x D.h) (hel : D.elem = getElement2)
    (hs : ∀ p ∈ D.parts, SurfaceIn D.L D.h p) (u : NodeVec 2 2 ℝ) (r : Fin 2 → ℕ) :
    (D.newVelocities u r).length = D.parts.length ∧
    ∀ i (hi : i < D.parts.length), (D.newVelocities u r)[i]? = some { D.parts[i] with
      velocity := fun c => (D.parts[i].surface.map fun x => field2 D.L D.h u (cell D.h x) c
        (x 0 - cell D.h x 0 * D.h 0) (x 1 - cell D.h x 1 * D.h 1)).sum / D.parts[i].surface.length } := by
  refine ⟨by simp [Setup.newVelocities], fun i hi => ?_⟩
  have e : D.surfaceMean u r i = fun c => (D.parts[i].surface.map fun x => field2 D.L D.h u (cell D.h x) c
        (x 0 - cell D.h x 0 * D.h 0) (x 1 - cell D.h x 1 * D.h 1)).sum / D.parts[i].surface.length := by
    rw [surfaceMean_eq D hL hh hrs i hi (hs _ (List.getElem_mem hi)) u r]
    funext c
    rw [Pi.smul_apply, smul_eq_mul, list_sum_at, List.map_map, div_eq_inv_mul]
    congr 2
    apply List.map_congr_left
    intro x _
    simp only [Function.comp_apply, interpPoint_apply, hbf, hel, globalToLocal, field2, node]
    refine Finset.sum_congr rfl fun k _ => ?_
    rw [(C06_weights2 D.h hh).2.2.2]
  rw [newVelocities_getElem D u r i hi, e]

/-- C106 (velocities, 3D). -/
theorem C106_velocities3 (D : Setup 3 8 A) (hL : GoodMesh D.L) (hh : ∀ i, 0 < D.h i) (hrs : AllProcs D.L D.rs)
    (hbf : D.bf = fun x => p1Integration3 x D.h) (hel : D.elem = getElement3)
    (hs : ∀ p ∈ D.parts, SurfaceIn D.L D.h p) (u : NodeVec 3 3 ℝ) (r : Fin 3 → ℕ) :
    (D.newVelocities u r).length = D.parts.length ∧
    ∀ i (hi : i < D.parts.length), (D.newVelocities u r)[i]? = some { D.parts[i] with
      velocity := fun c => (D.parts[i].surface.map fun x => field3 D.L D.h u (cell D.h x) c
        (x 0 - cell D.h x 0 * D.h 0) (x 1 - cell D.h x 1 * D.h 1) (x 2 - cell D.h x 2 * D.h 2)).sum /
          D.parts[i].surface.length } := by
  refine ⟨by simp [Setup.newVelocities], fun i hi => ?_⟩
  have e : D.surfaceMean u r i = fun c => (D.parts[i].surface.map fun x => field3 D.L D.h u (cell D.h x) c
        (x 0 - cell D.h x 0 * D.h 0) (x 1 - cell D.h x 1 * D.h 1) (x 2 - cell D.h x 2 * D.h 2)).sum /
          D.parts[i].surface.length := by
    rw [surfaceMean_eq D hL hh hrs i hi (hs _ (List.getElem_mem hi)) u r]
    funext c
    rw [Pi.smul_apply, smul_eq_mul, list_sum_at, List.map_map, div_eq_inv_mul]
    congr 2
    apply List.map_congr_left
    intro x _
    simp only [Function.comp_apply, interpPoint_apply, hbf, hel, globalToLocal, field3, node]
    refine Finset.sum_congr rfl fun k _ => ?_
    rw [(C06_weights3 D.h hh).2.2.2]
  rw [newVelocities_getElem D u r i hi, e]

omit [AddCommGroup A] [Module ℝ A] in
theorem list_mean_affine (l : List (Pos d ℝ)) (hl : l ≠ []) (a : ℝ) (b : Pos d ℝ) :
    (l.map fun x => a + ∑ i, b i * x i).sum / l.length = a + ∑ i, b i * ((l.map fun x => x i).sum / l.length) := by
  have hn : (l.length : ℝ) ≠ 0 := by
    rw [Nat.cast_ne_zero]
    exact fun h => hl (List.eq_nil_of_length_eq_zero h)
  have e : (l.map fun x => a + ∑ i, b i * x i).sum = l.length * a + ∑ i, b i * (l.map fun x => x i).sum := by
    clear hl hn
    induction l with
    | nil => simp
    | cons x l ih =>
      simp only [List.map_cons, List.sum_cons, ih, List.length_cons, mul_add, Finset.sum_add_distrib]
      push_cast
      ring
  rw [e, add_div, Finset.sum_div]
  congr 1
  · field_simp
  · refine Finset.sum_congr rfl fun i _ => ?_
    ring

/-- C106 (affine flows, 2D): when the velocity of the fluid is an affine function of the position, each particle gets the
velocity of the fluid at the barycentre of the samples of its surface. -/
theorem C106_affine2 (D : Setup 2 4 A) (hL : GoodMesh D.L) (hper : ∀ i, (D.L i).periodic = false)
    (hh : ∀ i, 0 < D.h i) (hrs : AllProcs D.L D.rs)
    (hbf : D.bf = fun x => p1Integration2 x D.h) (hel : D.elem = getElement2)
    (hs : ∀ p ∈ D.parts, SurfaceIn D.L D.h p) (a : Pos 2 ℝ) (b : Fin 2 → Pos 2 ℝ) (u : NodeVec 2 2 ℝ)
    (hu : ∀ q c, u q c = a c + ∑ i, b c i * (q i * D.h i)) (r : Fin 2 → ℕ) (i : ℕ) (hi : i < D.parts.length)
    (hne : D.parts[i].surface ≠ []) :
    (D.newVelocities u r)[i]? = some { D.parts[i] with
      velocity := fun c => a c + ∑ j, b c j *
        ((D.parts[i].surface.map fun x => x j).sum / D.parts[i].surface.length) } := by
  have e : D.surfaceMean u r i = fun c =>
      a c + ∑ j, b c j * ((D.parts[i].surface.map fun x => x j).sum / D.parts[i].surface.length) := by
    rw [surfaceMean_eq D hL hh hrs i hi (hs _ (List.getElem_mem hi)) u r]
    funext c
    rw [Pi.smul_apply, smul_eq_mul, list_sum_at, List.map_map, ← list_mean_affine _ hne, div_eq_inv_mul]
    congr 2
    apply List.map_congr_left
    intro x _
    rw [Function.comp_apply, hbf, hel]
    exact C73_interp2 D.L hper D.h hh a b u hu _ x c
  rw [newVelocities_getElem D u r i hi, e]

/-- C106 (affine flows, 3D). -/
theorem C106_affine3 (D : Setup 3 8 A) (hL : GoodMesh D.L) (hper : ∀ i, (D.L i).periodic = false)
    (hh : ∀ i, 0 < D.h i) (hrs : AllProcs D.L D.rs)
    (hbf : D.bf = fun x => p1Integration3 x D.h) (hel : D.elem = getElement3)
    (hs : ∀ p ∈ D.parts, SurfaceIn D.L D.h p) (a : Pos 3 ℝ) (b : Fin 3 → Pos 3 ℝ) (u : NodeVec 3 3 ℝ)
    (hu : ∀ q c, u q c = a c + ∑ i, b c i * (q i * D.h i)) (r : Fin 3 → ℕ) (i : ℕ) (hi : i < D.parts.length)
    (hne : D.parts[i].surface ≠ []) :
    (D.newVelocities u r)[i]? = some { D.parts[i] with
      velocity := fun c => a c + ∑ j, b c j *
        ((D.parts[i].surface.map fun x => x j).sum / D.parts[i].surface.length) } := by
  have e : D.surfaceMean u r i = fun c =>
      a c + ∑ j, b c j * ((D.parts[i].surface.map fun x => x j).sum / D.parts[i].surface.length) := by
    rw [surfaceMean_eq D hL hh hrs i hi (hs _ (List.getElem_mem hi)) u r]
    funext c
    rw [Pi.smul_apply, smul_eq_mul, list_sum_at, List.map_map, ← list_mean_affine _ hne, div_eq_inv_mul]
    congr 2
    apply List.map_congr_left
    intro x _
    rw [Function.comp_apply, hbf, hel]
    exact C73_interp3 D.L hper D.h hh a b u hu _ x c
  rw [newVelocities_getElem D u r i hi, e]

/-- C106 (decomposition): the velocities do not depend on the number of processes nor on the way the mesh is
distributed. -/
theorem C106_decomposition (D D' : Setup d N A) (hD : D' = { D with L := D'.L, rs := D'.rs }) (hLL : SameGrid D.L D'.L)
    (hL : GoodMesh D.L) (hL' : GoodMesh D'.L) (hh : ∀ i, 0 < D.h i) (hrs : AllProcs D.L D.rs)
    (hrs' : AllProcs D'.L D'.rs) (hs : ∀ p ∈ D.parts, SurfaceIn D.L D.h p) (u : NodeVec d d ℝ) (r r' : Fin d → ℕ) :
    D.newVelocities u r = D'.newVelocities u r' := by
  obtain ⟨L', rs', h', bc', src', bf', bfg', elem', M', fluid', S', parts', scale', pairs', singScale'⟩ := D'
  obtain ⟨L, rs, h, bc, src, bf, bfg, elem, M, fluid, S, parts, scale, pairs, singScale⟩ := D
  simp only [Setup.mk.injEq, true_and] at hD
  obtain ⟨rfl, rfl, rfl, rfl, rfl, rfl, rfl, rfl, rfl, rfl, rfl, rfl, rfl⟩ := hD
  have hn : ∀ i, (L i).nElem = (L' i).nElem := by
    intro i
    unfold Dir.nElem
    rw [(hLL i).1, (hLL i).2]
  have hs' : ∀ p ∈ parts', SurfaceIn L' h' p := fun p hp => ⟨(hs p hp).nonneg, fun x hx => by
    have := (hs p hp).mesh x hx
    rw [mem_gridElems] at this ⊢
    intro i
    have := this i
    rwa [← hn i], (hs p hp).bbox⟩
  apply List.ext_getElem?
  intro i
  by_cases hi : i < parts'.length
  · rw [newVelocities_getElem _ u r i hi, newVelocities_getElem _ u r' i hi,
      surfaceMean_eq _ hL hh hrs i hi (hs _ (List.getElem_mem hi)) u r,
      surfaceMean_eq _ hL' hh hrs' i hi (hs' _ (List.getElem_mem hi)) u r']
    have hg : globalToLocal L u = globalToLocal L' u := by
      funext q c
      simp only [globalToLocal]
      rw [sameGrid_wrap hLL]
    simp only [hg]
  · rw [List.getElem?_eq_none, List.getElem?_eq_none] <;> simpa [Setup.newVelocities] using hi

/-- C106 (circles): in a fluid that moves with the circle as a rigid body, `V + w x (x - c)`, the circle gets the
velocity `V` of its centre. -/
theorem C106_circle (D : Setup 2 4 ℝ) (hL : GoodMesh D.L) (hper : ∀ i, (D.L i).periodic = false)
    (hh : ∀ i, 0 < D.h i) (hrs : AllProcs D.L D.rs)
    (hbf : D.bf = fun x => p1Integration2 x D.h) (hel : D.elem = getElement2)
    (c : Pos 2 ℝ) (R : ℝ) (hR : 0 < R) (q : Quat ℝ) (hq : PlaneQuat q) (k tol : ℝ) (hk : 0 < k) (ht : 0 < tol)
    (i : ℕ) (hi : i < D.parts.length) (hp : IsCircle c R q k tol D.h D.parts[i])
    (hx0 : ∀ x ∈ D.parts[i].surface, ∀ j, 0 ≤ x j) (hm : ∀ x ∈ D.parts[i].surface, cell D.h x ∈ gridElems D.L)
    (V : Pos 2 ℝ) (w : ℝ) (u : NodeVec 2 2 ℝ)
    (hu : ∀ g, u g = ![V 0 - w * (g 1 * D.h 1 - c 1), V 1 + w * (g 0 * D.h 0 - c 0)]) (r : Fin 2 → ℕ) :
    (D.newVelocities u r)[i]? = some { D.parts[i] with velocity := V } := by
  obtain ⟨etas, he, hsurf⟩ := hp.surface
  have hRR : (![R, R] : Pos 2 ℝ) = fun _ => R := by funext i; fin_cases i <;> rfl
  have hC : circle c R q = mkShape2 c ![R, R] 2 q := by rw [hRR]; rfl
  have hs : ∀ i, 0 < (![R, R] : Pos 2 ℝ) i := by intro i; fin_cases i <;> simpa using hR
  obtain ⟨s1, s2, s3, s4⟩ := C40_surface c ![R, R] hs 2 (by norm_num) q hq k tol hk ht etas he
  have hb : ∀ x ∈ D.parts[i].surface, cell D.h x ∈ D.parts[i].bbox.halfOpen := by
    intro x hx
    rw [hp.shape.bbox]
    apply intBox_cell _ D.h hh
    rw [hC]
    refine (C38_plane c ![R, R] hs 2 (by norm_num) q hq x).2 ?_
    rw [hsurf, hC] at hx
    exact (s4 x hx).le
  have hne : D.parts[i].surface ≠ [] := by
    intro e
    rw [hsurf, hC] at e
    rw [e] at s2
    simp only [List.length_nil] at s2
    omega
  have hbal := (circle_balanced c R hR q hq k tol hk ht etas he).bary
  rw [← hsurf] at hbal
  have hbar : ∀ j, (D.parts[i].surface.map fun x => x j).sum = D.parts[i].surface.length * c j := by
    intro j
    have := congrFun hbal j
    rw [list_sum_at, List.map_map] at this
    have gen : ∀ l : List (Pos 2 ℝ), (l.map ((fun x => x j) ∘ fun x => posSub x c)).sum =
        (l.map fun x => x j).sum - l.length * c j := by
      intro l
      induction l with
      | nil => simp
      | cons x l ih =>
        rw [List.map_cons, List.sum_cons, ih, List.map_cons, List.sum_cons, Function.comp_apply, posSub, compLoop_apply,
          List.length_cons]
        push_cast
        ring
    rw [gen] at this
    exact sub_eq_zero.1 this
  have hn : (D.parts[i].surface.length : ℝ) ≠ 0 := by
    rw [Nat.cast_ne_zero]
    exact fun h => hne (List.eq_nil_of_length_eq_zero h)
  have e : D.surfaceMean u r i = V := by
    rw [surfaceMean_eq D hL hh hrs i hi ⟨hx0, hm, hb⟩ u r]
    funext e
    set a : Pos 2 ℝ := ![V 0 + w * c 1, V 1 - w * c 0] with ha
    set b : Fin 2 → Pos 2 ℝ := ![![0, -w], ![w, 0]] with hbb
    have huv : ∀ g e, u g e = a e + ∑ j, b e j * node D.h g j := by
      intro g e
      rw [hu, Fin.sum_univ_two]
      fin_cases e
      · show V 0 - w * (g 1 * D.h 1 - c 1) = V 0 + w * c 1 + (0 * _ + -w * (g 1 * D.h 1))
        ring
      · show V 1 + w * (g 0 * D.h 0 - c 0) = V 1 - w * c 0 + (w * (g 0 * D.h 0) + 0 * _)
        ring
    have e2 := list_mean_affine D.parts[i].surface hne (a e) (b e)
    rw [Pi.smul_apply, smul_eq_mul, list_sum_at, List.map_map]
    have e3 : (D.parts[i].surface.map ((fun x => x e) ∘ fun x => interpPoint D.bf D.elem (globalToLocal D.L u)
        (cell D.h x, fun j => x j - node D.h (cell D.h x) j))) =
        D.parts[i].surface.map fun x => a e + ∑ j, b e j * x j := by
      apply List.map_congr_left
      intro x _
      rw [Function.comp_apply, hbf, hel]
      exact C73_interp2 D.L hper D.h hh a b u huv _ x e
    rw [e3, ← div_eq_inv_mul, e2]
    simp only [hbar, mul_div_cancel_left₀ _ hn, Fin.sum_univ_two]
    fin_cases e
    · show V 0 + w * c 1 + (0 * c 0 + -w * c 1) = V 0
      ring
    · show V 1 - w * c 0 + (w * c 0 + 0 * c 1) = V 1
      ring
  rw [newVelocities_getElem D u r i hi, e]

/-- C106 (forces and torques): they are `volume / num` times the sum, over the nodes of the mesh inside the particle, of
the control and of its moment with respect to the centre, `num` being the number of nodes inside the particle of the mesh
refined `scale` times. -/
theorem C106_forces (D : Setup d N A) (hf : IsFluid D.fluid) (hL : GoodMesh D.L) (hrs : AllProcs D.L D.rs)
    (hsc : 0 < D.scale) (hd : Disjoint D.parts)
    (henc : ∀ p ∈ D.parts, ∀ k, p.contains (node D.h k) = true → k ∈ p.bbox.halfOpen)
    (hsub : ∀ p ∈ D.parts, SubEncloses D.h D.scale p) (x : (Fin d → ℕ) → ℕ → ℝ) (i : ℕ) (hi : i < D.parts.length) :
    let p := D.parts[i]
    let F := controlField D.fluid D.L D.rs D.h x false D.parts
    let inside := (gridElems D.L).filter fun k => p.contains (node D.h k) = true
    let num : ℕ := ((subGrid D.L D.scale).filter fun k => p.contains (subNode D.h D.scale k) = true).card
    D.newForces x i = (fun c => p.volume / num * ∑ k ∈ inside, F k c,
      (p.volume / num : ℝ) • ∑ k ∈ inside, D.S.cross (fun j => node D.h k j - p.center j) (F k)) := by
  intro p F inside num
  have hdata : ∀ (j : ℕ) (hj : j < D.parts.length) r, (D.data j r).num =
      ((subGrid D.L D.scale).filter fun k => D.parts[j].contains (subNode D.h D.scale k) = true).card := by
    intro j hj r
    unfold Setup.data
    rw [List.getElem?_eq_getElem hj]
    exact C46_count D.fluid D.L hL D.h D.scale hsc D.parts[j] (hsub _ (List.getElem_mem hj)) r
  have hparts : ∀ r, (D.parts.zipIdx.map fun p => (p.1, (D.data p.2 r).num)) = D.parts.map fun p =>
      (p, ((subGrid D.L D.scale).filter fun k => p.contains (subNode D.h D.scale k) = true).card) := by
    intro r
    apply List.ext_getElem
    · simp
    · intro n h1 h2
      have hn : n < D.parts.length := by simpa using h2
      simp only [List.getElem_map, List.getElem_zipIdx, zero_add]
      rw [hdata n hn]
  have hfst : (D.parts.map fun p => (p, ((subGrid D.L D.scale).filter fun k =>
      p.contains (subNode D.h D.scale k) = true).card)).map Prod.fst = D.parts := by
    rw [List.map_map]
    exact List.map_id _
  have := C52_forces_torques D.S hf D.L hL D.h (D.parts.map fun p =>
      (p, ((subGrid D.L D.scale).filter fun k => p.contains (subNode D.h D.scale k) = true).card))
    (by rw [hfst]; exact hd) (by
      intro q hq k hk
      obtain ⟨p', hp', rfl⟩ := List.mem_map.1 hq
      exact henc p' hp' k hk) x D.rs hrs.2 hrs.1 i (by simpa using hi)
  rw [hfst] at this
  simp only [List.getElem_map] at this
  unfold Setup.newForces
  simp only [hparts]
  exact Prod.ext this.1 this.2

end

/-! The problem `exD`: one disk in the uniform flow. -/

theorem exD_good : GoodMesh exD.L := by
  intro i
  refine ⟨exD_wf i, ?_⟩
  fin_cases i <;> decide

theorem exD_surfaceIn : ∀ p ∈ exD.parts, SurfaceIn exD.L exD.h p := by
  intro p hp
  simp only [exD, List.mem_singleton] at hp
  subst hp
  have hc : ∀ x ∈ exPart.surface, ∀ i : Fin 2, cell exD.h x i = if i = 0 then (if x 0 = 3 then 3 else 1) else 2 := by
    intro x hx i
    simp only [exPart, List.mem_cons, List.not_mem_nil, or_false] at hx
    rcases hx with rfl | rfl <;> fin_cases i <;> simp [cell, exD]
  refine ⟨?_, ?_, ?_⟩
  · intro x hx i
    simp only [exPart, List.mem_cons, List.not_mem_nil, or_false] at hx
    rcases hx with rfl | rfl <;> fin_cases i <;> norm_num
  · intro x hx
    rw [mem_gridElems]
    intro i
    rw [hc x hx]
    have e0 : (exD.L 0).nElem = 4 := by decide
    have e1 : (exD.L 1).nElem = 4 := by decide
    fin_cases i
    · show 0 ≤ (if x 0 = 3 then (3 : ℤ) else 1) ∧ (if x 0 = 3 then (3 : ℤ) else 1) < ((exD.L 0).nElem : ℤ)
      rw [e0]
      split_ifs <;> norm_num
    · show (0 : ℤ) ≤ 2 ∧ (2 : ℤ) < ((exD.L 1).nElem : ℤ)
      rw [e1]
      norm_num
  · intro x hx
    apply intBox_cell _ exD.h (by intro i; fin_cases i <;> simp [exD])
    refine (C38_plane ![2, 2] ![1, 1] (by intro i; fin_cases i <;> norm_num) 2 (by norm_num) quat0 (Or.inl rfl) x).2 ?_
    simp only [exPart, List.mem_cons, List.not_mem_nil, or_false] at hx
    have hl : (mkShape2 ![2, 2] ![1, 1] 2 quat0).local2 x = ![x 0 - 2, x 1 - 2] := by
      unfold Shape.local2
      have : isRotate (mkShape2 ![2, 2] ![1, 1] 2 quat0).q = false := isRotate_quat0
      rw [this]
      funext i; fin_cases i <;> simp [mkShape2, posSub, compLoop_apply]
    have h2 : (2 : ℝ) / (mkShape2 ![2, 2] ![1, 1] 2 quat0).n_ = ((2 : ℕ) : ℝ) := by
      show (2 : ℝ) / (2 / 2) = _
      norm_num
    rw [implicit2_eq, hl, h2, Real.rpow_natCast, Real.rpow_natCast]
    rcases hx with rfl | rfl <;> norm_num [mkShape2]

/-- The disk of `exD` gets the velocity of the uniform flow. -/
theorem exD_newVelocity (r : Fin 2 → ℕ) :
    ((exD.newVelocities exFlow.1 r)[0]?).map (fun p => p.velocity) = some ![1, 0] := by
  have h0 : 0 < exD.parts.length := Nat.one_pos
  rw [C106_affine2 exD exD_good (by intro i; fin_cases i <;> rfl) (by intro i; fin_cases i <;> simp [exD]) exD_procs rfl rfl
    exD_surfaceIn ![1, 0] 0 exFlow.1 (by intro q c; simp [exFlow]) r 0 h0 (by simp [exD, exPart])]
  simp only [Option.map_some, Option.some.injEq]
  funext c
  simp

/-- The hypotheses of `C106_forces` hold for it. -/
example : IsFluid exD.fluid ∧ GoodMesh exD.L ∧ AllProcs exD.L exD.rs ∧ 0 < exD.scale ∧ Disjoint exD.parts ∧
    (∀ p ∈ exD.parts, ∀ k, p.contains (node exD.h k) = true → k ∈ p.bbox.halfOpen) ∧
    (∀ p ∈ exD.parts, SubEncloses exD.h exD.scale p) := by
  refine ⟨isFluid2, exD_good, exD_procs, by decide, List.pairwise_singleton _ _, ?_, ?_⟩
  · intro p hp
    simp only [exD, List.mem_singleton] at hp
    subst hp
    exact exPart_encloses.1
  · intro p hp
    simp only [exD, List.mem_singleton] at hp
    subst hp
    exact exPart_encloses.2

end Cafes.Props
