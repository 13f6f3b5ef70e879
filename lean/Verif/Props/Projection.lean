import Verif.Props.Spread
import Verif.Props.Surface
import Verif.Props.Forces

/-!
Property theorems for the projection of the fluid velocity on the particles (`projection`, used by SEM): C74.
-/

namespace Cafes.Particle
open Cafes Cafes.Geometry

variable {d N : ℕ} {A : Type*}

/-- The velocity interpolated at the point number `q` of the grid refined `m` times: from the nodes of its
cell `q / m`, with the weights of its position in the cell. -/
noncomputable def subInterp (L : Fin d → Dir) (bf : Pos d ℝ → Fin N → ℝ) (elem : Pos d ℤ → Fin N → Pos d ℤ)
    (x : NodeVec d d ℝ) (h : Pos d ℝ) (m : ℕ) (q : Pos d ℤ) : Pos d ℝ :=
  interpPoint bf elem (globalToLocal L x) (fun i => q i / (m : ℤ), fun i => (q i % (m : ℤ) : ℤ) * (h i / m))

/-- The points of the refined grid that lie in the particle. -/
noncomputable def inside (L : Fin d → Dir) (h : Pos d ℝ) (m : ℕ) (p : Part d A) : Finset (Pos d ℤ) :=
  (subGrid L m).filter fun q => p.contains (subNode h m q) = true

theorem split_sub (m : ℕ) (hm : 0 < m) (pos ps : Pos d ℤ) (hps : ps ∈ offs d m) :
    (fun i => (pos i * m + ps i) / (m : ℤ)) = pos ∧ (fun i => (pos i * m + ps i) % (m : ℤ)) = ps := by
  have hm' : (0 : ℤ) < m := by exact_mod_cast hm
  simp only [offs, Fintype.mem_piFinset, Finset.mem_Ico] at hps
  constructor
  · funext i
    rw [mul_comm, Int.mul_add_ediv_left _ _ hm'.ne', Int.ediv_eq_zero_of_lt (hps i).1 (hps i).2, add_zero]
  · funext i
    rw [add_comm, Int.add_mul_emod_self_right, Int.emod_eq_of_lt (hps i).1 (hps i).2]

theorem foldl_sum2 {α M M' : Type*} [AddCommMonoid M] [AddCommMonoid M'] (f : α → M) (g : α → M') (l : List α)
    (s : M × M') :
    l.foldl (fun s x => (s.1 + f x, s.2 + g x)) s = (s.1 + (l.map f).sum, s.2 + (l.map g).sum) := by
  induction l generalizing s with
  | nil => simp
  | cons a l ih => simp [ih, add_assoc]

variable [AddCommGroup A] [Module ℝ A]

open Classical in
theorem projectLoop_eq (S : Spin d A) (L : Fin d → Dir) (bf : Pos d ℝ → Fin N → ℝ)
    (elem : Pos d ℤ → Fin N → Pos d ℤ) (x : NodeVec d d ℝ) (contains : Pos d ℝ → Bool) (center h : Pos d ℝ)
    (m : ℕ) (hm : 0 < m) (b : Box d ℤ) (s : Pos d ℝ × A) :
    projectLoop S bf elem (globalToLocal L x) contains center h m b s =
      (s.1 + (b.visited.map fun pos => ∑ ps ∈ offs d m,
          if contains (subNode h m fun i => pos i * m + ps i) = true then
            subInterp L bf elem x h m (fun i => pos i * m + ps i) else 0).sum,
       s.2 + (b.visited.map fun pos => ∑ ps ∈ offs d m,
          if contains (subNode h m fun i => pos i * m + ps i) = true then
            S.cross (fun i => subNode h m (fun i => pos i * m + ps i) i - center i)
              (subInterp L bf elem x h m (fun i => pos i * m + ps i)) else 0).sum) := by
  unfold projectLoop
  rw [iterate_eq_foldl]
  have inner : ∀ (pos : Pos d ℤ) (s : Pos d ℝ × A),
      iterate (⟨fun _ => 0, fun _ => (m : ℤ)⟩ : Box d ℤ) (fun ps s =>
        let corner := posMul (fun i => (ps i : ℝ)) fun i => h i / m
        let pts := posAdd (posMul (fun i => (pos i : ℝ)) h) corner
        if contains pts then
          let tmp := interpPoint bf elem (globalToLocal L x) (pos, corner)
          let r : Pos d ℝ := fun i => pts i - center i
          (vecAddVec s.1 tmp, s.2 + S.cross r tmp)
        else s) s =
      (s.1 + ∑ ps ∈ offs d m, (if contains (subNode h m fun i => pos i * m + ps i) = true then
            subInterp L bf elem x h m (fun i => pos i * m + ps i) else 0),
       s.2 + ∑ ps ∈ offs d m, (if contains (subNode h m fun i => pos i * m + ps i) = true then
            S.cross (fun i => subNode h m (fun i => pos i * m + ps i) i - center i)
              (subInterp L bf elem x h m (fun i => pos i * m + ps i)) else 0)) := by
    intro pos s
    rw [iterate_eq_foldl, ← visited_offs, List.sum_toFinset _ (Box.visited_nodup _),
      List.sum_toFinset _ (Box.visited_nodup _), ← foldl_sum2]
    apply List.foldl_ext
    intro s ps hps
    have hps' : ps ∈ offs d m := by rw [← visited_offs, List.mem_toFinset]; exact hps
    obtain ⟨e1, e2⟩ := split_sub m hm pos ps hps'
    simp only [subPoint_eq h m hm]
    by_cases hc : contains (subNode h m fun i => pos i * m + ps i) = true
    · rw [if_pos hc, if_pos hc, if_pos hc]
      have e3 : subInterp L bf elem x h m (fun i => pos i * m + ps i) =
          interpPoint bf elem (globalToLocal L x) (pos, posMul (fun i => (ps i : ℝ)) fun i => h i / m) := by
        unfold subInterp
        rw [e1]
        congr 2
        funext i
        have := congrFun e2 i
        rw [this]
        simp [posMul, compLoop_apply]
      rw [e3]
      ext i
      · simp [vecAddVec, compLoop_apply]
      · rfl
    · rw [if_neg hc, if_neg hc, if_neg hc, add_zero, add_zero]
  simp only [inner]
  rw [foldl_sum2]

omit [AddCommGroup A] [Module ℝ A] in
open Classical in
/-- Sum over the sub-grid points of all the processes. -/
theorem sum_sub {M : Type*} [AddCommMonoid M] (L : Fin d → Dir) (hL : GoodMesh L) (h : Pos d ℝ) (m : ℕ)
    (hm : 0 < m) (p : Part d A) (henc : SubEncloses h m p) (F : Pos d ℤ → M) :
    ∑ r ∈ procs L, (((getDMBounds L r true).boxInside p.bbox).visited.map fun pos => ∑ ps ∈ offs d m,
        if p.contains (subNode h m fun i => pos i * m + ps i) = true then F fun i => pos i * m + ps i
        else 0).sum = ∑ q ∈ inside L h m p, F q := by
  set f : Pos d ℤ → M := fun pos =>
    ∑ ps ∈ offs d m, if p.contains (subNode h m fun i => pos i * m + ps i) = true then F fun i => pos i * m + ps i
        else 0 with hfdef
  have e : ∀ r ∈ procs L, (((getDMBounds L r true).boxInside p.bbox).visited.map f).sum =
      ((getDMBounds L r true).visited.map f).sum := by
    intro r _
    rw [← List.sum_toFinset _ (Box.visited_nodup _), ← List.sum_toFinset _ (Box.visited_nodup _)]
    apply Finset.sum_subset
    · intro q hq
      rw [List.mem_toFinset, Box.mem_visited] at hq ⊢
      exact ((mem_boxInside _ _ q).1 hq).1
    · intro q hq hn
      rw [List.mem_toFinset, Box.mem_visited] at hq hn
      apply Finset.sum_eq_zero
      intro ps hps
      rw [if_neg]
      intro hc
      apply hn
      refine (mem_boxInside _ _ q).2 ⟨hq, ?_⟩
      have := henc _ hc
      rwa [(split_sub m hm q ps hps).1] at this
  rw [Finset.sum_congr rfl e, sum_procs_visited _ _ _ (elems_partition L hL).1 (elems_partition L hL).2,
    ← List.sum_toFinset _ (Box.visited_nodup _), visited_globalElems, hfdef,
    sum_cells L m hm fun q => if p.contains (subNode h m q) = true then F q else 0, inside, Finset.sum_filter]

/-- C74 (formula): the mean velocity and the mean rotation given by `projection` are the sums, over the
points of the refined grid lying in the particle, whatever the processes, of the interpolated velocity and of
its moment about the centre, divided by `num`. -/
theorem C74_projection (S : Spin d A) (L : Fin d → Dir) (hL : GoodMesh L) (bf : Pos d ℝ → Fin N → ℝ)
    (elem : Pos d ℤ → Fin N → Pos d ℤ) (x : NodeVec d d ℝ) (p : Part d A) (h : Pos d ℝ) (m num : ℕ)
    (hm : 0 < m) (henc : SubEncloses h m p) :
    projection S L bf elem x p h m num =
      ((num : ℝ)⁻¹ • ∑ q ∈ inside L h m p, subInterp L bf elem x h m q,
       (num : ℝ)⁻¹ • ∑ q ∈ inside L h m p,
         S.cross (fun i => subNode h m q i - p.center i) (subInterp L bf elem x h m q)) := by
  classical
  have hs : ∀ r, (if (getDMBounds L r true).intersect p.bbox then
      projectLoop S bf elem (globalToLocal L x) p.contains p.center h m
        ((getDMBounds L r true).boxInside p.bbox) (fun _ => 0, 0)
      else ((fun _ => 0, 0) : Pos d ℝ × A)) =
      projectLoop S bf elem (globalToLocal L x) p.contains p.center h m
        ((getDMBounds L r true).boxInside p.bbox) (fun _ => 0, 0) := by
    intro r
    split_ifs with hi
    · rfl
    · have : ((getDMBounds L r true).boxInside p.bbox).visited = [] := by
        rw [List.eq_nil_iff_forall_not_mem]
        intro q hq
        rw [Box.mem_visited] at hq
        have := (mem_boxInside _ p.bbox q).1 hq
        exact absurd (Cafes.Props.C30_never_skips _ _ _ this.1 this.2) (by simpa using hi)
      unfold projectLoop
      rw [iterate_eq_foldl, this]
      rfl
  unfold projection
  simp only [hs]
  simp only [projectLoop_eq S L bf elem x p.contains p.center h m hm]
  have hz : (fun _ => (0 : ℝ) : Pos d ℝ) = 0 := rfl
  have hd : ∀ (v : Pos d ℝ), vecDivScal v (num : ℝ) = (num : ℝ)⁻¹ • v := by
    intro v
    funext i
    simp [vecDivScal, compLoop_apply, div_eq_inv_mul]
  simp only [hz, zero_add, hd, ← Finset.smul_sum]
  rw [sum_sub L hL h m hm p henc (fun q => subInterp L bf elem x h m q),
    sum_sub L hL h m hm p henc (fun q => S.cross (fun i => subNode h m q i - p.center i)
      (subInterp L bf elem x h m q))]

/-- `num` as counted by `set_materials` on a fresh object. -/
noncomputable def countOf (fluid : (Pos d ℝ → Bool) → Box d ℤ → Pos d ℝ → List (Pos d ℤ)) (L : Fin d → Dir)
    (h : Pos d ℝ) (m : ℕ) (p : Part d A) : ℕ :=
  (setMaterials fluid L h m p (fun _ => PartData.empty) fun _ => 0).num

omit [AddCommGroup A] [Module ℝ A] in
theorem countOf_eq (fluid : (Pos d ℝ → Bool) → Box d ℤ → Pos d ℝ → List (Pos d ℤ)) (L : Fin d → Dir)
    (hL : GoodMesh L) (h : Pos d ℝ) (m : ℕ) (hm : 0 < m) (p : Part d A) (henc : SubEncloses h m p) :
    countOf fluid L h m p = (inside L h m p).card := by
  have := sum_num fluid L hL h m hm p henc fun _ => PartData.empty
  simp only [PartData.empty, Finset.sum_const_zero, zero_add] at this
  exact this

/-- C74 (translation): on a particle holding at least one point of the refined grid, the mean velocity of a
uniform flow is the velocity of the flow, with the `num` of `set_materials`. -/
theorem C74_uniform (S : Spin d A) (fluid : (Pos d ℝ → Bool) → Box d ℤ → Pos d ℝ → List (Pos d ℤ))
    (L : Fin d → Dir) (hL : GoodMesh L) (bf : Pos d ℝ → Fin N → ℝ) (hbf : ∀ x, ∑ j, bf x j = 1)
    (elem : Pos d ℤ → Fin N → Pos d ℤ) (V : Pos d ℝ) (p : Part d A) (h : Pos d ℝ) (m : ℕ)
    (hm : 0 < m) (henc : SubEncloses h m p) (hne : (inside L h m p).Nonempty) :
    (projection S L bf elem (fun _ => V) p h m (countOf fluid L h m p)).1 = V := by
  rw [C74_projection S L hL bf elem _ p h m _ hm henc, countOf_eq fluid L hL h m hm p henc]
  have : ∀ q, subInterp L bf elem (fun _ => V) h m q = V := by
    intro q
    funext c
    rw [subInterp, interpPoint_apply]
    simp only [globalToLocal]
    rw [← Finset.mul_sum, hbf, mul_one]
  simp only [this, Finset.sum_const]
  have hn : ((inside L h m p).card : ℝ) ≠ 0 := by
    exact_mod_cast (Finset.card_pos.2 hne).ne'
  rw [← Nat.cast_smul_eq_nsmul ℝ, smul_smul, inv_mul_cancel₀ hn, one_smul]

/-- The barycentre of the points of the refined grid lying in the particle. -/
noncomputable def barycentre (L : Fin d → Dir) (h : Pos d ℝ) (m : ℕ) (p : Part d A) : Pos d ℝ :=
  ((inside L h m p).card : ℝ)⁻¹ • ∑ q ∈ inside L h m p, subNode h m q

omit [AddCommGroup A] [Module ℝ A] in
theorem subNode_split (h : Pos d ℝ) (m : ℕ) (hm : 0 < m) (q : Pos d ℤ) :
    (fun i => ((q i % (m : ℤ) : ℤ) : ℝ) * (h i / m)) =
      fun i => subNode h m q i - node h (fun i => q i / (m : ℤ)) i := by
  funext i
  have hm' : (m : ℝ) ≠ 0 := by positivity
  have e := Int.ediv_mul_add_emod (q i) (m : ℤ)
  have e' : ((q i / (m : ℤ) : ℤ) : ℝ) * m + ((q i % (m : ℤ) : ℤ) : ℝ) = q i := by exact_mod_cast e
  simp only [subNode, node]
  field_simp
  linear_combination h i * e'

/-- Means of affine fields are values at the barycentre: the common part of the two dimensions. -/
theorem projection_affine (S : Spin d A) (fluid : (Pos d ℝ → Bool) → Box d ℤ → Pos d ℝ → List (Pos d ℤ))
    (L : Fin d → Dir) (hL : GoodMesh L) (bf : Pos d ℝ → Fin N → ℝ) (elem : Pos d ℤ → Fin N → Pos d ℤ)
    (a : Pos d ℝ) (b : Fin d → Pos d ℝ) (x : NodeVec d d ℝ) (p : Part d A) (h : Pos d ℝ) (m : ℕ)
    (hm : 0 < m) (henc : SubEncloses h m p) (hne : (inside L h m p).Nonempty)
    (hint : ∀ q c, subInterp L bf elem x h m q c = a c + ∑ i, b c i * subNode h m q i) (c : Fin d) :
    (projection S L bf elem x p h m (countOf fluid L h m p)).1 c =
      a c + ∑ i, b c i * barycentre L h m p i := by
  rw [C74_projection S L hL bf elem _ p h m _ hm henc, countOf_eq fluid L hL h m hm p henc]
  have hn : ((inside L h m p).card : ℝ) ≠ 0 := by
    exact_mod_cast (Finset.card_pos.2 hne).ne'
  simp only [barycentre, Pi.smul_apply, smul_eq_mul, Finset.sum_apply, hint, Finset.sum_add_distrib,
    Finset.sum_const, nsmul_eq_mul]
  rw [Finset.sum_comm]
  simp only [← Finset.mul_sum]
  rw [mul_add, ← mul_assoc, inv_mul_cancel₀ hn, one_mul, Finset.mul_sum]
  congr 1
  refine Finset.sum_congr rfl fun i _ => ?_
  ring

/-- C74 (affine flows, 2D; rigid motions are affine): on a mesh without periodic direction, the mean velocity
of an affine flow is its value at the barycentre of the points of the refined grid lying in the particle. -/
theorem C74_affine2 {A : Type*} [AddCommGroup A] [Module ℝ A] (S : Spin 2 A)
    (fluid : (Pos 2 ℝ → Bool) → Box 2 ℤ → Pos 2 ℝ → List (Pos 2 ℤ))
    (L : Fin 2 → Dir) (hL : GoodMesh L) (hper : ∀ i, (L i).periodic = false) (h : Pos 2 ℝ) (hh : ∀ i, 0 < h i)
    (a : Pos 2 ℝ) (b : Fin 2 → Pos 2 ℝ) (x : NodeVec 2 2 ℝ)
    (hx : ∀ q c, x q c = a c + ∑ i, b c i * node h q i) (p : Part 2 A) (m : ℕ)
    (hm : 0 < m) (henc : SubEncloses h m p) (hne : (inside L h m p).Nonempty) (c : Fin 2) :
    (projection S L (fun y => p1Integration2 y h) getElement2 x p h m (countOf fluid L h m p)).1 c =
      a c + ∑ i, b c i * barycentre L h m p i := by
  refine projection_affine S fluid L hL _ _ a b x p h m hm henc hne (fun q c => ?_) c
  unfold subInterp
  rw [subNode_split h m hm]
  exact C73_interp2 L hper h hh a b x hx _ _ c

/-- C74 (affine flows, 3D). -/
theorem C74_affine3 {A : Type*} [AddCommGroup A] [Module ℝ A] (S : Spin 3 A)
    (fluid : (Pos 3 ℝ → Bool) → Box 3 ℤ → Pos 3 ℝ → List (Pos 3 ℤ))
    (L : Fin 3 → Dir) (hL : GoodMesh L) (hper : ∀ i, (L i).periodic = false) (h : Pos 3 ℝ) (hh : ∀ i, 0 < h i)
    (a : Pos 3 ℝ) (b : Fin 3 → Pos 3 ℝ) (x : NodeVec 3 3 ℝ)
    (hx : ∀ q c, x q c = a c + ∑ i, b c i * node h q i) (p : Part 3 A) (m : ℕ)
    (hm : 0 < m) (henc : SubEncloses h m p) (hne : (inside L h m p).Nonempty) (c : Fin 3) :
    (projection S L (fun y => p1Integration3 y h) getElement3 x p h m (countOf fluid L h m p)).1 c =
      a c + ∑ i, b c i * barycentre L h m p i := by
  refine projection_affine S fluid L hL _ _ a b x p h m hm henc hne (fun q c => ?_) c
  unfold subInterp
  rw [subNode_split h m hm]
  exact C73_interp3 L hper h hh a b x hx _ _ c

/-- The disk of the examples meets the hypotheses of C74. -/
example : GoodMesh (![Props.exDir, Props.exDir] : Fin 2 → Dir) ∧ SubEncloses ![1, 1] 4 exPart ∧
    (inside (![Props.exDir, Props.exDir] : Fin 2 → Dir) ![1, 1] 4 exPart).Nonempty := by
  refine ⟨exMesh, exPart_encloses.2, ⟨![8, 8], ?_⟩⟩
  rw [inside, Finset.mem_filter, exPart_contains]
  exact ⟨by decide +kernel, by norm_num [subNode]⟩

end Cafes.Particle
