/-
Property theorems for particle.hpp: C42-C46.
-/
import Verif.Model.Particle
import Verif.Spec.Particle
import Verif.Lemmas.Iterate
import Verif.Lemmas.MeshSum
import Verif.Lemmas.OperatorForm
import Verif.Props.Boxes
import Verif.Props.Mesh
import Verif.Props.Sampling

namespace Cafes.Particle
open Cafes Cafes.Geometry Cafes.Props
variable {d : ℕ} {A : Type*}

/-! ### C42: nodes inside a particle -/

theorem toSize_of_nonneg {x : ℤ} (h0 : 0 ≤ x) (h1 : x < 2 ^ 64) : toSize x = x.toNat := by
  unfold toSize
  rw [Int.emod_eq_of_lt h0 h1]

theorem coordLoop_eq (h : ℝ) (hi lo : ℤ) (h0 : 0 ≤ lo) (h1 : 0 ≤ hi) :
    coordLoop h hi.toNat lo.toNat (lo * h) = (forRange lo hi).map fun k : ℤ => (k.toNat, (k : ℝ) * h) := by
  fun_induction forRange lo hi with
  | case1 lo hlt ih =>
    rw [coordLoop, if_pos (by omega), List.map_cons]
    have e1 : lo.toNat + 1 = (lo + 1).toNat := by omega
    have e2 : (lo : ℝ) * h + h = ((lo + 1 : ℤ) : ℝ) * h := by push_cast; ring
    rw [e1, e2, ih (by omega)]
  | case2 lo hlt =>
    rw [coordLoop, if_neg (by omega), List.map_nil]

theorem dirLoop_eq (b : Box d ℤ) (h : Pos d ℝ) (i : Fin d) (h0 : 0 ≤ b.bl i) (h1 : 0 ≤ b.ur i)
    (h2 : b.bl i < 2 ^ 64) (h3 : b.ur i < 2 ^ 64) :
    dirLoop b h i = (forRange (b.bl i) (b.ur i)).map fun k : ℤ => (k.toNat, (k : ℝ) * h i) := by
  unfold dirLoop
  rw [toSize_of_nonneg h1 h3, toSize_of_nonneg h0 h2, coordLoop_eq _ _ _ h0 h1]

theorem foldl_if_append {α β : Type*} (l : List α) (c : α → Bool) (g : α → β) (acc : List β) :
    l.foldl (fun that x => if c x then that ++ [g x] else that) acc = acc ++ (l.filter c).map g := by
  induction l generalizing acc with
  | nil => simp
  | cons a l ih =>
    rw [List.foldl_cons, ih]
    cases h : c a <;> simp [h]

theorem foldl_append_flatMap {α β : Type*} (l : List α) (g : α → List β) (acc : List β) :
    l.foldl (fun that x => that ++ g x) acc = acc ++ l.flatMap g := by
  induction l generalizing acc with
  | nil => simp
  | cons a l ih => rw [List.foldl_cons, ih]; simp

theorem flatMap_one {α β : Type*} (l : List α) (g : α → β) : l.flatMap (fun x => [g x]) = l.map g := by
  induction l with
  | nil => rfl
  | cons a l ih => rw [List.flatMap_cons, ih]; rfl

theorem visited2 (b : Box 2 ℤ) : b.visited =
    (forRange (b.bl 1) (b.ur 1)).flatMap fun y => (forRange (b.bl 0) (b.ur 0)).map fun x => ![x, y] := by
  rw [Box.visited_eq]
  simp only [ptsFrom]
  congr 1
  funext y
  rw [flatMap_one]
  congr 1
  funext x i
  fin_cases i <;> rfl

theorem visited3 (b : Box 3 ℤ) : b.visited =
    (forRange (b.bl 2) (b.ur 2)).flatMap fun z => (forRange (b.bl 1) (b.ur 1)).flatMap fun y =>
      (forRange (b.bl 0) (b.ur 0)).map fun x => ![x, y, z] := by
  rw [Box.visited_eq]
  simp only [ptsFrom]
  congr 1
  funext z
  congr 1
  funext y
  rw [flatMap_one]
  congr 1
  funext x i
  fin_cases i <;> rfl

/-- A box of non negative indices that fit in a machine integer. -/
def NatBox (b : Box d ℤ) : Prop := ∀ i, 0 ≤ b.bl i ∧ 0 ≤ b.ur i ∧ b.bl i < 2 ^ 63 ∧ b.ur i < 2 ^ 63

theorem dirLoop_nat (b : Box d ℤ) (hb : NatBox b) (h : Pos d ℝ) (i : Fin d) :
    dirLoop b h i = (forRange (b.bl i) (b.ur i)).map fun k : ℤ => (k.toNat, (k : ℝ) * h i) :=
  dirLoop_eq b h i (hb i).1 (hb i).2.1 ((hb i).2.2.1.trans (by norm_num))
    ((hb i).2.2.2.trans (by norm_num))

theorem toNat_of_mem {b : Box d ℤ} (hb : NatBox b) {i : Fin d} {k : ℤ}
    (hk : k ∈ forRange (b.bl i) (b.ur i)) : ((k.toNat : ℕ) : ℤ) = k := by
  rw [mem_forRange] at hk
  have := (hb i).1
  omega

theorem fluidPoints2_eq (c : Pos 2 ℝ → Bool) (b : Box 2 ℤ) (hb : NatBox b) (h : Pos 2 ℝ) :
    fluidPoints2 c b h = b.visited.filter fun p => c (node h p) := by
  unfold fluidPoints2
  simp only [dirLoop_nat b hb, foldl_if_append, foldl_append_flatMap, List.nil_append, visited2]
  rw [List.filter_flatMap, List.flatMap_map]
  apply List.flatMap_congr
  intro y hy
  rw [List.filter_map, List.map_map, List.filter_map]
  have hc : ∀ x : ℤ, ((fun p : ℕ × ℝ => c ![p.2, (y : ℝ) * h 1]) ∘ fun k : ℤ => (k.toNat, (k : ℝ) * h 0)) x =
      ((fun p => c (node h p)) ∘ fun x => ![x, y]) x := by
    intro x
    simp only [Function.comp]
    congr 1
    funext i
    fin_cases i <;> rfl
  rw [List.filter_congr fun x _ => hc x]
  apply List.map_congr_left
  intro x hx
  have hx' := toNat_of_mem hb (List.mem_of_mem_filter hx)
  have hy' := toNat_of_mem hb hy
  simp only [Function.comp]
  rw [hx', hy']

theorem fluidPoints3_eq (c : Pos 3 ℝ → Bool) (b : Box 3 ℤ) (hb : NatBox b) (h : Pos 3 ℝ) :
    fluidPoints3 c b h = b.visited.filter fun p => c (node h p) := by
  unfold fluidPoints3
  simp only [dirLoop_nat b hb, foldl_if_append, foldl_append_flatMap, List.nil_append, visited3]
  rw [List.filter_flatMap, List.flatMap_map]
  apply List.flatMap_congr
  intro z hz
  rw [List.filter_flatMap, List.flatMap_map]
  apply List.flatMap_congr
  intro y hy
  rw [List.filter_map, List.map_map, List.filter_map]
  have hc : ∀ x : ℤ, ((fun p : ℕ × ℝ => c ![p.2, (y : ℝ) * h 1, (z : ℝ) * h 2]) ∘
      fun k : ℤ => (k.toNat, (k : ℝ) * h 0)) x =
      ((fun p => c (node h p)) ∘ fun x => ![x, y, z]) x := by
    intro x
    simp only [Function.comp]
    congr 1
    funext i
    fin_cases i <;> rfl
  rw [List.filter_congr fun x _ => hc x]
  apply List.map_congr_left
  intro x hx
  have hx' := toNat_of_mem hb (List.mem_of_mem_filter hx)
  have hy' := toNat_of_mem hb hy
  have hz' := toNat_of_mem hb hz
  simp only [Function.comp]
  rw [hx', hy', hz']

/-- C42 (2D): `find_fluid_points_insides` returns exactly the nodes of the box contained in the particle,
each once, first coordinate running fastest. -/
theorem C42_plane (c : Pos 2 ℝ → Bool) (b : Box 2 ℤ) (hb : NatBox b) (h : Pos 2 ℝ) :
    (∀ p, p ∈ fluidPoints2 c b h ↔ p ∈ b.halfOpen ∧ c (node h p) = true) ∧
    (fluidPoints2 c b h).Nodup ∧ (fluidPoints2 c b h).Pairwise ColexLt := by
  rw [fluidPoints2_eq c b hb h]
  refine ⟨fun p => ?_, b.visited_nodup.filter _, b.visited_pairwise.filter _⟩
  rw [List.mem_filter, Box.mem_visited]
  rfl

/-- C42 (3D). -/
theorem C42_space (c : Pos 3 ℝ → Bool) (b : Box 3 ℤ) (hb : NatBox b) (h : Pos 3 ℝ) :
    (∀ p, p ∈ fluidPoints3 c b h ↔ p ∈ b.halfOpen ∧ c (node h p) = true) ∧
    (fluidPoints3 c b h).Nodup ∧ (fluidPoints3 c b h).Pairwise ColexLt := by
  rw [fluidPoints3_eq c b hb h]
  refine ⟨fun p => ?_, b.visited_nodup.filter _, b.visited_pairwise.filter _⟩
  rw [List.mem_filter, Box.mem_visited]
  rfl

example : NatBox (⟨![1, 0], ![4, 3]⟩ : Box 2 ℤ) := by intro i; fin_cases i <;> simp

/-- The restriction to boxes of non negative indices is needed: with a negative corner the `size_t` loop
variable wraps around and nothing is found, even the nodes of non negative index. -/
theorem C42_negative_corner : ∃ (b : Box 2 ℤ) (p : Pos 2 ℤ), p ∈ b.halfOpen ∧
    ∀ (c : Pos 2 ℝ → Bool) (h : Pos 2 ℝ), fluidPoints2 c b h = [] := by
  refine ⟨⟨![-1, 0], ![1, 1]⟩, ![0, 0], ?_, fun c h => ?_⟩
  · intro i; fin_cases i <;> simp
  · unfold fluidPoints2
    have : dirLoop (⟨![-1, 0], ![1, 1]⟩ : Box 2 ℤ) h 0 = [] := by
      unfold dirLoop
      rw [coordLoop, if_neg]
      simp only [Matrix.cons_val_zero]
      unfold toSize
      norm_num
    rw [this]
    simp only [List.foldl_nil]
    generalize dirLoop (⟨![-1, 0], ![1, 1]⟩ : Box 2 ℤ) h 1 = l
    induction l with
    | nil => rfl
    | cons a l ih => rw [List.foldl_cons]; exact ih

/-! ### C43, C44: surface points -/

theorem surfIndex_of_nonneg (h p : Pos d ℝ) (hh : ∀ i, 0 < h i) (i : Fin d) (hp : 0 ≤ p i) :
    surfIndex h p i = cell h p i := by
  simp only [surfIndex, cell, posDiv, compLoop_apply, truncInt]
  rw [if_pos (div_nonneg hp (hh i).le)]

theorem surfPoints_eq (ps : List (Pos d ℝ)) (b : Box d ℤ) (h : Pos d ℝ) :
    surfPoints ps b h = (ps.filter fun p => b.pointInside (surfIndex h p)).map
      fun p => (surfIndex h p, fun i => p i - node h (surfIndex h p) i) := by
  unfold surfPoints
  rw [foldl_if_append ps (fun p => b.pointInside (surfIndex h p))
    (fun p => (surfIndex h p, posSub p (posMul (fun i => (surfIndex h p i : ℝ)) h))), List.nil_append]
  apply List.map_congr_left
  intro p _
  simp only [posSub, posMul, compLoop_eq]
  rfl

theorem radialPoints_eq (ps : List (Pos d ℝ)) (b : Box d ℤ) (h c : Pos d ℝ) :
    radialPoints ps b h c = (ps.filter fun p => b.pointInside (surfIndex h p)).map
      fun p i => p i - c i := by
  unfold radialPoints
  rw [foldl_if_append ps (fun p => b.pointInside (surfIndex h p)) (fun p => posSub p c), List.nil_append]
  apply List.map_congr_left
  intro p _
  simp only [posSub, compLoop_eq]

/-- The point described by an entry `(i, x)` of `surf_points`: `i h + x`. -/
noncomputable def entryPoint (h : Pos d ℝ) (e : Pos d ℤ × Pos d ℝ) : Pos d ℝ :=
  fun i => node h e.1 i + e.2 i

/-- C43: each entry `(i, x)` has `i` in the box, `i h + x` is one of the surface points, and in every
direction where this point has a non negative coordinate, `0 ≤ x < h`. -/
theorem C43_localised (ps : List (Pos d ℝ)) (b : Box d ℤ) (h : Pos d ℝ) (hh : ∀ i, 0 < h i)
    (e : Pos d ℤ × Pos d ℝ) (he : e ∈ surfPoints ps b h) :
    e.1 ∈ b.halfOpen ∧ entryPoint h e ∈ ps ∧
    ∀ i, 0 ≤ entryPoint h e i → 0 ≤ e.2 i ∧ e.2 i < h i := by
  rw [surfPoints_eq, List.mem_map] at he
  obtain ⟨p, hp, rfl⟩ := he
  rw [List.mem_filter, Box.pointInside_iff] at hp
  have hpt : entryPoint h (surfIndex h p, fun i => p i - node h (surfIndex h p) i) = p := by
    funext i; simp [entryPoint]
  refine ⟨hp.2, by rw [hpt]; exact hp.1, fun i hi => ?_⟩
  rw [hpt] at hi
  have hi' := hh i
  simp only [node, surfIndex_of_nonneg h p hh i hi, cell]
  have h1 := Int.floor_le (p i / h i)
  have h2 := Int.lt_floor_add_one (p i / h i)
  rw [le_div_iff₀ hi'] at h1
  rw [div_lt_iff₀ hi'] at h2
  constructor <;> nlinarith

open Classical in
/-- C43 (nothing missed): when the surface is in the quadrant of non negative coordinates, the entries are,
in order, those of the surface points whose cell is in the box, located by their cell. -/
theorem C43_complete (ps : List (Pos d ℝ)) (b : Box d ℤ) (h : Pos d ℝ) (hh : ∀ i, 0 < h i)
    (hps : ∀ p ∈ ps, ∀ i, 0 ≤ p i) :
    surfPoints ps b h = (ps.filter fun p => decide (cell h p ∈ b.halfOpen)).map
      fun p => (cell h p, fun i => p i - node h (cell h p) i) := by
  rw [surfPoints_eq]
  have hc : ∀ p ∈ ps, surfIndex h p = cell h p := fun p hp =>
    funext fun i => surfIndex_of_nonneg h p hh i (hps p hp i)
  have e1 : ps.filter (fun p => b.pointInside (surfIndex h p)) =
      ps.filter fun p => decide (cell h p ∈ b.halfOpen) := by
    apply List.filter_congr
    intro p hp
    rw [hc p hp, Bool.eq_iff_iff, Box.pointInside_iff, decide_eq_true_eq]
  rw [e1]
  apply List.map_congr_left
  intro p hp
  rw [hc p (List.mem_of_mem_filter hp)]

example : ∀ p ∈ [(![1/2, 3/2] : Pos 2 ℝ)], ∀ i, 0 ≤ p i := by
  intro p hp i
  rw [List.mem_singleton] at hp
  subst hp
  fin_cases i <;> norm_num

/-- The restriction to non negative coordinates is needed: the conversion to `int` truncates, and a point
of coordinate in `(-h, 0)`, which is in no cell of the mesh, is recorded in cell `0` with a negative
offset. -/
theorem C43_negative_point : surfPoints [(![-(1/2), 1/2] : Pos 2 ℝ)] ⟨![0, 0], ![4, 4]⟩ ![1, 1] =
    [(![0, 0], ![-(1/2), 1/2])] := by
  have hi : surfIndex ![1, 1] (![-(1/2), 1/2] : Pos 2 ℝ) = ![0, 0] := by
    funext i
    fin_cases i
    · show truncInt (posDiv _ _ 0) = 0
      simp only [posDiv, compLoop_apply, truncInt]
      norm_num
    · show truncInt (posDiv _ _ 1) = 0
      simp only [posDiv, compLoop_apply, truncInt]
      norm_num
      try rw [Int.floor_eq_iff]
      try norm_num
  rw [surfPoints_eq]
  have : ([(![-(1/2), 1/2] : Pos 2 ℝ)].filter fun p =>
      (⟨![0, 0], ![4, 4]⟩ : Box 2 ℤ).pointInside (surfIndex ![1, 1] p)) = [![-(1/2), 1/2]] := by
    rw [List.filter_cons_of_pos]
    · rfl
    · rw [hi]; decide
  rw [this, List.map_singleton, hi]
  congr 2
  funext i
  fin_cases i <;> simp [node]

/-- C44: the lists of `find_surf_points_insides` and `find_radial_surf_points_insides` have the same
length and their `k`-th entries come from the same surface point `q k`: the first describes `q k`, the
second is `q k - center`. -/
theorem C44_aligned (ps : List (Pos d ℝ)) (b : Box d ℤ) (h c : Pos d ℝ) :
    ∃ q : List (Pos d ℝ), q.Sublist ps ∧
      (surfPoints ps b h).map (entryPoint h) = q ∧
      radialPoints ps b h c = q.map (fun p i => p i - c i) := by
  refine ⟨ps.filter fun p => b.pointInside (surfIndex h p), List.filter_sublist, ?_, radialPoints_eq _ _ _ _⟩
  rw [surfPoints_eq, List.map_map]
  conv_rhs => rw [← List.map_id (ps.filter _)]
  apply List.map_congr_left
  intro p _
  funext i
  simp [entryPoint]

/-- C44 (lengths). -/
theorem C44_length (ps : List (Pos d ℝ)) (b : Box d ℤ) (h c : Pos d ℝ) :
    (surfPoints ps b h).length = (radialPoints ps b h c).length := by
  rw [surfPoints_eq, radialPoints_eq, List.length_map, List.length_map]

/-! ### C45: each node and surface point belongs to one process -/

theorem mem_boxInside (b1 b2 : Box d ℤ) (p : Pos d ℤ) :
    p ∈ (b1.boxInside b2).halfOpen ↔ p ∈ b1.halfOpen ∧ p ∈ b2.halfOpen := by
  rw [C31_box_inside_eq, (C31_overlap_exact b1 b2).2]
  rfl

/-- A mesh whose layout satisfies the contract of PETSc and whose sizes fit in a machine integer. -/
def GoodMesh (L : Fin d → Dir) : Prop := ∀ i, (L i).WF ∧ (L i).m < 2 ^ 63

theorem natBox_inside (L : Fin d → Dir) (hL : GoodMesh L) (r : Fin d → ℕ) (hr : r ∈ procs L)
    (pb : Box d ℤ) (hi : (getDMBounds L r true).intersect pb = true) :
    NatBox ((getDMBounds L r true).boxInside pb) := by
  rw [C31_box_inside_eq]
  rw [Box.intersect_iff] at hi
  rw [mem_procs] at hr
  intro i
  have h1 := Dir.xs_nonneg (hL i).1 (r i)
  have h2 := Dir.xm_pos (hL i).1 (hr i)
  have h3 := Dir.xe_le (hL i).1 (hr i)
  have h4 := (hL i).2
  have h5 := hi i
  have hb : (getDMBounds L r true).bl i = (L i).xs (r i) := rfl
  have hu : (getDMBounds L r true).ur i ≤ (L i).xs (r i) + (L i).xm (r i) ∧
      (L i).xs (r i) ≤ (getDMBounds L r true).ur i := by
    simp only [getDMBounds]
    split_ifs <;> omega
  simp only [Box.overlap]
  rw [hb] at h5 ⊢
  refine ⟨le_max_of_le_left h1, le_min (by omega) (by omega), max_lt (by omega) (by omega),
    min_lt_of_left_lt (by omega)⟩

/-- What `find_fluid_points_insides` does in either dimension. -/
def IsFluid (fluid : (Pos d ℝ → Bool) → Box d ℤ → Pos d ℝ → List (Pos d ℤ)) : Prop :=
  ∀ c b h, NatBox b → fluid c b h = b.visited.filter fun p => c (node h p)

theorem isFluid2 : IsFluid fluidPoints2 := fun c b h hb => fluidPoints2_eq c b hb h
theorem isFluid3 : IsFluid fluidPoints3 := fun c b h hb => fluidPoints3_eq c b hb h

section decomposition
variable {fluid : (Pos d ℝ → Bool) → Box d ℤ → Pos d ℝ → List (Pos d ℤ)} (hf : IsFluid fluid)
  (L : Fin d → Dir) (hL : GoodMesh L) (h : Pos d ℝ) (p : Part d A)
include hf hL

theorem mem_partNodes (r : Fin d → ℕ) (hr : r ∈ procs L) (q : Pos d ℤ) :
    q ∈ partNodes fluid Box.boxInside (getDMBounds L r true) h p ↔
      q ∈ (getDMBounds L r true).halfOpen ∧ q ∈ p.bbox.halfOpen ∧ p.contains (node h q) = true := by
  unfold partNodes
  split_ifs with hi
  · rw [hf _ _ _ (natBox_inside L hL r hr _ hi), List.mem_filter, Box.mem_visited]
    rw [show (∀ i, ((getDMBounds L r true).boxInside p.bbox).bl i ≤ q i ∧
      q i < ((getDMBounds L r true).boxInside p.bbox).ur i) ↔ _ from mem_boxInside _ _ q]
    rw [and_assoc]
  · simp only [List.not_mem_nil, false_iff]
    rintro ⟨h1, h2, -⟩
    exact hi (C30_never_skips _ _ q h1 h2)

theorem partNodes_nodup (r : Fin d → ℕ) (hr : r ∈ procs L) :
    (partNodes fluid Box.boxInside (getDMBounds L r true) h p).Nodup := by
  unfold partNodes
  split_ifs with hi
  · rw [hf _ _ _ (natBox_inside L hL r hr _ hi)]
    exact (Box.visited_nodup _).filter _
  · exact List.nodup_nil

omit hf in
theorem elems_partition : (∀ e ∈ (globalElems L).halfOpen, ∃! r, r ∈ procs L ∧ e ∈ (getDMBounds L r true).halfOpen) ∧
    (∀ r ∈ procs L, (getDMBounds L r true).halfOpen ⊆ (globalElems L).halfOpen) :=
  C02_elements_partition L fun i => (hL i).1

open Classical in
/-- Sum over the interior nodes held by all the processes. -/
theorem sum_partNodes {M : Type*} [AddCommMonoid M] (f : Pos d ℤ → M) :
    ∑ r ∈ procs L, ((partNodes fluid Box.boxInside (getDMBounds L r true) h p).map f).sum =
      ∑ q ∈ gridElems L with q ∈ p.bbox.halfOpen ∧ p.contains (node h q) = true, f q := by
  have e : ∀ r ∈ procs L, ((partNodes fluid Box.boxInside (getDMBounds L r true) h p).map f).sum =
      ((getDMBounds L r true).visited.map fun q =>
        if q ∈ p.bbox.halfOpen ∧ p.contains (node h q) = true then f q else 0).sum := by
    intro r hr
    rw [← List.sum_toFinset _ (partNodes_nodup hf L hL h p r hr), ← List.sum_toFinset _ (Box.visited_nodup _),
      ← Finset.sum_filter]
    apply Finset.sum_congr _ fun _ _ => rfl
    ext q
    rw [List.mem_toFinset, mem_partNodes hf L hL h p r hr, Finset.mem_filter, List.mem_toFinset,
      Box.mem_visited]
    rfl
  rw [Finset.sum_congr rfl e, sum_procs_visited _ _ _ (elems_partition L hL).1 (elems_partition L hL).2,
    ← List.sum_toFinset _ (Box.visited_nodup _), visited_globalElems, ← Finset.sum_filter]


/-- C45 (interior nodes): each node of the mesh lying in the particle is held by exactly one process, the
processes hold nothing else. -/
theorem nodes_once (henc : ∀ q, p.contains (node h q) = true → q ∈ p.bbox.halfOpen) (q : Pos d ℤ) :
    (q ∈ gridElems L → p.contains (node h q) = true →
      ∃! r, r ∈ procs L ∧ q ∈ partNodes fluid Box.boxInside (getDMBounds L r true) h p) ∧
    (∀ r ∈ procs L, q ∈ partNodes fluid Box.boxInside (getDMBounds L r true) h p →
      q ∈ gridElems L ∧ p.contains (node h q) = true) := by
  constructor
  · intro hq hc
    obtain ⟨r, ⟨hr, hqr⟩, hu⟩ := (elems_partition L hL).1 q ((mem_gridElems L q).1 hq)
    refine ⟨r, ⟨hr, (mem_partNodes hf L hL h p r hr q).2 ⟨hqr, henc q hc, hc⟩⟩, ?_⟩
    rintro s ⟨hs, hqs⟩
    exact hu s ⟨hs, ((mem_partNodes hf L hL h p s hs q).1 hqs).1⟩
  · intro r hr hq
    have := (mem_partNodes hf L hL h p r hr q).1 hq
    exact ⟨(mem_gridElems L q).2 ((elems_partition L hL).2 r hr this.1), this.2.2⟩

omit hf hL in
theorem partMaterials_size (r : Fin d → ℕ) (scale : ℕ) (old : PartData d) :
    (partMaterials fluid (getDMBounds L r true) h scale p old).2 =
      (partNodes fluid Box.boxInside (getDMBounds L r true) h p).length := by
  unfold partMaterials partNodes
  split_ifs <;> rfl

theorem sum_sizes (henc : ∀ q, p.contains (node h q) = true → q ∈ p.bbox.halfOpen) (scale : ℕ)
    (old : (Fin d → ℕ) → PartData d) :
    ∑ r ∈ procs L, (partMaterials fluid (getDMBounds L r true) h scale p (old r)).2 =
      ((gridElems L).filter fun q => p.contains (node h q) = true).card := by
  classical
  have e : ∀ r ∈ procs L, (partMaterials fluid (getDMBounds L r true) h scale p (old r)).2 =
      ((partNodes fluid Box.boxInside (getDMBounds L r true) h p).map fun _ => 1).sum := by
    intro r _
    rw [partMaterials_size L h p r]
    simp
  rw [Finset.sum_congr rfl e, sum_partNodes hf L hL h p, Finset.card_eq_sum_ones]
  apply Finset.sum_congr _ fun _ _ => rfl
  ext q
  simp only [Finset.mem_filter]
  exact ⟨fun hq => ⟨hq.1, hq.2.2⟩, fun hq => ⟨hq.1, henc q hq.2, hq.2⟩⟩

end decomposition

theorem materialsSize_eq (fluid : (Pos d ℝ → Bool) → Box d ℤ → Pos d ℝ → List (Pos d ℤ))
    (box : Box d ℤ) (h : Pos d ℝ) (scale : ℕ) (parts : List (Part d A)) :
    materialsSize fluid box h scale parts =
      (parts.map fun p => (partMaterials fluid box h scale p PartData.empty).2).sum := by
  unfold materialsSize
  have : ∀ (l : List (Part d A)) (n : ℕ), l.foldl (fun s p => s +
      (partMaterials fluid box h scale p PartData.empty).2) n = n +
      (l.map fun p => (partMaterials fluid box h scale p PartData.empty).2).sum := by
    intro l
    induction l with
    | nil => simp
    | cons a l ih => intro n; rw [List.foldl_cons, ih, List.map_cons, List.sum_cons, add_assoc]
  rw [this, zero_add]

/-- The surface points seen by the process of box `b`: none when the boxes do not meet. -/
theorem partMaterials_surf (fluid : (Pos d ℝ → Bool) → Box d ℤ → Pos d ℝ → List (Pos d ℤ))
    (b : Box d ℤ) (h : Pos d ℝ) (scale : ℕ) (p : Part d A) :
    (partMaterials fluid b h scale p PartData.empty).1.surf =
      surfPoints p.surface (b.boxInside p.bbox) h ∧
    (partMaterials fluid b h scale p PartData.empty).1.radial =
      radialPoints p.surface (b.boxInside p.bbox) h p.center ∧
    (partMaterials fluid b h scale p PartData.empty).1.nb =
      (surfPoints p.surface (b.boxInside p.bbox) h).length := by
  unfold partMaterials
  split_ifs with hi
  · exact ⟨rfl, rfl, rfl⟩
  · have : (p.surface.filter fun q => (b.boxInside p.bbox).pointInside (surfIndex h q)) = [] := by
      rw [List.filter_eq_nil_iff]
      intro q _ hq
      rw [Box.pointInside_iff] at hq
      have := (mem_boxInside b p.bbox _).1 hq
      exact hi (C30_never_skips _ _ _ this.1 this.2)
    rw [surfPoints_eq, radialPoints_eq, this]
    exact ⟨rfl, rfl, rfl⟩

theorem length_filter_sum {α : Type*} (l : List α) (c : α → Bool) :
    (l.filter c).length = (l.map fun x => if c x then 1 else 0).sum := by
  induction l with
  | nil => rfl
  | cons a l ih => rw [List.map_cons, List.sum_cons, ← ih]; cases h : c a <;> simp [h, Nat.add_comm]

open Classical in
theorem sum_surf (fluid : (Pos d ℝ → Bool) → Box d ℤ → Pos d ℝ → List (Pos d ℤ))
    (L : Fin d → Dir) (hL : GoodMesh L) (h : Pos d ℝ) (scale : ℕ) (p : Part d A) :
    ∑ r ∈ procs L, (partMaterials fluid (getDMBounds L r true) h scale p PartData.empty).1.nb =
      (p.surface.filter fun q => decide (surfIndex h q ∈ (globalElems L).halfOpen ∧
        surfIndex h q ∈ p.bbox.halfOpen)).length := by
  simp only [(partMaterials_surf fluid _ h scale p).2.2, surfPoints_eq, List.length_map, length_filter_sum]
  generalize p.surface = ps
  induction ps with
  | nil => simp
  | cons q ps ih =>
    simp only [List.map_cons, List.sum_cons, Finset.sum_add_distrib]
    rw [ih]
    congr 1
    set k := surfIndex h q
    by_cases hk : k ∈ (globalElems L).halfOpen ∧ k ∈ p.bbox.halfOpen
    · obtain ⟨r, ⟨hr, hkr⟩, hu⟩ := (elems_partition L hL).1 k hk.1
      rw [Finset.sum_eq_single r]
      · rw [if_pos, if_pos]
        · exact decide_eq_true hk
        · rw [Box.pointInside_iff]
          exact (mem_boxInside _ _ k).2 ⟨hkr, hk.2⟩
      · intro s hs hsr
        rw [if_neg]
        rw [Box.pointInside_iff]
        intro hks
        exact hsr (hu s ⟨hs, ((mem_boxInside _ _ k).1 hks).1⟩)
      · intro hn; exact absurd hr hn
    · rw [if_neg (by simpa using hk)]
      apply Finset.sum_eq_zero
      intro r hr
      rw [if_neg]
      rw [Box.pointInside_iff]
      intro hkr
      have := (mem_boxInside _ _ k).1 hkr
      exact hk ⟨(elems_partition L hL).2 r hr this.1, this.2⟩

/-! #### Counting the points of the refined grid -/

/-- The offsets of the sub-points of a cell. -/
noncomputable def offs (d m : ℕ) : Finset (Pos d ℤ) := Fintype.piFinset fun _ => Finset.Ico 0 (m : ℤ)

theorem visited_offs (m : ℕ) :
    (⟨fun _ => 0, fun _ => (m : ℤ)⟩ : Box d ℤ).visited.toFinset = offs d m := by
  ext p; simp [offs, Box.mem_visited]

theorem foldl_count {α : Type*} (l : List α) (c : α → Bool) (n : ℕ) :
    l.foldl (fun num x => if c x then num + 1 else num) n = n + (l.map fun x => if c x then 1 else 0).sum := by
  induction l generalizing n with
  | nil => simp
  | cons a l ih => rw [List.foldl_cons, ih, List.map_cons, List.sum_cons]; split_ifs <;> omega

theorem foldl_addNat {α : Type*} (l : List α) (f : α → ℕ) (n : ℕ) :
    l.foldl (fun num x => num + f x) n = n + (l.map f).sum := by
  induction l generalizing n with
  | nil => simp
  | cons a l ih => rw [List.foldl_cons, ih, List.map_cons, List.sum_cons]; omega

/-- The point `pos h + ps hs` of the cell `pos` is the point `m pos + ps` of the refined grid. -/
theorem subPoint_eq (h : Pos d ℝ) (m : ℕ) (hm : 0 < m) (pos ps : Pos d ℤ) :
    posAdd (posMul (fun i => (pos i : ℝ)) h) (posMul (fun i => (ps i : ℝ)) fun i => h i / m) =
      subNode h m fun i => pos i * m + ps i := by
  funext i
  simp only [posAdd, posMul, compLoop_apply, subNode]
  push_cast
  have : (m : ℝ) ≠ 0 := by positivity
  field_simp

theorem numCount_eq (c : Pos d ℝ → Bool) (b : Box d ℤ) (h : Pos d ℝ) (m : ℕ) (hm : 0 < m) (num : ℕ) :
    numCount c b h m num = num + (b.visited.map fun pos =>
      ∑ ps ∈ offs d m, if c (subNode h m fun i => pos i * m + ps i) then 1 else 0).sum := by
  unfold numCount
  simp only [subPoint_eq h m hm]
  rw [iterate_eq_foldl]
  have : ∀ (pos : Pos d ℤ) (num : ℕ), iterate (⟨fun _ => 0, fun _ => (m : ℤ)⟩ : Box d ℤ) (fun ps num =>
      if c (subNode h m fun i => pos i * m + ps i) then num + 1 else num) num = num +
      ∑ ps ∈ offs d m, if c (subNode h m fun i => pos i * m + ps i) then 1 else 0 := by
    intro pos num
    rw [iterate_eq_foldl, foldl_count, ← List.sum_toFinset _ (Box.visited_nodup _), visited_offs]
  simp only [this]
  rw [foldl_addNat]

theorem sum_cells {M : Type*} [AddCommMonoid M] (L : Fin d → Dir) (m : ℕ) (hm : 0 < m) (f : Pos d ℤ → M) :
    ∑ pos ∈ gridElems L, ∑ ps ∈ offs d m, f (fun i => pos i * m + ps i) = ∑ q ∈ subGrid L m, f q := by
  have hm' : (0 : ℤ) < m := by exact_mod_cast hm
  rw [← Finset.sum_product']
  refine Finset.sum_nbij' (fun x i => x.1 i * m + x.2 i) (fun q => (fun i => q i / m, fun i => q i % m))
    ?_ ?_ ?_ ?_ ?_
  · rintro ⟨p, s⟩ hx
    simp only [Finset.mem_product, gridElems, offs, Fintype.mem_piFinset, Finset.mem_Ico] at hx
    simp only [subGrid, Fintype.mem_piFinset, Finset.mem_Ico]
    intro i
    have h1 := hx.1 i
    have h2 := hx.2 i
    constructor <;> nlinarith
  · intro q hq
    simp only [subGrid, Fintype.mem_piFinset, Finset.mem_Ico] at hq
    simp only [Finset.mem_product, gridElems, offs, Fintype.mem_piFinset, Finset.mem_Ico]
    refine ⟨fun i => ⟨Int.ediv_nonneg (hq i).1 hm'.le, Int.ediv_lt_of_lt_mul hm' (hq i).2⟩,
      fun i => ⟨Int.emod_nonneg _ hm'.ne', Int.emod_lt_of_pos _ hm'⟩⟩
  · rintro ⟨p, s⟩ hx
    simp only [Finset.mem_product, gridElems, offs, Fintype.mem_piFinset, Finset.mem_Ico] at hx
    ext i
    · show (p i * m + s i) / (m : ℤ) = p i
      rw [mul_comm, Int.mul_add_ediv_left _ _ hm'.ne', Int.ediv_eq_zero_of_lt (hx.2 i).1 (hx.2 i).2, add_zero]
    · show (p i * m + s i) % (m : ℤ) = s i
      rw [add_comm, Int.add_mul_emod_self_right, Int.emod_eq_of_lt (hx.2 i).1 (hx.2 i).2]
  · intro q _
    funext i
    show q i / m * m + q i % m = q i
    exact Int.ediv_mul_add_emod _ _
  · intro x _; rfl

/-- The particle's integer bounding box contains the cells of all the sub-grid points of the particle. -/
def SubEncloses (h : Pos d ℝ) (m : ℕ) (p : Part d A) : Prop :=
  ∀ q : Pos d ℤ, p.contains (subNode h m q) = true → (fun i => q i / (m : ℤ)) ∈ p.bbox.halfOpen

theorem partMaterials_num (fluid : (Pos d ℝ → Bool) → Box d ℤ → Pos d ℝ → List (Pos d ℤ))
    (b : Box d ℤ) (h : Pos d ℝ) (m : ℕ) (hm : 0 < m) (p : Part d A) (old : PartData d) :
    (partMaterials fluid b h m p old).1.num = old.num + ((b.boxInside p.bbox).visited.map fun pos =>
      ∑ ps ∈ offs d m, if p.contains (subNode h m fun i => pos i * m + ps i) then 1 else 0).sum := by
  unfold partMaterials
  split_ifs with hi
  · exact numCount_eq _ _ _ _ hm _
  · have : (b.boxInside p.bbox).visited = [] := by
      rw [List.eq_nil_iff_forall_not_mem]
      intro q hq
      rw [Box.mem_visited] at hq
      have := (mem_boxInside b p.bbox q).1 hq
      exact hi (C30_never_skips _ _ _ this.1 this.2)
    rw [this]
    rfl

theorem sum_num (fluid : (Pos d ℝ → Bool) → Box d ℤ → Pos d ℝ → List (Pos d ℤ))
    (L : Fin d → Dir) (hL : GoodMesh L) (h : Pos d ℝ) (m : ℕ) (hm : 0 < m) (p : Part d A)
    (henc : SubEncloses h m p) (old : (Fin d → ℕ) → PartData d) :
    ∑ r ∈ procs L, (partMaterials fluid (getDMBounds L r true) h m p (old r)).1.num =
      ∑ r ∈ procs L, (old r).num + ((subGrid L m).filter fun q => p.contains (subNode h m q) = true).card := by
  classical
  simp only [partMaterials_num fluid _ h m hm p, Finset.sum_add_distrib]
  congr 1
  set f : Pos d ℤ → ℕ := fun pos =>
    ∑ ps ∈ offs d m, if p.contains (subNode h m fun i => pos i * m + ps i) then 1 else 0 with hfdef
  have e : ∀ r ∈ procs L, (((getDMBounds L r true).boxInside p.bbox).visited.map f).sum =
      ((getDMBounds L r true).visited.map f).sum := by
    intro r _
    rw [← List.sum_toFinset _ (Box.visited_nodup _), ← List.sum_toFinset _ (Box.visited_nodup _)]
    apply Finset.sum_subset
    · intro q hq
      rw [List.mem_toFinset, Box.mem_visited] at hq ⊢
      exact ((mem_boxInside _ _ q).1 hq).1
    · intro q hq hn
      rw [List.mem_toFinset, Box.mem_visited] at hq hn
      apply Finset.sum_eq_zero
      intro ps hps
      rw [if_neg]
      intro hc
      apply hn
      refine (mem_boxInside _ _ q).2 ⟨hq, ?_⟩
      have := henc _ hc
      have hm' : (0 : ℤ) < m := by exact_mod_cast hm
      have h2 : (fun i => (q i * m + ps i) / (m : ℤ)) = q := by
        funext i
        simp only [offs, Fintype.mem_piFinset, Finset.mem_Ico] at hps
        rw [mul_comm, Int.mul_add_ediv_left _ _ hm'.ne', Int.ediv_eq_zero_of_lt (hps i).1 (hps i).2, add_zero]
      rwa [h2] at this
  rw [Finset.sum_congr rfl e, sum_procs_visited _ _ _ (elems_partition L hL).1 (elems_partition L hL).2,
    ← List.sum_toFinset _ (Box.visited_nodup _), visited_globalElems, hfdef,
    sum_cells L m hm fun q => if p.contains (subNode h m q) then 1 else 0, Finset.card_filter]

/-! #### The bounding boxes of the shapes enclose them -/

theorem intBox_cell (b : Box d ℝ) (h : Pos d ℝ) (hh : ∀ i, 0 < h i) (x : Pos d ℝ) (hx : x ∈ b.closed) :
    cell h x ∈ (intBox b h).halfOpen := by
  intro i
  have h1 := (hx i).1
  have h2 := (hx i).2
  have hi := hh i
  have f1 := Int.floor_le (x i / h i)
  have f2 := Int.lt_floor_add_one (x i / h i)
  have d1 : b.bl i / h i ≤ x i / h i := div_le_div_of_nonneg_right h1 hi.le
  have d2 : x i / h i ≤ b.ur i / h i := div_le_div_of_nonneg_right h2 hi.le
  constructor
  · apply truncInt_le
    simp only [posSubScal, posDiv, compLoop_apply, cell]
    linarith
  · apply Int.lt_of_add_one_le
    apply le_truncInt
    simp only [posAddScal, posDiv, compLoop_apply, cell]
    push_cast
    linarith

theorem cell_subNode (h : Pos d ℝ) (hh : ∀ i, 0 < h i) (m : ℕ) (hm : 0 < m) (q : Pos d ℤ) :
    cell h (subNode h m q) = fun i => q i / (m : ℤ) := by
  funext i
  have hi := (hh i).ne'
  have hm' : (m : ℝ) ≠ 0 := by positivity
  have hm0 : (0 : ℝ) < m := by positivity
  have hmz : (0 : ℤ) < m := by exact_mod_cast hm
  simp only [cell, subNode]
  have : (q i : ℝ) * (h i / m) / h i = q i / m := by field_simp
  rw [this, Int.floor_eq_iff, le_div_iff₀ hm0, div_lt_iff₀ hm0]
  have e1 := Int.ediv_mul_le (q i) hmz.ne'
  have e2 := Int.lt_ediv_add_one_mul_self (q i) hmz
  exact ⟨by exact_mod_cast e1, by exact_mod_cast e2⟩

/-- `p` has the geometry of the shape `S` of the plane for the mesh step `h`
(`struct particle : private Shape`, particle.hpp:70-109). -/
structure OfShape2 (S : Shape 2) (h : Pos 2 ℝ) (p : Part 2 A) : Prop where
  contains : p.contains = S.contains2
  bbox : p.bbox = intBox S.boundingBox2 h

/-- `p` has the geometry of the shape `S` of space for the mesh step `h`. -/
structure OfShape3 (S : Shape 3) (h : Pos 3 ℝ) (p : Part 3 A) : Prop where
  contains : p.contains = S.contains3
  bbox : p.bbox = intBox S.boundingBox3 h

/-- The bounding box of a plane particle encloses its nodes and its sub-grid points. -/
theorem encloses2 (c s : Pos 2 ℝ) (hs : ∀ i, 0 < s i) (n : ℝ) (hn : 0 < n) (q : Quat ℝ)
    (hq : PlaneQuat q) (h : Pos 2 ℝ) (hh : ∀ i, 0 < h i) (p : Part 2 A)
    (hp : OfShape2 (mkShape2 c s n q) h p) :
    (∀ k, p.contains (node h k) = true → k ∈ p.bbox.halfOpen) ∧
    ∀ m, 0 < m → SubEncloses h m p := by
  constructor
  · intro k hk
    rw [hp.contains] at hk
    rw [hp.bbox]
    exact C39_plane c s hs n hn q hq h hh k hk
  · intro m hm k hk
    rw [hp.contains] at hk
    rw [hp.bbox, ← cell_subNode h hh m hm]
    exact intBox_cell _ h hh _ ((C38_plane c s hs n hn q hq _).1 hk)

/-- The same for spheres, and for shapes of space that are not rotated. -/
theorem encloses3 (S : Shape 3) (h : Pos 3 ℝ) (hh : ∀ i, 0 < h i) (p : Part 3 A)
    (hp : OfShape3 S h p)
    (hS : (∃ c r a k, 0 < r ∧ Geometry.dot k k = 1 ∧ S = sphere c r (quat a k)) ∨
      (∃ c s n e, (∀ i, 0 < s i) ∧ 0 < n ∧ 0 < e ∧ S = mkShape3 c s n e quat0)) :
    (∀ k, p.contains (node h k) = true → k ∈ p.bbox.halfOpen) ∧
    ∀ m, 0 < m → SubEncloses h m p := by
  have key : ∀ x, S.contains3 x = true → x ∈ S.boundingBox3.closed := by
    rcases hS with ⟨c, r, a, k, hr, hk, rfl⟩ | ⟨c, s, n, e, hs, hn, he, rfl⟩
    · exact fun x hx => C38_sphere c r hr a k hk x hx
    · exact fun x hx => C38_space_unrotated c s hs n e hn he x hx
  constructor
  · intro k hk
    rw [hp.contains] at hk
    rw [hp.bbox]
    exact intBox_mem _ h hh k (key _ hk)
  · intro m hm k hk
    rw [hp.contains] at hk
    rw [hp.bbox, ← cell_subNode h hh m hm]
    exact intBox_cell _ h hh _ (key _ hk)

/-! #### C45: theorems -/

/-- C45 (interior nodes, 2D): each node of the mesh (the final nodes of non periodic directions, on the
boundary of the domain, excepted) lying in the particle is held by exactly one process; the processes hold
no other node. The lists are those of every function that loops on the nodes of the particles. -/
theorem C45_nodes_plane (L : Fin 2 → Dir) (hL : GoodMesh L) (c s : Pos 2 ℝ) (hs : ∀ i, 0 < s i) (n : ℝ)
    (hn : 0 < n) (q : Quat ℝ) (hq : PlaneQuat q) (h : Pos 2 ℝ) (hh : ∀ i, 0 < h i) (p : Part 2 A)
    (hp : OfShape2 (mkShape2 c s n q) h p) (k : Pos 2 ℤ) :
    (k ∈ gridElems L → (mkShape2 c s n q).contains2 (node h k) = true →
      ∃! r, r ∈ procs L ∧ k ∈ partNodes fluidPoints2 Box.boxInside (getDMBounds L r true) h p) ∧
    (∀ r ∈ procs L, k ∈ partNodes fluidPoints2 Box.boxInside (getDMBounds L r true) h p →
      k ∈ gridElems L ∧ (mkShape2 c s n q).contains2 (node h k) = true) := by
  have := nodes_once isFluid2 L hL h p (encloses2 c s hs n hn q hq h hh p hp).1 k
  rwa [hp.contains] at this

/-- C45 (interior nodes, 3D, any particle whose integer bounding box encloses it; see `encloses3`). -/
theorem C45_nodes_space (L : Fin 3 → Dir) (hL : GoodMesh L) (h : Pos 3 ℝ) (p : Part 3 A)
    (henc : ∀ k, p.contains (node h k) = true → k ∈ p.bbox.halfOpen) (k : Pos 3 ℤ) :
    (k ∈ gridElems L → p.contains (node h k) = true →
      ∃! r, r ∈ procs L ∧ k ∈ partNodes fluidPoints3 Box.boxInside (getDMBounds L r true) h p) ∧
    (∀ r ∈ procs L, k ∈ partNodes fluidPoints3 Box.boxInside (getDMBounds L r true) h p →
      k ∈ gridElems L ∧ p.contains (node h k) = true) :=
  nodes_once isFluid3 L hL h p henc k

/-- C45 (surface points): a surface point with non negative coordinates, whose cell is in the mesh and in the
bounding box of the particle, is held by exactly one process. -/
theorem C45_surface_once (fluid : (Pos d ℝ → Bool) → Box d ℤ → Pos d ℝ → List (Pos d ℤ))
    (L : Fin d → Dir) (hL : GoodMesh L) (h : Pos d ℝ) (hh : ∀ i, 0 < h i) (scale : ℕ) (p : Part d A)
    (x : Pos d ℝ) (hx : x ∈ p.surface) (hx0 : ∀ i, 0 ≤ x i) (hm : cell h x ∈ gridElems L)
    (hb : cell h x ∈ p.bbox.halfOpen) :
    ∃! r, r ∈ procs L ∧ (cell h x, fun i => x i - node h (cell h x) i) ∈
      (partMaterials fluid (getDMBounds L r true) h scale p PartData.empty).1.surf := by
  have hc : surfIndex h x = cell h x := funext fun i => surfIndex_of_nonneg h x hh i (hx0 i)
  obtain ⟨r, ⟨hr, hqr⟩, hu⟩ := (elems_partition L hL).1 _ ((mem_gridElems L _).1 hm)
  refine ⟨r, ⟨hr, ?_⟩, ?_⟩
  · rw [(partMaterials_surf fluid _ h scale p).1, surfPoints_eq, List.mem_map]
    refine ⟨x, ?_, by rw [hc]⟩
    rw [List.mem_filter, Box.pointInside_iff, hc]
    exact ⟨hx, (mem_boxInside _ _ _).2 ⟨hqr, hb⟩⟩
  · rintro s ⟨hs, hxs⟩
    rw [(partMaterials_surf fluid _ h scale p).1] at hxs
    have := (C43_localised p.surface _ h hh _ hxs).1
    exact hu s ⟨hs, ((mem_boxInside _ _ _).1 this).1⟩

open Classical in
/-- C45 (counts): after `set_materials` on fresh vectors, every process has the same `nb_surf_points`, the
number of surface points whose cell is in the mesh and in the bounding box, and the same `num`, the number
of points of the refined grid in the particle; the sizes add up to the number of nodes in the particle.
None of these depends on the decomposition. -/
theorem C45_counts {fluid : (Pos d ℝ → Bool) → Box d ℤ → Pos d ℝ → List (Pos d ℤ)} (hf : IsFluid fluid)
    (L : Fin d → Dir) (hL : GoodMesh L) (h : Pos d ℝ) (hh : ∀ i, 0 < h i) (scale : ℕ) (hsc : 0 < scale)
    (p : Part d A) (henc : ∀ k, p.contains (node h k) = true → k ∈ p.bbox.halfOpen)
    (hsub : SubEncloses h scale p) (hps : ∀ x ∈ p.surface, ∀ i, 0 ≤ x i) (r : Fin d → ℕ) :
    (setMaterials fluid L h scale p (fun _ => PartData.empty) r).nb =
      (p.surface.filter fun x => decide (cell h x ∈ gridElems L ∧ cell h x ∈ p.bbox.halfOpen)).length ∧
    (setMaterials fluid L h scale p (fun _ => PartData.empty) r).num =
      ((subGrid L scale).filter fun k => p.contains (subNode h scale k) = true).card ∧
    ∑ r ∈ procs L, (partMaterials fluid (getDMBounds L r true) h scale p PartData.empty).2 =
      ((gridElems L).filter fun k => p.contains (node h k) = true).card := by
  refine ⟨?_, ?_, sum_sizes hf L hL h p henc scale _⟩
  · show ∑ s ∈ procs L, (partMaterials fluid (getDMBounds L s true) h scale p PartData.empty).1.nb = _
    rw [sum_surf fluid L hL]
    congr 1
    apply List.filter_congr
    intro x hx
    have hc : surfIndex h x = cell h x := funext fun i => surfIndex_of_nonneg h x hh i (hps x hx i)
    rw [hc]
    congr 1
    rw [mem_gridElems]
    rfl
  · show ∑ s ∈ procs L, (partMaterials fluid (getDMBounds L s true) h scale p PartData.empty).1.num = _
    rw [sum_num fluid L hL h scale hsc p hsub]
    simp [PartData.empty]

/-- C45 (total size of the control vector): over all the particles. -/
theorem C45_total_size {fluid : (Pos d ℝ → Bool) → Box d ℤ → Pos d ℝ → List (Pos d ℤ)} (hf : IsFluid fluid)
    (L : Fin d → Dir) (hL : GoodMesh L) (h : Pos d ℝ) (scale : ℕ) (parts : List (Part d A))
    (henc : ∀ p ∈ parts, ∀ k, p.contains (node h k) = true → k ∈ p.bbox.halfOpen) :
    ∑ r ∈ procs L, materialsSize fluid (getDMBounds L r true) h scale parts =
      (parts.map fun p => ((gridElems L).filter fun k => p.contains (node h k) = true).card).sum := by
  simp only [materialsSize_eq]
  induction parts with
  | nil => simp
  | cons p parts ih =>
    simp only [List.map_cons, List.sum_cons, Finset.sum_add_distrib]
    rw [ih fun p' hp' => henc p' (List.mem_cons_of_mem _ hp'),
      sum_sizes hf L hL h p (henc p List.mem_cons_self) scale fun _ => PartData.empty]

/-- C45 (independence of the decomposition): two layouts of the same grid give the same counts. -/
theorem C45_independent {fluid : (Pos d ℝ → Bool) → Box d ℤ → Pos d ℝ → List (Pos d ℤ)} (hf : IsFluid fluid)
    (L L' : Fin d → Dir) (hL : GoodMesh L) (hL' : GoodMesh L') (hLL : SameGrid L L') (h : Pos d ℝ)
    (hh : ∀ i, 0 < h i) (scale : ℕ) (hsc : 0 < scale)
    (p : Part d A) (henc : ∀ k, p.contains (node h k) = true → k ∈ p.bbox.halfOpen)
    (hsub : SubEncloses h scale p) (hps : ∀ x ∈ p.surface, ∀ i, 0 ≤ x i) (r r' : Fin d → ℕ) :
    (setMaterials fluid L h scale p (fun _ => PartData.empty) r).nb =
      (setMaterials fluid L' h scale p (fun _ => PartData.empty) r').nb ∧
    (setMaterials fluid L h scale p (fun _ => PartData.empty) r).num =
      (setMaterials fluid L' h scale p (fun _ => PartData.empty) r').num ∧
    ∑ r ∈ procs L, (partMaterials fluid (getDMBounds L r true) h scale p PartData.empty).2 =
      ∑ r ∈ procs L', (partMaterials fluid (getDMBounds L' r true) h scale p PartData.empty).2 := by
  have hn : ∀ i, (L i).nElem = (L' i).nElem := by
    intro i
    unfold Dir.nElem
    rw [(hLL i).1, (hLL i).2]
  have h1 : gridElems L = gridElems L' := by unfold gridElems; simp only [hn]
  have h2 : subGrid L scale = subGrid L' scale := by unfold subGrid; simp only [hn]
  have e := C45_counts hf L hL h hh scale hsc p henc hsub hps r
  have e' := C45_counts hf L' hL' h hh scale hsc p henc hsub hps r'
  rw [e.1, e.2.1, e.2.2, e'.1, e'.2.1, e'.2.2, h1, h2]
  exact ⟨rfl, rfl, rfl⟩

/-- A layout, a plane particle with its geometry, and two surface points, satisfying the hypotheses. -/
noncomputable def exPart : Part 2 ℝ where
  contains := (mkShape2 ![2, 2] ![1, 1] 2 quat0).contains2
  bbox := intBox (mkShape2 ![2, 2] ![1, 1] 2 quat0).boundingBox2 ![1, 1]
  surface := [![3, 2], ![1, 2]]
  center := ![2, 2]
  velocity := ![0, 0]
  omega := 0
  rho := 1
  force := ![0, -1]
  volume := 3
  area := 6
  cdR := 1
  ciR := 2

example : OfShape2 (mkShape2 ![2, 2] ![1, 1] 2 quat0) ![1, 1] exPart := ⟨rfl, rfl⟩
example : GoodMesh (![exDir, exDirP] : Fin 2 → Dir) := by
  intro i; fin_cases i
  · exact ⟨exDir_wf, by decide⟩
  · exact ⟨exDirP_wf, by decide⟩
example : ∀ x ∈ exPart.surface, ∀ i, 0 ≤ x i := by
  intro x hx i
  simp only [exPart, List.mem_cons, List.not_mem_nil, or_false] at hx
  rcases hx with rfl | rfl <;> fin_cases i <;> norm_num

/-! ### C46: the volume estimate -/

/-- C46: after a first call of `set_materials`, `num` is the number of points of the refined grid that
are in the particle. -/
theorem C46_count (fluid : (Pos d ℝ → Bool) → Box d ℤ → Pos d ℝ → List (Pos d ℤ))
    (L : Fin d → Dir) (hL : GoodMesh L) (h : Pos d ℝ) (scale : ℕ) (hsc : 0 < scale)
    (p : Part d A) (hsub : SubEncloses h scale p) (r : Fin d → ℕ) :
    (setMaterials fluid L h scale p (fun _ => PartData.empty) r).num =
      ((subGrid L scale).filter fun k => p.contains (subNode h scale k) = true).card := by
  show ∑ s ∈ procs L, (partMaterials fluid (getDMBounds L s true) h scale p PartData.empty).1.num = _
  rw [sum_num fluid L hL h scale hsc p hsub]
  simp [PartData.empty]

/-- C46 (plane particles): the statement for the shapes of the plane. -/
theorem C46_plane (L : Fin 2 → Dir) (hL : GoodMesh L) (c s : Pos 2 ℝ) (hs : ∀ i, 0 < s i) (n : ℝ)
    (hn : 0 < n) (q : Quat ℝ) (hq : PlaneQuat q) (h : Pos 2 ℝ) (hh : ∀ i, 0 < h i) (p : Part 2 A)
    (hp : OfShape2 (mkShape2 c s n q) h p) (scale : ℕ) (hsc : 0 < scale) (r : Fin 2 → ℕ) :
    (setMaterials fluidPoints2 L h scale p (fun _ => PartData.empty) r).num =
      ((subGrid L scale).filter fun k => (mkShape2 c s n q).contains2 (subNode h scale k) = true).card := by
  rw [C46_count _ L hL h scale hsc p ((encloses2 c s hs n hn q hq h hh p hp).2 scale hsc), hp.contains]

/-- C46 (monotonicity): a particle included in another one has a smaller count. -/
theorem C46_mono (fluid : (Pos d ℝ → Bool) → Box d ℤ → Pos d ℝ → List (Pos d ℤ))
    (L : Fin d → Dir) (hL : GoodMesh L) (h : Pos d ℝ) (scale : ℕ) (hsc : 0 < scale)
    (p p' : Part d A) (hsub : SubEncloses h scale p) (hsub' : SubEncloses h scale p')
    (hpp : ∀ x, p.contains x = true → p'.contains x = true) (r : Fin d → ℕ) :
    (setMaterials fluid L h scale p (fun _ => PartData.empty) r).num ≤
      (setMaterials fluid L h scale p' (fun _ => PartData.empty) r).num := by
  rw [C46_count fluid L hL h scale hsc p hsub, C46_count fluid L hL h scale hsc p' hsub']
  exact Finset.card_le_card (Finset.monotone_filter_right _ fun k _ hk => hpp _ hk)

/-! ### C71: setting up the same particles again -/

/-- C71 is false of the code: `num` is not reset, so a second call of `set_materials` on `P` processes (for
instance by calling `create_Mat_and_Vec` again after a time step) gives `(P + 1) N` instead of the number
`N` of sub-grid points in the particle. -/
theorem C71_num_refuted (fluid : (Pos d ℝ → Bool) → Box d ℤ → Pos d ℝ → List (Pos d ℤ))
    (L : Fin d → Dir) (hL : GoodMesh L) (h : Pos d ℝ) (scale : ℕ) (hsc : 0 < scale)
    (p : Part d A) (hsub : SubEncloses h scale p) (r : Fin d → ℕ) :
    (setMaterials fluid L h scale p (setMaterials fluid L h scale p fun _ => PartData.empty) r).num =
      ((procs L).card + 1) *
        ((subGrid L scale).filter fun k => p.contains (subNode h scale k) = true).card := by
  show ∑ s ∈ procs L, (partMaterials fluid (getDMBounds L s true) h scale p _).1.num = _
  rw [sum_num fluid L hL h scale hsc p hsub]
  simp only [C46_count fluid L hL h scale hsc p hsub, Finset.sum_const, smul_eq_mul]
  ring

/-- C71: a call repeated on unchanged particles rebuilds the same local lists of surface and radial
vectors (`num` is not rebuilt, see `C71_num_refuted`). -/
theorem C71_lists (fluid : (Pos d ℝ → Bool) → Box d ℤ → Pos d ℝ → List (Pos d ℤ))
    (L : Fin d → Dir) (h : Pos d ℝ) (scale : ℕ) (p : Part d A) (r : Fin d → ℕ) :
    let once := setMaterials fluid L h scale p fun _ => PartData.empty
    (setMaterials fluid L h scale p once r).surf = (once r).surf ∧
    (setMaterials fluid L h scale p once r).radial = (once r).radial := by
  simp only [setMaterials, partMaterials]
  split_ifs <;> exact ⟨rfl, rfl⟩

/-- C71 (one call, exact): from any content of the vectors. On a process whose box meets the bounding box
of the particle the lists are rebuilt from the current particle, elsewhere they are those of before the call;
the number of surface points is the number of vectors listed by the processes that meet the particle, plus
what the other processes had before the call; the volume count is the number of sub-grid points in the
particle plus the sum of the counts of all the processes before the call. -/
theorem C71_exact (fluid : (Pos d ℝ → Bool) → Box d ℤ → Pos d ℝ → List (Pos d ℤ))
    (L : Fin d → Dir) (hL : GoodMesh L) (h : Pos d ℝ) (scale : ℕ) (hsc : 0 < scale)
    (p : Part d A) (hsub : SubEncloses h scale p) (old : (Fin d → ℕ) → PartData d) (r : Fin d → ℕ) :
    let new := setMaterials fluid L h scale p old
    let fresh := setMaterials fluid L h scale p fun _ => PartData.empty
    let meets := fun r => (getDMBounds L r true).intersect p.bbox
    (meets r → (new r).surf = (fresh r).surf ∧ (new r).radial = (fresh r).radial) ∧
    (¬ meets r → (new r).surf = (old r).surf ∧ (new r).radial = (old r).radial) ∧
    (new r).nb = (fresh r).nb + ∑ s ∈ procs L, (if meets s then 0 else (old s).nb) ∧
    (new r).num = ((subGrid L scale).filter fun k => p.contains (subNode h scale k) = true).card +
      ∑ s ∈ procs L, (old s).num := by
  intro new fresh meets
  refine ⟨fun hm => ?_, fun hm => ?_, ?_, ?_⟩
  · simp only [new, fresh, setMaterials, partMaterials]
    rw [if_pos hm, if_pos hm]
    exact ⟨rfl, rfl⟩
  · simp only [new, setMaterials, partMaterials]
    rw [if_neg hm]
    exact ⟨rfl, rfl⟩
  · show ∑ s ∈ procs L, (partMaterials fluid (getDMBounds L s true) h scale p _).1.nb =
      ∑ s ∈ procs L, (partMaterials fluid (getDMBounds L s true) h scale p _).1.nb + _
    rw [← Finset.sum_add_distrib]
    refine Finset.sum_congr rfl fun s _ => ?_
    by_cases hm : meets s
    · simp only [partMaterials]
      rw [if_pos hm, if_pos hm, if_pos hm]
      rfl
    · simp only [partMaterials]
      rw [if_neg hm, if_neg hm, if_neg hm]
      simp [PartData.empty]
  · show ∑ s ∈ procs L, (partMaterials fluid (getDMBounds L s true) h scale p _).1.num = _
    rw [sum_num fluid L hL h scale hsc p hsub, add_comm]

/-- C71 (any number of calls): after `n` calls on unchanged particles the volume count is
`1 + P + … + P^(n-1)` times the number of sub-grid points in the particle, `P` being the number of
processes. -/
theorem C71_repeat (fluid : (Pos d ℝ → Bool) → Box d ℤ → Pos d ℝ → List (Pos d ℤ))
    (L : Fin d → Dir) (hL : GoodMesh L) (h : Pos d ℝ) (scale : ℕ) (hsc : 0 < scale)
    (p : Part d A) (hsub : SubEncloses h scale p) (n : ℕ) (r : Fin d → ℕ) :
    ((setMaterials fluid L h scale p)^[n] (fun _ => PartData.empty) r).num =
      (∑ i ∈ Finset.range n, (procs L).card ^ i) *
        ((subGrid L scale).filter fun k => p.contains (subNode h scale k) = true).card := by
  induction n generalizing r with
  | zero => simp [PartData.empty]
  | succ n ih =>
    rw [Function.iterate_succ_apply']
    rw [(C71_exact fluid L hL h scale hsc p hsub _ r).2.2.2]
    simp only [ih, Finset.sum_const, smul_eq_mul]
    rw [Finset.sum_range_succ', add_mul, pow_zero, one_mul, add_comm]
    congr 1
    rw [← mul_assoc, Finset.mul_sum]
    congr 1
    exact Finset.sum_congr rfl fun i _ => by ring

end Cafes.Particle
