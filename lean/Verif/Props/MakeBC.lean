/-
Property theorem C121: the conditions imposed on the walls are the rows that the user wrote, and only those, exactly when
there is a row for every wall.
-/
import Verif.Model.MakeBC
import Verif.Props.Dirichlet

namespace Cafes.Props
open Cafes
variable {d : ℕ} {K : Type*}

/-- A row for every wall: the two faces of every direction that is not periodic are within the `n` rows. -/
def WallsListed (L : Fin d → Dir) (n : ℕ) : Prop := ∀ i, (L i).periodic = false → 2 * i.1 + 1 < n

theorem copyRows_apply (il : List (Fin d → Cond d K)) : ∀ (arr : BC d K) (k : ℕ), k + il.length ≤ 2 * d →
    ∃ bc, copyRows arr k il = some bc ∧ (∀ f, f < k → bc f = arr f) ∧
      (∀ j (hj : j < il.length), bc (k + j) = il[j]) ∧ ∀ f, k + il.length ≤ f → bc f = arr f := by
  induction il with
  | nil => exact fun arr k _ => ⟨arr, rfl, fun _ _ => rfl, fun j hj => absurd hj (by simp), fun _ _ => rfl⟩
  | cons row il ih =>
    intro arr k hk
    rw [List.length_cons] at hk
    obtain ⟨bc, h1, h2, h3, h4⟩ := ih (Function.update arr k row) (k + 1) (by omega)
    refine ⟨bc, (if_pos (by omega)).trans h1, fun f hf => ?_, fun j hj => ?_, fun f hf => ?_⟩
    · rw [h2 f (by omega), Function.update_of_ne (by omega)]
    · cases j with
      | zero => rw [Nat.add_zero, h2 k (by omega), Function.update_self]; rfl
      | succ j =>
        have := h3 j (by simpa using hj)
        rw [show k + (j + 1) = k + 1 + j by omega, this]; rfl
    · rw [List.length_cons] at hf
      rw [h4 f (by omega), Function.update_of_ne (by omega)]

theorem copyRows_over (il : List (Fin d → Cond d K)) : ∀ (arr : BC d K) (k : ℕ), k ≤ 2 * d → 2 * d < k + il.length →
    copyRows arr k il = none := by
  induction il with
  | nil => intro arr k h1 h2; simp at h2; omega
  | cons row il ih =>
    intro arr k h1 h2
    rw [List.length_cons] at h2
    by_cases hk : k < 2 * d
    · exact (if_pos hk).trans (ih _ _ (by omega) (by omega))
    · exact if_neg hk

/-- C121 (the object): the constructor stays within its array exactly when there are at most `2 d` rows; then the first faces
hold the rows in order, and every other face what the memory held. -/
theorem C121_rows (mem : BC d K) (il : List (Fin d → Cond d K)) :
    (makeBC mem il ≠ none ↔ il.length ≤ 2 * d) ∧
    ∀ bc, makeBC mem il = some bc → (∀ j (hj : j < il.length), bc j = il[j]) ∧ ∀ f, il.length ≤ f → bc f = mem f := by
  by_cases h : il.length ≤ 2 * d
  · obtain ⟨bc, h1, -, h3, h4⟩ := copyRows_apply il mem 0 (by omega)
    have e : makeBC mem il = some bc := h1
    refine ⟨⟨fun _ => h, fun _ => by rw [e]; simp⟩, fun bc' hbc' => ?_⟩
    obtain rfl : bc = bc' := by rw [e] at hbc'; exact Option.some.inj hbc'
    exact ⟨fun j hj => by simpa using h3 j hj, fun f hf => h4 f (by omega)⟩
  · have e : makeBC mem il = none := copyRows_over il mem 0 (by omega) (by omega)
    exact ⟨⟨fun hc => absurd e hc, fun hc => absurd hc h⟩, fun bc hbc => by rw [e] at hbc; simp at hbc⟩

/-- Only the rows of the walls are read. -/
theorem setDirichlet_walls (L : Fin d → Dir) (rs : List (Fin d → ℕ)) (bc bc' : BC d K) (kernel : BCKernel d K)
    (h : ∀ i, (L i).periodic = false → bc (2 * i.1) = bc' (2 * i.1) ∧ bc (2 * i.1 + 1) = bc' (2 * i.1 + 1)) :
    setDirichlet L rs bc kernel = setDirichlet L rs bc' kernel := by
  have e : ∀ r, setDirichletImpl L r bc kernel = setDirichletImpl L r bc' kernel := fun r => by
    funext y
    unfold setDirichletImpl
    refine congrArg (fun F => List.foldl F y (List.finRange d)) (funext fun y => funext fun i => ?_)
    cases hp : (L i).periodic with
    | true => simp
    | false => rw [(h i hp).1, (h i hp).2]
  funext y
  unfold setDirichlet
  refine congrArg (fun F => List.foldl F y rs) (funext fun y => funext fun r => ?_)
  rw [e]

/-- A node of a wall. -/
theorem wall_node (L : Fin d → Dir) (hm : ∀ i, 0 < (L i).m) (i : Fin d) (hp : (L i).periodic = false) (f : ℕ)
    (hf : f = 2 * i.1 ∨ f = 2 * i.1 + 1) : ∃ g ∈ gridNodes L, OnFace L g f := by
  rcases hf with rfl | rfl
  · exact ⟨fun _ => 0, (mem_gridNodes L _).2 fun j => ⟨le_refl _, hm j⟩, (onFace_low L _ i).2 ⟨hp, rfl⟩⟩
  · refine ⟨fun j => (L j).m - 1, (mem_gridNodes L _).2 fun j => ?_, (onFace_up L _ i).2 ⟨hp, rfl⟩⟩
    have := hm j
    constructor <;> omega

/-- C121 (a wall without a row): whatever the function `φ`, there is a content of the memory for which the right-hand side
takes the values of `φ` on all of this wall, although the user wrote no condition there. -/
theorem C121_missing [Mul K] [IntCast K] (L : Fin d → Dir) (hL : ∀ i, (L i).WF) (rs : List (Fin d → ℕ))
    (hrs : AllProcs L rs) (il : List (Fin d → Cond d K)) (hil : il.length ≤ 2 * d) (φ : Pos d K → K) :
    ∃ mem bc, makeBC mem il = some bc ∧ ∀ f, il.length ≤ f → ∀ g ∈ gridNodes L, OnFace L g f →
      ∀ (h : Pos d K) (y : NodeVec d d K) c, setDirichletOnRHS L rs bc h y g c = φ fun i => (g i : K) * h i := by
  have hr := C121_rows (fun _ _ => some φ : BC d K) il
  obtain ⟨bc, hbc⟩ := Option.ne_none_iff_exists'.1 (hr.1.2 hil)
  refine ⟨_, bc, hbc, fun f hf g hg hface h y c => ?_⟩
  have hmem := (hr.2 bc hbc).2
  have hC := C26_rhs L hL rs hrs bc h y g c
  obtain ⟨ψ, f0, h1, h2, h3⟩ := hC.2.2.1 ⟨f, hface, by rw [hmem f hf]; rfl⟩
  have hle : f ≤ f0 := by
    by_contra hlt
    have := h3 f (by omega) hface
    rw [hmem f hf] at this
    simp at this
  rw [hmem f0 (by omega)] at h2
  obtain rfl : φ = ψ := Option.some.inj h2
  exact hC.1 hg φ ⟨f0, h1, by rw [hmem f0 (by omega)], h3⟩

/-- C121: the conditions imposed by `SetDirichletOnRHS`, `SetDirichletOnVec` and `SetNullDirichletOnRHS` do not depend on what
the memory held exactly when the user has written a row for every wall (so: `2 d` rows, unless the last directions are
periodic). -/
theorem C121_determined [Field K] (L : Fin d → Dir) (hL : ∀ i, (L i).WF) (hm : ∀ i, 0 < (L i).m)
    (rs : List (Fin d → ℕ)) (hrs : AllProcs L rs) (il : List (Fin d → Cond d K)) (hil : il.length ≤ 2 * d) :
    (∀ mem mem' bc bc', makeBC mem il = some bc → makeBC mem' il = some bc' →
      (∀ (h : Pos d K) y, setDirichletOnRHS L rs bc h y = setDirichletOnRHS L rs bc' h y) ∧
      (∀ x y : NodeVec d d K, setDirichletOnVec L rs bc x y = setDirichletOnVec L rs bc' x y) ∧
      ∀ y : NodeVec d d K, setNullDirichletOnRHS L rs bc y = setNullDirichletOnRHS L rs bc' y) ↔
    WallsListed L il.length := by
  constructor
  · intro hind i hp
    by_contra hlt
    obtain ⟨mem, bc, h1, h2⟩ := C121_missing L hL rs hrs il hil fun _ => (0 : K)
    obtain ⟨mem', bc', h1', h2'⟩ := C121_missing L hL rs hrs il hil fun _ => (1 : K)
    obtain ⟨g, hg, hface⟩ := wall_node L hm i hp (2 * i.1 + 1) (Or.inr rfl)
    have e0 := h2 (2 * i.1 + 1) (by omega) g hg hface (fun _ => 0) (fun _ _ => 0) i
    have e1 := h2' (2 * i.1 + 1) (by omega) g hg hface (fun _ => 0) (fun _ _ => 0) i
    rw [(hind mem mem' bc bc' h1 h1').1] at e0
    exact zero_ne_one (e0.symm.trans e1)
  · intro hw mem mem' bc bc' h1 h1'
    have hrow : ∀ i, (L i).periodic = false → bc (2 * i.1) = bc' (2 * i.1) ∧ bc (2 * i.1 + 1) = bc' (2 * i.1 + 1) :=
      fun i hp => by
        have := hw i hp
        have ha := ((C121_rows mem il).2 bc h1).1
        have hb := ((C121_rows mem' il).2 bc' h1').1
        exact ⟨(ha _ (by omega)).trans (hb _ (by omega)).symm, (ha _ this).trans (hb _ this).symm⟩
    refine ⟨fun h y => ?_, fun x y => ?_, fun y => ?_⟩
    · exact congrFun (setDirichlet_walls L rs bc bc' _ hrow) y
    · exact congrFun (setDirichlet_walls L rs bc bc' _ hrow) y
    · exact congrFun (setDirichlet_walls L rs bc bc' _ hrow) y

/-- C121 (what is imposed): with a row for every wall, at a node of the grid the right-hand side takes the value of the last
row written for a wall that contains the node and has a condition for the component; if there is none, the right-hand side is
unchanged. -/
theorem C121_imposed [Field K] (L : Fin d → Dir) (hL : ∀ i, (L i).WF) (rs : List (Fin d → ℕ)) (hrs : AllProcs L rs)
    (il : List (Fin d → Cond d K)) (hw : WallsListed L il.length) (mem bc : BC d K)
    (hbc : makeBC mem il = some bc) (h : Pos d K) (y : NodeVec d d K) (g : Pos d ℤ) (hg : g ∈ gridNodes L) (c : Fin d) :
    (∀ f (hf : f < il.length) φ, OnFace L g f → il[f] c = some φ →
      (∀ f' (hf' : f' < il.length), f < f' → OnFace L g f' → il[f'] c = none) →
      setDirichletOnRHS L rs bc h y g c = φ fun i => (g i : K) * h i) ∧
    ((∀ f (hf : f < il.length), OnFace L g f → il[f] c = none) → setDirichletOnRHS L rs bc h y g c = y g c) := by
  have hr := ((C121_rows mem il).2 bc hbc).1
  have hin : ∀ f, OnFace L g f → f < il.length := fun f hf => by
    obtain ⟨i, hp, ⟨rfl, -⟩ | ⟨rfl, -⟩⟩ := hf
    · have := hw i hp; omega
    · exact hw i hp
  have hC := C26_rhs L hL rs hrs bc h y g c
  refine ⟨fun f hf φ hface hφ hlast => hC.1 hg φ ⟨f, hface, ?_, fun f' hff hface' => ?_⟩, fun hnone => hC.2.1 ?_⟩
  · rw [hr f hf]; exact hφ
  · rw [hr f' (hin f' hface')]; exact hlast f' _ hff hface'
  · rintro ⟨-, f, hface, hs⟩
    rw [hr f (hin f hface), hnone f (hin f hface) hface] at hs
    simp at hs

/-- The rows of tests/stokes.cpp:26-30: four rows in dimension 3. -/
def stokesRows3 (K : Type*) [Field K] : List (Fin 3 → Cond 3 K) :=
  [![some fun _ => 1, some fun _ => 0, some fun _ => 0], ![some fun _ => 1, some fun _ => 0, some fun _ => 0],
   ![some fun _ => 0, some fun _ => 0, some fun _ => 0], ![some fun _ => 0, some fun _ => 0, some fun _ => 0]]

/-- C121 (tests/stokes.cpp in 3D): the list has a row for every wall exactly when the third direction is periodic; six rows are
enough in every case. -/
theorem C121_stokes3 [Field K] (L : Fin 3 → Dir) :
    (WallsListed L (stokesRows3 K).length ↔ (L 2).periodic = true) ∧ WallsListed L 6 ∧ (stokesRows3 K).length ≤ 2 * 3 := by
  refine ⟨⟨fun h => ?_, fun h i hp => ?_⟩, fun i _ => by omega, by simp [stokesRows3]⟩
  · by_contra hp
    have := h 2 (by simpa using hp)
    simp [stokesRows3] at this
  · have : i ≠ 2 := fun e => by rw [e, h] at hp; simp at hp
    have h2 : i.1 ≠ 2 := fun e => this (Fin.ext e)
    have : (stokesRows3 K).length = 4 := rfl
    omega

/-- Concrete case: on a grid of `6 x 6 x 6` nodes without periodic directions, on `3 x 3 x 3` processes, the upper wall of the
third direction can hold the value 7. -/
theorem C121_example : ∃ mem bc, makeBC mem (stokesRows3 ℚ) = some bc ∧
    ∀ (h : Pos 3 ℚ) y c, setDirichletOnRHS (fun _ => exDir) (procs fun _ : Fin 3 => exDir).toList bc h y
      (fun _ => exDir.m - 1) c = 7 := by
  obtain ⟨mem, bc, h1, h2⟩ := C121_missing (K := ℚ) (fun _ : Fin 3 => exDir) (fun _ => exDir_wf)
    (procs fun _ : Fin 3 => exDir).toList ⟨Finset.nodup_toList _, by simp⟩ (stokesRows3 ℚ) (by simp [stokesRows3])
    fun _ => 7
  refine ⟨mem, bc, h1, fun h y c => h2 5 (by simp [stokesRows3]) _ ?_ ⟨2, rfl, Or.inr ⟨rfl, rfl⟩⟩ h y c⟩
  exact (mem_gridNodes _ _).2 fun j => by decide

end Cafes.Props
