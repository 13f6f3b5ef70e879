import Verif.Model.StokesRhs
import Verif.Props.Dirichlet

/-!
C84: what repeated calls of `setup_RHS` of the fluid problem leave in the right-hand side
(cafes/problem/stokes.hpp:311-326).
-/

namespace Cafes.Props
open Cafes Cafes.Spec

variable {d : ℕ} {K : Type*}

/-- One call: the load is added to the unconstrained entries. -/
theorem setup_once {N : ℕ} [CommRing K] (L : Fin d → Dir) (hL : ∀ i, (L i).WF)
    (rs : List (Fin d → ℕ)) (hrs : AllProcs L rs) (elem : Pos d ℤ → Fin N → Pos d ℤ)
    (hel : IsQ1 elem) (M : Fin N → Fin N → K) (src : Fin d → Cond d K) (bc : BC d K) (h : Pos d K)
    (rhs : NodeVec d d K) (g : Pos d ℤ) (c : Fin d) :
    (g ∈ gridNodes L → ∀ φ, LastCond L bc g c φ →
      stokesSetupRHS L rs src bc h (diagBlockMult L elem M) rhs g c = φ fun i => (g i : K) * h i) ∧
    (¬ (g ∈ gridNodes L ∧ Constrained L bc g c) →
      stokesSetupRHS L rs src bc h (diagBlockMult L elem M) rhs g c =
        rhs g c + blockMatrix L (diagBlockMult L elem M) (sourceVec src h) g c) := by
  unfold stokesSetupRHS
  have key : (if hasCondition src then setRhs L rs src h (diagBlockMult L elem M) rhs else rhs) g c =
      rhs g c + blockMatrix L (diagBlockMult L elem M) (sourceVec src h) g c := by
    split_ifs with hs
    · exact C29_rhs L hL rs hrs elem hel M src h rhs g c
    · have := (C29_no_source L hL rs hrs elem hel M src h rhs).2 (by simpa using hs) g c
      rw [C29_rhs L hL rs hrs elem hel M src h rhs g c] at this
      exact this.symm
  obtain ⟨a, b, -⟩ := C26_rhs L hL rs hrs bc h
    (if hasCondition src then setRhs L rs src h (diagBlockMult L elem M) rhs else rhs) g c
  exact ⟨a, fun hg => (b hg).trans key⟩

/-- C84: after `k + 1` calls of `setup_RHS`, every constrained degree of freedom holds the value of its
Dirichlet condition, and every other one holds its initial value plus `k + 1` times the load of the
source (the mass operator applied to the nodal values of the source): the calls accumulate. -/
theorem C84_accumulate {N : ℕ} [CommRing K] (L : Fin d → Dir) (hL : ∀ i, (L i).WF)
    (rs : List (Fin d → ℕ)) (hrs : AllProcs L rs) (elem : Pos d ℤ → Fin N → Pos d ℤ)
    (hel : IsQ1 elem) (M : Fin N → Fin N → K) (src : Fin d → Cond d K) (bc : BC d K) (h : Pos d K)
    (rhs : NodeVec d d K) (k : ℕ) (g : Pos d ℤ) (c : Fin d) :
    (g ∈ gridNodes L → ∀ φ, LastCond L bc g c φ →
      (stokesSetupRHS L rs src bc h (diagBlockMult L elem M))^[k + 1] rhs g c =
        φ fun i => (g i : K) * h i) ∧
    (¬ (g ∈ gridNodes L ∧ Constrained L bc g c) →
      (stokesSetupRHS L rs src bc h (diagBlockMult L elem M))^[k + 1] rhs g c =
        rhs g c + ((k + 1 : ℕ) : K) *
          blockMatrix L (diagBlockMult L elem M) (sourceVec src h) g c) := by
  induction k with
  | zero =>
    simp only [Function.iterate_succ_apply', Function.iterate_zero, id]
    obtain ⟨a, b⟩ := setup_once L hL rs hrs elem hel M src bc h rhs g c
    refine ⟨a, fun hg => ?_⟩
    rw [b hg]; simp
  | succ k ih =>
    rw [Function.iterate_succ_apply']
    obtain ⟨a, b⟩ := setup_once L hL rs hrs elem hel M src bc h
      ((stokesSetupRHS L rs src bc h (diagBlockMult L elem M))^[k + 1] rhs) g c
    refine ⟨a, fun hg => ?_⟩
    rw [b hg, ih.2 hg]
    push_cast
    ring

/-- C84 (no source): without a source term the calls after the first change nothing, so `setup_RHS` may
be called again, for instance after a change of the boundary values. -/
theorem C84_no_source {N : ℕ} [CommRing K] (L : Fin d → Dir) (hL : ∀ i, (L i).WF)
    (rs : List (Fin d → ℕ)) (hrs : AllProcs L rs) (elem : Pos d ℤ → Fin N → Pos d ℤ)
    (hel : IsQ1 elem) (M : Fin N → Fin N → K) (src : Fin d → Cond d K) (hsrc : ∀ c, src c = none)
    (bc : BC d K) (h : Pos d K) (rhs : NodeVec d d K) :
    stokesSetupRHS L rs src bc h (diagBlockMult L elem M)
        (stokesSetupRHS L rs src bc h (diagBlockMult L elem M) rhs) =
      stokesSetupRHS L rs src bc h (diagBlockMult L elem M) rhs := by
  have h0 : hasCondition src = false :=
    ((C29_no_source L hL rs hrs elem hel M src h rhs).1).2 hsrc
  funext g c
  by_cases hc : g ∈ gridNodes L ∧ Constrained L bc g c
  · obtain ⟨φ, hφ⟩ := (C26_rhs L hL rs hrs bc h rhs g c).2.2.1 hc.2
    rw [(setup_once L hL rs hrs elem hel M src bc h _ g c).1 hc.1 φ hφ,
      (setup_once L hL rs hrs elem hel M src bc h rhs g c).1 hc.1 φ hφ]
  · unfold stokesSetupRHS
    simp only [h0, Bool.false_eq_true, if_false]
    exact ((C26_rhs L hL rs hrs bc h _ g c).2.1 hc)

/-- The hypotheses are met on the 6 x 6 mesh with 3 x 3 processes, with the usual cells; the corner has a
condition and the node `(1, 1)` has none. -/
example : (∀ i, ((![exDir, exDir] : Fin 2 → Dir) i).WF) ∧
    AllProcs ![exDir, exDir] (procs ![exDir, exDir]).toList ∧ IsQ1 getElement2 ∧
    Constrained ![exDir, exDir] (fun _ _ => some fun _ : Pos 2 ℚ => (1 : ℚ)) ![0, 0] 0 ∧
    ¬ Constrained ![exDir, exDir] (fun _ _ => some fun _ : Pos 2 ℚ => (1 : ℚ)) ![1, 1] 0 := by
  refine ⟨fun i => ?_, ⟨Finset.nodup_toList _, by simp⟩, isQ1_2,
    ⟨0, ⟨0, rfl, Or.inl ⟨rfl, rfl⟩⟩, rfl⟩, ?_⟩
  · fin_cases i <;> exact exDir_wf
  · rintro ⟨f, ⟨i, -, ⟨-, hg⟩ | ⟨-, hg⟩⟩, -⟩ <;> fin_cases i <;> simp [exDir] at hg

end Cafes.Props
