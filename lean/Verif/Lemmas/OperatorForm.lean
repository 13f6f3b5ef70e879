import Verif.Lemmas.Operator
import Verif.Spec.Operator
import Verif.Props.Mesh

namespace Cafes
open Cafes.Props
variable {d n N : ℕ} {K : Type*} [CommRing K]

theorem visited_globalElems (L : Fin d → Dir) :
    (globalElems L).visited.toFinset = gridElems L := by
  ext p; simp [gridElems, Box.mem_visited, globalElems]

theorem visited_globalNodes (L : Fin d → Dir) :
    (globalNodes L).visited.toFinset = gridNodes L := by
  ext p; simp [gridNodes, Box.mem_visited, globalNodes]

theorem mem_gridElems (L : Fin d → Dir) (e : Pos d ℤ) :
    e ∈ gridElems L ↔ ∀ i, 0 ≤ e i ∧ e i < (L i).nElem := by simp [gridElems]

theorem mem_gridNodes (L : Fin d → Dir) (e : Pos d ℤ) :
    e ∈ gridNodes L ↔ ∀ i, 0 ≤ e i ∧ e i < (L i).m := by simp [gridNodes]

/-- The property of `get_element` used by the operators. -/
def IsQ1 (elem : Pos d ℤ → Fin N → Pos d ℤ) : Prop :=
  ∀ e k i, elem e k i = e i ∨ elem e k i = e i + 1

theorem isQ1_2 : IsQ1 getElement2 := getElement2_mem
theorem isQ1_3 : IsQ1 getElement3 := getElement3_mem

theorem wrap_mem (L : Fin d → Dir) (e p : Pos d ℤ) (he : e ∈ gridElems L)
    (hp : ∀ i, 0 ≤ p i ∧ ((L i).periodic = false → p i ≤ e i + 1)) :
    wrap L p ∈ gridNodes L := by
  rw [mem_gridNodes]
  rw [mem_gridElems] at he
  intro i
  have h1 := he i
  have h2 := hp i
  unfold wrap
  unfold Dir.nElem at h1
  cases hb : (L i).periodic
  · simp only [hb, Bool.false_eq_true, if_false] at h1 ⊢
    have := h2.2 hb
    omega
  · simp only [hb, if_true] at h1 ⊢
    exact ⟨Int.emod_nonneg _ (by omega), Int.emod_lt_of_pos _ (by omega)⟩

theorem wrap_q1_mem (L : Fin d → Dir) (elem : Pos d ℤ → Fin N → Pos d ℤ) (hel : IsQ1 elem)
    (e : Pos d ℤ) (he : e ∈ gridElems L) (k : Fin N) : wrap L (elem e k) ∈ gridNodes L := by
  refine wrap_mem L e _ he fun i => ?_
  have := hel e k i
  have := (mem_gridElems L e).1 he i
  exact ⟨by omega, fun _ => by omega⟩

/-- Pairing of a scattered vector with a test vector. -/
theorem dot_scatter (LE L : Fin d → Dir) (elem : Pos d ℤ → Fin N → Pos d ℤ)
    (hm : ∀ e ∈ gridElems LE, ∀ k, wrap L (elem e k) ∈ gridNodes L)
    (v : Pos d ℤ → Fin N → Fin n → K) (z y : NodeVec d n K)
    (hy : ∀ g ∈ gridNodes L, ∀ c, y g c =
      ∑ e ∈ gridElems LE, ∑ k, if wrap L (elem e k) = g then v e k c else 0) :
    dot L z y = ∑ e ∈ gridElems LE, ∑ k, ∑ c, z (wrap L (elem e k)) c * v e k c := by
  unfold dot
  have : ∀ g ∈ gridNodes L, ∑ c, z g c * y g c =
      ∑ e ∈ gridElems LE, ∑ k, if wrap L (elem e k) = g then ∑ c, z g c * v e k c else 0 := by
    intro g hg
    simp only [hy g hg, Finset.mul_sum]
    rw [Finset.sum_comm]
    refine Finset.sum_congr rfl fun e _ => ?_
    rw [Finset.sum_comm]
    refine Finset.sum_congr rfl fun k _ => ?_
    split_ifs <;> simp
  rw [Finset.sum_congr rfl this, Finset.sum_comm]
  refine Finset.sum_congr rfl fun e he => ?_
  rw [Finset.sum_comm]
  refine Finset.sum_congr rfl fun k _ => ?_
  rw [Finset.sum_ite_eq]
  simp [hm e he k]

section q1
variable (L : Fin d → Dir) (hL : ∀ i, (L i).WF) (elem : Pos d ℤ → Fin N → Pos d ℤ)
  (hel : IsQ1 elem)
include hL hel

/-- Global form of an additive operator whose kernel scatters `v` (depending on the local input). -/
theorem blockMatrix_global (apply : (Fin d → ℕ) → NodeVec d n K → NodeVec d n K → NodeVec d n K)
    (v : NodeVec d n K → Pos d ℤ → Fin N → Fin n → K)
    (ha : ∀ r x p c, apply r x 0 p c = ∑ e ∈ (getDMBounds L r true).visited.toFinset,
      ∑ k, if p = elem e k then v x e k c else 0) (x : NodeVec d n K) (g : Pos d ℤ) (c : Fin n) :
    blockMatrix L apply x g c = ∑ e ∈ gridElems L, ∑ k,
      if wrap L (elem e k) = g then v (globalToLocal L x) e k c else 0 := by
  unfold blockMatrix localToGlobalAdd
  rw [assembly L L hL rfl elem
    (fun r hr e he k => C04_q1_window L hL r hr e he _ (hel e k))
    (fun e k => v (globalToLocal L x) e k c)
    (fun r p => apply r (globalToLocal L x) 0 p c)
    (fun r _ p => ha r (globalToLocal L x) p c)
    (C02_elements_partition L hL).1 (C02_elements_partition L hL).2 g, visited_globalElems]
  simp

theorem diagBlock_global (M : Fin N → Fin N → K) (x : NodeVec d n K) (g : Pos d ℤ) (c : Fin n) :
    blockMatrix L (diagBlockMult L elem M) x g c = ∑ e ∈ gridElems L, ∑ k1,
      if wrap L (elem e k1) = g then ∑ k2, x (wrap L (elem e k2)) c * M k1 k2 else 0 :=
  blockMatrix_global L hL elem hel _ (fun x e k1 c => ∑ k2, x (elem e k2) c * M k1 k2)
    (fun r x p c => by
      unfold diagBlockMult
      rw [iterate_add_eval _ _ (fun y : NodeVec d n K => y p c) _
        (fun e y => kernelDiagBlock_apply elem M x e y p c)]
      simp) x g c

theorem tensorBlock_global (M : Fin N → Fin N → Fin n → Fin n → K) (x : NodeVec d n K)
    (g : Pos d ℤ) (c : Fin n) :
    blockMatrix L (tensorBlockMult L elem M) x g c = ∑ e ∈ gridElems L, ∑ k1,
      if wrap L (elem e k1) = g then ∑ k2, ∑ c2, x (wrap L (elem e k2)) c2 * M k1 k2 c c2 else 0 :=
  blockMatrix_global L hL elem hel _
    (fun x e k1 c => ∑ k2, ∑ c2, x (elem e k2) c2 * M k1 k2 c c2)
    (fun r x p c => by
      unfold tensorBlockMult
      rw [iterate_add_eval _ _ (fun y : NodeVec d n K => y p c) _
        (fun e y => kernelTensorBlock_apply elem M x e y p c)]
      simp) x g c

theorem diagDiag_global (M : Fin N → Fin N → K) (g : Pos d ℤ) (c : Fin n) :
    diagMatrix L (diagDiagBlockMult L elem M) g c = ∑ e ∈ gridElems L, ∑ k1,
      if wrap L (elem e k1) = g then M k1 k1 else 0 :=
  blockMatrix_global L hL elem hel (fun r _ y => diagDiagBlockMult L elem M r y)
    (fun _ _ k1 _ => M k1 k1)
    (fun r x p c => by
      unfold diagDiagBlockMult
      rw [iterate_add_eval _ _ (fun y : NodeVec d n K => y p c) _
        (fun e y => kernelDiagDiagBlock_apply elem M e y p c)]
      simp) 0 g c

theorem dot_diagBlock (M : Fin N → Fin N → K) (z x : NodeVec d n K) :
    dot L z (blockMatrix L (diagBlockMult L elem M) x) =
      ∑ e ∈ gridElems L, ∑ k1, ∑ c, z (wrap L (elem e k1)) c *
        ∑ k2, x (wrap L (elem e k2)) c * M k1 k2 :=
  dot_scatter L L elem (wrap_q1_mem L elem hel) _ z _
    (fun g _ c => diagBlock_global L hL elem hel M x g c)

theorem dot_tensorBlock (M : Fin N → Fin N → Fin n → Fin n → K) (z x : NodeVec d n K) :
    dot L z (blockMatrix L (tensorBlockMult L elem M) x) =
      ∑ e ∈ gridElems L, ∑ k1, ∑ c, z (wrap L (elem e k1)) c *
        ∑ k2, ∑ c2, x (wrap L (elem e k2)) c2 * M k1 k2 c c2 :=
  dot_scatter L L elem (wrap_q1_mem L elem hel) _ z _
    (fun g _ c => tensorBlock_global L hL elem hel M x g c)

end q1

/-! The coupled operator. -/

section pv
variable {NP NV : ℕ} (Lv Lp : Fin d → Dir) (hLp : ∀ i, (Lp i).WF) (hpr : procs Lv = procs Lp)
  (elemP : Pos d ℤ → Fin NP → Pos d ℤ) (elemV : Pos d ℤ → Fin NV → Pos d ℤ) (hel : IsQ1 elemP)
  (hwin : ∀ r ∈ procs Lp, ∀ e ∈ (getDMBounds Lp r true).halfOpen, ∀ k,
      elemV e k ∈ (ghostWindow Lv r).halfOpen)
include hLp hpr hel hwin

theorem stokes_vel_global (apply : (Fin d → ℕ) → NodeVec d n K → NodeVec d n K → NodeVec d n K)
    (B : Fin NP → Fin NV → Fin n → K) (x1 : NodeVec d n K) (x2 : NodeVec d 1 K)
    (g : Pos d ℤ) (c : Fin n) :
    (stokesMatrix Lv Lp apply elemP elemV B x1 x2).1 g c = blockMatrix Lv apply x1 g c +
      ∑ e ∈ gridElems Lp, ∑ k, if wrap Lv (elemV e k) = g then
        ∑ ip, -(x2 (wrap Lp (elemP e ip)) 0 * B ip k c) else 0 := by
  have h := assembly Lp Lv hLp hpr elemV hwin
    (fun e k => ∑ ip, -(globalToLocal Lp x2 (elemP e ip) 0 * B ip k c))
    (fun r p => ∑ e ∈ (getDMBounds Lp r true).visited.toFinset, ∑ k, if p = elemV e k then
      ∑ ip, -(globalToLocal Lp x2 (elemP e ip) 0 * B ip k c) else 0)
    (fun r _ p => rfl)
    (C02_elements_partition Lp hLp).1 (C02_elements_partition Lp hLp).2 g
  rw [visited_globalElems] at h
  unfold globalToLocal at h
  rw [← h]
  simp only [stokesMatrix, blockMatrix, localToGlobalAdd, offDiagBlockMult, Pi.zero_apply, zero_add]
  rw [← Finset.sum_add_distrib]
  refine Finset.sum_congr rfl fun r _ => ?_
  rw [← Finset.sum_add_distrib]
  refine Finset.sum_congr rfl fun p _ => ?_
  split_ifs with hw
  · exact iterate_add_eval _ _ (fun y : NodeVec d n K × NodeVec d 1 K => y.1 p c) _
      (fun e y => kernelOffDiagBlock_vel elemP elemV B _ _ e y p c) _
  · simp

theorem stokes_pres_global (apply : (Fin d → ℕ) → NodeVec d n K → NodeVec d n K → NodeVec d n K)
    (B : Fin NP → Fin NV → Fin n → K) (x1 : NodeVec d n K) (x2 : NodeVec d 1 K)
    (g : Pos d ℤ) (c : Fin 1) :
    (stokesMatrix Lv Lp apply elemP elemV B x1 x2).2 g c =
      ∑ e ∈ gridElems Lp, ∑ ip, if wrap Lp (elemP e ip) = g then
        ∑ k, ∑ c, x1 (wrap Lv (elemV e k)) c * B ip k c else 0 := by
  have h := assembly Lp Lp hLp rfl elemP
    (fun r hr e he k => C04_q1_window Lp hLp r hr e he _ (hel e k))
    (fun e ip => ∑ k, ∑ c, globalToLocal Lv x1 (elemV e k) c * B ip k c)
    (fun r p => ∑ e ∈ (getDMBounds Lp r true).visited.toFinset, ∑ ip, if p = elemP e ip then
      ∑ k, ∑ c, globalToLocal Lv x1 (elemV e k) c * B ip k c else 0)
    (fun r _ p => rfl)
    (C02_elements_partition Lp hLp).1 (C02_elements_partition Lp hLp).2 g
  rw [visited_globalElems] at h
  unfold globalToLocal at h
  rw [← h]
  simp only [stokesMatrix, localToGlobalAdd, offDiagBlockMult, Pi.zero_apply, zero_add]
  refine Finset.sum_congr rfl fun r _ => ?_
  refine Finset.sum_congr rfl fun p _ => ?_
  split_ifs with hw
  · refine (iterate_add_eval _ _ (fun y : NodeVec d n K × NodeVec d 1 K => y.2 p c) _
      (fun e y => kernelOffDiagBlock_pres elemP elemV B _ _ e y p c) _).trans ?_
    simp [globalToLocal]
  · rfl

end pv
end Cafes
