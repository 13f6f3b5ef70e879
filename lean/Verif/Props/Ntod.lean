/-
Property theorems for the layout of the NtoD vectors: C54.
-/
import Verif.Model.Ntod
import Mathlib.Tactic.Ring
import Mathlib.Tactic.Linarith
import Mathlib.Algebra.Order.Ring.Nat

namespace Cafes.Props
open Cafes.Ntod

/-- Number of particles of number smaller than `i` that meet the box of the process. -/
def before (inter : ℕ → Bool) (i : ℕ) : ℕ := ((List.range i).filter inter).length

theorem partSlots_eq (D T num : ℕ) : partSlots D T num = (List.range' num (D + T), num + (D + T)) := by
  unfold partSlots
  generalize D + T = m
  induction m with
  | zero => simp
  | succ m ih =>
    rw [List.range_succ, List.foldl_append, ih]
    simp [List.range'_concat, Nat.add_assoc]

theorem before_succ (inter : ℕ → Bool) (n : ℕ) : before inter (n + 1) = before inter n + if inter n then 1 else 0 := by
  unfold before
  rw [List.range_succ, List.filter_append, List.length_append]
  by_cases h : inter n = true <;> simp [h]

theorem localSize_eq (D T n : ℕ) (inter : ℕ → Bool) : localSize D T n inter = before inter n * (D + T) := by
  unfold localSize
  congr 1
  induction n with
  | zero => rfl
  | succ n ih =>
    rw [List.range_succ, List.foldl_append, ih, before_succ]
    by_cases h : inter n = true <;> simp [h]

theorem slots_eq (D T n : ℕ) (inter : ℕ → Bool) : slots D T n inter =
    (((List.range n).filter inter).map (fun i => (i, List.range' (before inter i * (D + T)) (D + T))),
      before inter n * (D + T)) := by
  unfold slots
  induction n with
  | zero => simp [before]
  | succ n ih =>
    rw [List.range_succ, List.foldl_append, ih, before_succ]
    by_cases h : inter n = true
    · simp [h, partSlots_eq, Nat.add_mul]
    · simp [h]

/-- C54 (layout): the slots used, particle after particle, are exactly the entries of the local vector, each once and
in order: none is out of bounds, none is shared and none is left. -/
theorem C54_layout (D T n : ℕ) (inter : ℕ → Bool) :
    ((slots D T n inter).1.flatMap Prod.snd) = List.range (localSize D T n inter) := by
  rw [slots_eq, localSize_eq]
  simp only [List.flatMap_map]
  induction n with
  | zero => simp [before]
  | succ n ih =>
    rw [List.range_succ, List.filter_append, List.flatMap_append, ih, before_succ]
    by_cases h : inter n = true
    · simp only [h, List.filter_cons_of_pos, List.filter_nil, List.flatMap_cons, List.flatMap_nil, List.append_nil, if_true]
      rw [List.range_eq_range', List.range_eq_range', Nat.add_mul, Nat.one_mul]
      have := List.range'_append_1 (s := 0) (m := before inter n * (D + T)) (n := D + T)
      rw [Nat.zero_add] at this
      exact this
    · simp [h]

/-- C54 (order): the particles served are those that meet the box, in increasing order, with `D + T` consecutive slots
each. -/
theorem C54_particles (D T n : ℕ) (inter : ℕ → Bool) (i : ℕ) (l : List ℕ) :
    (i, l) ∈ (slots D T n inter).1 ↔
      i < n ∧ inter i = true ∧ l = List.range' (before inter i * (D + T)) (D + T) := by
  rw [slots_eq]
  simp only [List.mem_map, List.mem_filter, List.mem_range, Prod.mk.injEq]
  constructor
  · rintro ⟨j, ⟨h1, h2⟩, rfl, h3⟩; exact ⟨h1, h2, h3.symm⟩
  · rintro ⟨h1, h2, h3⟩; exact ⟨i, ⟨h1, h2⟩, rfl, h3.symm⟩

/-- C54 (forces and torques in 3D): for `n` particles the entries read are inside the vectors and are those of the
particle. `force` and `torque` give the components of each particle, stored particle after particle. -/
theorem C54_entries3 {K : Type*} (n : ℕ) (force torque : ℕ → Fin 3 → K) (fl tl : List K)
    (hf : fl = (List.range n).flatMap fun i => (List.finRange 3).map (force i))
    (ht : tl = (List.range n).flatMap fun i => (List.finRange 3).map (torque i)) (i : ℕ) (hi : i < n) (d : Fin 3) :
    forceEntry 3 fl i d = some (force i d) ∧ torqueEntry 3 tl i d = some (torque i d) := by
  have key : ∀ (v : ℕ → Fin 3 → K) (m : ℕ), ∀ i < m, ∀ d : Fin 3,
      ((List.range m).flatMap fun i => (List.finRange 3).map (v i))[i * 3 + (d : ℕ)]? = some (v i d) := by
    intro v m
    induction m with
    | zero => intro i hi; omega
    | succ m ih =>
      intro i hi d
      have hl : ((List.range m).flatMap fun i => (List.finRange 3).map (v i)).length = m * 3 := by
        rw [List.length_flatMap]; simp
      rw [List.range_succ, List.flatMap_append]
      by_cases him : i < m
      · rw [List.getElem?_append_left (by rw [hl]; have := d.2; omega)]
        exact ih i him d
      · have : i = m := by omega
        subst this
        rw [List.getElem?_append_right (by rw [hl]; omega), hl]
        have : i * 3 + (d : ℕ) - i * 3 = d := by omega
        rw [this]
        simp
  subst hf ht
  exact ⟨key force n i hi d, key torque n i hi d⟩

/-- C54 (torques in 2D): the vector has one torque per particle, and the entry read for the particle `i` is the torque
of the particle `2 i`: it is that of the particle only for `i = 0`, and out of bounds for `2 i ≥ n`. -/
theorem C54_torques2 {K : Type*} (n : ℕ) (torque : ℕ → K) (i : ℕ) :
    torqueEntry 2 ((List.range n).map torque) i 0 = if 2 * i < n then some (torque (2 * i)) else none := by
  unfold torqueEntry
  have : i * 2 + 0 = 2 * i := by omega
  rw [this]
  split_ifs with h
  · simp [h]
  · simp; omega

/-- C54: the reading of the torques is not right for all 2D configurations: with two particles, the second one reads
out of bounds. -/
theorem C54_torques2_refuted : ¬ ∀ (n : ℕ) (torque : ℕ → ℤ) (i : ℕ), i < n →
    torqueEntry 2 ((List.range n).map torque) i 0 = some (torque i) := by
  intro h
  have := h 2 (fun i => i) 1 (by omega)
  rw [C54_torques2] at this
  simp at this

example : localSize 3 3 4 (fun i => i != 2) = 18 := by decide
example : (slots 2 1 3 (fun i => i != 1)).1 = [(0, [0, 1, 2]), (2, [3, 4, 5])] := by decide

end Cafes.Props
