/-
Property theorems for the NtoD operator on several processes: C110.
-/
import Verif.Model.NtodProcs
import Verif.Props.Ntod
import Verif.Model.Mesh
import Verif.Model.NtodPieces
import Verif.Props.Frame
import Verif.Props.Arith
import Mathlib.LinearAlgebra.FiniteDimensional.Basic
import Mathlib.LinearAlgebra.FiniteDimensional.Lemmas
import Mathlib.Algebra.BigOperators.Group.Finset.Basic

namespace Cafes.Props
open Cafes Cafes.Ntod

/-! ### The loops -/

private theorem readPart (i m : ℕ) (px : ℕ → ℝ) (vel : ℕ → ℕ → ℝ) (num : ℕ) :
    (List.range m).foldl (fun (s : (ℕ → ℕ → ℝ) × ℕ) (k : ℕ) =>
        (Function.update s.1 i (Function.update (s.1 i) k (px s.2)), s.2 + 1)) (vel, num) =
      (Function.update vel i (fun k => if k < m then px (num + k) else vel i k), num + m) := by
  induction m with
  | zero => simp
  | succ m ih =>
    rw [List.range_succ, List.foldl_append, ih]
    simp only [List.foldl_cons, List.foldl_nil, Function.update_self, Function.update_idem, Nat.add_assoc]
    refine Prod.ext ?_ rfl
    refine congrArg (Function.update vel i) (funext fun k => ?_)
    by_cases hk : k = m
    · subst hk; simp
    · rw [Function.update_of_ne hk]
      by_cases h1 : k < m
      · simp [h1, show k < m + 1 by omega]
      · simp [h1, show ¬ k < m + 1 by omega]

theorem readVel_eq (m n : ℕ) (inter : ℕ → Bool) (px : ℕ → ℝ) (vel : ℕ → ℕ → ℝ) :
    readVel m n inter px vel = (fun i k =>
      if i < n ∧ inter i = true ∧ k < m then px (before inter i * m + k) else vel i k, before inter n * m) := by
  unfold readVel
  induction n with
  | zero => simp [before]
  | succ n ih =>
    rw [List.range_succ, List.foldl_append, ih, before_succ]
    simp only [List.foldl_cons, List.foldl_nil]
    by_cases h : inter n = true
    · rw [if_pos h, readPart]
      simp only [h, if_true, Nat.add_mul, Nat.one_mul]
      refine Prod.ext ?_ rfl
      funext i k
      by_cases hi : i = n
      · subst hi
        simp [h]
      · dsimp only
        rw [Function.update_of_ne hi]
        simp only [show i < n + 1 ↔ i < n by omega]
    · rw [if_neg h]
      simp only [h]
      refine Prod.ext ?_ (by simp)
      funext i k
      by_cases hi : i = n
      · subst hi; simp [h]
      · simp only [show i < n + 1 ↔ i < n by omega]

private theorem writePart (i m : ℕ) (f : ℕ → ℕ → ℝ) (py : ℕ → ℝ) (num : ℕ) :
    (List.range m).foldl (fun (s : (ℕ → ℝ) × ℕ) (k : ℕ) => (Function.update s.1 s.2 (f i k), s.2 + 1)) (py, num) =
      (fun s => if num ≤ s ∧ s < num + m then f i (s - num) else py s, num + m) := by
  induction m with
  | zero =>
    refine Prod.ext (funext fun s => ?_) rfl
    show py s = if num ≤ s ∧ s < num + 0 then _ else py s
    rw [if_neg (by omega)]
  | succ m ih =>
    rw [List.range_succ, List.foldl_append, ih]
    simp only [List.foldl_cons, List.foldl_nil]
    refine Prod.ext (funext fun s => ?_) rfl
    dsimp only
    by_cases hs : s = num + m
    · subst hs
      rw [Function.update_self, if_pos (by omega)]
      congr 1; omega
    · rw [Function.update_of_ne hs]
      by_cases h1 : num ≤ s ∧ s < num + m
      · rw [if_pos h1, if_pos (by omega)]
      · rw [if_neg h1, if_neg (by omega)]

theorem before_mono (inter : ℕ → Bool) {i j : ℕ} (h : i ≤ j) : before inter i ≤ before inter j := by
  induction j with
  | zero => rw [Nat.le_zero.1 h]
  | succ j ih =>
    rcases Nat.lt_or_ge i (j + 1) with h1 | h1
    · rw [before_succ]; have := ih (by omega); omega
    · rw [show i = j + 1 by omega]

theorem before_lt (inter : ℕ → Bool) {i j : ℕ} (h : i < j) (hi : inter i = true) :
    before inter i + 1 ≤ before inter j := by
  have := before_mono inter (show i + 1 ≤ j by omega)
  rw [before_succ, if_pos hi] at this
  exact this

/-- The entry of the local array that holds the component `k` of the particle `i`. -/
theorem slot_lt (m n : ℕ) (inter : ℕ → Bool) {i k : ℕ} (hi : i < n) (h : inter i = true) (hk : k < m) :
    before inter i * m + k < before inter n * m := by
  have h1 := before_lt inter hi h
  calc before inter i * m + k < before inter i * m + m := by omega
    _ = (before inter i + 1) * m := by ring
    _ ≤ _ := Nat.mul_le_mul_right m h1

theorem writeForce_snd (m n : ℕ) (inter : ℕ → Bool) (f : ℕ → ℕ → ℝ) (py : ℕ → ℝ) :
    (writeForce m n inter f py).2 = before inter n * m ∧
    (∀ s, before inter n * m ≤ s → (writeForce m n inter f py).1 s = py s) ∧
    ∀ i k, i < n → inter i = true → k < m → (writeForce m n inter f py).1 (before inter i * m + k) = f i k := by
  induction n with
  | zero => exact ⟨by simp [writeForce, before], fun s _ => rfl, fun i k hi => by omega⟩
  | succ n ih =>
    obtain ⟨h1, h2, h3⟩ := ih
    have e : writeForce m (n + 1) inter f py = if inter n then
        (fun s => if before inter n * m ≤ s ∧ s < before inter n * m + m then f n (s - before inter n * m) else
          (writeForce m n inter f py).1 s, before inter n * m + m)
        else writeForce m n inter f py := by
      unfold writeForce at h1 ⊢
      rw [List.range_succ, List.foldl_append]
      simp only [List.foldl_cons, List.foldl_nil]
      by_cases h : inter n = true
      · rw [if_pos h, if_pos h, ← h1]
        exact writePart n m f _ _
      · rw [if_neg h, if_neg h]
    rw [e, before_succ]
    by_cases h : inter n = true
    · rw [if_pos h, if_pos h]
      refine ⟨by show _ = _; ring, ?_, ?_⟩
      · intro s hs
        have hs' : before inter n * m + m ≤ s := by rw [Nat.add_mul, Nat.one_mul] at hs; exact hs
        show (if _ then _ else _) = _
        rw [if_neg (by omega)]
        exact h2 s (by omega)
      · intro i k hi hin hk
        show (if _ then _ else _) = _
        by_cases hi' : i = n
        · subst hi'
          rw [if_pos (by omega)]
          congr 1; omega
        · have hlt : i < n := by omega
          have := slot_lt m n inter hlt hin hk
          rw [if_neg (by omega)]
          exact h3 i k hlt hin hk
    · rw [if_neg h, if_neg h]
      refine ⟨by simpa using h1, by simpa using h2, ?_⟩
      intro i k hi hin hk
      by_cases hi' : i = n
      · subst hi'; exact absurd hin h
      · exact h3 i k (by omega) hin hk

/-! ### C110 -/

/-- On one process all the particles are met. -/
def oneMeets : Unit → ℕ → Bool := fun _ _ => true

section
variable {R : Type*} {D T n : ℕ} {inter : R → ℕ → Bool}

/-- The entry of a distributed vector that belongs to the component `k` of the particle `i` on the process `r`. -/
def slotOf (r : R) (i : ℕ) (hi : i < n) (h : inter r i = true) (k : ℕ) (hk : k < D + T) :
    Fin (localSize D T n (inter r)) :=
  ⟨before (inter r) i * (D + T) + k, by rw [localSize_eq]; exact slot_lt _ _ _ hi h hk⟩

/-- C110 (velocities): after the copy a process has the velocities of its part of the vector for the particles whose box
meets its box. -/
theorem C110_seen (old : R → ℕ → ℕ → ℝ) (x : NVec D T n inter) (r : R) (i : ℕ) (hi : i < n) (h : inter r i = true) (k : ℕ)
    (hk : k < D + T) : heldVel old x r i k = x r (slotOf r i hi h k hk) := by
  unfold heldVel
  rw [readVel_eq]
  show (if _ then _ else _) = _
  rw [if_pos ⟨hi, h, hk⟩]
  exact dif_pos (slotOf r i hi h k hk).2

/-- C110 (velocities): and keeps, whatever the vector, the velocities it had for all the others. -/
theorem C110_unseen (old : R → ℕ → ℕ → ℝ) (x : NVec D T n inter) (r : R) (i : ℕ) (h : inter r i = false) :
    heldVel old x r i = old r i := by
  unfold heldVel
  rw [readVel_eq]
  funext k
  show (if _ then _ else _) = _
  rw [if_neg (by simp [h])]

/-- C110 (forces): the entries of the result are the forces of the particles, as each process computes them. -/
theorem C110_forces (force : (R → ℕ → ℕ → ℝ) → ℕ → ℕ → ℝ) (sing : (ℕ → ℕ → ℝ) → ℕ → ℕ → ℝ) (old : R → ℕ → ℕ → ℝ)
    (x : NVec D T n inter) (r : R) (i : ℕ) (hi : i < n) (h : inter r i = true) (k : ℕ) (hk : k < D + T) :
    ntodProcs force sing old x r (slotOf r i hi h k hk) = force (heldVel old x) i k + sing (heldVel old x r) i k :=
  (writeForce_snd (D + T) n (inter r) _ _).2.2 i k hi h hk

variable [Fintype R]

/-- C110 (size): the number of unknowns of the whole problem counts each particle once for every process whose box its box
meets. -/
theorem C110_size : ∑ r, localSize D T n (inter r) =
    ∑ i ∈ Finset.range n, (Finset.univ.filter fun r => inter r i = true).card * (D + T) := by
  simp only [localSize_eq]
  rw [← Finset.sum_mul, ← Finset.sum_mul]
  congr 1
  have : ∀ r : R, before (inter r) n = ∑ i ∈ Finset.range n, if inter r i = true then 1 else 0 := by
    intro r
    induction n with
    | zero => simp [before]
    | succ n ih => rw [before_succ, ih, Finset.sum_range_succ]
  simp only [this]
  rw [Finset.sum_comm]
  refine Finset.sum_congr rfl fun i _ => ?_
  rw [Finset.card_filter]

/-- C110 (size): when every particle is in the domain, the problem has one velocity and one angular velocity per particle
exactly when no particle meets the boxes of two processes. -/
theorem C110_size_iff (hm : 0 < D + T) (hall : ∀ i < n, ∃ r, inter r i = true) :
    ∑ r, localSize D T n (inter r) = n * (D + T) ↔
      ∀ i < n, ∀ r r', inter r i = true → inter r' i = true → r = r' := by
  classical
  have hone : ∀ i ∈ Finset.range n, 1 ≤ (Finset.univ.filter fun r => inter r i = true).card := by
    intro i hi
    obtain ⟨r, hr⟩ := hall i (Finset.mem_range.1 hi)
    exact Finset.card_pos.2 ⟨r, by simp [hr]⟩
  rw [C110_size, ← Finset.sum_mul, Nat.mul_left_inj (by omega)]
  have hn : n = ∑ i ∈ Finset.range n, 1 := by simp
  constructor
  · intro h i hi r r' hr hr'
    have hsum : ∑ i ∈ Finset.range n, 1 = ∑ i ∈ Finset.range n, (Finset.univ.filter fun r => inter r i = true).card := by
      rw [h]; exact hn.symm
    have := (Finset.sum_eq_sum_iff_of_le hone).1 hsum i (Finset.mem_range.2 hi)
    exact Finset.card_le_one.1 this.ge r (by simp [hr]) r' (by simp [hr'])
  · intro h
    refine Eq.trans (Finset.sum_congr rfl fun i hi => ?_) hn.symm
    refine le_antisymm (Finset.card_le_one.2 fun a ha b hb => ?_) (hone i hi)
    exact h i (Finset.mem_range.1 hi) a b (by simpa using ha) (by simpa using hb)

omit [Fintype R] in
/-- C110 (copies): without pair of close particles, the results for the same particle on two processes are equal, whatever
the velocities. -/
theorem C110_copies (force : (R → ℕ → ℕ → ℝ) → ℕ → ℕ → ℝ) (old : R → ℕ → ℕ → ℝ) (x : NVec D T n inter) (r r' : R) (i : ℕ)
    (hi : i < n) (h : inter r i = true) (h' : inter r' i = true) (k : ℕ) (hk : k < D + T) :
    ntodProcs force 0 old x r (slotOf r i hi h k hk) = ntodProcs force 0 old x r' (slotOf r' i hi h' k hk) := by
  rw [C110_forces, C110_forces]
  rfl

/-- C110 (not determined): if the box of a particle meets those of two processes and no pair is close, the operator, when
linear, sends a non-zero vector to zero: the problem does not determine the velocities, and the two copies of that particle
are not tied together. -/
theorem C110_kernel [DecidableEq R] (force : (R → ℕ → ℕ → ℝ) → ℕ → ℕ → ℝ) (old : R → ℕ → ℕ → ℝ)
    (A : NVec D T n inter →ₗ[ℝ] NVec D T n inter) (hA : ∀ x, A x = ntodProcs force 0 old x) (hm : 0 < D + T)
    (i : ℕ) (hi : i < n) (r r' : R) (hne : r ≠ r') (h : inter r i = true) (h' : inter r' i = true) :
    ∃ x : NVec D T n inter, x ≠ 0 ∧ ntodProcs force 0 old x = 0 := by
  by_contra hcon
  have hinj : Function.Injective A := by
    rw [← LinearMap.ker_eq_bot, LinearMap.ker_eq_bot']
    intro x hx
    by_contra hx0
    exact hcon ⟨x, hx0, by rw [← hA]; exact hx⟩
  obtain ⟨x, hx⟩ := (LinearMap.injective_iff_surjective.1 hinj) (Function.update 0 r fun _ => (1 : ℝ))
  have hc := C110_copies force old x r r' i hi h h' 0 hm
  rw [← hA, hx, Function.update_self, Function.update_of_ne (Ne.symm hne)] at hc
  exact one_ne_zero hc

omit [Fintype R] in
/-- C110 (same result): whatever the number of processes, if the copies of the velocity of each particle are those of a
vector `x1` of the one-process problem, and no pair is close, the result has for each particle, on each process that meets
it, the forces of the one-process problem. `force` and `force1` are the forces as functions of the velocities held; the
former only uses the velocity of a particle on the processes that meet it. -/
theorem C110_same (force : (R → ℕ → ℕ → ℝ) → ℕ → ℕ → ℝ) (force1 : (Unit → ℕ → ℕ → ℝ) → ℕ → ℕ → ℝ)
    (hforce : ∀ v v1, (∀ r i k, i < n → inter r i = true → k < D + T → v r i k = v1 () i k) → force v = force1 v1)
    (old : R → ℕ → ℕ → ℝ) (old1 : Unit → ℕ → ℕ → ℝ) (x : NVec D T n inter)
    (x1 : NVec D T n oneMeets)
    (hx : ∀ r i (hi : i < n) (h : inter r i = true) k (hk : k < D + T),
      x r (slotOf r i hi h k hk) = x1 () (slotOf (inter := oneMeets) () i hi rfl k hk))
    (r : R) (i : ℕ) (hi : i < n) (h : inter r i = true) (k : ℕ) (hk : k < D + T) :
    ntodProcs force 0 old x r (slotOf r i hi h k hk) = ntodProcs force1 0 old1 x1 () (slotOf (inter := oneMeets) () i hi rfl k hk) := by
  refine (C110_forces force 0 old x r i hi h k hk).trans (Eq.trans ?_ (C110_forces force1 0 old1 x1 () i hi rfl k hk).symm)
  rw [hforce (heldVel old x) (heldVel old1 x1)]
  · rfl
  · intro r i k hi h hk
    rw [C110_seen _ _ _ _ hi h _ hk, C110_seen _ _ _ _ hi rfl _ hk]
    exact hx r i hi h k hk

end

/-! ### C110: which processes meet a particle -/

/-- C110 (crossing): a particle whose box holds the first row of nodes of a process meets that process and the one before it
in that direction, as soon as it meets one of them. -/
theorem C110_crossing {d : ℕ} (L : Fin d → Dir) (hL : ∀ i, (L i).WF) (r : Fin d → ℕ) (c : Fin d) (hr : r c + 1 < (L c).l.length)
    (b : Box d ℤ) (h1 : b.bl c ≤ (L c).xs (r c + 1)) (h2 : (L c).xs (r c + 1) ≤ b.ur c)
    (h : (getDMBounds L r true).intersect b = true) :
    (getDMBounds L (Function.update r c (r c + 1)) true).intersect b = true := by
  unfold Box.intersect at h ⊢
  rw [List.all_eq_true] at h ⊢
  intro i hi
  by_cases hic : i = c
  · subst hic
    have hx : 0 < (L i).xm (r i + 1) := by
      unfold Dir.xm
      rw [List.getD_eq_getElem?_getD, List.getElem?_eq_getElem hr, Option.getD_some]
      exact (hL i).pos _ (List.getElem_mem _)
    simp only [getDMBounds, Function.update_self, Bool.and_eq_true, Bool.not_eq_true', decide_eq_false_iff_not]
    refine ⟨by omega, ?_⟩
    split_ifs <;> omega
  · have := h i hi
    simpa [getDMBounds, Function.update_of_ne hic] using this

end Cafes.Props

namespace Cafes.Props
open Cafes Cafes.Ntod Cafes.Sing Cafes.Geometry

/-- The particle `b` as a process sees it when it holds the velocity components `v`. -/
noncomputable def heldBall (b : Ball 2) (v : ℕ → ℝ) : Ball 2 := { b with velocity := ![v 0, v 1] }

/-- C110 (close pairs): the singular flow a process builds for a pair does not depend on the velocity given to a particle
whose box does not meet the box of the process. -/
theorem C110_stale {R : Type*} {n : ℕ} {inter : R → ℕ → Bool} (b1 b2 : Ball 2) (h : ℝ) (old : R → ℕ → ℕ → ℝ)
    (x x' : NVec 2 1 n inter) (r : R) (i j : ℕ) (hj : inter r j = false) (hi : heldVel old x r i = heldVel old x' r i) :
    mkSing2 (heldBall b1 (heldVel old x r i)) (heldBall b2 (heldVel old x r j)) h 4 =
      mkSing2 (heldBall b1 (heldVel old x' r i)) (heldBall b2 (heldVel old x' r j)) h 4 := by
  rw [C110_unseen old x r j hj, C110_unseen old x' r j hj, hi]

/-- A mesh of 71 by 41 velocity nodes cut in two in the first direction. -/
def exCut : Fin 2 → Dir := ![velDir 36 false [17, 19], velDir 21 false [21]]

/-- Two discs of radius 1 at distance 9/10 of each other, one on each side of the cut. -/
noncomputable def exPairBall (i : ℕ) : Ball 2 := ⟨if i = 0 then ![2, 2] else ![49 / 10, 2], 0, 1⟩

/-- Their boxes, for the step 1/10. -/
noncomputable def exPairBox (i : ℕ) : Box 2 ℤ :=
  intBox ⟨fun c => (exPairBall i).center c - 1, fun c => (exPairBall i).center c + 1⟩ fun _ => 1 / 10

/-- The process `r` meets the particle `i`. -/
noncomputable def exMeets (r : Fin 2) (i : ℕ) : Bool := (getDMBounds exCut ![r, 0] true).intersect (exPairBox i)

theorem exPairBox_eq : exPairBox 0 = ⟨![9, 9], ![31, 31]⟩ ∧ exPairBox 1 = ⟨![38, 9], ![60, 31]⟩ := by
  have key : ∀ (x : ℝ) (z : ℤ), x = z → truncInt x = z := fun x z h => by rw [h]; exact truncInt_intCast z
  constructor
  · unfold exPairBox intBox
    congr 1 <;> (funext c; fin_cases c) <;> apply key <;>
      norm_num [posSubScal, posAddScal, posDiv, exPairBall, compLoop_apply]
  · unfold exPairBox intBox
    congr 1 <;> (funext c; fin_cases c) <;> apply key <;>
      norm_num [posSubScal, posAddScal, posDiv, exPairBall, compLoop_apply]

theorem exMeets_eq : exMeets 0 0 = true ∧ exMeets 0 1 = false ∧ exMeets 1 0 = false ∧ exMeets 1 1 = true := by
  unfold exMeets
  rw [exPairBox_eq.1, exPairBox_eq.2]
  refine ⟨by decide, by decide, by decide, by decide⟩

/-- The vector that leaves the first disc at rest and moves the second one towards it. -/
def exTowards : NVec 2 1 2 exMeets := fun r s => if r = 1 ∧ s.1 = 0 then -1 else 0

theorem exTowards_held : (heldVel (fun _ _ _ => 0) exTowards 0 0 0 = 0 ∧ heldVel (fun _ _ _ => 0) exTowards 0 0 1 = 0 ∧
    heldVel (fun _ _ _ => 0) exTowards 0 1 0 = 0 ∧ heldVel (fun _ _ _ => 0) exTowards 0 1 1 = 0) ∧
    (heldVel (fun _ _ _ => 0) exTowards 1 0 0 = 0 ∧ heldVel (fun _ _ _ => 0) exTowards 1 0 1 = 0 ∧
    heldVel (fun _ _ _ => 0) exTowards 1 1 0 = -1 ∧ heldVel (fun _ _ _ => 0) exTowards 1 1 1 = 0) := by
  obtain ⟨h00, h01, h10, h11⟩ := exMeets_eq
  refine ⟨⟨?_, ?_, ?_, ?_⟩, ?_, ?_, ?_, ?_⟩
  · rw [C110_seen _ _ _ _ (by norm_num) h00 _ (by norm_num)]; simp [exTowards]
  · rw [C110_seen _ _ _ _ (by norm_num) h00 _ (by norm_num)]; simp [exTowards]
  · rw [C110_unseen _ _ _ _ h01]
  · rw [C110_unseen _ _ _ _ h01]
  · rw [C110_unseen _ _ _ _ h10]
  · rw [C110_unseen _ _ _ _ h10]
  · rw [C110_seen _ _ _ _ (by norm_num) h11 _ (by norm_num)]; simp [exTowards, slotOf, before, List.range_succ, h10]
  · rw [C110_seen _ _ _ _ (by norm_num) h11 _ (by norm_num)]; simp [exTowards, slotOf, before, List.range_succ, h10]

/-- C110 (close pairs, refuted): two discs, one on each side of the cut between two processes, the second one moving towards
the first: the two processes build the singular flow of the same pair with different velocities, one of them with none. -/
theorem C110_sing_refuted : ∃ S0 S1 : Singularity 2,
    mkSing2 (heldBall (exPairBall 0) (heldVel (fun _ _ _ => 0) exTowards 0 0))
      (heldBall (exPairBall 1) (heldVel (fun _ _ _ => 0) exTowards 0 1)) (1 / 10) 4 = some S0 ∧
    mkSing2 (heldBall (exPairBall 0) (heldVel (fun _ _ _ => 0) exTowards 1 0))
      (heldBall (exPairBall 1) (heldVel (fun _ _ _ => 0) exTowards 1 1)) (1 / 10) 4 = some S1 ∧
    S0.UN = 0 ∧ S1.UN = -1 := by
  obtain ⟨⟨a1, a2, a3, a4⟩, b1, b2, b3, b4⟩ := exTowards_held
  have hd : ∀ v w : ℕ → ℝ, distance (heldBall (exPairBall 0) v) (heldBall (exPairBall 1) w) = 29 / 10 := by
    intro v w
    unfold distance
    rw [innerProd_eq]
    simp only [Geometry.dot, Fin.sum_univ_two, positionDiff, heldBall, exPairBall]
    norm_num
    rw [show (841 : ℝ) = 29 ^ 2 by norm_num, show (100 : ℝ) = 10 ^ 2 by norm_num, Real.sqrt_sq (by norm_num),
      Real.sqrt_sq (by norm_num)]
  have hm : ∀ v w : ℕ → ℝ, ∃ S, mkSing2 (heldBall (exPairBall 0) v) (heldBall (exPairBall 1) w) (1 / 10) 4 = some S ∧
      S.UN = w 0 - v 0 := by
    intro v w
    unfold mkSing2 mkSing
    simp only [hd]
    rw [if_pos (by norm_num [heldBall, exPairBall])]
    refine ⟨_, rfl, ?_⟩
    have hd' := hd v w
    simp only [heldBall, exPairBall] at hd'
    norm_num at hd'
    simp only [constructBase2, innerProd_eq, Geometry.dot, Fin.sum_univ_two, velocityDiff, vecDivScal, compLoop_apply,
      positionDiff, heldBall, exPairBall]
    norm_num
    rw [hd']
    norm_num
  obtain ⟨S0, h0, e0⟩ := hm (heldVel (fun _ _ _ => 0) exTowards 0 0) (heldVel (fun _ _ _ => 0) exTowards 0 1)
  obtain ⟨S1, h1, e1⟩ := hm (heldVel (fun _ _ _ => 0) exTowards 1 0) (heldVel (fun _ _ _ => 0) exTowards 1 1)
  refine ⟨S0, S1, h0, h1, ?_, ?_⟩
  · rw [e0, a3, a1, sub_zero]
  · rw [e1, b3, b1, sub_zero]

/-- A particle in the middle of the cut: both processes meet it, the problem has six unknowns instead of three, and (for a
force opposite to the velocity held by the first process) a non-zero vector gives no force. -/
example : ∑ r : Fin 2, localSize 2 1 1 ((fun _ _ => true : Fin 2 → ℕ → Bool) r) = 6 ∧
    ∃ x : NVec 2 1 1 (fun _ _ => true : Fin 2 → ℕ → Bool), x ≠ 0 ∧
      ntodProcs (fun v i k => -v 0 i k) 0 (fun _ _ _ => 0) x = 0 := by
  refine ⟨by decide, ?_⟩
  have hsize : localSize 2 1 1 (fun _ => true) = 3 := by decide
  refine ⟨fun r _ => if r = 1 then 1 else 0, ?_, ?_⟩
  · intro h
    have := congrFun (congrFun h 1) ⟨0, by decide⟩
    norm_num at this
  · funext r s
    have hs : s.1 < 3 := lt_of_lt_of_eq s.2 hsize
    have e : s = slotOf (inter := (fun _ _ => true : Fin 2 → ℕ → Bool)) r 0 (by norm_num) rfl s.1 hs := by
      apply Fin.ext
      simp [slotOf, before]
    rw [e, C110_forces]
    rw [C110_seen _ _ _ _ (by norm_num) rfl _ hs]
    norm_num

end Cafes.Props
