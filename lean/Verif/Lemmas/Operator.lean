import Verif.Model.Operator
import Verif.Lemmas.MeshSum
import Verif.Lemmas.Prelude
import Mathlib.Algebra.BigOperators.Ring.Finset
import Mathlib.Algebra.BigOperators.Pi

namespace Cafes
variable {d n N : ℕ} {K : Type*} [CommRing K]

/-- A fold of steps that each add `g k` at the observed entry adds their sum. -/
theorem foldl_add_eval {α σ : Type*} (l : List α) (step : σ → α → σ) (obs : σ → K) (g : α → K)
    (h : ∀ s a, obs (step s a) = obs s + g a) (s : σ) :
    obs (l.foldl step s) = obs s + (l.map g).sum := by
  induction l generalizing s with
  | nil => simp
  | cons a l ih => simp [ih, h, add_assoc]

theorem foldl_finRange_eval {m : ℕ} {σ : Type*} (step : σ → Fin m → σ) (obs : σ → K)
    (g : Fin m → K) (h : ∀ s a, obs (step s a) = obs s + g a) (s : σ) :
    obs ((List.finRange m).foldl step s) = obs s + ∑ a, g a := by
  rw [foldl_add_eval _ step obs g h, Fin.sum_univ_def]

theorem addAt_apply (y : NodeVec d n K) (p q : Pos d ℤ) (c e : Fin n) (v : K) :
    addAt y p c v q e = y q e + if q = p ∧ e = c then v else 0 := by
  unfold addAt; split_ifs <;> simp

theorem kernelDiagBlock_apply (elem : Pos d ℤ → Fin N → Pos d ℤ) (M : Fin N → Fin N → K)
    (x : NodeVec d n K) (pos : Pos d ℤ) (y : NodeVec d n K) (q : Pos d ℤ) (e : Fin n) :
    kernelDiagBlock elem M x pos y q e = y q e +
      ∑ k1, if q = elem pos k1 then ∑ k2, x (elem pos k2) e * M k1 k2 else 0 := by
  unfold kernelDiagBlock
  refine foldl_finRange_eval _ (fun y => y q e) _ (fun y k1 => ?_) y
  refine (foldl_finRange_eval _ (fun y : NodeVec d n K => y q e)
    (fun k2 => if q = elem pos k1 then x (elem pos k2) e * M k1 k2 else 0)
    (fun y k2 => ?_) y).trans ?_
  · refine (foldl_finRange_eval _ (fun y : NodeVec d n K => y q e)
      (fun c => if q = elem pos k1 ∧ e = c then x (elem pos k2) c * M k1 k2 else 0)
      (fun y c => addAt_apply _ _ _ _ _ _) y).trans ?_
    by_cases hq : q = elem pos k1 <;> simp [hq]
  · by_cases hq : q = elem pos k1 <;> simp [hq]

theorem kernelTensorBlock_apply (elem : Pos d ℤ → Fin N → Pos d ℤ)
    (M : Fin N → Fin N → Fin n → Fin n → K)
    (x : NodeVec d n K) (pos : Pos d ℤ) (y : NodeVec d n K) (q : Pos d ℤ) (e : Fin n) :
    kernelTensorBlock elem M x pos y q e = y q e +
      ∑ k1, if q = elem pos k1 then ∑ k2, ∑ d2, x (elem pos k2) d2 * M k1 k2 e d2 else 0 := by
  unfold kernelTensorBlock
  refine foldl_finRange_eval _ (fun y => y q e) _ (fun y k1 => ?_) y
  refine (foldl_finRange_eval _ (fun y : NodeVec d n K => y q e)
    (fun k2 => if q = elem pos k1 then ∑ d2, x (elem pos k2) d2 * M k1 k2 e d2 else 0)
    (fun y k2 => ?_) y).trans ?_
  · refine (foldl_finRange_eval _ (fun y : NodeVec d n K => y q e)
      (fun d1 => if q = elem pos k1 ∧ e = d1 then ∑ d2, x (elem pos k2) d2 * M k1 k2 d1 d2 else 0)
      (fun y d1 => ?_) y).trans ?_
    · refine (foldl_finRange_eval _ (fun y : NodeVec d n K => y q e)
        (fun d2 => if q = elem pos k1 ∧ e = d1 then x (elem pos k2) d2 * M k1 k2 d1 d2 else 0)
        (fun y d2 => addAt_apply _ _ _ _ _ _) y).trans ?_
      by_cases hq : q = elem pos k1 ∧ e = d1 <;> simp [hq]
    by_cases hq : q = elem pos k1 <;> simp [hq]
  · by_cases hq : q = elem pos k1 <;> simp [hq]

theorem kernelDiagDiagBlock_apply (elem : Pos d ℤ → Fin N → Pos d ℤ) (M : Fin N → Fin N → K)
    (pos : Pos d ℤ) (y : NodeVec d n K) (q : Pos d ℤ) (e : Fin n) :
    kernelDiagDiagBlock elem M pos y q e = y q e +
      ∑ k1, if q = elem pos k1 then M k1 k1 else 0 := by
  unfold kernelDiagDiagBlock
  refine foldl_finRange_eval _ (fun y => y q e) _ (fun y k1 => ?_) y
  refine (foldl_finRange_eval _ (fun y : NodeVec d n K => y q e)
    (fun c => if q = elem pos k1 ∧ e = c then M k1 k1 else 0)
    (fun y c => addAt_apply _ _ _ _ _ _) y).trans ?_
  by_cases hq : q = elem pos k1 <;> simp [hq]

theorem kernelOffDiagBlock_vel {NP NV : ℕ} (elemP : Pos d ℤ → Fin NP → Pos d ℤ)
    (elemV : Pos d ℤ → Fin NV → Pos d ℤ) (B : Fin NP → Fin NV → Fin n → K)
    (x1 : NodeVec d n K) (x2 : NodeVec d 1 K) (pos : Pos d ℤ)
    (y : NodeVec d n K × NodeVec d 1 K) (q : Pos d ℤ) (e : Fin n) :
    (kernelOffDiagBlock elemP elemV B x1 x2 pos y).1 q e = y.1 q e +
      ∑ iv, if q = elemV pos iv then ∑ ip, -(x2 (elemP pos ip) 0 * B ip iv e) else 0 := by
  unfold kernelOffDiagBlock
  refine foldl_finRange_eval _ (fun y : NodeVec d n K × NodeVec d 1 K => y.1 q e) _
    (fun y iv => ?_) y
  refine (foldl_finRange_eval _ (fun y : NodeVec d n K × NodeVec d 1 K => y.1 q e)
    (fun ip => if q = elemV pos iv then -(x2 (elemP pos ip) 0 * B ip iv e) else 0)
    (fun y ip => ?_) y).trans ?_
  · refine (foldl_finRange_eval _ (fun y : NodeVec d n K × NodeVec d 1 K => y.1 q e)
      (fun c => if q = elemV pos iv ∧ e = c then -(x2 (elemP pos ip) 0 * B ip iv c) else 0)
      (fun y c => addAt_apply _ _ _ _ _ _) y).trans ?_
    by_cases hq : q = elemV pos iv <;> simp [hq]
  · by_cases hq : q = elemV pos iv <;> simp [hq]

theorem kernelOffDiagBlock_pres {NP NV : ℕ} (elemP : Pos d ℤ → Fin NP → Pos d ℤ)
    (elemV : Pos d ℤ → Fin NV → Pos d ℤ) (B : Fin NP → Fin NV → Fin n → K)
    (x1 : NodeVec d n K) (x2 : NodeVec d 1 K) (pos : Pos d ℤ)
    (y : NodeVec d n K × NodeVec d 1 K) (q : Pos d ℤ) (e : Fin 1) :
    (kernelOffDiagBlock elemP elemV B x1 x2 pos y).2 q e = y.2 q e +
      ∑ ip, if q = elemP pos ip then ∑ iv, ∑ c, x1 (elemV pos iv) c * B ip iv c else 0 := by
  have he : e = 0 := Subsingleton.elim _ _
  subst he
  have : (∑ ip, if q = elemP pos ip then ∑ iv, ∑ c, x1 (elemV pos iv) c * B ip iv c else 0) =
      ∑ iv, ∑ ip, if q = elemP pos ip then ∑ c, x1 (elemV pos iv) c * B ip iv c else 0 := by
    rw [Finset.sum_comm]
    refine Finset.sum_congr rfl fun ip _ => ?_
    by_cases hq : q = elemP pos ip <;> simp [hq]
  rw [this]
  unfold kernelOffDiagBlock
  refine foldl_finRange_eval _ (fun y : NodeVec d n K × NodeVec d 1 K => y.2 q 0) _
    (fun y iv => ?_) y
  refine foldl_finRange_eval _ (fun y : NodeVec d n K × NodeVec d 1 K => y.2 q 0) _
    (fun y ip => ?_) y
  refine (foldl_finRange_eval _ (fun y : NodeVec d n K × NodeVec d 1 K => y.2 q 0)
      (fun c => if q = elemP pos ip ∧ (0 : Fin 1) = 0 then x1 (elemV pos iv) c * B ip iv c else 0)
      (fun y c => addAt_apply _ _ _ _ _ _) y).trans ?_
  by_cases hq : q = elemP pos ip <;> simp [hq]

/-- Effect of `iterate` of an additive kernel at one entry. -/
theorem iterate_add_eval {σ : Type*} (b : Box d ℤ) (f : Pos d ℤ → σ → σ) (obs : σ → K)
    (g : Pos d ℤ → K) (h : ∀ e s, obs (f e s) = obs s + g e) (s : σ) :
    obs (iterate b f s) = obs s + ∑ e ∈ b.visited.toFinset, g e := by
  rw [iterate_eq_foldl, foldl_add_eval _ _ obs g (fun s a => h a s), sum_visited_eq]

theorem mem_visited_toFinset (b : Box d ℤ) (p : Pos d ℤ) :
    p ∈ b.visited.toFinset ↔ p ∈ b.halfOpen := by
  rw [List.mem_toFinset, b.mem_visited]; rfl

/-- Assembly: contributions `v e k` scattered to the nodes `elem e k` of the elements of all the
processes end up, after the parallel sum, at the grid nodes behind them, each element once. -/
theorem assembly (LE L : Fin d → Dir) (hLE : ∀ i, (LE i).WF) (hp : procs L = procs LE)
    (elem : Pos d ℤ → Fin N → Pos d ℤ)
    (hwin : ∀ r ∈ procs LE, ∀ e ∈ (getDMBounds LE r true).halfOpen, ∀ k,
      elem e k ∈ (ghostWindow L r).halfOpen)
    (v : Pos d ℤ → Fin N → K) (yl : (Fin d → ℕ) → Pos d ℤ → K)
    (hy : ∀ r ∈ procs LE, ∀ p, yl r p = ∑ e ∈ (getDMBounds LE r true).visited.toFinset,
      ∑ k, if p = elem e k then v e k else 0)
    (h1 : ∀ e ∈ (globalElems LE).halfOpen,
      ∃! r, r ∈ procs LE ∧ e ∈ (getDMBounds LE r true).halfOpen)
    (h2 : ∀ r ∈ procs LE, (getDMBounds LE r true).halfOpen ⊆ (globalElems LE).halfOpen)
    (g : Pos d ℤ) :
    (∑ r ∈ procs L, ∑ p ∈ (ghostWindow L r).visited.toFinset,
      if wrap L p = g then yl r p else 0) =
    ∑ e ∈ (globalElems LE).visited.toFinset, ∑ k, if wrap L (elem e k) = g then v e k else 0 := by
  have hsum := sum_procs_visited (procs LE) (fun r => getDMBounds LE r true) (globalElems LE) h1 h2
    (fun e => ∑ k, if wrap L (elem e k) = g then v e k else 0)
  simp only [sum_visited_eq] at hsum
  rw [← hsum, hp]
  refine Finset.sum_congr rfl fun r hr => ?_
  have : ∀ p, (if wrap L p = g then yl r p else 0) =
      ∑ e ∈ (getDMBounds LE r true).visited.toFinset,
      ∑ k, if p = elem e k then (if wrap L (elem e k) = g then v e k else 0) else 0 := by
    intro p
    by_cases hw : wrap L p = g
    · rw [if_pos hw, hy r hr p]
      refine Finset.sum_congr rfl fun e _ => Finset.sum_congr rfl fun k _ => ?_
      by_cases hpe : p = elem e k
      · rw [if_pos hpe, if_pos hpe, ← hpe, if_pos hw]
      · rw [if_neg hpe, if_neg hpe]
    · rw [if_neg hw]
      symm
      refine Finset.sum_eq_zero fun e _ => Finset.sum_eq_zero fun k _ => ?_
      by_cases hpe : p = elem e k
      · rw [if_pos hpe, ← hpe, if_neg hw]
      · rw [if_neg hpe]
  simp only [this]
  rw [Finset.sum_comm]
  refine Finset.sum_congr rfl fun e he => ?_
  rw [Finset.sum_comm]
  refine Finset.sum_congr rfl fun k _ => ?_
  have hm : elem e k ∈ (ghostWindow L r).visited.toFinset :=
    (mem_visited_toFinset _ _).2 (hwin r hr e ((mem_visited_toFinset _ _).1 he) k)
  rw [Finset.sum_ite_eq' _ (elem e k)]
  simp [hm]

end Cafes
