/-
Propagation of the rounding errors through the loops of the operators: the computed value, the exact value, the sum of the
absolute values of the terms and the number of the terms are followed together.
-/
import Verif.Spec.Rounding
import Verif.Props.Stokes
import Mathlib.Tactic.Linarith
import Mathlib.Tactic.Positivity

namespace Cafes.Rounding
open Cafes Cafes.Props
variable {d n N : ℕ}

/-- `x` is a computed value of `v`, after at most `k` roundings on the way of each term; `s` is the sum of the absolute values
of the terms. -/
def Err (u : ℝ) (k : ℕ) (v s x : ℝ) : Prop := |x - v| ≤ gamma u k * s ∧ |v| ≤ s

theorem one_le_pow_gamma {u : ℝ} (hu : 0 ≤ u) (k : ℕ) : 1 ≤ (1 + u) ^ k := one_le_pow₀ (by linarith)

theorem err_mono {u : ℝ} (hu : 0 ≤ u) {k k' : ℕ} (hk : k ≤ k') {v s x : ℝ} (h : Err u k v s x) : Err u k' v s x := by
  have hs : 0 ≤ s := (abs_nonneg v).trans h.2
  refine ⟨h.1.trans (mul_le_mul_of_nonneg_right ?_ hs), h.2⟩
  have : (1 + u) ^ k ≤ (1 + u) ^ k' := pow_le_pow_right₀ (by linarith) hk
  unfold gamma; linarith

theorem err_zero {u : ℝ} (k : ℕ) : Err u k 0 0 0 := ⟨by simp, by simp⟩

theorem err_add {A : Arith} {u : ℝ} (hA : Rounds A u) {k : ℕ} {v s x w t y : ℝ} (hx : Err u k v s x) (hy : Err u k w t y) :
    Err u (k + 1) (v + w) (s + t) (A.add x y) := by
  have hu := hA.nonneg
  have hp := one_le_pow_gamma hu k
  have h1 := hA.add x y
  have hs : 0 ≤ s := (abs_nonneg v).trans hx.2
  have ht : 0 ≤ t := (abs_nonneg w).trans hy.2
  have e1 : |x + y - (v + w)| ≤ gamma u k * (s + t) := by
    have : x + y - (v + w) = (x - v) + (y - w) := by ring
    rw [this, mul_add]
    exact (abs_add_le _ _).trans (add_le_add hx.1 hy.1)
  have e2 : |v + w| ≤ s + t := (abs_add_le _ _).trans (add_le_add hx.2 hy.2)
  have e3 : |x + y| ≤ (1 + u) ^ k * (s + t) := by
    have : x + y = (x + y - (v + w)) + (v + w) := by ring
    rw [this]
    refine (abs_add_le _ _).trans ((add_le_add e1 e2).trans (le_of_eq ?_))
    unfold gamma; ring
  refine ⟨?_, e2⟩
  have : A.add x y - (v + w) = (A.add x y - (x + y)) + (x + y - (v + w)) := by ring
  rw [this]
  refine (abs_add_le _ _).trans ((add_le_add (h1.trans (mul_le_mul_of_nonneg_left e3 hu)) e1).trans (le_of_eq ?_))
  unfold gamma; ring

theorem err_mul {A : Arith} {u : ℝ} (hA : Rounds A u) (a b : ℝ) : Err u 1 (a * b) (|a| * |b|) (A.mul a b) := by
  refine ⟨(hA.mul a b).trans (le_of_eq ?_), le_of_eq (abs_mul a b)⟩
  unfold gamma; rw [abs_mul]; ring

theorem err_neg {u : ℝ} {k : ℕ} {v s x : ℝ} (h : Err u k v s x) : Err u k (-v) s (-x) := by
  refine ⟨?_, by rw [abs_neg]; exact h.2⟩
  have : -x - -v = -(x - v) := by ring
  rw [this, abs_neg]; exact h.1

/-! ### Four loops together -/

theorem foldl_rel4 {σ₁ σ₂ σ₃ σ₄ ι : Type*} (R : σ₁ → σ₂ → σ₃ → σ₄ → Prop) (l : List ι) (f₁ : σ₁ → ι → σ₁) (f₂ : σ₂ → ι → σ₂)
    (f₃ : σ₃ → ι → σ₃) (f₄ : σ₄ → ι → σ₄)
    (hs : ∀ i ∈ l, ∀ a b c e, R a b c e → R (f₁ a i) (f₂ b i) (f₃ c i) (f₄ e i)) :
    ∀ a b c e, R a b c e → R (l.foldl f₁ a) (l.foldl f₂ b) (l.foldl f₃ c) (l.foldl f₄ e) := by
  induction l with
  | nil => exact fun _ _ _ _ h => h
  | cons i t ih =>
    intro a b c e h
    exact ih (fun j hj => hs j (List.mem_cons_of_mem _ hj)) _ _ _ _ (hs i (List.mem_cons_self ..) _ _ _ _ h)

theorem iterate_rel4 {σ₁ σ₂ σ₃ σ₄ : Type*} (R : σ₁ → σ₂ → σ₃ → σ₄ → Prop) (b : Box d ℤ) (f₁ : Pos d ℤ → σ₁ → σ₁)
    (f₂ : Pos d ℤ → σ₂ → σ₂) (f₃ : Pos d ℤ → σ₃ → σ₃) (f₄ : Pos d ℤ → σ₄ → σ₄)
    (hs : ∀ i a b c e, R a b c e → R (f₁ i a) (f₂ i b) (f₃ i c) (f₄ i e)) (s₁ : σ₁) (s₂ : σ₂) (s₃ : σ₃) (s₄ : σ₄)
    (h : R s₁ s₂ s₃ s₄) : R (iterate b f₁ s₁) (iterate b f₂ s₂) (iterate b f₃ s₃) (iterate b f₄ s₄) := by
  rw [iterate_eq_foldl, iterate_eq_foldl, iterate_eq_foldl, iterate_eq_foldl]
  exact foldl_rel4 R _ _ _ _ _ (fun i _ => hs i) _ _ _ _ h

/-- The computed vector, the exact one, the absolute values, the number of terms. -/
def Follows (u : ℝ) (y z a : NodeVec d n ℝ) (m : NodeVec d n ℤ) : Prop :=
  ∀ p c, 0 ≤ m p c ∧ Err u (1 + (m p c).toNat) (z p c) (a p c) (y p c)

theorem follows_zero (u : ℝ) : Follows (d := d) (n := n) u 0 0 0 0 := fun _ _ => ⟨le_refl _, err_zero _⟩

theorem follows_add {A : Arith} {u : ℝ} (hA : Rounds A u) {y z a : NodeVec d n ℝ} {m : NodeVec d n ℤ}
    (h : Follows u y z a m) (p : Pos d ℤ) (c : Fin n) {v w t : ℝ} {k : ℤ} (hk : k = 1) (ht : Err u 1 v w t) :
    Follows u (addAt A y p c t) (Cafes.addAt z p c v) (Cafes.addAt a p c w) (Cafes.addAt m p c k) := by
  subst hk
  intro q e
  obtain ⟨h1, h2⟩ := h q e
  unfold addAt Cafes.addAt
  by_cases hq : q = p ∧ e = c
  · rw [if_pos hq, if_pos hq, if_pos hq, if_pos hq]
    refine ⟨by omega, ?_⟩
    have : 1 + (m q e + 1).toNat = 1 + (m q e).toNat + 1 := by omega
    rw [this]
    exact err_add hA h2 (err_mono hA.nonneg (by omega) ht)
  · rw [if_neg hq, if_neg hq, if_neg hq, if_neg hq]
    exact ⟨h1, h2⟩

section
variable {A : Arith} {u : ℝ} (hA : Rounds A u) (L : Fin d → Dir)
include hA

theorem follows_diag (elem : Pos d ℤ → Fin N → Pos d ℤ) (M : Fin N → Fin N → ℝ) (r : Fin d → ℕ) (x : NodeVec d n ℝ) :
    Follows u (diagBlockMult A L elem M r x 0) (Cafes.diagBlockMult L elem M r x 0)
      (Cafes.diagBlockMult L elem (fun i j => |M i j|) r (fun p c => |x p c|) 0)
      (Cafes.diagBlockMult L elem (fun _ _ => (1 : ℤ)) r (fun _ _ => 1) 0) := by
  refine iterate_rel4 (Follows u) _ _ _ _ _ (fun e _ _ _ _ h => ?_) _ _ _ _ (follows_zero u)
  refine foldl_rel4 (Follows u) _ _ _ _ _ (fun k1 _ _ _ _ _ h => ?_) _ _ _ _ h
  refine foldl_rel4 (Follows u) _ _ _ _ _ (fun k2 _ _ _ _ _ h => ?_) _ _ _ _ h
  refine foldl_rel4 (Follows u) _ _ _ _ _ (fun c _ _ _ _ _ h => ?_) _ _ _ _ h
  exact follows_add hA h _ _ (by norm_num) (err_mul hA _ _)

theorem follows_diagDiag (elem : Pos d ℤ → Fin N → Pos d ℤ) (M : Fin N → Fin N → ℝ) (r : Fin d → ℕ) :
    Follows (n := n) u (diagDiagBlockMult A L elem M r 0) (Cafes.diagDiagBlockMult L elem M r 0)
      (Cafes.diagDiagBlockMult L elem (fun i j => |M i j|) r 0)
      (Cafes.diagDiagBlockMult L elem (fun _ _ => (1 : ℤ)) r 0) := by
  refine iterate_rel4 (Follows u) _ _ _ _ _ (fun e _ _ _ _ h => ?_) _ _ _ _ (follows_zero u)
  refine foldl_rel4 (Follows u) _ _ _ _ _ (fun k1 _ _ _ _ _ h => ?_) _ _ _ _ h
  refine foldl_rel4 (Follows u) _ _ _ _ _ (fun c _ _ _ _ _ h => ?_) _ _ _ _ h
  refine follows_add hA h _ _ rfl ⟨?_, le_refl _⟩
  rw [sub_self, abs_zero]
  have := one_le_pow_gamma hA.nonneg 1
  exact mul_nonneg (by unfold gamma; linarith) (abs_nonneg _)

theorem follows_tensor (elem : Pos d ℤ → Fin N → Pos d ℤ) (M : Fin N → Fin N → Fin n → Fin n → ℝ) (r : Fin d → ℕ)
    (x : NodeVec d n ℝ) :
    Follows u (tensorBlockMult A L elem M r x 0) (Cafes.tensorBlockMult L elem M r x 0)
      (Cafes.tensorBlockMult L elem (fun i j a b => |M i j a b|) r (fun p c => |x p c|) 0)
      (Cafes.tensorBlockMult L elem (fun _ _ _ _ => (1 : ℤ)) r (fun _ _ => 1) 0) := by
  refine iterate_rel4 (Follows u) _ _ _ _ _ (fun e _ _ _ _ h => ?_) _ _ _ _ (follows_zero u)
  refine foldl_rel4 (Follows u) _ _ _ _ _ (fun k1 _ _ _ _ _ h => ?_) _ _ _ _ h
  refine foldl_rel4 (Follows u) _ _ _ _ _ (fun k2 _ _ _ _ _ h => ?_) _ _ _ _ h
  refine foldl_rel4 (Follows u) _ _ _ _ _ (fun c _ _ _ _ _ h => ?_) _ _ _ _ h
  refine foldl_rel4 (Follows u) _ _ _ _ _ (fun c' _ _ _ _ _ h => ?_) _ _ _ _ h
  exact follows_add hA h _ _ (by norm_num) (err_mul hA _ _)

/-- The two outputs of the coupled operator. -/
def Follows2 (u : ℝ) (y z a : NodeVec d n ℝ × NodeVec d 1 ℝ) (m : NodeVec d n ℤ × NodeVec d 1 ℤ) : Prop :=
  Follows u y.1 z.1 a.1 m.1 ∧ Follows u y.2 z.2 a.2 m.2

theorem follows_offDiag {NP NV : ℕ} (elemP : Pos d ℤ → Fin NP → Pos d ℤ) (elemV : Pos d ℤ → Fin NV → Pos d ℤ)
    (B : Fin NP → Fin NV → Fin n → ℝ) (r : Fin d → ℕ) (x1 : NodeVec d n ℝ) (x2 : NodeVec d 1 ℝ)
    (y z a : NodeVec d n ℝ × NodeVec d 1 ℝ) (m : NodeVec d n ℤ × NodeVec d 1 ℤ) (h : Follows2 u y z a m) :
    Follows2 u (offDiagBlockMult A L elemP elemV B r x1 x2 y) (Cafes.offDiagBlockMult L elemP elemV B r x1 x2 z)
      (Cafes.offDiagBlockMult L elemP elemV (fun i j c => |B i j c|) r (fun p c => |x1 p c|) (fun p c => -|x2 p c|) a)
      (Cafes.offDiagBlockMult L elemP elemV (fun _ _ _ => (1 : ℤ)) r (fun _ _ => 1) (fun _ _ => -1) m) := by
  refine iterate_rel4 (Follows2 u) _ _ _ _ _ (fun e _ _ _ _ h => ?_) _ _ _ _ h
  refine foldl_rel4 (Follows2 u) _ _ _ _ _ (fun k1 _ _ _ _ _ h => ?_) _ _ _ _ h
  refine foldl_rel4 (Follows2 u) _ _ _ _ _ (fun k2 _ _ _ _ _ h => ?_) _ _ _ _ h
  refine foldl_rel4 (Follows2 u) _ _ _ _ _ (fun c _ _ _ _ _ h => ?_) _ _ _ _ h
  refine ⟨follows_add hA h.1 _ _ (by norm_num) ?_, follows_add hA h.2 _ _ (by norm_num) (err_mul hA _ _)⟩
  have := err_neg (err_mul hA (x2 (elemP e k2) 0) (B k2 k1 c))
  simpa using this

end

/-! ### The sum of the ghost values -/

theorem order_sum {R : Type*} [AddCommMonoid R] {L : Fin d → Dir} {ord : Order d n} (ho : IsOrder L ord) (g : Pos d ℤ)
    (c : Fin n) (f : (Fin d → ℕ) → Pos d ℤ → R) :
    ((ord g c).map fun q => f q.1 q.2).sum = ∑ r ∈ procs L, ∑ p ∈ (ghostWindow L r).visited.toFinset,
      if wrap L p = g then f r p else 0 := by
  classical
  rw [← List.sum_toFinset _ (ho g c).1]
  simp only [← Finset.sum_filter]
  rw [Finset.sum_sigma']
  refine Finset.sum_bij' (fun q _ => (⟨q.1, q.2⟩ : (_ : Fin d → ℕ) × Pos d ℤ)) (fun q _ => (q.1, q.2)) ?_ ?_ ?_ ?_ ?_
  · intro q hq
    have := ((ho g c).2 q).1 (List.mem_toFinset.1 hq)
    simp only [Finset.mem_sigma, Finset.mem_filter, List.mem_toFinset]
    exact this
  · intro q hq
    simp only [Finset.mem_sigma, Finset.mem_filter, List.mem_toFinset] at hq
    exact List.mem_toFinset.2 (((ho g c).2 _).2 hq)
  · intro q _; rfl
  · intro q _; rfl
  · intro q _; rfl

/-- Adding the local values one after the other. -/
theorem err_sum {A : Arith} {u : ℝ} (hA : Rounds A u) {ι : Type*} (l : List ι) (K : ℕ) (x v s : ι → ℝ)
    (h : ∀ q ∈ l, Err u K (v q) (s q) (x q)) : ∀ (k : ℕ) (x0 v0 s0 : ℝ), Err u (K + k) v0 s0 x0 →
    Err u (K + k + l.length) (v0 + (l.map v).sum) (s0 + (l.map s).sum) (l.foldl (fun a q => A.add a (x q)) x0) := by
  induction l with
  | nil => intro k x0 v0 s0 h0; simpa using h0
  | cons q l ih =>
    intro k x0 v0 s0 h0
    have h1 := err_add hA h0 (err_mono hA.nonneg (by omega) (h q (List.mem_cons_self ..)))
    have := ih (fun q hq => h q (List.mem_cons_of_mem _ hq)) (k + 1) _ _ _ h1
    rw [List.map_cons, List.map_cons, List.sum_cons, List.sum_cons, List.foldl_cons, List.length_cons, ← add_assoc v0,
      ← add_assoc s0]
    rw [show K + k + (l.length + 1) = K + (k + 1) + l.length by omega]
    exact this

theorem err_localToGlobal {A : Arith} {u : ℝ} (hA : Rounds A u) {L : Fin d → Dir} {ord : Order d n} (ho : IsOrder L ord)
    (y z a : (Fin d → ℕ) → NodeVec d n ℝ) (m : (Fin d → ℕ) → NodeVec d n ℤ)
    (h : ∀ r, Follows u (y r) (z r) (a r) (m r)) (g : Pos d ℤ) (c : Fin n) (k : ℕ)
    (hk : Cafes.localToGlobalAdd L m 0 g c ≤ k) :
    Err u (1 + k + (ord g c).length) (Cafes.localToGlobalAdd L z 0 g c) (Cafes.localToGlobalAdd L a 0 g c)
      (localToGlobalAdd A ord y g c) := by
  have hm : ∀ q ∈ ord g c, (m q.1 q.2 c).toNat ≤ k := fun q hq => by
    have h1 : m q.1 q.2 c ≤ ((ord g c).map fun q => m q.1 q.2 c).sum :=
      List.single_le_sum (fun x hx => by
        obtain ⟨q', -, rfl⟩ := List.mem_map.1 hx
        exact (h _ _ _).1) _ (List.mem_map.2 ⟨q, hq, rfl⟩)
    rw [order_sum ho g c fun r p => m r p c] at h1
    unfold Cafes.localToGlobalAdd at hk
    simp only [Pi.zero_apply, zero_add] at hk
    omega
  have := err_sum hA (ord g c) (1 + k) (fun q => y q.1 q.2 c) (fun q => z q.1 q.2 c) (fun q => a q.1 q.2 c)
    (fun q hq => err_mono hA.nonneg (by have := hm q hq; omega) (h q.1 q.2 c).2) 0 0 0 0 (err_zero _)
  rw [order_sum ho g c fun r p => z r p c, order_sum ho g c fun r p => a r p c, Nat.add_zero] at this
  exact this

/-! ### The number of terms -/

/-- Two local entries behind the same node, both before, in or after the block of their process, are the same. -/
theorem copy_unique {D : Dir} (hD : D.WF) (g : ℤ) (h0 : 0 ≤ g) (h1 : g < D.m) {r r' : ℕ} {p p' : ℤ}
    (hr : r < D.l.length) (hr' : r' < D.l.length) (hp : D.gxs r ≤ p ∧ p < D.gxe r) (hp' : D.gxs r' ≤ p' ∧ p' < D.gxe r')
    (hw : (if D.periodic then p % D.m else p) = g) (hw' : (if D.periodic then p' % D.m else p') = g)
    (hc : (p < D.xs r ↔ p' < D.xs r') ∧ (p < D.xs r + D.xm r ↔ p' < D.xs r' + D.xm r')) : r = r' ∧ p = p' := by
  have hb : ∀ {s : ℕ}, s < D.l.length → 0 ≤ D.xs s ∧ 0 < D.xm s ∧ D.xs s + D.xm s ≤ D.m := fun {s} hs =>
    ⟨Dir.xs_nonneg hD s, Dir.xm_pos hD hs, Dir.xe_le hD hs⟩
  obtain ⟨a1, a2, a3⟩ := hb hr
  obtain ⟨b1, b2, b3⟩ := hb hr'
  -- the same class, the same node: the same owned node
  have key : ∀ t : ℤ, D.xs r ≤ p + t → p + t < D.xs r + D.xm r → D.xs r' ≤ p' + t → p' + t < D.xs r' + D.xm r' →
      r = r' ∧ p = p' := fun t c1 c2 c3 c4 => by
    have e : p + t = p' + t := by
      cases hper : D.periodic with
      | true =>
        rw [hper] at hw hw'
        simp only [if_true] at hw hw'
        have : (p + t) % D.m = (p' + t) % D.m := by
          rw [Int.add_emod, hw, Int.add_emod p', hw']
        rwa [Int.emod_eq_of_lt (by omega) (by omega), Int.emod_eq_of_lt (by omega) (by omega)] at this
      | false =>
        rw [hper] at hw hw'
        simp only [Bool.false_eq_true, if_false] at hw hw'
        omega
    obtain ⟨q, -, hq⟩ := Dir.block_unique hD (p + t) (by omega) (by omega)
    refine ⟨?_, by omega⟩
    rw [hq r hr c1 c2, hq r' hr' (by omega) (by omega)]
  have hge : ∀ s : ℕ, D.xs s - 1 ≤ D.gxs s ∧ D.gxe s ≤ D.xs s + D.xm s + 1 := fun s => by
    unfold Dir.gxs Dir.gxe
    split_ifs <;> omega
  have g1 := hge r
  have g2 := hge r'
  by_cases c1 : p < D.xs r
  · have c1' := hc.1.1 c1
    exact key 1 (by omega) (by omega) (by omega) (by omega)
  · have c1' : ¬ p' < D.xs r' := fun h => c1 (hc.1.2 h)
    by_cases c2 : p < D.xs r + D.xm r
    · have c2' := hc.2.1 c2
      exact key 0 (by omega) (by omega) (by omega) (by omega)
    · have c2' : ¬ p' < D.xs r' + D.xm r' := fun h => c2 (hc.2.2 h)
      exact key (-1) (by omega) (by omega) (by omega) (by omega)

/-- A node has at most `3 ^ d` local copies. -/
theorem copies_le {L : Fin d → Dir} (hL : ∀ i, (L i).WF) {ord : Order d n} (ho : IsOrder L ord) (g : Pos d ℤ)
    (hg : g ∈ gridNodes L) (c : Fin n) : (ord g c).length ≤ 3 ^ d := by
  classical
  let cls : (Fin d → ℕ) × Pos d ℤ → Fin d → Fin 3 := fun q i =>
    if q.2 i < (L i).xs (q.1 i) then 0 else if q.2 i < (L i).xs (q.1 i) + (L i).xm (q.1 i) then 1 else 2
  have hxm : ∀ i (s : ℕ), s < (L i).l.length → 0 < (L i).xm s := fun i s hs => Dir.xm_pos (hL i) hs
  have hinj : ∀ q ∈ ord g c, ∀ q' ∈ ord g c, cls q = cls q' → q = q' := fun q hq q' hq' e => by
    obtain ⟨a1, a2, a3⟩ := ((ho g c).2 q).1 hq
    obtain ⟨b1, b2, b3⟩ := ((ho g c).2 q').1 hq'
    rw [← List.mem_toFinset, mem_visited_toFinset] at a2 b2
    rw [mem_procs] at a1 b1
    have hi : ∀ i, q.1 i = q'.1 i ∧ q.2 i = q'.2 i := fun i => by
      have hgi := (mem_gridNodes L g).1 hg i
      refine copy_unique (hL i) (g i) hgi.1 hgi.2 (a1 i) (b1 i) (a2 i) (b2 i) (congrFun a3 i) (congrFun b3 i) ?_
      have x1 := hxm i _ (a1 i)
      have x2 := hxm i _ (b1 i)
      have ei := congrFun e i
      simp only [cls] at ei
      split_ifs at ei with h1 h2 h3 h4 h5 h6 <;> first | (constructor <;> constructor <;> intro _ <;> omega) | (simp at ei; done)
    exact Prod.ext (funext fun i => (hi i).1) (funext fun i => (hi i).2)
  have : ((ord g c).map cls).Nodup := (ho g c).1.map_on hinj
  have h2 := this.length_le_card
  rw [List.length_map] at h2
  simpa using h2

/-- Each shape function of each node belongs to at most one element. -/
theorem count_le {N : ℕ} (LE L : Fin d → Dir) (elem : Pos d ℤ → Fin N → Pos d ℤ) (k : ℕ)
    (hu : ∀ j, ∀ e ∈ gridElems LE, ∀ e' ∈ gridElems LE, wrap L (elem e j) = wrap L (elem e' j) → e = e') (g : Pos d ℤ) :
    (∑ e ∈ gridElems LE, ∑ j, if wrap L (elem e j) = g then (k : ℤ) else 0) ≤ N * k := by
  classical
  rw [Finset.sum_comm]
  have : ∀ j ∈ (Finset.univ : Finset (Fin N)),
      (∑ e ∈ gridElems LE, if wrap L (elem e j) = g then (k : ℤ) else 0) ≤ k := fun j _ => by
    rw [← Finset.sum_filter, Finset.sum_const]
    have hc : ((gridElems LE).filter fun e => wrap L (elem e j) = g).card ≤ 1 := Finset.card_le_one.2 fun e he e' he' => by
      rw [Finset.mem_filter] at he he'
      exact hu j e he.1 e' he'.1 (he.2.trans he'.2.symm)
    rw [nsmul_eq_mul]
    have h0 : (0 : ℤ) ≤ k := Int.natCast_nonneg k
    have h1 : (((gridElems LE).filter fun e => wrap L (elem e j) = g).card : ℤ) ≤ 1 := by exact_mod_cast hc
    nlinarith
  refine (Finset.sum_le_sum this).trans ?_
  simp

theorem wrap_shift_inj (L : Fin d → Dir) (s : Pos d ℤ) (e e' : Pos d ℤ) (he : e ∈ gridElems L) (he' : e' ∈ gridElems L)
    (h : wrap L (fun i => e i + s i) = wrap L fun i => e' i + s i) : e = e' := by
  funext i
  have h1 := (mem_gridElems L e).1 he i
  have h2 := (mem_gridElems L e').1 he' i
  have hi := congrFun h i
  unfold wrap at hi
  unfold Dir.nElem at h1 h2
  cases hp : (L i).periodic with
  | true =>
    rw [hp] at hi h1 h2
    simp only [if_true] at hi h1 h2
    have := Int.ModEq.add_right_cancel' (s i) (show (e i + s i) ≡ (e' i + s i) [ZMOD (L i).m] from hi)
    have h3 : e i % (L i).m = e' i % (L i).m := this
    rwa [Int.emod_eq_of_lt h1.1 h1.2, Int.emod_eq_of_lt h2.1 h2.2] at h3
  | false =>
    rw [hp] at hi
    simp only [Bool.false_eq_true, if_false] at hi
    omega

end Cafes.Rounding
