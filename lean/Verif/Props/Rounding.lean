/-
Property theorem C122: the matrix-free operators in floating point.
-/
import Verif.Lemmas.Rounding
import Verif.Props.Dirichlet

namespace Cafes.Props
open Cafes Cafes.Spec Cafes.Rounding
variable {d n N : ℕ}

/-- `elem` is a translation of a reference element. -/
def Shift (elem : Pos d ℤ → Fin N → Pos d ℤ) : Prop := ∃ off : Fin N → Pos d ℤ, ∀ e k, elem e k = fun i => e i + off k i

theorem shift2 : Shift getElement2 := ⟨fun k => ![(k.1 % 2 : ℕ), (k.1 / 2 : ℕ)], fun e k => by
  rw [getElement2_eq]; funext i; fin_cases i <;> rfl⟩
theorem shift3 : Shift getElement3 := ⟨fun k => ![(k.1 % 2 : ℕ), (k.1 / 2 % 2 : ℕ), (k.1 / 4 : ℕ)], fun e k => by
  rw [getElement3_eq]; funext i; fin_cases i <;> rfl⟩

theorem shift_inj {L : Fin d → Dir} {elem : Pos d ℤ → Fin N → Pos d ℤ} (hs : Shift elem) (j : Fin N) (e : Pos d ℤ)
    (he : e ∈ gridElems L) (e' : Pos d ℤ) (he' : e' ∈ gridElems L) (h : wrap L (elem e j) = wrap L (elem e' j)) : e = e' := by
  obtain ⟨off, ho⟩ := hs
  rw [ho, ho] at h
  exact wrap_shift_inj L _ e e' he he' h

section
variable {A : Arith} {u : ℝ} (hA : Rounds A u) (L : Fin d → Dir) (hL : ∀ i, (L i).WF) {ord : Order d n} (ho : IsOrder L ord)
  (elem : Pos d ℤ → Fin N → Pos d ℤ) (hel : IsQ1 elem) (hs : Shift elem)
include hL hel hs

theorem count_diag (g : Pos d ℤ) (c : Fin n) :
    Cafes.blockMatrix L (Cafes.diagBlockMult L elem fun _ _ => (1 : ℤ)) (fun _ _ => 1) g c ≤ (N * N : ℕ) := by
  rw [diagBlock_global L hL elem hel]
  have := count_le L L elem N (shift_inj hs) g
  simpa using this

theorem count_tensor (g : Pos d ℤ) (c : Fin n) :
    Cafes.blockMatrix L (Cafes.tensorBlockMult L elem fun _ _ _ _ => (1 : ℤ)) (fun _ _ => 1) g c ≤ (N * (N * n) : ℕ) := by
  rw [tensorBlock_global L hL elem hel]
  have := count_le L L elem (N * n) (shift_inj hs) g
  simpa using this

include hA ho

theorem err_diag (M : Fin N → Fin N → ℝ) (x : NodeVec d n ℝ) (g : Pos d ℤ) (hg : g ∈ gridNodes L) (c : Fin n) :
    Err u (1 + N * N + 3 ^ d) (Cafes.blockMatrix L (Cafes.diagBlockMult L elem M) x g c) (termsDiag L elem M x g c)
      (Rounding.blockMatrix A L ord (Rounding.diagBlockMult A L elem M) x g c) := by
  have := err_localToGlobal hA ho _ _ _ _ (fun r => follows_diag hA L elem M r (globalToLocal L x)) g c (N * N)
    (count_diag L hL elem hel hs g c)
  refine err_mono hA.nonneg (Nat.add_le_add_left (copies_le hL ho g hg c) _) ?_
  have e : termsDiag L elem M x g c =
      Cafes.blockMatrix L (Cafes.diagBlockMult L elem fun i j => |M i j|) (fun p c => |x p c|) g c := by
    rw [diagBlock_global L hL elem hel]
    simp only [termsDiag, abs_mul]
  rw [e]
  exact this

theorem err_tensor (M : Fin N → Fin N → Fin n → Fin n → ℝ) (x : NodeVec d n ℝ) (g : Pos d ℤ) (hg : g ∈ gridNodes L)
    (c : Fin n) :
    Err u (1 + N * (N * n) + 3 ^ d) (Cafes.blockMatrix L (Cafes.tensorBlockMult L elem M) x g c)
      (termsTensor L elem M x g c) (Rounding.blockMatrix A L ord (Rounding.tensorBlockMult A L elem M) x g c) := by
  have := err_localToGlobal hA ho _ _ _ _ (fun r => follows_tensor hA L elem M r (globalToLocal L x)) g c (N * (N * n))
    (count_tensor L hL elem hel hs g c)
  refine err_mono hA.nonneg (Nat.add_le_add_left (copies_le hL ho g hg c) _) ?_
  have e : termsTensor L elem M x g c =
      Cafes.blockMatrix L (Cafes.tensorBlockMult L elem fun i j a b => |M i j a b|) (fun p c => |x p c|) g c := by
    rw [tensorBlock_global L hL elem hel]
    simp only [termsTensor, abs_mul]
  rw [e]
  exact this

end

/-! ### Laplacian, mass and strain operators -/

section
variable {A : Arith} {u : ℝ} (hA : Rounds A u)
include hA

/-- C122 (2D, one field): in floating point with unit roundoff `u`, on every decomposition, whatever the order in which the
values of the processes arrive, each entry of the product with a shell matrix (`laplacian_mult`, `mass_mult`: `M` of size
`4 x 4`; `strain_tensor_mult`: `M` of size `4 x 4 x 2 x 2`) differs from the exact one by at most 26 (42) roundings of the sum
of the absolute values of its terms. The number of roundings does not grow with the mesh or with the number of processes. -/
theorem C122_field2 (L : Fin 2 → Dir) (hL : ∀ i, (L i).WF) (ord : Order 2 n) (ho : IsOrder L ord) (M : Fin 4 → Fin 4 → ℝ)
    (T : Fin 4 → Fin 4 → Fin n → Fin n → ℝ) (x : NodeVec 2 n ℝ) (g : Pos 2 ℤ) (hg : g ∈ gridNodes L) (c : Fin n) :
    |Rounding.blockMatrix A L ord (Rounding.diagBlockMult A L getElement2 M) x g c -
      Cafes.blockMatrix L (Cafes.diagBlockMult L getElement2 M) x g c| ≤ gamma u 26 * termsDiag L getElement2 M x g c ∧
    |Rounding.blockMatrix A L ord (Rounding.tensorBlockMult A L getElement2 T) x g c -
      Cafes.blockMatrix L (Cafes.tensorBlockMult L getElement2 T) x g c| ≤
        gamma u (10 + 16 * n) * termsTensor L getElement2 T x g c := by
  refine ⟨(err_diag hA L hL ho getElement2 isQ1_2 shift2 M x g hg c).1, ?_⟩
  have := (err_tensor hA L hL ho getElement2 isQ1_2 shift2 T x g hg c).1
  rwa [show 1 + 4 * (4 * n) + 3 ^ 2 = 10 + 16 * n by ring] at this

/-- C122 (3D, one field). -/
theorem C122_field3 (L : Fin 3 → Dir) (hL : ∀ i, (L i).WF) (ord : Order 3 n) (ho : IsOrder L ord) (M : Fin 8 → Fin 8 → ℝ)
    (T : Fin 8 → Fin 8 → Fin n → Fin n → ℝ) (x : NodeVec 3 n ℝ) (g : Pos 3 ℤ) (hg : g ∈ gridNodes L) (c : Fin n) :
    |Rounding.blockMatrix A L ord (Rounding.diagBlockMult A L getElement3 M) x g c -
      Cafes.blockMatrix L (Cafes.diagBlockMult L getElement3 M) x g c| ≤ gamma u 92 * termsDiag L getElement3 M x g c ∧
    |Rounding.blockMatrix A L ord (Rounding.tensorBlockMult A L getElement3 T) x g c -
      Cafes.blockMatrix L (Cafes.tensorBlockMult L getElement3 T) x g c| ≤
        gamma u (28 + 64 * n) * termsTensor L getElement3 T x g c := by
  refine ⟨(err_diag hA L hL ho getElement3 isQ1_3 shift3 M x g hg c).1, ?_⟩
  have := (err_tensor hA L hL ho getElement3 isQ1_3 shift3 T x g hg c).1
  rwa [show 1 + 8 * (8 * n) + 3 ^ 3 = 28 + 64 * n by ring] at this

end

/-! ### The Stokes operator -/

theorem shift4_inj (M : Fin d → ℤ) (per : Fin d → Bool) (lx : Fin d → List ℤ) {NV : ℕ} {elemV : Pos d ℤ → Fin NV → Pos d ℤ}
    {off : Fin NV → Fin d → Fin 3} (hoff : Is4Q1 elemV off) (j : Fin NV) (e : Pos d ℤ)
    (he : e ∈ gridElems (presLayout M per lx)) (e' : Pos d ℤ) (he' : e' ∈ gridElems (presLayout M per lx))
    (h : wrap (velLayout M per lx) (elemV e j) = wrap (velLayout M per lx) (elemV e' j)) : e = e' := by
  funext i
  have h1 := (mem_gridElems _ e).1 he i
  have h2 := (mem_gridElems _ e').1 he' i
  rw [pres_nElem] at h1 h2
  have hi := congrFun h i
  unfold wrap at hi
  rw [hoff e j i, hoff e' j i] at hi
  cases hp : per i with
  | true =>
    have e1 : (velLayout M per lx i).periodic = true := hp
    have e2 : (velLayout M per lx i).m = 2 * M i - 1 - 1 := by simp [velLayout, velDir, meshVel, hp]
    rw [e1] at hi
    simp only [if_true] at hi
    rw [e2] at hi
    have h3 : (2 * e i) % (2 * M i - 1 - 1) = (2 * e' i) % (2 * M i - 1 - 1) :=
      Int.ModEq.add_right_cancel' _ (show (2 * e i + _) ≡ (2 * e' i + _) [ZMOD (2 * M i - 1 - 1)] from hi)
    rw [Int.emod_eq_of_lt (by omega) (by omega), Int.emod_eq_of_lt (by omega) (by omega)] at h3
    omega
  | false =>
    have e1 : (velLayout M per lx i).periodic = false := hp
    rw [e1] at hi
    simp only [Bool.false_eq_true, if_false] at hi
    omega

section
variable {A : Arith} {u : ℝ} (hA : Rounds A u) (G : Fin d → ℤ) (per : Fin d → Bool) (lx : Fin d → List ℤ)
  (hne : ∀ i, lx i ≠ []) (hW : ∀ i, (presLayout G per lx i).WF)
  {ov : Order d n} (hov : IsOrder (velLayout G per lx) ov) {op : Order d 1} (hop : IsOrder (presLayout G per lx) op)
  {NP NV : ℕ} (elemP : Pos d ℤ → Fin NP → Pos d ℤ) (hel : IsQ1 elemP) (hs : Shift elemP)
  (elemV : Pos d ℤ → Fin NV → Pos d ℤ) (off : Fin NV → Fin d → Fin 3) (hoff : Is4Q1 elemV off)
  (B : Fin NP → Fin NV → Fin n → ℝ) (x1 : NodeVec d n ℝ) (x2 : NodeVec d 1 ℝ)
include hA hne hW hov hop hel hs hoff

/-- The coupled operator, for any operator on the velocity whose errors are followed. -/
theorem err_stokes (fa : (Fin d → ℕ) → NodeVec d n ℝ → NodeVec d n ℝ → NodeVec d n ℝ)
    (fe : (Fin d → ℕ) → NodeVec d n ℝ → NodeVec d n ℝ → NodeVec d n ℝ)
    (fs : (Fin d → ℕ) → NodeVec d n ℝ → NodeVec d n ℝ → NodeVec d n ℝ)
    (fc : (Fin d → ℕ) → NodeVec d n ℤ → NodeVec d n ℤ → NodeVec d n ℤ)
    (hf : ∀ r x, Follows u (fa r x 0) (fe r x 0) (fs r (fun p c => |x p c|) 0) (fc r (fun _ _ => 1) 0)) (k : ℕ)
    (hk : ∀ g c, Cafes.blockMatrix (velLayout G per lx) fc (fun _ _ => 1) g c ≤ k) :
    (∀ g ∈ gridNodes (velLayout G per lx), ∀ c, Err u (1 + (k + NV * NP) + 3 ^ d)
      ((Cafes.stokesMatrix (velLayout G per lx) (presLayout G per lx) fe elemP elemV B x1 x2).1 g c)
      (Cafes.blockMatrix (velLayout G per lx) fs (fun p c => |x1 p c|) g c +
        termsVel (velLayout G per lx) (presLayout G per lx) elemP elemV B x2 g c)
      ((Rounding.stokesMatrix A (velLayout G per lx) (presLayout G per lx) ov op fa elemP elemV B x1 x2).1 g c)) ∧
    (∀ g ∈ gridNodes (presLayout G per lx), ∀ c, Err u (1 + NP * (NV * n) + 3 ^ d)
      ((Cafes.stokesMatrix (velLayout G per lx) (presLayout G per lx) fe elemP elemV B x1 x2).2 g c)
      (termsPres (velLayout G per lx) (presLayout G per lx) elemP elemV B x1 g c)
      ((Rounding.stokesMatrix A (velLayout G per lx) (presLayout G per lx) ov op fa elemP elemV B x1 x2).2 g c)) := by
  have hloc := fun r => follows_offDiag hA (presLayout G per lx) elemP elemV B r (globalToLocal (velLayout G per lx) x1)
    (globalToLocal (presLayout G per lx) x2) (fa r (globalToLocal (velLayout G per lx) x1) 0, 0)
    (fe r (globalToLocal (velLayout G per lx) x1) 0, 0)
    (fs r (fun p c => |globalToLocal (velLayout G per lx) x1 p c|) 0, 0) (fc r (fun _ _ => 1) 0, 0)
    ⟨hf r _, follows_zero u⟩
  have hv := velLayout_wf G per lx hne hW
  refine ⟨fun g hg c => ?_, fun g hg c => ?_⟩
  · refine err_mono hA.nonneg (Nat.add_le_add_left (copies_le hv hov g hg c) _) ?_
    have hc : (Cafes.stokesMatrix (velLayout G per lx) (presLayout G per lx) fc elemP elemV (fun _ _ _ => (1 : ℤ))
        (fun _ _ => 1) (fun _ _ => -1)).1 g c ≤ (k + NV * NP : ℕ) := by
      rw [vel_out G per lx hne hW elemP elemV hel off hoff]
      have h1 := hk g c
      have h2 := count_le (presLayout G per lx) (velLayout G per lx) elemV NP (shift4_inj G per lx hoff) g
      push_cast
      refine add_le_add h1 (le_trans (le_of_eq ?_) h2)
      simp
    have hs' : Cafes.blockMatrix (velLayout G per lx) fs (fun p c => |x1 p c|) g c +
        termsVel (velLayout G per lx) (presLayout G per lx) elemP elemV B x2 g c =
        (Cafes.stokesMatrix (velLayout G per lx) (presLayout G per lx) fs elemP elemV (fun i j c => |B i j c|)
          (fun p c => |x1 p c|) (fun p c => -|x2 p c|)).1 g c := by
      rw [vel_out G per lx hne hW elemP elemV hel off hoff]
      simp only [termsVel, abs_mul, neg_mul, neg_neg]
    rw [hs']
    exact err_localToGlobal hA hov _ _ _ _ (fun r => (hloc r).1) g c _ hc
  · refine err_mono hA.nonneg (Nat.add_le_add_left (copies_le hW hop g hg c) _) ?_
    have hc : (Cafes.stokesMatrix (velLayout G per lx) (presLayout G per lx) fc elemP elemV (fun _ _ _ => (1 : ℤ))
        (fun _ _ => 1) (fun _ _ => -1)).2 g c ≤ (NP * (NV * n) : ℕ) := by
      rw [pres_out G per lx hne hW elemP elemV hel off hoff]
      have h2 := count_le (presLayout G per lx) (presLayout G per lx) elemP (NV * n) (shift_inj hs) g
      simpa using h2
    have hs' : termsPres (velLayout G per lx) (presLayout G per lx) elemP elemV B x1 g c =
        (Cafes.stokesMatrix (velLayout G per lx) (presLayout G per lx) fs elemP elemV (fun i j c => |B i j c|)
          (fun p c => |x1 p c|) (fun p c => -|x2 p c|)).2 g c := by
      rw [pres_out G per lx hne hW elemP elemV hel off hoff]
      simp only [termsPres, abs_mul]
    rw [hs']
    exact err_localToGlobal hA hop _ _ _ _ (fun r => (hloc r).2) g c _ hc

end

theorem gamma_nonneg {u : ℝ} (hu : 0 ≤ u) (k : ℕ) : 0 ≤ gamma u k := by
  have := one_le_pow_gamma hu k
  unfold gamma; linarith

theorem two_runs {a b z t : ℝ} (h : |a - z| ≤ t) (h' : |b - z| ≤ t) : |a - b| ≤ 2 * t := by
  have : a - b = (a - z) - (b - z) := by ring
  rw [this]
  have := abs_sub (a - z) (b - z)
  linarith

section
variable {A : Arith} {u : ℝ} (hA : Rounds A u)
include hA

/-- C122 (Stokes, 2D): the product with the Stokes matrix with its Dirichlet conditions, in floating point. An entry of the
velocity differs from the exact one by at most 78 roundings of the sum of the absolute values of its terms, an entry of the
pressure by 82; the entries held by a condition are exact. -/
theorem C122_stokes2 (G : Fin 2 → ℤ) (per : Fin 2 → Bool) (lx : Fin 2 → List ℤ) (hne : ∀ i, lx i ≠ [])
    (hW : ∀ i, (presLayout G per lx i).WF) (ov : Order 2 2) (hov : IsOrder (velLayout G per lx) ov) (op : Order 2 1)
    (hop : IsOrder (presLayout G per lx) op) (rs : List (Fin 2 → ℕ)) (hrs : AllProcs (velLayout G per lx) rs) (bc : BC 2 ℝ)
    (T : Fin 4 → Fin 4 → Fin 2 → Fin 2 → ℝ) (B : Fin 4 → Fin 9 → Fin 2 → ℝ) (v : NodeVec 2 2 ℝ)
    (p : NodeVec 2 1 ℝ) :
    let Lv := velLayout G per lx
    let Lp := presLayout G per lx
    let y := Rounding.stokesMatrixBC A Lv Lp ov op rs bc (Rounding.tensorBlockMult A Lv getElement2 T) getElement2 getElement4Q1_2 B v p
    let z := Cafes.stokesMatrixBC Lv Lp rs bc (Cafes.tensorBlockMult Lv getElement2 T) getElement2 getElement4Q1_2 B v p
    (∀ g ∈ gridNodes Lv, ∀ c, |y.1 g c - z.1 g c| ≤
      gamma u 78 * (termsTensor Lv getElement2 T v g c + termsVel Lv Lp getElement2 getElement4Q1_2 B p g c)) ∧
    (∀ g ∈ gridNodes Lv, ∀ c, Constrained Lv bc g c → y.1 g c = v g c) ∧
    (∀ g ∈ gridNodes Lp, ∀ c, |y.2 g c - z.2 g c| ≤ gamma u 82 * termsPres Lv Lp getElement2 getElement4Q1_2 B v g c) := by
  intro Lv Lp y z
  have hv := velLayout_wf G per lx hne hW
  have h := err_stokes hA G per lx hne hW hov hop getElement2 isQ1_2 shift2 getElement4Q1_2 trit2 is4Q1_2 B v p
    (Rounding.tensorBlockMult A Lv getElement2 T) (Cafes.tensorBlockMult Lv getElement2 T)
    (Cafes.tensorBlockMult Lv getElement2 fun i j a b => |T i j a b|) (Cafes.tensorBlockMult Lv getElement2 fun _ _ _ _ => (1 : ℤ))
    (fun r x => follows_tensor hA Lv getElement2 T r x) (4 * (4 * 2)) (count_tensor Lv hv getElement2 isQ1_2 shift2)
  have e : ∀ g c, termsTensor Lv getElement2 T v g c =
      Cafes.blockMatrix Lv (Cafes.tensorBlockMult Lv getElement2 fun i j a b => |T i j a b|) (fun p c => |v p c|) g c :=
    fun g c => by
      rw [tensorBlock_global Lv hv getElement2 isQ1_2]
      simp only [termsTensor, abs_mul]
  refine ⟨fun g hg c => ?_, fun g hg c hc => ?_, fun g hg c => (h.2 g hg c).1⟩
  · have h1 := h.1 g hg c
    rw [← e] at h1
    show |setDirichletOnVec Lv rs bc v _ g c - setDirichletOnVec Lv rs bc v _ g c| ≤ _
    rw [C25_vec Lv hv rs hrs, C25_vec Lv hv rs hrs]
    split_ifs
    · rw [sub_self, abs_zero]
      exact mul_nonneg (gamma_nonneg hA.nonneg _) ((abs_nonneg _).trans h1.2)
    · exact h1.1
  · show setDirichletOnVec Lv rs bc v _ g c = _
    rw [C25_vec Lv hv rs hrs, if_pos ⟨hg, hc⟩]

/-- C122 (two runs, 2D): on two decompositions, with the values of the processes arriving in any orders, the entries of the
product with the Stokes matrix differ by at most twice the bound of `C122_stokes2`. -/
theorem C122_decomposition2 (G : Fin 2 → ℤ) (per : Fin 2 → Bool) (lx lx' : Fin 2 → List ℤ) (hne : ∀ i, lx i ≠ [])
    (hW : ∀ i, (presLayout G per lx i).WF) (hne' : ∀ i, lx' i ≠ []) (hW' : ∀ i, (presLayout G per lx' i).WF)
    (ov : Order 2 2) (hov : IsOrder (velLayout G per lx) ov) (op : Order 2 1)
    (hop : IsOrder (presLayout G per lx) op) (rs : List (Fin 2 → ℕ)) (hrs : AllProcs (velLayout G per lx) rs)
    (ov' : Order 2 2) (hov' : IsOrder (velLayout G per lx') ov') (op' : Order 2 1)
    (hop' : IsOrder (presLayout G per lx') op') (rs' : List (Fin 2 → ℕ)) (hrs' : AllProcs (velLayout G per lx') rs')
    (bc : BC 2 ℝ) (T : Fin 4 → Fin 4 → Fin 2 → Fin 2 → ℝ) (B : Fin 4 → Fin 9 → Fin 2 → ℝ)
    (v : NodeVec 2 2 ℝ) (p : NodeVec 2 1 ℝ) :
    let Lv := velLayout G per lx
    let Lp := presLayout G per lx
    let Lv' := velLayout G per lx'
    let Lp' := presLayout G per lx'
    let y := Rounding.stokesMatrixBC A Lv Lp ov op rs bc (Rounding.tensorBlockMult A Lv getElement2 T) getElement2 getElement4Q1_2 B v p
    let y' := Rounding.stokesMatrixBC A Lv' Lp' ov' op' rs' bc (Rounding.tensorBlockMult A Lv' getElement2 T) getElement2 getElement4Q1_2 B v p
    (∀ g ∈ gridNodes Lv, ∀ c, |y.1 g c - y'.1 g c| ≤
      2 * (gamma u 78 * (termsTensor Lv getElement2 T v g c + termsVel Lv Lp getElement2 getElement4Q1_2 B p g c))) ∧
    (∀ g ∈ gridNodes Lp, ∀ c, |y.2 g c - y'.2 g c| ≤ 2 * (gamma u 82 * termsPres Lv Lp getElement2 getElement4Q1_2 B v g c)) := by
  intro Lv Lp Lv' Lp' y y'
  have h := C122_stokes2 hA G per lx hne hW ov hov op hop rs hrs bc T B v p
  have h' := C122_stokes2 hA G per lx' hne' hW' ov' hov' op' hop' rs' hrs' bc T B v p
  have hv := velLayout_wf G per lx hne hW
  have hv' := velLayout_wf G per lx' hne' hW'
  have e1 : (Cafes.stokesMatrix Lv Lp (Cafes.tensorBlockMult Lv getElement2 T) getElement2 getElement4Q1_2 B v p).1 =
      (Cafes.stokesMatrix Lv' Lp' (Cafes.tensorBlockMult Lv' getElement2 T) getElement2 getElement4Q1_2 B v p).1 := by
    funext g c
    rw [vel_out G per lx hne hW getElement2 getElement4Q1_2 isQ1_2 trit2 is4Q1_2, vel_out G per lx' hne' hW' getElement2 getElement4Q1_2 isQ1_2 trit2 is4Q1_2,
      tensorBlock_global Lv hv getElement2 isQ1_2, tensorBlock_global Lv' hv' getElement2 isQ1_2]
    rfl
  have e2 : (Cafes.stokesMatrix Lv Lp (Cafes.tensorBlockMult Lv getElement2 T) getElement2 getElement4Q1_2 B v p).2 =
      (Cafes.stokesMatrix Lv' Lp' (Cafes.tensorBlockMult Lv' getElement2 T) getElement2 getElement4Q1_2 B v p).2 := by
    funext g c
    rw [pres_out G per lx hne hW getElement2 getElement4Q1_2 isQ1_2 trit2 is4Q1_2, pres_out G per lx' hne' hW' getElement2 getElement4Q1_2 isQ1_2 trit2 is4Q1_2]
    rfl
  have e3 : (Cafes.stokesMatrixBC Lv Lp rs bc (Cafes.tensorBlockMult Lv getElement2 T) getElement2 getElement4Q1_2 B v p).1 =
      (Cafes.stokesMatrixBC Lv' Lp' rs' bc (Cafes.tensorBlockMult Lv' getElement2 T) getElement2 getElement4Q1_2 B v p).1 := by
    funext g c
    show setDirichletOnVec Lv rs bc v _ g c = setDirichletOnVec Lv' rs' bc v _ g c
    rw [C25_vec Lv hv rs hrs, C25_vec Lv' hv' rs' hrs', e1]
    rfl
  refine ⟨fun g hg c => ?_, fun g hg c => ?_⟩
  · have a := h.1 g hg c
    have b := h'.1 g hg c
    rw [← e3] at b
    exact two_runs a b
  · have a := h.2.2 g hg c
    have b := h'.2.2 g hg c
    have e4 : (Cafes.stokesMatrixBC Lv Lp rs bc (Cafes.tensorBlockMult Lv getElement2 T) getElement2 getElement4Q1_2 B v p).2 =
      (Cafes.stokesMatrixBC Lv' Lp' rs' bc (Cafes.tensorBlockMult Lv' getElement2 T) getElement2 getElement4Q1_2 B v p).2 := e2
    rw [← e4] at b
    exact two_runs a b

/-- C122 (Stokes, 3D): the product with the Stokes matrix with its Dirichlet conditions, in floating point. An entry of the
velocity differs from the exact one by at most 436 roundings of the sum of the absolute values of its terms, an entry of the
pressure by 676; the entries held by a condition are exact. -/
theorem C122_stokes3 (G : Fin 3 → ℤ) (per : Fin 3 → Bool) (lx : Fin 3 → List ℤ) (hne : ∀ i, lx i ≠ [])
    (hW : ∀ i, (presLayout G per lx i).WF) (ov : Order 3 3) (hov : IsOrder (velLayout G per lx) ov) (op : Order 3 1)
    (hop : IsOrder (presLayout G per lx) op) (rs : List (Fin 3 → ℕ)) (hrs : AllProcs (velLayout G per lx) rs) (bc : BC 3 ℝ)
    (T : Fin 8 → Fin 8 → Fin 3 → Fin 3 → ℝ) (B : Fin 8 → Fin 27 → Fin 3 → ℝ) (v : NodeVec 3 3 ℝ)
    (p : NodeVec 3 1 ℝ) :
    let Lv := velLayout G per lx
    let Lp := presLayout G per lx
    let y := Rounding.stokesMatrixBC A Lv Lp ov op rs bc (Rounding.tensorBlockMult A Lv getElement3 T) getElement3 getElement4Q1_3 B v p
    let z := Cafes.stokesMatrixBC Lv Lp rs bc (Cafes.tensorBlockMult Lv getElement3 T) getElement3 getElement4Q1_3 B v p
    (∀ g ∈ gridNodes Lv, ∀ c, |y.1 g c - z.1 g c| ≤
      gamma u 436 * (termsTensor Lv getElement3 T v g c + termsVel Lv Lp getElement3 getElement4Q1_3 B p g c)) ∧
    (∀ g ∈ gridNodes Lv, ∀ c, Constrained Lv bc g c → y.1 g c = v g c) ∧
    (∀ g ∈ gridNodes Lp, ∀ c, |y.2 g c - z.2 g c| ≤ gamma u 676 * termsPres Lv Lp getElement3 getElement4Q1_3 B v g c) := by
  intro Lv Lp y z
  have hv := velLayout_wf G per lx hne hW
  have h := err_stokes hA G per lx hne hW hov hop getElement3 isQ1_3 shift3 getElement4Q1_3 trit3 is4Q1_3 B v p
    (Rounding.tensorBlockMult A Lv getElement3 T) (Cafes.tensorBlockMult Lv getElement3 T)
    (Cafes.tensorBlockMult Lv getElement3 fun i j a b => |T i j a b|) (Cafes.tensorBlockMult Lv getElement3 fun _ _ _ _ => (1 : ℤ))
    (fun r x => follows_tensor hA Lv getElement3 T r x) (8 * (8 * 3)) (count_tensor Lv hv getElement3 isQ1_3 shift3)
  have e : ∀ g c, termsTensor Lv getElement3 T v g c =
      Cafes.blockMatrix Lv (Cafes.tensorBlockMult Lv getElement3 fun i j a b => |T i j a b|) (fun p c => |v p c|) g c :=
    fun g c => by
      rw [tensorBlock_global Lv hv getElement3 isQ1_3]
      simp only [termsTensor, abs_mul]
  refine ⟨fun g hg c => ?_, fun g hg c hc => ?_, fun g hg c => (h.2 g hg c).1⟩
  · have h1 := h.1 g hg c
    rw [← e] at h1
    show |setDirichletOnVec Lv rs bc v _ g c - setDirichletOnVec Lv rs bc v _ g c| ≤ _
    rw [C25_vec Lv hv rs hrs, C25_vec Lv hv rs hrs]
    split_ifs
    · rw [sub_self, abs_zero]
      exact mul_nonneg (gamma_nonneg hA.nonneg _) ((abs_nonneg _).trans h1.2)
    · exact h1.1
  · show setDirichletOnVec Lv rs bc v _ g c = _
    rw [C25_vec Lv hv rs hrs, if_pos ⟨hg, hc⟩]

/-- C122 (two runs, 3D): on two decompositions, with the values of the processes arriving in any orders, the entries of the
product with the Stokes matrix differ by at most twice the bound of `C122_stokes3`. -/
theorem C122_decomposition3 (G : Fin 3 → ℤ) (per : Fin 3 → Bool) (lx lx' : Fin 3 → List ℤ) (hne : ∀ i, lx i ≠ [])
    (hW : ∀ i, (presLayout G per lx i).WF) (hne' : ∀ i, lx' i ≠ []) (hW' : ∀ i, (presLayout G per lx' i).WF)
    (ov : Order 3 3) (hov : IsOrder (velLayout G per lx) ov) (op : Order 3 1)
    (hop : IsOrder (presLayout G per lx) op) (rs : List (Fin 3 → ℕ)) (hrs : AllProcs (velLayout G per lx) rs)
    (ov' : Order 3 3) (hov' : IsOrder (velLayout G per lx') ov') (op' : Order 3 1)
    (hop' : IsOrder (presLayout G per lx') op') (rs' : List (Fin 3 → ℕ)) (hrs' : AllProcs (velLayout G per lx') rs')
    (bc : BC 3 ℝ) (T : Fin 8 → Fin 8 → Fin 3 → Fin 3 → ℝ) (B : Fin 8 → Fin 27 → Fin 3 → ℝ)
    (v : NodeVec 3 3 ℝ) (p : NodeVec 3 1 ℝ) :
    let Lv := velLayout G per lx
    let Lp := presLayout G per lx
    let Lv' := velLayout G per lx'
    let Lp' := presLayout G per lx'
    let y := Rounding.stokesMatrixBC A Lv Lp ov op rs bc (Rounding.tensorBlockMult A Lv getElement3 T) getElement3 getElement4Q1_3 B v p
    let y' := Rounding.stokesMatrixBC A Lv' Lp' ov' op' rs' bc (Rounding.tensorBlockMult A Lv' getElement3 T) getElement3 getElement4Q1_3 B v p
    (∀ g ∈ gridNodes Lv, ∀ c, |y.1 g c - y'.1 g c| ≤
      2 * (gamma u 436 * (termsTensor Lv getElement3 T v g c + termsVel Lv Lp getElement3 getElement4Q1_3 B p g c))) ∧
    (∀ g ∈ gridNodes Lp, ∀ c, |y.2 g c - y'.2 g c| ≤ 2 * (gamma u 676 * termsPres Lv Lp getElement3 getElement4Q1_3 B v g c)) := by
  intro Lv Lp Lv' Lp' y y'
  have h := C122_stokes3 hA G per lx hne hW ov hov op hop rs hrs bc T B v p
  have h' := C122_stokes3 hA G per lx' hne' hW' ov' hov' op' hop' rs' hrs' bc T B v p
  have hv := velLayout_wf G per lx hne hW
  have hv' := velLayout_wf G per lx' hne' hW'
  have e1 : (Cafes.stokesMatrix Lv Lp (Cafes.tensorBlockMult Lv getElement3 T) getElement3 getElement4Q1_3 B v p).1 =
      (Cafes.stokesMatrix Lv' Lp' (Cafes.tensorBlockMult Lv' getElement3 T) getElement3 getElement4Q1_3 B v p).1 := by
    funext g c
    rw [vel_out G per lx hne hW getElement3 getElement4Q1_3 isQ1_3 trit3 is4Q1_3, vel_out G per lx' hne' hW' getElement3 getElement4Q1_3 isQ1_3 trit3 is4Q1_3,
      tensorBlock_global Lv hv getElement3 isQ1_3, tensorBlock_global Lv' hv' getElement3 isQ1_3]
    rfl
  have e2 : (Cafes.stokesMatrix Lv Lp (Cafes.tensorBlockMult Lv getElement3 T) getElement3 getElement4Q1_3 B v p).2 =
      (Cafes.stokesMatrix Lv' Lp' (Cafes.tensorBlockMult Lv' getElement3 T) getElement3 getElement4Q1_3 B v p).2 := by
    funext g c
    rw [pres_out G per lx hne hW getElement3 getElement4Q1_3 isQ1_3 trit3 is4Q1_3, pres_out G per lx' hne' hW' getElement3 getElement4Q1_3 isQ1_3 trit3 is4Q1_3]
    rfl
  have e3 : (Cafes.stokesMatrixBC Lv Lp rs bc (Cafes.tensorBlockMult Lv getElement3 T) getElement3 getElement4Q1_3 B v p).1 =
      (Cafes.stokesMatrixBC Lv' Lp' rs' bc (Cafes.tensorBlockMult Lv' getElement3 T) getElement3 getElement4Q1_3 B v p).1 := by
    funext g c
    show setDirichletOnVec Lv rs bc v _ g c = setDirichletOnVec Lv' rs' bc v _ g c
    rw [C25_vec Lv hv rs hrs, C25_vec Lv' hv' rs' hrs', e1]
    rfl
  refine ⟨fun g hg c => ?_, fun g hg c => ?_⟩
  · have a := h.1 g hg c
    have b := h'.1 g hg c
    rw [← e3] at b
    exact two_runs a b
  · have a := h.2.2 g hg c
    have b := h'.2.2 g hg c
    have e4 : (Cafes.stokesMatrixBC Lv Lp rs bc (Cafes.tensorBlockMult Lv getElement3 T) getElement3 getElement4Q1_3 B v p).2 =
      (Cafes.stokesMatrixBC Lv' Lp' rs' bc (Cafes.tensorBlockMult Lv' getElement3 T) getElement3 getElement4Q1_3 B v p).2 := e2
    rw [← e4] at b
    exact two_runs a b

end

/-! ### The arithmetic -/

theorem roundTo_err (p : ℕ) (x : ℝ) : |roundTo p x - x| ≤ (2 : ℝ)⁻¹ ^ p * |x| := by
  by_cases hx : x = 0
  · subst hx; simp [roundTo]
  have hpos : 0 < |x| := abs_pos.2 hx
  unfold roundTo
  set e := Int.log 2 |x| with he
  set s : ℝ := 2 ^ ((p : ℤ) - 1 - e) with hs
  have hs0 : 0 < s := by positivity
  have h1 : (round (x * s) : ℝ) / s - x = -((x * s - round (x * s)) / s) := by field_simp; ring
  rw [h1, abs_neg, abs_div, abs_of_pos hs0, div_le_iff₀ hs0]
  refine (abs_sub_round _).trans ?_
  have h2 : (2 : ℝ) ^ e ≤ |x| := by
    have := Int.zpow_log_le_self (R := ℝ) (b := 2) (by norm_num) hpos
    exact_mod_cast this
  have h3 : (2 : ℝ)⁻¹ ^ p * 2 ^ e * s = 1 / 2 := by
    rw [hs, inv_pow, ← zpow_natCast, ← zpow_neg, ← zpow_add₀ (by norm_num), ← zpow_add₀ (by norm_num)]
    rw [show -(p : ℤ) + e + ((p : ℤ) - 1 - e) = -1 by ring]
    norm_num
  calc (1 : ℝ) / 2 = (2 : ℝ)⁻¹ ^ p * 2 ^ e * s := h3.symm
    _ ≤ (2 : ℝ)⁻¹ ^ p * |x| * s := by gcongr

/-- C122 (the hypothesis on the arithmetic): binary floating point with `p` digits satisfies it with `u = 2⁻ᵖ`, and the exact
arithmetic with `u = 0`. -/
theorem C122_binary (p : ℕ) : Rounds (binary p) ((2 : ℝ)⁻¹ ^ p) ∧ Rounds Arith.exact 0 :=
  ⟨⟨by positivity, fun a b => roundTo_err p (a + b), fun a b => roundTo_err p (a * b)⟩,
   ⟨le_refl _, fun a b => by simp [Arith.exact], fun a b => by simp [Arith.exact]⟩⟩

/-- C122 (the hypothesis on the order): there are orders. -/
theorem C122_order (L : Fin d → Dir) : ∃ ord : Order d n, IsOrder L ord := by
  classical
  refine ⟨fun g _ => (((procs L).sigma fun r => (ghostWindow L r).visited.toFinset.filter fun p => wrap L p = g).image
    fun q => (q.1, q.2)).toList, fun g c => ⟨Finset.nodup_toList _, fun q => ?_⟩⟩
  rw [Finset.mem_toList, Finset.mem_image]
  constructor
  · rintro ⟨q', hq', rfl⟩
    simpa using hq'
  · intro h
    exact ⟨⟨q.1, q.2⟩, by simpa using h, rfl⟩

/-- C122 (nothing is hidden in the model): with the exact arithmetic the loops give the operator of Verif/Model/Operator.lean
(2D). -/
theorem C122_exact2 (G : Fin 2 → ℤ) (per : Fin 2 → Bool) (lx : Fin 2 → List ℤ) (hne : ∀ i, lx i ≠ [])
    (hW : ∀ i, (presLayout G per lx i).WF) (ov : Order 2 2) (hov : IsOrder (velLayout G per lx) ov) (op : Order 2 1)
    (hop : IsOrder (presLayout G per lx) op) (rs : List (Fin 2 → ℕ)) (hrs : AllProcs (velLayout G per lx) rs) (bc : BC 2 ℝ)
    (T : Fin 4 → Fin 4 → Fin 2 → Fin 2 → ℝ) (B : Fin 4 → Fin 9 → Fin 2 → ℝ) (v : NodeVec 2 2 ℝ) (p : NodeVec 2 1 ℝ) :
    let Lv := velLayout G per lx
    let Lp := presLayout G per lx
    let y := Rounding.stokesMatrixBC .exact Lv Lp ov op rs bc (Rounding.tensorBlockMult .exact Lv getElement2 T) getElement2
      getElement4Q1_2 B v p
    let z := Cafes.stokesMatrixBC Lv Lp rs bc (Cafes.tensorBlockMult Lv getElement2 T) getElement2 getElement4Q1_2 B v p
    (∀ g ∈ gridNodes Lv, ∀ c, y.1 g c = z.1 g c) ∧ ∀ g ∈ gridNodes Lp, ∀ c, y.2 g c = z.2 g c := by
  intro Lv Lp y z
  have h := C122_stokes2 (C122_binary 0).2 G per lx hne hW ov hov op hop rs hrs bc T B v p
  have h0 : ∀ k, gamma 0 k = 0 := fun k => by simp [gamma]
  refine ⟨fun g hg c => ?_, fun g hg c => ?_⟩
  · have := h.1 g hg c
    rw [h0, zero_mul] at this
    exact sub_eq_zero.1 (abs_eq_zero.1 (le_antisymm this (abs_nonneg _)))
  · have := h.2.2 g hg c
    rw [h0, zero_mul] at this
    exact sub_eq_zero.1 (abs_eq_zero.1 (le_antisymm this (abs_nonneg _)))

/-- C122 (nothing is hidden in the model): with the exact arithmetic the loops give the operator of Verif/Model/Operator.lean
(3D). -/
theorem C122_exact3 (G : Fin 3 → ℤ) (per : Fin 3 → Bool) (lx : Fin 3 → List ℤ) (hne : ∀ i, lx i ≠ [])
    (hW : ∀ i, (presLayout G per lx i).WF) (ov : Order 3 3) (hov : IsOrder (velLayout G per lx) ov) (op : Order 3 1)
    (hop : IsOrder (presLayout G per lx) op) (rs : List (Fin 3 → ℕ)) (hrs : AllProcs (velLayout G per lx) rs) (bc : BC 3 ℝ)
    (T : Fin 8 → Fin 8 → Fin 3 → Fin 3 → ℝ) (B : Fin 8 → Fin 27 → Fin 3 → ℝ) (v : NodeVec 3 3 ℝ) (p : NodeVec 3 1 ℝ) :
    let Lv := velLayout G per lx
    let Lp := presLayout G per lx
    let y := Rounding.stokesMatrixBC .exact Lv Lp ov op rs bc (Rounding.tensorBlockMult .exact Lv getElement3 T) getElement3
      getElement4Q1_3 B v p
    let z := Cafes.stokesMatrixBC Lv Lp rs bc (Cafes.tensorBlockMult Lv getElement3 T) getElement3 getElement4Q1_3 B v p
    (∀ g ∈ gridNodes Lv, ∀ c, y.1 g c = z.1 g c) ∧ ∀ g ∈ gridNodes Lp, ∀ c, y.2 g c = z.2 g c := by
  intro Lv Lp y z
  have h := C122_stokes3 (C122_binary 0).2 G per lx hne hW ov hov op hop rs hrs bc T B v p
  have h0 : ∀ k, gamma 0 k = 0 := fun k => by simp [gamma]
  refine ⟨fun g hg c => ?_, fun g hg c => ?_⟩
  · have := h.1 g hg c
    rw [h0, zero_mul] at this
    exact sub_eq_zero.1 (abs_eq_zero.1 (le_antisymm this (abs_nonneg _)))
  · have := h.2.2 g hg c
    rw [h0, zero_mul] at this
    exact sub_eq_zero.1 (abs_eq_zero.1 (le_antisymm this (abs_nonneg _)))

/-- Concrete case: in `double` (53 digits) 78 roundings are a relative error below `9e-15` of the sum of the absolute values of
the terms, 676 below `8e-14`. -/
theorem C122_double : gamma ((2 : ℝ)⁻¹ ^ 53) 78 < 9e-15 ∧ gamma ((2 : ℝ)⁻¹ ^ 53) 676 < 8e-14 := by
  have key : ∀ k : ℕ, k ≤ 676 → gamma ((2 : ℝ)⁻¹ ^ 53) k ≤ 1.01 * k * (2 : ℝ)⁻¹ ^ 53 := fun k hk => by
    induction k with
    | zero => simp [gamma]
    | succ k ih =>
      have h1 := ih (by omega)
      have h2 : (k : ℝ) ≤ 676 := by exact_mod_cast (by omega : k ≤ 676)
      unfold gamma at h1 ⊢
      rw [pow_succ]
      push_cast
      generalize (1 + (2 : ℝ)⁻¹ ^ 53) ^ k = t at h1
      have h0 : (0 : ℝ) ≤ k := Nat.cast_nonneg k
      norm_num at h1 ⊢
      nlinarith
  constructor
  · refine (key 78 (by norm_num)).trans_lt ?_
    norm_num
  · refine (key 676 (by norm_num)).trans_lt ?_
    norm_num

end Cafes.Props
