/-
Property theorems for the global weak form of the matrix-free operators: C86, and for `apply_mass_matrix`: C67.
-/
import Verif.Props.Operator
import Verif.Props.FE

namespace Cafes.Props
open Cafes Cafes.Spec

/-! ### The finite element field of a grid vector -/

/-- Component `c`, on the cell `e`, of the finite element field whose nodal values are `v` (2D): at the position
`(x, y)` in the cell. -/
noncomputable def field2 {n : ℕ} (L : Fin 2 → Dir) (h : Pos 2 ℝ) (v : NodeVec 2 n ℝ) (e : Pos 2 ℤ) (c : Fin n)
    (x y : ℝ) : ℝ :=
  ∑ k, v (wrap L (getElement2 e k)) c * phi2 h k x y

/-- Component `c`, on the cell `e`, of the finite element field whose nodal values are `v` (3D). -/
noncomputable def field3 {n : ℕ} (L : Fin 3 → Dir) (h : Pos 3 ℝ) (v : NodeVec 3 n ℝ) (e : Pos 3 ℤ) (c : Fin n)
    (x y z : ℝ) : ℝ :=
  ∑ k, v (wrap L (getElement3 e k)) c * phi3 h k x y z

/-- Symmetric gradient of a vector field of gradient `G`, `G a b` being the derivative of the component `a` in
direction `b`. -/
noncomputable def symPart {n : ℕ} (G : Fin n → Fin n → ℝ) (a b : Fin n) : ℝ := (G a b + G b a) / 2

/-! ### Integrals of bilinear expressions -/

theorem int2_bilin {ι κ : Type*} [Fintype ι] [Fintype κ] (h : Fin 2 → ℝ) (F : ι → ℝ → ℝ → ℝ) (G : κ → ℝ → ℝ → ℝ)
    (hc : ∀ i j, Continuous fun v : ℝ × ℝ => F i v.1 v.2 * G j v.1 v.2) (a : ι → ℝ) (b : κ → ℝ) :
    int2 h (fun x y => (∑ i, a i * F i x y) * ∑ j, b j * G j x y) =
      ∑ i, ∑ j, a i * b j * int2 h (fun x y => F i x y * G j x y) := by
  have e : ∀ x y, (∑ i, a i * F i x y) * ∑ j, b j * G j x y =
      ∑ i, ∑ j, a i * b j * (F i x y * G j x y) := by
    intro x y
    rw [Finset.sum_mul_sum]
    refine Finset.sum_congr rfl fun i _ => Finset.sum_congr rfl fun j _ => ?_
    ring
  simp only [e]
  rw [int2_sum _ _ _ fun i => continuous_finsetSum _ fun j _ => continuous_const.mul (hc i j)]
  refine Finset.sum_congr rfl fun i _ => ?_
  rw [int2_sum _ _ _ fun j => continuous_const.mul (hc i j)]
  refine Finset.sum_congr rfl fun j _ => ?_
  exact int2_const_mul _ _ _

theorem int3_bilin {ι κ : Type*} [Fintype ι] [Fintype κ] (h : Fin 3 → ℝ) (F : ι → ℝ → ℝ → ℝ → ℝ)
    (G : κ → ℝ → ℝ → ℝ → ℝ)
    (hc : ∀ i j, Continuous fun v : ℝ × ℝ × ℝ => F i v.1 v.2.1 v.2.2 * G j v.1 v.2.1 v.2.2) (a : ι → ℝ) (b : κ → ℝ) :
    int3 h (fun x y z => (∑ i, a i * F i x y z) * ∑ j, b j * G j x y z) =
      ∑ i, ∑ j, a i * b j * int3 h (fun x y z => F i x y z * G j x y z) := by
  have e : ∀ x y z, (∑ i, a i * F i x y z) * ∑ j, b j * G j x y z =
      ∑ i, ∑ j, a i * b j * (F i x y z * G j x y z) := by
    intro x y z
    rw [Finset.sum_mul_sum]
    refine Finset.sum_congr rfl fun i _ => Finset.sum_congr rfl fun j _ => ?_
    ring
  simp only [e]
  rw [int3_sum _ _ _ fun i => continuous_finsetSum _ fun j _ => continuous_const.mul (hc i j)]
  refine Finset.sum_congr rfl fun i _ => ?_
  rw [int3_sum _ _ _ fun j => continuous_const.mul (hc i j)]
  refine Finset.sum_congr rfl fun j _ => ?_
  exact int3_const_mul _ _ _

theorem phi2_fac (h : Fin 2 → ℝ) (k : Fin 4) (x y : ℝ) :
    phi2 h k x y = fac false (bit2 k 0) (h 0) x * fac false (bit2 k 1) (h 1) y := by simp [phi2, fac]
theorem phi3_fac (h : Fin 3 → ℝ) (k : Fin 8) (x y z : ℝ) :
    phi3 h k x y z = fac false (bit3 k 0) (h 0) x * fac false (bit3 k 1) (h 1) y * fac false (bit3 k 2) (h 2) z := by
  simp [phi3, fac]

theorem cont_phi2 (h : Fin 2 → ℝ) (k : Fin 4) : Continuous fun v : ℝ × ℝ => phi2 h k v.1 v.2 := by
  simp only [phi2_fac]
  exact ((continuous_fac _ _ _).comp continuous_fst).mul ((continuous_fac _ _ _).comp continuous_snd)
theorem cont_phi3 (h : Fin 3 → ℝ) (k : Fin 8) : Continuous fun v : ℝ × ℝ × ℝ => phi3 h k v.1 v.2.1 v.2.2 := by
  simp only [phi3_fac]
  exact (((continuous_fac _ _ _).comp continuous_fst).mul ((continuous_fac _ _ _).comp (by fun_prop))).mul
    ((continuous_fac _ _ _).comp (by fun_prop))
theorem cont_grad2 (h : Fin 2 → ℝ) (k : Fin 4) (p : Fin 2) :
    Continuous fun v : ℝ × ℝ => grad2 (phi2 h k) v.1 v.2 p := by
  simp only [grad2_phi2]
  exact ((continuous_fac _ _ _).comp continuous_fst).mul ((continuous_fac _ _ _).comp continuous_snd)
theorem cont_grad3 (h : Fin 3 → ℝ) (k : Fin 8) (p : Fin 3) :
    Continuous fun v : ℝ × ℝ × ℝ => grad3 (phi3 h k) v.1 v.2.1 v.2.2 p := by
  simp only [grad3_phi3]
  exact (((continuous_fac _ _ _).comp continuous_fst).mul ((continuous_fac _ _ _).comp (by fun_prop))).mul
    ((continuous_fac _ _ _).comp (by fun_prop))

theorem diff_hat (b : Fin 2) (h : ℝ) : Differentiable ℝ (hat b h) := fun t => (hasDerivAt_hat b h t).differentiableAt

theorem grad_field2 {n : ℕ} (L : Fin 2 → Dir) (h : Pos 2 ℝ) (v : NodeVec 2 n ℝ) (e : Pos 2 ℤ) (c : Fin n)
    (x y : ℝ) (b : Fin 2) :
    grad2 (field2 L h v e c) x y b = ∑ k, v (wrap L (getElement2 e k)) c * grad2 (phi2 h k) x y b := by
  fin_cases b
  · have : HasDerivAt (fun s => field2 L h v e c s y)
        (∑ k, v (wrap L (getElement2 e k)) c * deriv (fun s => phi2 h k s y) x) x :=
      HasDerivAt.fun_sum fun k _ => HasDerivAt.const_mul _ (DifferentiableAt.hasDerivAt
        (((diff_hat _ _) x).mul_const _))
    exact this.deriv
  · have : HasDerivAt (fun s => field2 L h v e c x s)
        (∑ k, v (wrap L (getElement2 e k)) c * deriv (fun s => phi2 h k x s) y) y :=
      HasDerivAt.fun_sum fun k _ => HasDerivAt.const_mul _ (DifferentiableAt.hasDerivAt
        (((diff_hat _ _) y).const_mul _))
    exact this.deriv

theorem grad_field3 {n : ℕ} (L : Fin 3 → Dir) (h : Pos 3 ℝ) (v : NodeVec 3 n ℝ) (e : Pos 3 ℤ) (c : Fin n)
    (x y z : ℝ) (b : Fin 3) :
    grad3 (field3 L h v e c) x y z b = ∑ k, v (wrap L (getElement3 e k)) c * grad3 (phi3 h k) x y z b := by
  fin_cases b
  · have : HasDerivAt (fun s => field3 L h v e c s y z)
        (∑ k, v (wrap L (getElement3 e k)) c * deriv (fun s => phi3 h k s y z) x) x :=
      HasDerivAt.fun_sum fun k _ => HasDerivAt.const_mul _ (DifferentiableAt.hasDerivAt
        ((((diff_hat _ _) x).mul_const _).mul_const _))
    exact this.deriv
  · have : HasDerivAt (fun s => field3 L h v e c x s z)
        (∑ k, v (wrap L (getElement3 e k)) c * deriv (fun s => phi3 h k x s z) y) y :=
      HasDerivAt.fun_sum fun k _ => HasDerivAt.const_mul _ (DifferentiableAt.hasDerivAt
        ((((diff_hat _ _) y).const_mul _).mul_const _))
    exact this.deriv
  · have : HasDerivAt (fun s => field3 L h v e c x y s)
        (∑ k, v (wrap L (getElement3 e k)) c * deriv (fun s => phi3 h k x y s) z) z :=
      HasDerivAt.fun_sum fun k _ => HasDerivAt.const_mul _ (DifferentiableAt.hasDerivAt
        (((diff_hat _ _) z).const_mul _))
    exact this.deriv

/-! ### C86: the operators are the bilinear forms of the continuous problem -/

private theorem local_form {n N : ℕ} (z x : Fin N → Fin n → ℝ) (M : Fin N → Fin N → ℝ) :
    ∑ k1, ∑ c, z k1 c * ∑ k2, x k2 c * M k1 k2 = ∑ c, ∑ k1, ∑ k2, z k1 c * x k2 c * M k1 k2 := by
  rw [Finset.sum_comm]
  refine Finset.sum_congr rfl fun c _ => Finset.sum_congr rfl fun k1 _ => ?_
  rw [Finset.mul_sum]
  refine Finset.sum_congr rfl fun k2 _ => ?_
  ring

/-- C86 (mass, 2D): for all grid vectors, the product of `v` with the mass operator applied to `u` is the
integral over the domain of the product of the two finite element fields. -/
theorem C86_mass2 {n : ℕ} (L : Fin 2 → Dir) (hL : ∀ i, (L i).WF) (h : Pos 2 ℝ) (hh : ∀ c, 0 < h c)
    (v u : NodeVec 2 n ℝ) :
    dot L v (mass2 L h u) =
      ∑ e ∈ gridElems L, ∑ c, int2 h (fun x y => field2 L h v e c x y * field2 L h u e c x y) := by
  unfold mass2
  rw [dot_diagBlock L hL _ isQ1_2]
  refine Finset.sum_congr rfl fun e _ => ?_
  rw [local_form]
  refine Finset.sum_congr rfl fun c _ => ?_
  unfold field2
  rw [int2_bilin h (phi2 h) (phi2 h) (fun i j => (cont_phi2 h i).mul (cont_phi2 h j))]
  refine Finset.sum_congr rfl fun k1 _ => Finset.sum_congr rfl fun k2 _ => ?_
  rw [C11_mass2 h hh]

/-- C86 (mass, 3D). -/
theorem C86_mass3 {n : ℕ} (L : Fin 3 → Dir) (hL : ∀ i, (L i).WF) (h : Pos 3 ℝ) (hh : ∀ c, 0 < h c)
    (v u : NodeVec 3 n ℝ) :
    dot L v (mass3 L h u) =
      ∑ e ∈ gridElems L, ∑ c, int3 h (fun x y z => field3 L h v e c x y z * field3 L h u e c x y z) := by
  unfold mass3
  rw [dot_diagBlock L hL _ isQ1_3]
  refine Finset.sum_congr rfl fun e _ => ?_
  rw [local_form]
  refine Finset.sum_congr rfl fun c _ => ?_
  unfold field3
  rw [int3_bilin h (phi3 h) (phi3 h) (fun i j => (cont_phi3 h i).mul (cont_phi3 h j))]
  refine Finset.sum_congr rfl fun k1 _ => Finset.sum_congr rfl fun k2 _ => ?_
  rw [C11_mass3 h hh]

/-- C86 (Laplacian, 2D): the product is the integral of the scalar product of the gradients. -/
theorem C86_laplacian2 {n : ℕ} (L : Fin 2 → Dir) (hL : ∀ i, (L i).WF) (h : Pos 2 ℝ) (hh : ∀ c, 0 < h c)
    (v u : NodeVec 2 n ℝ) :
    dot L v (laplacian2 L h u) = ∑ e ∈ gridElems L, ∑ c, int2 h (fun x y =>
      ∑ b, grad2 (field2 L h v e c) x y b * grad2 (field2 L h u e c) x y b) := by
  unfold laplacian2
  rw [dot_diagBlock L hL _ isQ1_2]
  refine Finset.sum_congr rfl fun e _ => ?_
  rw [local_form]
  refine Finset.sum_congr rfl fun c _ => ?_
  simp only [grad_field2]
  rw [int2_sum]
  · have := fun b : Fin 2 => int2_bilin h (fun k x y => grad2 (phi2 h k) x y b) (fun k x y => grad2 (phi2 h k) x y b)
      (fun i j => (cont_grad2 h i b).mul (cont_grad2 h j b)) (fun k => v (wrap L (getElement2 e k)) c)
      (fun k => u (wrap L (getElement2 e k)) c)
    simp only [this]
    symm
    rw [Finset.sum_comm]
    refine Finset.sum_congr rfl fun k1 _ => ?_
    rw [Finset.sum_comm]
    refine Finset.sum_congr rfl fun k2 _ => ?_
    rw [C10_laplacian2 h hh, int2_sum _ _ _ fun b => cont_gg2 h k1 k2 b b, Finset.mul_sum]
  · intro b
    have hc : ∀ w : NodeVec 2 n ℝ, Continuous fun p : ℝ × ℝ =>
        ∑ k, w (wrap L (getElement2 e k)) c * grad2 (phi2 h k) p.1 p.2 b :=
      fun w => continuous_finsetSum _ fun k _ => continuous_const.mul (cont_grad2 h k b)
    exact (hc v).mul (hc u)

/-- C86 (Laplacian, 3D). -/
theorem C86_laplacian3 {n : ℕ} (L : Fin 3 → Dir) (hL : ∀ i, (L i).WF) (h : Pos 3 ℝ) (hh : ∀ c, 0 < h c)
    (v u : NodeVec 3 n ℝ) :
    dot L v (laplacian3 L h u) = ∑ e ∈ gridElems L, ∑ c, int3 h (fun x y z =>
      ∑ b, grad3 (field3 L h v e c) x y z b * grad3 (field3 L h u e c) x y z b) := by
  unfold laplacian3
  rw [dot_diagBlock L hL _ isQ1_3]
  refine Finset.sum_congr rfl fun e _ => ?_
  rw [local_form]
  refine Finset.sum_congr rfl fun c _ => ?_
  simp only [grad_field3]
  rw [int3_sum]
  · have := fun b : Fin 3 => int3_bilin h (fun k x y z => grad3 (phi3 h k) x y z b)
      (fun k x y z => grad3 (phi3 h k) x y z b)
      (fun i j => (cont_grad3 h i b).mul (cont_grad3 h j b)) (fun k => v (wrap L (getElement3 e k)) c)
      (fun k => u (wrap L (getElement3 e k)) c)
    simp only [this]
    symm
    rw [Finset.sum_comm]
    refine Finset.sum_congr rfl fun k1 _ => ?_
    rw [Finset.sum_comm]
    refine Finset.sum_congr rfl fun k2 _ => ?_
    rw [C10_laplacian3 h hh, int3_sum _ _ _ fun b => cont_gg3 h k1 k2 b b, Finset.mul_sum]
  · intro b
    have hc : ∀ w : NodeVec 3 n ℝ, Continuous fun p : ℝ × ℝ × ℝ =>
        ∑ k, w (wrap L (getElement3 e k)) c * grad3 (phi3 h k) p.1 p.2.1 p.2.2 b :=
      fun w => continuous_finsetSum _ fun k _ => continuous_const.mul (cont_grad3 h k b)
    exact (hc v).mul (hc u)

theorem cont_sym2 (h : Fin 2 → ℝ) (k : Fin 4) (a c d : Fin 2) :
    Continuous fun v : ℝ × ℝ => symGrad (grad2 (phi2 h k) v.1 v.2) a c d := by
  unfold symGrad
  refine Continuous.div_const (Continuous.add ?_ ?_) _ <;> split_ifs
  · exact cont_grad2 h k c
  · exact continuous_const
  · exact cont_grad2 h k d
  · exact continuous_const
theorem cont_sym3 (h : Fin 3 → ℝ) (k : Fin 8) (a c d : Fin 3) :
    Continuous fun v : ℝ × ℝ × ℝ => symGrad (grad3 (phi3 h k) v.1 v.2.1 v.2.2) a c d := by
  unfold symGrad
  refine Continuous.div_const (Continuous.add ?_ ?_) _ <;> split_ifs
  · exact cont_grad3 h k c
  · exact continuous_const
  · exact cont_grad3 h k d
  · exact continuous_const

private theorem sym_sum {n N : ℕ} (v : Fin N → Fin n → ℝ) (g : Fin N → Fin n → ℝ) (a b : Fin n) :
    symPart (fun c d => ∑ k, v k c * g k d) a b = ∑ p : Fin N × Fin n, v p.1 p.2 * symGrad (g p.1) p.2 a b := by
  rw [Fintype.sum_prod_type]
  unfold symPart symGrad
  rw [← Finset.sum_add_distrib, Finset.sum_div]
  refine Finset.sum_congr rfl fun k _ => ?_
  have : ∀ c, v k c * (((if b = c then g k a else 0) + (if a = c then g k b else 0)) / 2) =
      (if b = c then v k c * g k a / 2 else 0) + (if a = c then v k c * g k b / 2 else 0) := by
    intro c; split_ifs <;> ring
  simp only [this, Finset.sum_add_distrib, Finset.sum_ite_eq, Finset.mem_univ, if_true]
  ring

/-- C86 (strain, 2D): the product is the integral of `2 D(u) : D(v)`, `D` being the symmetric gradient. -/
theorem C86_strain2 (L : Fin 2 → Dir) (hL : ∀ i, (L i).WF) (h : Pos 2 ℝ) (hh : ∀ c, 0 < h c)
    (v u : NodeVec 2 2 ℝ) :
    dot L v (strain2 L h u) = ∑ e ∈ gridElems L, int2 h (fun x y => 2 * ∑ a, ∑ b,
      symPart (fun c d => grad2 (field2 L h v e c) x y d) a b *
        symPart (fun c d => grad2 (field2 L h u e c) x y d) a b) := by
  unfold strain2
  rw [dot_tensorBlock L hL _ isQ1_2]
  refine Finset.sum_congr rfl fun e _ => ?_
  simp only [grad_field2]
  have s := fun (w : NodeVec 2 2 ℝ) x y => sym_sum (fun k c => w (wrap L (getElement2 e k)) c)
    (fun k d => grad2 (phi2 h k) x y d)
  simp only [s]
  rw [int2_const_mul]
  have hcs : ∀ (w : NodeVec 2 2 ℝ) a b, Continuous fun p : ℝ × ℝ => ∑ q : Fin 4 × Fin 2,
      w (wrap L (getElement2 e q.1)) q.2 * symGrad (fun d => grad2 (phi2 h q.1) p.1 p.2 d) q.2 a b :=
    fun w a b => continuous_finsetSum _ fun q _ => continuous_const.mul (cont_sym2 h q.1 q.2 a b)
  rw [int2_sum _ _ _ fun a => continuous_finsetSum _ fun b _ => (hcs v a b).mul (hcs u a b)]
  have e1 : ∀ a, int2 h (fun x y => ∑ b, (∑ q : Fin 4 × Fin 2,
        v (wrap L (getElement2 e q.1)) q.2 * symGrad (fun d => grad2 (phi2 h q.1) x y d) q.2 a b) *
      ∑ q : Fin 4 × Fin 2, u (wrap L (getElement2 e q.1)) q.2 * symGrad (fun d => grad2 (phi2 h q.1) x y d) q.2 a b) =
      ∑ b, ∑ p : Fin 4 × Fin 2, ∑ q : Fin 4 × Fin 2,
        v (wrap L (getElement2 e p.1)) p.2 * u (wrap L (getElement2 e q.1)) q.2 *
        int2 h (fun x y => symGrad (grad2 (phi2 h p.1) x y) p.2 a b * symGrad (grad2 (phi2 h q.1) x y) q.2 a b) := by
    intro a
    rw [int2_sum _ _ _ fun b => (hcs v a b).mul (hcs u a b)]
    refine Finset.sum_congr rfl fun b _ => ?_
    exact int2_bilin h (fun (p : Fin 4 × Fin 2) x y => symGrad (grad2 (phi2 h p.1) x y) p.2 a b)
      (fun (p : Fin 4 × Fin 2) x y => symGrad (grad2 (phi2 h p.1) x y) p.2 a b)
      (fun i j => (cont_sym2 h i.1 i.2 a b).mul (cont_sym2 h j.1 j.2 a b)) _ _
  simp only [e1]
  have e2 : ∀ k1 k2 (c c2 : Fin 2), matElemStrain2 h k1 k2 c c2 = 2 * ∑ a, ∑ b,
      int2 h (fun x y => symGrad (grad2 (phi2 h k1) x y) c a b * symGrad (grad2 (phi2 h k2) x y) c2 a b) := by
    intro k1 k2 c c2
    rw [C12_strain2 h hh, int2_const_mul, int2_sum _ _ _ fun a => continuous_finsetSum _ fun b _ =>
      (cont_sym2 h k1 c a b).mul (cont_sym2 h k2 c2 a b)]
    congr 1
    refine Finset.sum_congr rfl fun a _ => ?_
    exact int2_sum _ _ _ fun b => (cont_sym2 h k1 c a b).mul (cont_sym2 h k2 c2 a b)
  simp only [e2]
  simp only [Fintype.sum_prod_type, Fin.sum_univ_two]
  simp only [Finset.mul_sum, ← Finset.sum_add_distrib]
  refine Finset.sum_congr rfl fun k1 _ => ?_
  refine Finset.sum_congr rfl fun k2 _ => ?_
  ring

/-- C86 (strain, 3D): the product is the integral of `2 D(u) : D(v)`, `D` being the symmetric gradient. -/
theorem C86_strain3 (L : Fin 3 → Dir) (hL : ∀ i, (L i).WF) (h : Pos 3 ℝ) (hh : ∀ c, 0 < h c)
    (v u : NodeVec 3 3 ℝ) :
    dot L v (strain3 L h u) = ∑ e ∈ gridElems L, int3 h (fun x y z => 2 * ∑ a, ∑ b,
      symPart (fun c d => grad3 (field3 L h v e c) x y z d) a b *
        symPart (fun c d => grad3 (field3 L h u e c) x y z d) a b) := by
  unfold strain3
  rw [dot_tensorBlock L hL _ isQ1_3]
  refine Finset.sum_congr rfl fun e _ => ?_
  simp only [grad_field3]
  have s := fun (w : NodeVec 3 3 ℝ) x y z => sym_sum (fun k c => w (wrap L (getElement3 e k)) c)
    (fun k d => grad3 (phi3 h k) x y z d)
  simp only [s]
  rw [int3_const_mul]
  have hcs : ∀ (w : NodeVec 3 3 ℝ) a b, Continuous fun p : ℝ × ℝ × ℝ => ∑ q : Fin 8 × Fin 3,
      w (wrap L (getElement3 e q.1)) q.2 * symGrad (fun d => grad3 (phi3 h q.1) p.1 p.2.1 p.2.2 d) q.2 a b :=
    fun w a b => continuous_finsetSum _ fun q _ => continuous_const.mul (cont_sym3 h q.1 q.2 a b)
  rw [int3_sum _ _ _ fun a => continuous_finsetSum _ fun b _ => (hcs v a b).mul (hcs u a b)]
  have e1 : ∀ a, int3 h (fun x y z => ∑ b, (∑ q : Fin 8 × Fin 3,
        v (wrap L (getElement3 e q.1)) q.2 * symGrad (fun d => grad3 (phi3 h q.1) x y z d) q.2 a b) *
      ∑ q : Fin 8 × Fin 3, u (wrap L (getElement3 e q.1)) q.2 * symGrad (fun d => grad3 (phi3 h q.1) x y z d) q.2 a b) =
      ∑ b, ∑ p : Fin 8 × Fin 3, ∑ q : Fin 8 × Fin 3,
        v (wrap L (getElement3 e p.1)) p.2 * u (wrap L (getElement3 e q.1)) q.2 *
        int3 h (fun x y z => symGrad (grad3 (phi3 h p.1) x y z) p.2 a b * symGrad (grad3 (phi3 h q.1) x y z) q.2 a b) := by
    intro a
    rw [int3_sum _ _ _ fun b => (hcs v a b).mul (hcs u a b)]
    refine Finset.sum_congr rfl fun b _ => ?_
    exact int3_bilin h (fun (p : Fin 8 × Fin 3) x y z => symGrad (grad3 (phi3 h p.1) x y z) p.2 a b)
      (fun (p : Fin 8 × Fin 3) x y z => symGrad (grad3 (phi3 h p.1) x y z) p.2 a b)
      (fun i j => (cont_sym3 h i.1 i.2 a b).mul (cont_sym3 h j.1 j.2 a b)) _ _
  simp only [e1]
  have e2 : ∀ k1 k2 (c c2 : Fin 3), matElemStrain3 h k1 k2 c c2 = 2 * ∑ a, ∑ b,
      int3 h (fun x y z => symGrad (grad3 (phi3 h k1) x y z) c a b * symGrad (grad3 (phi3 h k2) x y z) c2 a b) := by
    intro k1 k2 c c2
    rw [C12_strain3 h hh, int3_const_mul, int3_sum _ _ _ fun a => continuous_finsetSum _ fun b _ =>
      (cont_sym3 h k1 c a b).mul (cont_sym3 h k2 c2 a b)]
    congr 1
    refine Finset.sum_congr rfl fun a _ => ?_
    exact int3_sum _ _ _ fun b => (cont_sym3 h k1 c a b).mul (cont_sym3 h k2 c2 a b)
  simp only [e2]
  simp only [Fintype.sum_prod_type, Fin.sum_univ_three]
  simp only [Finset.mul_sum, ← Finset.sum_add_distrib]
  refine Finset.sum_congr rfl fun k1 _ => ?_
  refine Finset.sum_congr rfl fun k2 _ => ?_
  ring

/-! ### C67: `apply_mass_matrix` -/

theorem mass2_double {n : ℕ} (L : Fin 2 → Dir) (hL : ∀ i, (L i).WF) (h : Pos 2 ℝ) (u : NodeVec 2 n ℝ) :
    mass2 L (fun c => 2 * h c) u = fun g c => 4 * mass2 L h u g c := by
  funext g c
  unfold mass2
  rw [diagBlock_global L hL _ isQ1_2, diagBlock_global L hL _ isQ1_2, Finset.mul_sum]
  refine Finset.sum_congr rfl fun e _ => ?_
  rw [Finset.mul_sum]
  refine Finset.sum_congr rfl fun k _ => ?_
  split_ifs
  · rw [Finset.mul_sum]
    refine Finset.sum_congr rfl fun k2 _ => ?_
    simp only [matElemMass2]
    ring
  · simp

/-- C67 (2D): on the composite mesh of velocity step `h` and pressure step `2h`, for every test pair the product with
the output of `apply_mass_matrix` is the integral of the product of the velocity fields plus
`1/4` of the integral of the product of the pressure fields. -/
theorem C67_mass_pair2 {n : ℕ} (Lv Lp : Fin 2 → Dir) (hv : ∀ i, (Lv i).WF) (hp : ∀ i, (Lp i).WF) (h : Pos 2 ℝ)
    (hh : ∀ c, 0 < h c) (X Z : NodeVec 2 n ℝ × NodeVec 2 1 ℝ) :
    dot Lv Z.1 (applyMass2 Lv Lp h X).1 + dot Lp Z.2 (applyMass2 Lv Lp h X).2 =
      ∑ e ∈ gridElems Lv, ∑ c, int2 h (fun x y => field2 Lv h Z.1 e c x y * field2 Lv h X.1 e c x y) +
      1 / 4 * ∑ e ∈ gridElems Lp, ∑ c, int2 (fun i => 2 * h i)
        (fun x y => field2 Lp (fun i => 2 * h i) Z.2 e c x y * field2 Lp (fun i => 2 * h i) X.2 e c x y) := by
  rw [← C86_mass2 Lv hv h hh, ← C86_mass2 Lp hp (fun i => 2 * h i) (fun c => by linarith [hh c]),
    mass2_double Lp hp]
  congr 1
  show dot Lp Z.2 (mass2 Lp h X.2) = _
  unfold dot
  rw [Finset.mul_sum]
  refine Finset.sum_congr rfl fun g _ => ?_
  rw [Finset.mul_sum]
  refine Finset.sum_congr rfl fun c _ => ?_
  ring

/-- C67 (2D): when the pressure part of the argument is zero (the only use, cafes/problem/particle_operator.hpp:122),
`apply_mass_matrix` is the mass matrix of the mixed space: the pressure part of the result is zero and the velocity
part is the vector of the integrals of the velocity field against the test fields. -/
theorem C67_velocity_only2 {n : ℕ} (Lv Lp : Fin 2 → Dir) (hv : ∀ i, (Lv i).WF) (hp : ∀ i, (Lp i).WF) (h : Pos 2 ℝ)
    (hh : ∀ c, 0 < h c) (u : NodeVec 2 n ℝ) :
    (applyMass2 Lv Lp h (u, 0)).2 = 0 ∧
    ∀ v : NodeVec 2 n ℝ, dot Lv v (applyMass2 Lv Lp h (u, 0)).1 =
      ∑ e ∈ gridElems Lv, ∑ c, int2 h (fun x y => field2 Lv h v e c x y * field2 Lv h u e c x y) := by
  refine ⟨?_, fun v => C86_mass2 Lv hv h hh v u⟩
  funext g c
  show mass2 Lp h 0 g c = 0
  unfold mass2
  rw [diagBlock_global Lp hp _ isQ1_2]
  simp

theorem mass3_double {n : ℕ} (L : Fin 3 → Dir) (hL : ∀ i, (L i).WF) (h : Pos 3 ℝ) (u : NodeVec 3 n ℝ) :
    mass3 L (fun c => 2 * h c) u = fun g c => 8 * mass3 L h u g c := by
  funext g c
  unfold mass3
  rw [diagBlock_global L hL _ isQ1_3, diagBlock_global L hL _ isQ1_3, Finset.mul_sum]
  refine Finset.sum_congr rfl fun e _ => ?_
  rw [Finset.mul_sum]
  refine Finset.sum_congr rfl fun k _ => ?_
  split_ifs
  · rw [Finset.mul_sum]
    refine Finset.sum_congr rfl fun k2 _ => ?_
    simp only [matElemMass3]
    ring
  · simp

/-- C67 (3D): on the composite mesh of velocity step `h` and pressure step `2h`, for every test pair the product with
the output of `apply_mass_matrix` is the integral of the product of the velocity fields plus
`1/8` of the integral of the product of the pressure fields. -/
theorem C67_mass_pair3 {n : ℕ} (Lv Lp : Fin 3 → Dir) (hv : ∀ i, (Lv i).WF) (hp : ∀ i, (Lp i).WF) (h : Pos 3 ℝ)
    (hh : ∀ c, 0 < h c) (X Z : NodeVec 3 n ℝ × NodeVec 3 1 ℝ) :
    dot Lv Z.1 (applyMass3 Lv Lp h X).1 + dot Lp Z.2 (applyMass3 Lv Lp h X).2 =
      ∑ e ∈ gridElems Lv, ∑ c, int3 h (fun x y z => field3 Lv h Z.1 e c x y z * field3 Lv h X.1 e c x y z) +
      1 / 8 * ∑ e ∈ gridElems Lp, ∑ c, int3 (fun i => 2 * h i)
        (fun x y z => field3 Lp (fun i => 2 * h i) Z.2 e c x y z * field3 Lp (fun i => 2 * h i) X.2 e c x y z) := by
  rw [← C86_mass3 Lv hv h hh, ← C86_mass3 Lp hp (fun i => 2 * h i) (fun c => by linarith [hh c]),
    mass3_double Lp hp]
  congr 1
  show dot Lp Z.2 (mass3 Lp h X.2) = _
  unfold dot
  rw [Finset.mul_sum]
  refine Finset.sum_congr rfl fun g _ => ?_
  rw [Finset.mul_sum]
  refine Finset.sum_congr rfl fun c _ => ?_
  ring

/-- C67 (3D): when the pressure part of the argument is zero (the only use, cafes/problem/particle_operator.hpp:122),
`apply_mass_matrix` is the mass matrix of the mixed space: the pressure part of the result is zero and the velocity
part is the vector of the integrals of the velocity field against the test fields. -/
theorem C67_velocity_only3 {n : ℕ} (Lv Lp : Fin 3 → Dir) (hv : ∀ i, (Lv i).WF) (hp : ∀ i, (Lp i).WF) (h : Pos 3 ℝ)
    (hh : ∀ c, 0 < h c) (u : NodeVec 3 n ℝ) :
    (applyMass3 Lv Lp h (u, 0)).2 = 0 ∧
    ∀ v : NodeVec 3 n ℝ, dot Lv v (applyMass3 Lv Lp h (u, 0)).1 =
      ∑ e ∈ gridElems Lv, ∑ c, int3 h (fun x y z => field3 Lv h v e c x y z * field3 Lv h u e c x y z) := by
  refine ⟨?_, fun v => C86_mass3 Lv hv h hh v u⟩
  funext g c
  show mass3 Lp h 0 g c = 0
  unfold mass3
  rw [diagBlock_global Lp hp _ isQ1_3]
  simp

/-- A mesh which meets the hypotheses of C86 and C67: 5 velocity points and 3 pressure points in each direction,
cut in two processes. -/
example : (∀ i, ((fun _ => ⟨5, false, [3, 2]⟩ : Fin 2 → Dir) i).WF) ∧ (∀ i, ((fun _ => ⟨3, false, [2, 1]⟩ : Fin 2 → Dir) i).WF) ∧
    (∀ c, 0 < (![1/2, 3] : Pos 2 ℝ) c) := by
  refine ⟨fun i => ⟨rfl, by simp⟩, fun i => ⟨rfl, by simp⟩, ?_⟩
  intro c; fin_cases c <;> norm_num

end Cafes.Props
