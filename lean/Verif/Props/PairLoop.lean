/-
Property theorems for the loops over the pairs of particles and the forces of the singular fields: C77, C78.
-/
import Verif.Model.AddSing
import Verif.Props.Geometry
import Verif.Props.Particle
import Verif.Lemmas.Operator

namespace Cafes.Props
open Cafes Cafes.Geometry Cafes.Particle Cafes.Sing Cafes.AddSing

variable {d : ℕ}

/-! ### C77: the pairs of particles -/

/-- The pairs of the first `m` values of `ipart`. -/
private def firstPairs (n m : ℕ) : List (ℕ × ℕ) :=
  (List.range m).flatMap fun i => (List.range' (i + 1) (n - (i + 1))).map fun j => (i, j)

private theorem pairLoop_aux (n m : ℕ) (hm : m ≤ n) :
    (List.range m).foldl (fun (acc : Option (List (ℕ × ℕ))) ipart => acc.bind fun l =>
      if ipart < n then
        some (l ++ (List.range' (ipart + 1) (n - (ipart + 1))).map fun jpart => (ipart, jpart))
      else none) (some []) = some (firstPairs n m) := by
  induction m with
  | zero => rfl
  | succ m ih =>
    rw [List.range_succ, List.foldl_append, ih (by omega)]
    simp only [List.foldl_cons, List.foldl_nil, Option.bind_some]
    rw [if_pos (by omega)]
    simp [firstPairs, List.range_succ]

theorem toSize_natCast (n : ℕ) (hn : n < 2 ^ 64) : toSize (n : ℤ) = n := by
  unfold toSize
  rw [Int.emod_eq_of_lt (by positivity) (by exact_mod_cast hn)]
  rfl

theorem pairLoop_some (n : ℕ) (h1 : 1 ≤ n) (h2 : n ≤ 2 ^ 64) : pairLoop n = some (firstPairs n (n - 1)) := by
  unfold pairLoop
  have : ((n : ℤ) - 1) = ((n - 1 : ℕ) : ℤ) := by omega
  rw [this, toSize_natCast _ (by omega)]
  exact pairLoop_aux n (n - 1) (by omega)

/-- C77: with at least one particle, the pair loops visit every unordered pair of distinct particles exactly
once, never a particle with itself, and read no particle out of bounds. -/
theorem C77_pairs (n : ℕ) (h1 : 1 ≤ n) (h2 : n ≤ 2 ^ 64) :
    ∃ l, pairLoop n = some l ∧ l.Nodup ∧ (∀ i j, (i, j) ∈ l ↔ i < j ∧ j < n) ∧
      ∀ i j, i < n → j < n → i ≠ j → (((i, j) ∈ l ∧ (j, i) ∉ l) ∨ ((j, i) ∈ l ∧ (i, j) ∉ l)) := by
  have hmem : ∀ i j, (i, j) ∈ firstPairs n (n - 1) ↔ i < j ∧ j < n := by
    intro i j
    simp only [firstPairs, List.mem_flatMap, List.mem_range, List.mem_map, List.mem_range'_1, Prod.mk.injEq]
    constructor
    · rintro ⟨a, ha, b, hb, rfl, rfl⟩; omega
    · rintro ⟨hij, hj⟩
      exact ⟨i, by omega, j, by omega, rfl, rfl⟩
  refine ⟨_, pairLoop_some n h1 h2, ?_, hmem, ?_⟩
  · unfold firstPairs
    rw [List.nodup_flatMap]
    refine ⟨fun i _ => (List.nodup_range' (step := 1)).map fun a b hab => ?_, ?_⟩
    · simpa using hab
    · apply List.nodup_range.imp
      intro a b hab
      simp only [Function.onFun, List.disjoint_left, List.mem_map]
      rintro ⟨x, y⟩ ⟨u, _, hu⟩ ⟨v, _, hv⟩
      simp only [Prod.mk.injEq] at hu hv
      exact hab (hu.1.trans hv.1.symm)
  · intro i j hi hj hij
    rw [hmem, hmem]
    omega

/-- C77, the case without particles: `size() - 1` wraps around and the first iteration reads
`particles[0]` out of bounds. So the statement "for every number of particles" fails at 0. -/
theorem C77_no_particle_refuted : pairLoop 0 = none := by
  unfold pairLoop
  have : toSize (((0 : ℕ) : ℤ) - 1) = (2 ^ 64 - 2) + 1 := by decide
  rw [this, List.range_succ_eq_map, List.foldl_cons]
  have hn : ∀ l : List ℕ, l.foldl (fun (acc : Option (List (ℕ × ℕ))) ipart => acc.bind fun l =>
      if ipart < 0 then
        some (l ++ (List.range' (ipart + 1) (0 - (ipart + 1))).map fun jpart => (ipart, jpart))
      else none) none = none := by
    intro l
    induction l with
    | nil => rfl
    | cons a l ih => rw [List.foldl_cons, Option.bind_none, ih]
  have h0 : ((some []).bind fun l : List (ℕ × ℕ) => if 0 < 0 then
        some (l ++ (List.range' (0 + 1) (0 - (0 + 1))).map fun jpart => ((0 : ℕ), jpart)) else none) = none := by
    simp
  rw [h0, hn]

private theorem foldl_forces (sing : ℕ → ℕ → Option (Pos d ℝ × Pos d ℝ)) (l : List (ℕ × ℕ))
    (hl : ∀ ij ∈ l, ij.1 < ij.2) (f : ℕ → Pos d ℝ) (k : ℕ) :
    (l.foldl (fun (f : ℕ → Pos d ℝ) ij => match sing ij.1 ij.2 with
      | some F =>
        let f := Function.update f ij.1 (vecSubVec (f ij.1) F.1)
        Function.update f ij.2 (vecSubVec (f ij.2) F.2)
      | none => f) f) k = f k - (l.map fun ij =>
        (if ij.1 = k then ((sing ij.1 ij.2).map Prod.fst).getD 0 else 0) +
        (if ij.2 = k then ((sing ij.1 ij.2).map Prod.snd).getD 0 else 0)).sum := by
  induction l generalizing f with
  | nil => simp
  | cons a l ih =>
    rw [List.foldl_cons, ih fun ij h => hl ij (List.mem_cons_of_mem _ h), List.map_cons, List.sum_cons]
    have ha := hl a List.mem_cons_self
    have hsub : ∀ u v : Pos d ℝ, vecSubVec u v = u - v := by
      intro u v; funext i; simp [vecSubVec, compLoop_apply]
    cases hs : sing a.1 a.2 with
    | none => simp
    | some F =>
      simp only [hsub, Option.map_some, Option.getD_some]
      by_cases h2 : a.2 = k
      · subst h2
        rw [Function.update_self, Function.update_of_ne (by omega), if_neg (by omega), if_pos rfl]
        abel
      · rw [Function.update_of_ne (Ne.symm h2), if_neg h2]
        by_cases h1 : a.1 = k
        · subst h1
          rw [Function.update_self, if_pos rfl]; abel
        · rw [Function.update_of_ne (Ne.symm h1), if_neg h1]; abel

/-- C77 (effect): the force given to particle `k` is minus the sum, over the particles it is paired with, of
the force of the pair on it: the first force of the pairs `(k, j)`, `j > k`, and the second force of the pairs
`(i, k)`, `i < k`. -/
theorem C77_forces (n : ℕ) (h1 : 1 ≤ n) (h2 : n ≤ 2 ^ 64) (sing : ℕ → ℕ → Option (Pos d ℝ × Pos d ℝ)) :
    ∃ f, singForces n sing = some f ∧ ∀ k < n, f k =
      - (∑ j ∈ Finset.Ioo k n, ((sing k j).map Prod.fst).getD 0)
      - ∑ i ∈ Finset.range k, ((sing i k).map Prod.snd).getD 0 := by
  obtain ⟨l, hl, hnd, hmem, -⟩ := C77_pairs n h1 h2
  refine ⟨_, by unfold singForces; rw [hl]; rfl, ?_⟩
  intro k hk
  beta_reduce
  refine (foldl_forces sing l (fun ij h => ((hmem ij.1 ij.2).1 h).1) _ k).trans ?_
  rw [← List.sum_toFinset _ hnd, Finset.sum_add_distrib]
  have e1 : (∑ ij ∈ l.toFinset, if ij.1 = k then ((sing ij.1 ij.2).map Prod.fst).getD 0 else 0) =
      ∑ j ∈ Finset.Ioo k n, ((sing k j).map Prod.fst).getD 0 := by
    rw [← Finset.sum_filter]
    refine Finset.sum_nbij' (fun ij => ij.2) (fun j => (k, j)) ?_ ?_ ?_ ?_ ?_
    · rintro ⟨a, b⟩ h
      rw [Finset.mem_filter, List.mem_toFinset, hmem] at h
      rw [Finset.mem_Ioo]; simp only at h ⊢; omega
    · intro j hj
      rw [Finset.mem_Ioo] at hj
      rw [Finset.mem_filter, List.mem_toFinset, hmem]
      exact ⟨hj, rfl⟩
    · rintro ⟨a, b⟩ h
      rw [Finset.mem_filter] at h
      have : a = k := h.2
      subst this; rfl
    · intro j _; rfl
    · rintro ⟨a, b⟩ h
      rw [Finset.mem_filter] at h
      have : a = k := h.2
      subst this; rfl
  have e2 : (∑ ij ∈ l.toFinset, if ij.2 = k then ((sing ij.1 ij.2).map Prod.snd).getD 0 else 0) =
      ∑ i ∈ Finset.range k, ((sing i k).map Prod.snd).getD 0 := by
    rw [← Finset.sum_filter]
    refine Finset.sum_nbij' (fun ij => ij.1) (fun i => (i, k)) ?_ ?_ ?_ ?_ ?_
    · rintro ⟨a, b⟩ h
      rw [Finset.mem_filter, List.mem_toFinset, hmem] at h
      rw [Finset.mem_range]; simp only at h ⊢; omega
    · intro i hi
      rw [Finset.mem_range] at hi
      rw [Finset.mem_filter, List.mem_toFinset, hmem]
      exact ⟨⟨hi, hk⟩, rfl⟩
    · rintro ⟨a, b⟩ h
      rw [Finset.mem_filter] at h
      have : b = k := h.2
      subst this; rfl
    · intro j _; rfl
    · rintro ⟨a, b⟩ h
      rw [Finset.mem_filter] at h
      have : b = k := h.2
      subst this; rfl
  rw [e1, e2]
  show (0 : Pos d ℝ) - _ = _
  abel

example : pairLoop 3 = some [(0, 1), (0, 2), (1, 2)] := by decide
example : pairLoop 1 = some [] := by decide

/-! ### C78: the forces of the singular fields -/

/-- C78 (2D): the loop `for (std::size_t i = -N; i < N; ++i)` starts at `2^64 - N`, so its body is never
executed: in 2D the computed singular force is 0 for every pair of particles, whatever the singular stress. -/
theorem C78_2D_refuted (S : Singularity 2) (N : ℕ) (hN : N ≤ 2 ^ 63) : singForce2 S N = 0 := by
  have h : sizeLoop (-(N : ℤ)) N = [] := by
    unfold sizeLoop
    have h1 : toSize (N : ℤ) = N := toSize_natCast N (by omega)
    have h2 : N = 0 ∨ toSize (-(N : ℤ)) = 2 ^ 64 - N := by
      by_cases h0 : N = 0
      · exact Or.inl h0
      · right
        unfold toSize
        rw [Int.emod_def]
        have : -(N : ℤ) / 2 ^ 64 = -1 := by omega
        rw [this]; omega
    rw [h1]
    have : N - toSize (-(N : ℤ)) = 0 := by
      rcases h2 with h2 | h2
      · omega
      · rw [h2]; omega
    rw [this]; rfl
  unfold singForce2
  rw [h]
  rfl

/-- The contribution `coef * sigma * normal` of one quadrature point, taken to the mesh frame. -/
noncomputable def traction3 (base : Fin 3 → Pos 3 ℝ) (coef : ℝ) (sigma : Fin 3 → Fin 3 → ℝ) (normal : Pos 3 ℝ) :
    Pos 3 ℝ := fun c => ∑ k, base k c * ∑ l, coef * sigma k l * normal l

private theorem nested_update (m n : ℕ) (g : Fin m → Fin n → ℝ) (f : Pos m ℝ) :
    (List.finRange m).foldl (fun f a => (List.finRange n).foldl (fun (f : Pos m ℝ) b =>
      Function.update f a (f a + g a b)) f) f = fun a => f a + ∑ b, g a b := by
  funext c
  refine (foldl_finRange_eval _ (fun f : Pos m ℝ => f c) (fun a => if c = a then ∑ b, g a b else 0)
    (fun f a => ?_) f).trans ?_
  · refine (foldl_finRange_eval _ (fun f : Pos m ℝ => f c) (fun b => if c = a then g a b else 0)
      (fun f b => ?_) f).trans ?_
    · by_cases h : c = a
      · subst h; simp
      · simp [h]
    · by_cases h : c = a <;> simp [h]
  · simp

private theorem force3Step_eq (base : Fin 3 → Pos 3 ℝ) (coef : ℝ) (sigma : Fin 3 → Fin 3 → ℝ) (normal : Pos 3 ℝ)
    (s : Pos 3 ℝ × Pos 3 ℝ) :
    force3Step base coef sigma normal s =
      (fun c => s.1 c + ∑ k, base k c * (s.2 k + ∑ l, coef * sigma k l * normal l),
       fun k => s.2 k + ∑ l, coef * sigma k l * normal l) := by
  unfold force3Step
  dsimp only
  rw [nested_update 3 3 fun a b => coef * sigma a b * normal b]
  rw [nested_update 3 3 fun a b => base b a * (s.2 b + ∑ l, coef * sigma b l * normal l)]

/-- Running sums: adding at every step the sum of all the previous contributions gives the contribution number
`k` of `n` the weight `n - k`. -/
private theorem running (base : Fin 3 → Pos 3 ℝ) {α : Type*} (l : List α) (coef : α → ℝ)
    (sigma : α → Fin 3 → Fin 3 → ℝ) (normal : α → Pos 3 ℝ) (s : Pos 3 ℝ × Pos 3 ℝ) (c : Fin 3) :
    (l.foldl (fun s a => force3Step base (coef a) (sigma a) (normal a) s) s).1 c =
      s.1 c + l.length * ∑ k, base k c * s.2 k +
      (l.zipIdx.map fun a => ((l.length - a.2 : ℕ) : ℝ) * traction3 base (coef a.1) (sigma a.1) (normal a.1) c).sum := by
  induction l generalizing s with
  | nil => simp
  | cons a l ih =>
    rw [List.foldl_cons, ih, force3Step_eq]
    simp only [List.length_cons, List.zipIdx_cons, List.map_cons, List.sum_cons, Nat.sub_zero]
    rw [zero_add, List.zipIdx_succ, List.map_map]
    have e : ((fun a : α × ℕ => ((l.length + 1 - a.2 : ℕ) : ℝ) * traction3 base (coef a.1) (sigma a.1) (normal a.1) c) ∘
        fun x : α × ℕ => match x with | (a, b) => (a, b + 1)) =
        fun a : α × ℕ => ((l.length - a.2 : ℕ) : ℝ) * traction3 base (coef a.1) (sigma a.1) (normal a.1) c := by
      funext x
      simp
    rw [e]
    unfold traction3
    simp only [mul_add, Finset.sum_add_distrib]
    push_cast
    ring

/-- The quadrature points of `compute_singular_forces_on_part1/2` in 3D, in the order of the loops. -/
def quadPoints (N : ℕ) : List (ℕ × ℕ) := List.range' 1 N ×ˢ List.range' 1 N

/-- The contribution of the quadrature point `(i, j)` to the force on the spherical cap of angle
`theta = asin(cutoff H)` of the particle of curvature `H`: the stress times the outward normal times the
surface weight, in the mesh frame. -/
noncomputable def capTraction (base : Fin 3 → Pos 3 ℝ) (G : Pos 3 ℝ → Fin 3 → Fin 3 → ℝ) (p : Pos 3 ℝ → ℝ)
    (cutoff H contact : ℝ) (second : Bool) (N : ℕ) (ij : ℕ × ℕ) : Pos 3 ℝ :=
  let theta := Real.arcsin (cutoff * H)
  let a := ij.1 * theta / N
  let b := 2 * Real.pi * ij.2 / N
  let z : ℝ := if second then -1 else 1
  let normal : Pos 3 ℝ := ![Real.sin a * Real.cos b, Real.sin a * Real.sin b, z * Real.cos a]
  let pos : Pos 3 ℝ := ![Real.sin a * Real.cos b / H, Real.sin a * Real.sin b / H,
    if second then contact + (1 - Real.cos a) / H else (Real.cos a - 1) / H]
  traction3 base (2 * Real.pi * theta / N / N / H / H * Real.sin a) (stress3 (G pos) (p pos)) normal

private theorem foldl_product {α β σ : Type*} (l : List α) (m : List β) (f : σ → α → β → σ) (s : σ) :
    l.foldl (fun s a => m.foldl (fun s b => f s a b) s) s = (l ×ˢ m).foldl (fun s ab => f s ab.1 ab.2) s := by
  induction l generalizing s with
  | nil => rfl
  | cons a l ih =>
    rw [List.foldl_cons, ih, List.product_cons, List.foldl_append, List.foldl_map]

/-- C78 (3D, what is computed): `force` accumulates the running sums `force_ref` instead of the contributions,
so in the force returned by `compute_singular_forces_on_part1/2` the contribution of the quadrature point
number `k` (from 0) of the `N*N` points is counted `N*N - k` times. -/
theorem C78_3D_weights (base : Fin 3 → Pos 3 ℝ) (G : Pos 3 ℝ → Fin 3 → Fin 3 → ℝ) (p : Pos 3 ℝ → ℝ)
    (cutoff H contact : ℝ) (second : Bool) (N : ℕ) (c : Fin 3) :
    singForce3 base G p cutoff H contact second N c =
      ((quadPoints N).zipIdx.map fun a => ((N * N - a.2 : ℕ) : ℝ) *
        capTraction base G p cutoff H contact second N a.1 c).sum := by
  unfold singForce3
  dsimp only
  rw [foldl_product]
  refine (running base (List.range' 1 N ×ˢ List.range' 1 N)
    (fun ij => 2 * Real.pi * Real.arcsin (cutoff * H) / N / N / H / H * Real.sin (ij.1 * Real.arcsin (cutoff * H) / N))
    (fun ij =>
      let pos : Pos 3 ℝ := ![Real.sin (ij.1 * Real.arcsin (cutoff * H) / N) * Real.cos (2 * Real.pi * ij.2 / N) / H,
        Real.sin (ij.1 * Real.arcsin (cutoff * H) / N) * Real.sin (2 * Real.pi * ij.2 / N) / H,
        if second = true then contact + (1 - Real.cos (ij.1 * Real.arcsin (cutoff * H) / N)) / H
        else (Real.cos (ij.1 * Real.arcsin (cutoff * H) / N) - 1) / H]
      stress3 (G pos) (p pos))
    (fun ij => ![Real.sin (ij.1 * Real.arcsin (cutoff * H) / N) * Real.cos (2 * Real.pi * ij.2 / N),
        Real.sin (ij.1 * Real.arcsin (cutoff * H) / N) * Real.sin (2 * Real.pi * ij.2 / N),
        if second = true then -Real.cos (ij.1 * Real.arcsin (cutoff * H) / N)
        else Real.cos (ij.1 * Real.arcsin (cutoff * H) / N)]) _ c).trans ?_
  have hlen : (List.range' 1 N ×ˢ List.range' 1 N).length = N * N := by
    rw [List.length_product, List.length_range']
  rw [hlen]
  simp only [Pi.zero_apply, mul_zero, Finset.sum_const_zero, zero_add]
  unfold quadPoints
  congr 1
  apply List.map_congr_left
  intro a _
  cases second <;> simp [capTraction]

/-- C78 (3D): with one quadrature point the force is right. -/
theorem C78_3D_one (base : Fin 3 → Pos 3 ℝ) (G : Pos 3 ℝ → Fin 3 → Fin 3 → ℝ) (p : Pos 3 ℝ → ℝ)
    (cutoff H contact : ℝ) (second : Bool) :
    singForce3 base G p cutoff H contact second 1 =
      ((quadPoints 1).map fun ij => capTraction base G p cutoff H contact second 1 ij).sum := by
  funext c
  rw [C78_3D_weights]
  simp [quadPoints, List.range']

/-- C78 (3D): the returned force is not the quadrature of the traction over the cap. Counterexample: two points
per angle, pressure 1 and velocity gradient 0, on the unit sphere with the cap of angle `asin(1/2)`: the third
component of the quadrature is strictly larger than the one of the force returned. -/
theorem C78_3D_refuted :
    singForce3 (fun k i => if k = i then 1 else 0) (fun _ _ _ => 0) (fun _ => 1) (1 / 2) 1 0 false 2 2 <
      ((quadPoints 2).map fun ij => capTraction (fun k i => if k = i then 1 else 0) (fun _ _ _ => 0) (fun _ => 1)
        (1 / 2) 1 0 false 2 ij 2).sum := by
  rw [C78_3D_weights]
  set t := fun ij : ℕ × ℕ => capTraction (fun k i => if k = i then (1 : ℝ) else 0) (fun _ _ _ => 0) (fun _ => 1)
        (1 / 2) 1 0 false 2 ij 2 with ht
  have hth : 0 < Real.arcsin (1 / 2 * 1) ∧ Real.arcsin (1 / 2 * 1) < Real.pi / 2 := by
    constructor
    · exact Real.arcsin_pos.2 (by norm_num)
    · exact Real.arcsin_lt_pi_div_two.2 (by norm_num)
  have hneg : ∀ i j : ℕ, 1 ≤ i → i ≤ 2 → t (i, j) < 0 := by
    intro i j h1 h2
    have hi1 : (1 : ℝ) ≤ i := by exact_mod_cast h1
    have hi2 : (i : ℝ) ≤ 2 := by exact_mod_cast h2
    have hs : 0 < Real.sin (i * Real.arcsin (1 / 2 * 1) / (2 : ℕ)) := by
      apply Real.sin_pos_of_pos_of_lt_pi
      · have := hth.1; positivity
      · push_cast; nlinarith [hth.2, hth.1, Real.pi_pos]
    have hc : 0 < Real.cos (i * Real.arcsin (1 / 2 * 1) / (2 : ℕ)) := by
      apply Real.cos_pos_of_mem_Ioo
      constructor
      · have := hth.1; have : (0 : ℝ) ≤ i * Real.arcsin (1 / 2 * 1) / (2 : ℕ) := by positivity
        linarith [Real.pi_pos]
      · push_cast; nlinarith [hth.2, hth.1, Real.pi_pos]
    have : t (i, j) = -(2 * Real.pi * Real.arcsin (1 / 2 * 1) / (2 : ℕ) / (2 : ℕ) / 1 / 1 *
        Real.sin (i * Real.arcsin (1 / 2 * 1) / (2 : ℕ)) * Real.cos (i * Real.arcsin (1 / 2 * 1) / (2 : ℕ))) := by
      simp only [ht, capTraction, traction3, stress3]
      simp [Fin.sum_univ_three]
    rw [this]
    have := hth.1
    have := Real.pi_pos
    have : 0 < 2 * Real.pi * Real.arcsin (1 / 2 * 1) / (2 : ℕ) / (2 : ℕ) / 1 / 1 *
        Real.sin (i * Real.arcsin (1 / 2 * 1) / (2 : ℕ)) * Real.cos (i * Real.arcsin (1 / 2 * 1) / (2 : ℕ)) := by
      positivity
    linarith
  have hq : quadPoints 2 = [(1, 1), (1, 2), (2, 1), (2, 2)] := by decide
  rw [hq]
  simp only [List.zipIdx_cons, List.zipIdx_nil, List.map_cons, List.map_nil, List.sum_cons, List.sum_nil]
  have a := hneg 1 1 (by norm_num) (by norm_num)
  have b := hneg 1 2 (by norm_num) (by norm_num)
  have c := hneg 2 1 (by norm_num) (by norm_num)
  change ((4 : ℕ) : ℝ) * t (1, 1) + (((3 : ℕ) : ℝ) * t (1, 2) + (((2 : ℕ) : ℝ) * t (2, 1) +
    (((1 : ℕ) : ℝ) * t (2, 2) + 0))) < t (1, 1) + (t (1, 2) + (t (2, 1) + (t (2, 2) + 0)))
  push_cast
  linarith

/-! ### C78: the stress -/

/-- The stress of a fluid of viscosity 1 with velocity gradient `G` and pressure `p`. -/
def newton {n : ℕ} (G : Fin n → Fin n → ℝ) (p : ℝ) (i j : Fin n) : ℝ :=
  (G i j + G j i) - if i = j then p else 0

/-- C78: the tensor used in the plane is the stress of the fluid. -/
theorem C78_stress2 (G : Fin 2 → Fin 2 → ℝ) (p : ℝ) (i j : Fin 2) : stress2 G p i j = newton G p i j := by
  fin_cases i <;> fin_cases j <;> simp [stress2, newton] <;> ring

/-- C78: in space every entry of the tensor used is that of the stress, but those of the plane of the contact,
which are twice `∂₁u₀`. -/
theorem C78_stress3 (G : Fin 3 → Fin 3 → ℝ) (p : ℝ) (i j : Fin 3) :
    stress3 G p i j = if (i = 0 ∧ j = 1) ∨ (i = 1 ∧ j = 0) then 2 * G 0 1 else newton G p i j := by
  fin_cases i <;> fin_cases j <;> simp [stress3, newton] <;> ring

/-- C78: the tensor used in space is the stress exactly when the gradient is symmetric in the plane of the
contact; otherwise the force it exerts on that plane is wrong. -/
theorem C78_stress3_iff (G : Fin 3 → Fin 3 → ℝ) (p : ℝ) :
    (∀ i j, stress3 G p i j = newton G p i j) ↔ G 0 1 = G 1 0 := by
  constructor
  · intro h
    have := h 0 1
    rw [C78_stress3] at this
    simp [newton] at this
    linarith
  · intro h i j
    rw [C78_stress3]
    split_ifs with hij
    · rcases hij with ⟨rfl, rfl⟩ | ⟨rfl, rfl⟩ <;> simp [newton, h] <;> ring
    · rfl

/-- C78: for the singular field in space the gradient has that symmetry, so the tensor used is its stress. -/
theorem C78_stress_sing (S : Singularity 3) (q : Pos 3 ℝ) (i j : Fin 3) :
    stress3 (gradRef3 S q) (pRef3 S q) i j = newton (gradRef3 S q) (pRef3 S q) i j :=
  (C78_stress3_iff _ _).2 rfl i j

/-- A solid rotation about the axis of the contact, which has no stress, would get one: the symmetry is
needed. -/
example : newton ![![0, -1, 0], ![1, 0, 0], ![0, 0, 0]] 0 (0 : Fin 3) 1 = 0 ∧
    stress3 ![![0, -1, 0], ![1, 0, 0], ![0, 0, 0]] 0 0 1 = -2 := by
  norm_num [newton, stress3]

end Cafes.Props
