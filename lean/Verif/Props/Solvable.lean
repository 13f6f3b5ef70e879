/-
Property theorems: C94, existence of solutions of the discrete Stokes problem.
-/
import Verif.Lemmas.Solvable
import Verif.Lemmas.Flux
import Verif.Props.StokesRhs

namespace Cafes.Props
open Cafes Cafes.Spec
variable {d n NP NV : ℕ}

/-- `(u, p)` solves the system of operator `F` with right-hand side `(f, s)` at the nodes of the grid. -/
def Solves (Lv Lp : Fin d → Dir) (F : NodeVec d d ℝ → NodeVec d 1 ℝ → NodeVec d d ℝ × NodeVec d 1 ℝ)
    (f : NodeVec d d ℝ) (s : NodeVec d 1 ℝ) (u : NodeVec d d ℝ) (p : NodeVec d 1 ℝ) : Prop :=
  (∀ g ∈ gridNodes Lv, ∀ c, (F u p).1 g c = f g c) ∧ ∀ q ∈ gridNodes Lp, (F u p).2 q 0 = s q 0

/-- Every wall imposes its normal component. -/
def NormalHeld {C : Type*} (per : Fin d → Bool) (bc : ℕ → Fin d → Option C) : Prop :=
  ∀ a : Fin d, per a = false → (bc (2 * a.1) a).isSome ∧ (bc (2 * a.1 + 1) a).isSome

/-- Some wall leaves its normal component free. -/
def OpenWall {C : Type*} (per : Fin d → Bool) (bc : ℕ → Fin d → Option C) : Prop :=
  ∃ a : Fin d, per a = false ∧ (bc (2 * a.1) a = none ∨ bc (2 * a.1 + 1) a = none)

/-- One of the two holds, and not both. -/
theorem open_iff {C : Type*} (per : Fin d → Bool) (bc : ℕ → Fin d → Option C) :
    OpenWall per bc ↔ ¬ NormalHeld per bc := by
  unfold OpenWall NormalHeld
  push Not
  refine exists_congr fun a => and_congr_right fun _ => ?_
  rw [← Option.not_isSome_iff_eq_none, ← Option.not_isSome_iff_eq_none]
  tauto

theorem wallFlux_comb (L : Fin d → Dir) (h : Pos d ℝ) (a b : ℝ) (x y : NodeVec d d ℝ) :
    wallFlux L h (a • x + b • y) = a * wallFlux L h x + b * wallFlux L h y := by
  unfold wallFlux
  rw [Finset.mul_sum, Finset.mul_sum, ← Finset.sum_add_distrib]
  refine Finset.sum_congr rfl fun c _ => ?_
  rw [Finset.mul_sum, Finset.mul_sum, ← Finset.sum_add_distrib]
  refine Finset.sum_congr rfl fun g _ => ?_
  simp only [Pi.add_apply, Pi.smul_apply, smul_eq_mul]
  ring

/-- The flux depends on the normal components at the nodes of the walls only. -/
theorem wallFlux_congr (L : Fin d → Dir) (h : Pos d ℝ) (x y : NodeVec d d ℝ)
    (hxy : ∀ g ∈ gridNodes L, ∀ a, (L a).periodic = false → (g a = 0 ∨ g a = (L a).m - 1) →
      x g a = y g a) : wallFlux L h x = wallFlux L h y := by
  unfold wallFlux
  refine Finset.sum_congr rfl fun a _ => Finset.sum_congr rfl fun g hg => ?_
  by_cases hp : (L a).periodic = true
  · simp [outward, hp]
  · by_cases hw : g a = 0 ∨ g a = (L a).m - 1
    · rw [hxy g hg a (by simpa using hp) hw]
    · push Not at hw
      simp [outward, hw.1, hw.2]

section main
variable (N : Fin d → ℤ) (per : Fin d → Bool)
  (lx : Fin d → List ℤ) (hne : ∀ i, lx i ≠ []) (hW : ∀ i, (presLayout N per lx i).WF)
  (elemP : Pos d ℤ → Fin NP → Pos d ℤ) (elemV : Pos d ℤ → Fin NV → Pos d ℤ) (hel : IsQ1 elemP)
  (off : Fin NV → Fin d → Fin 3) (hoff : Is4Q1 elemV off)
  (apply : (Fin d → ℕ) → NodeVec d d ℝ → NodeVec d d ℝ → NodeVec d d ℝ)
  (B : Fin NP → Fin NV → Fin d → ℝ)
include hne hW hel hoff

theorem offDiag_combines : Combines (fun x : NodeVec d d ℝ × NodeVec d 1 ℝ =>
    offDiagMatrix (velLayout N per lx) (presLayout N per lx) elemP elemV B x.1 x.2) := by
  intro a b x y
  unfold offDiagMatrix
  refine Prod.ext (funext fun g => funext fun c => ?_) (funext fun g => funext fun c => ?_)
  · simp only [Prod.fst_add, Prod.snd_add, Prod.smul_fst, Prod.smul_snd, Pi.add_apply, Pi.smul_apply,
      smul_eq_mul, vel_out N per lx hne hW elemP elemV hel off hoff,
      block_id_zero N per lx hne hW elemP elemV hel off hoff, zero_add]
    rw [Finset.mul_sum, Finset.mul_sum, ← Finset.sum_add_distrib]
    refine Finset.sum_congr rfl fun e _ => ?_
    rw [Finset.mul_sum, Finset.mul_sum, ← Finset.sum_add_distrib]
    refine Finset.sum_congr rfl fun k _ => ?_
    split_ifs
    · rw [Finset.mul_sum, Finset.mul_sum, ← Finset.sum_add_distrib]
      exact Finset.sum_congr rfl fun j _ => by ring
    · ring
  · simp only [Prod.fst_add, Prod.snd_add, Prod.smul_fst, Prod.smul_snd, Pi.add_apply, Pi.smul_apply,
      smul_eq_mul, pres_out N per lx hne hW elemP elemV hel off hoff]
    rw [Finset.mul_sum, Finset.mul_sum, ← Finset.sum_add_distrib]
    refine Finset.sum_congr rfl fun e _ => ?_
    rw [Finset.mul_sum, Finset.mul_sum, ← Finset.sum_add_distrib]
    refine Finset.sum_congr rfl fun k _ => ?_
    split_ifs
    · rw [Finset.mul_sum, Finset.mul_sum, ← Finset.sum_add_distrib]
      refine Finset.sum_congr rfl fun j _ => ?_
      rw [Finset.mul_sum, Finset.mul_sum, ← Finset.sum_add_distrib]
      exact Finset.sum_congr rfl fun c _ => by ring
    · ring

theorem stokesBC_combines (rs : List (Fin d → ℕ)) (hrs : AllProcs (velLayout N per lx) rs) (bc : BC d ℝ)
    (hlin : Combines (blockMatrix (velLayout N per lx) apply)) :
    Combines (fun x : NodeVec d d ℝ × NodeVec d 1 ℝ =>
      stokesMatrixBC (velLayout N per lx) (presLayout N per lx) rs bc apply elemP elemV B x.1 x.2) := by
  intro a b x y
  have hv := velLayout_wf N per lx hne hW
  have ho := offDiag_combines N per lx hne hW elemP elemV hel off hoff B a b x y
  have hs := fun z : NodeVec d d ℝ × NodeVec d 1 ℝ =>
    stokes_split N per lx hne hW elemP elemV hel off hoff apply B z.1 z.2
  have h1 : (stokesMatrix (velLayout N per lx) (presLayout N per lx) apply elemP elemV B
      (a • x + b • y).1 (a • x + b • y).2).1 = a • (stokesMatrix (velLayout N per lx)
        (presLayout N per lx) apply elemP elemV B x.1 x.2).1 + b • (stokesMatrix (velLayout N per lx)
        (presLayout N per lx) apply elemP elemV B y.1 y.2).1 := by
    funext g c
    simp only [Pi.add_apply, Pi.smul_apply, smul_eq_mul]
    rw [(hs _).1, (hs x).1, (hs y).1]
    have e1 := congrFun (congrFun (hlin a b x.1 y.1) g) c
    have e2 := congrFun (congrFun (congrArg Prod.fst ho) g) c
    simp only [Prod.fst_add, Prod.smul_fst, Pi.add_apply, Pi.smul_apply, smul_eq_mul] at e1 e2 ⊢
    rw [e1, e2]; ring
  have h2 : (stokesMatrix (velLayout N per lx) (presLayout N per lx) apply elemP elemV B
      (a • x + b • y).1 (a • x + b • y).2).2 = a • (stokesMatrix (velLayout N per lx)
        (presLayout N per lx) apply elemP elemV B x.1 x.2).2 + b • (stokesMatrix (velLayout N per lx)
        (presLayout N per lx) apply elemP elemV B y.1 y.2).2 := by
    funext g c
    simp only [Pi.add_apply, Pi.smul_apply, smul_eq_mul]
    rw [(hs _).2, (hs x).2, (hs y).2]
    have e2 := congrFun (congrFun (congrArg Prod.snd ho) g) c
    simp only [Prod.snd_add, Prod.smul_snd, Pi.add_apply, Pi.smul_apply, smul_eq_mul] at e2 ⊢
    rw [e2]
  refine Prod.ext ?_ ?_
  · show setDirichletOnVec _ rs bc (a • x + b • y).1 _ = a • setDirichletOnVec _ rs bc x.1 _ +
      b • setDirichletOnVec _ rs bc y.1 _
    rw [h1]
    exact dirichlet_combines _ hv rs hrs bc a b _ _ _ _
  · exact h2

/-- The divergence rows of the system with boundary conditions. -/
theorem stokesBC_div (rs : List (Fin d → ℕ)) (bc : BC d ℝ) (u : NodeVec d d ℝ) (p : NodeVec d 1 ℝ)
    (q : Pos d ℤ) :
    (stokesMatrixBC (velLayout N per lx) (presLayout N per lx) rs bc apply elemP elemV B u p).2 q 0 =
      (offDiagMatrix (velLayout N per lx) (presLayout N per lx) elemP elemV B u p).2 q 0 :=
  (stokes_split N per lx hne hW elemP elemV hel off hoff apply B u p).2 q 0

/-- When the normal components are imposed, the flux of the first output is that of the velocity. -/
theorem flux_out (rs : List (Fin d → ℕ)) (hrs : AllProcs (velLayout N per lx) rs) (bc : BC d ℝ)
    (hn : NormalHeld per bc) (h : Pos d ℝ) (u : NodeVec d d ℝ) (p : NodeVec d 1 ℝ) :
    wallFlux (velLayout N per lx) h (stokesMatrixBC (velLayout N per lx) (presLayout N per lx) rs bc
      apply elemP elemV B u p).1 = wallFlux (velLayout N per lx) h u := by
  have hv := velLayout_wf N per lx hne hW
  refine wallFlux_congr _ h _ _ fun g hg a hp hw => ?_
  show setDirichletOnVec _ rs bc u _ g a = u g a
  rw [C25_vec _ hv rs hrs, if_pos]
  refine ⟨hg, ?_⟩
  have hc := hn a hp
  rcases hw with hw | hw
  · exact ⟨2 * a.1, ⟨a, hp, Or.inl ⟨rfl, hw⟩⟩, hc.1⟩
  · exact ⟨2 * a.1 + 1, ⟨a, hp, Or.inr ⟨rfl, hw⟩⟩, hc.2⟩

/-- Closed case. -/
theorem solvable_closed (rs : List (Fin d → ℕ)) (hrs : AllProcs (velLayout N per lx) rs) (bc : BC d ℝ)
    (h : Pos d ℝ) (hlin : Combines (blockMatrix (velLayout N per lx) apply)) (hn : NormalHeld per bc)
    (hN : ∀ i, 2 ≤ N i)
    (hdiv : ∀ u p, ∑ q ∈ gridNodes (presLayout N per lx),
      (offDiagMatrix (velLayout N per lx) (presLayout N per lx) elemP elemV B u p).2 q 0 =
        wallFlux (velLayout N per lx) h u)
    (hker : ∀ u p, Solves (velLayout N per lx) (presLayout N per lx) (stokesMatrixBC (velLayout N per lx)
      (presLayout N per lx) rs bc apply elemP elemV B) 0 0 u p →
      (∀ g ∈ gridNodes (velLayout N per lx), ∀ c, u g c = 0) ∧
      ∃ k, ∀ q ∈ gridNodes (presLayout N per lx), p q 0 = k)
    (f : NodeVec d d ℝ) (s : NodeVec d 1 ℝ) :
    (∃ u p, Solves (velLayout N per lx) (presLayout N per lx) (stokesMatrixBC (velLayout N per lx)
      (presLayout N per lx) rs bc apply elemP elemV B) f s u p) ↔
    ∑ q ∈ gridNodes (presLayout N per lx), s q 0 = wallFlux (velLayout N per lx) h f := by
  have hran : ∀ u p, ∑ q ∈ gridNodes (presLayout N per lx), (stokesMatrixBC (velLayout N per lx)
      (presLayout N per lx) rs bc apply elemP elemV B u p).2 q 0 = wallFlux (velLayout N per lx) h
      (stokesMatrixBC (velLayout N per lx) (presLayout N per lx) rs bc apply elemP elemV B u p).1 := by
    intro u p
    rw [flux_out N per lx hne hW elemP elemV hel off hoff apply B rs hrs bc hn, ← hdiv u p]
    exact Finset.sum_congr rfl fun q _ =>
      stokesBC_div N per lx hne hW elemP elemV hel off hoff apply B rs bc u p q
  constructor
  · rintro ⟨u, p, h1, h2⟩
    rw [← Finset.sum_congr rfl h2, hran u p]
    exact wallFlux_congr _ h _ _ fun g hg a _ _ => h1 g hg a
  · intro hfs
    set Sv := gridNodes (velLayout N per lx) with hSv
    set Sp := gridNodes (presLayout N per lx) with hSp
    have hF := stokesBC_combines N per lx hne hW elemP elemV hel off hoff apply B rs hrs bc hlin
    set T := onGrid Sv Sp _ hF with hT
    let φ : (Sv → Fin d → ℝ) × (Sp → Fin 1 → ℝ) →ₗ[ℝ] ℝ := IsLinearMap.mk'
      (fun x => ∑ q : Sp, x.2 q 0 - wallFlux (velLayout N per lx) h (extend Sv x.1))
      { map_add := fun x y => by
          have := wallFlux_comb (velLayout N per lx) h 1 1 (extend Sv x.1) (extend Sv y.1)
          rw [← extend_comb] at this
          simp only [one_smul, one_mul] at this
          simp only [Prod.fst_add, Prod.snd_add, this, Pi.add_apply, Finset.sum_add_distrib]
          ring
        map_smul := fun a x => by
          have := wallFlux_comb (velLayout N per lx) h a 0 (extend Sv x.1) (extend Sv x.1)
          rw [← extend_comb] at this
          simp only [zero_smul, zero_mul, add_zero] at this
          simp only [Prod.smul_fst, Prod.smul_snd, this, Pi.smul_apply, smul_eq_mul, ← Finset.mul_sum]
          ring }
    have hsum : ∀ t : NodeVec d 1 ℝ, ∑ q : Sp, t q.1 0 = ∑ q ∈ Sp, t q 0 := fun t =>
      Finset.sum_coe_sort Sp (fun q => t q 0)
    have hext : ∀ v : NodeVec d d ℝ, wallFlux (velLayout N per lx) h (extend Sv fun g c => v g.1 c) =
        wallFlux (velLayout N per lx) h v := fun v =>
      wallFlux_congr _ h _ _ fun g hg a _ _ => extend_mem Sv _ g hg a
    have hx0 : φ (0, fun _ _ => 1) ≠ 0 := by
      have e0 : wallFlux (velLayout N per lx) h (extend Sv (0 : Sv → Fin d → ℝ)) = 0 := by
        have : extend Sv (0 : Sv → Fin d → ℝ) = 0 := by
          funext g c; unfold extend; split_ifs <;> rfl
        rw [this]; simp [wallFlux]
      show ∑ q : Sp, (1 : ℝ) - wallFlux (velLayout N per lx) h (extend Sv (0 : Sv → Fin d → ℝ)) ≠ 0
      rw [e0, sub_zero, Finset.sum_const, nsmul_eq_mul, mul_one]
      have hmem : (fun _ => 0 : Pos d ℤ) ∈ Sp := by
        rw [hSp, mem_gridNodes]
        intro i
        have := hN i
        simp only [presLayout, presDir, meshPres]
        split_ifs <;> omega
      have : 0 < (Finset.univ : Finset Sp).card := Finset.card_pos.2 ⟨⟨_, hmem⟩, Finset.mem_univ _⟩
      exact_mod_cast this.ne'
    have hk : ∀ x, T x = 0 → ∃ k : ℝ, x = k • ((0, fun _ _ => 1) :
        (Sv → Fin d → ℝ) × (Sp → Fin 1 → ℝ)) := by
      intro x hx
      obtain ⟨h1, k, h2⟩ := hker (extend Sv x.1) (extend Sp x.2)
        ⟨fun g hg c => congrFun (congrFun (congrArg Prod.fst hx) ⟨g, hg⟩) c,
         fun q hq => congrFun (congrFun (congrArg Prod.snd hx) ⟨q, hq⟩) 0⟩
      refine ⟨k, Prod.ext (funext fun g => funext fun c => ?_) (funext fun q => funext fun c => ?_)⟩
      · have := h1 g.1 g.2 c
        rw [extend_mem Sv _ g.1 g.2] at this
        simpa using this
      · have := h2 q.1 q.2
        rw [extend_mem Sp _ q.1 q.2] at this
        have hc : c = 0 := Subsingleton.elim _ _
        subst hc
        simpa using this
    have hr : ∀ x, φ (T x) = 0 := by
      intro x
      have e1 := hran (extend Sv x.1) (extend Sp x.2)
      rw [← hext, ← hsum] at e1
      exact sub_eq_zero.2 e1
    obtain ⟨x, hx⟩ := range_of_kernel T φ _ _ hx0 hk hr (fun g c => f g.1 c, fun q c => s q.1 c) (by
      show ∑ q : Sp, s q.1 0 - wallFlux (velLayout N per lx) h (extend Sv fun g c => f g.1 c) = 0
      rw [hext, hsum, hfs, sub_self])
    exact ⟨extend Sv x.1, extend Sp x.2,
      fun g hg c => congrFun (congrFun (congrArg Prod.fst hx) ⟨g, hg⟩) c,
      fun q hq => congrFun (congrFun (congrArg Prod.snd hx) ⟨q, hq⟩) 0⟩

/-- A node of the wall that is on no other wall. -/
theorem open_node (hN : ∀ i, 2 ≤ N i) {C : Type*} (bc : ℕ → Fin d → Option C) (ho : OpenWall per bc) :
    ∃ a, ∃ g ∈ gridNodes (velLayout N per lx), ¬ Constrained (velLayout N per lx) bc g a ∧
      outward (velLayout N per lx a) (g a) ≠ 0 ∧
      ∀ j, j ≠ a → trapezoid (velLayout N per lx j) (g j) = 1 := by
  obtain ⟨a, hp, ho⟩ := ho
  have hm : ∀ i, (velLayout N per lx i).m = meshVel (N i) (per i) := fun i => rfl
  have hpp : ∀ i, (velLayout N per lx i).periodic = per i := fun i => rfl
  have hma : meshVel (N a) (per a) = 2 * N a - 1 := by simp [meshVel, hp]
  have hnc : ∀ j : Fin d, per j = false → (1 : ℤ) ≠ meshVel (N j) (per j) - 1 := by
    intro j hj
    have := hN j
    simp only [meshVel, hj, Bool.false_eq_true, if_false]; omega
  have hin : ∀ j : Fin d, (1 : ℤ) < meshVel (N j) (per j) := by
    intro j
    have := hN j
    unfold meshVel
    split_ifs <;> omega
  have hNa := hN a
  have key : ∀ x : ℤ, 0 ≤ x → x < 2 * N a - 1 →
      (fun i => if i = a then x else 1 : Pos d ℤ) ∈ gridNodes (velLayout N per lx) ∧
      ∀ j, j ≠ a → trapezoid (velLayout N per lx j) ((fun i => if i = a then x else 1 : Pos d ℤ) j) = 1 := by
    intro x h0 h1
    constructor
    · rw [mem_gridNodes]
      intro i
      rw [hm]
      by_cases hi : i = a
      · subst hi; simp only [if_true]; omega
      · simp only [hi, if_false]; exact ⟨by omega, hin i⟩
    · intro j hj
      unfold trapezoid
      simp only [hj, if_false]
      rw [if_neg]
      rintro ⟨hj1, hj2⟩
      rw [hpp] at hj1
      rw [hm] at hj2
      have := hnc j hj1
      omega
  rcases ho with ho | ho
  · refine ⟨a, fun i => if i = a then 0 else 1, (key 0 (by omega) (by omega)).1, ?_, ?_,
      (key 0 (by omega) (by omega)).2⟩
    · rintro ⟨f, ⟨i, hpi, hf⟩, hs⟩
      rw [hm] at hf
      by_cases hi : i = a
      · subst hi
        simp only [if_true] at hf
        rcases hf with ⟨hf, -⟩ | ⟨-, hf⟩
        · rw [hf, ho] at hs; simp at hs
        · rw [hma] at hf; omega
      · simp only [hi, if_false] at hf
        have := hnc i hpi
        rcases hf with ⟨-, hf⟩ | ⟨-, hf⟩ <;> omega
    · simp only [if_true]
      unfold outward
      rw [hpp, hm, hma, hp, if_neg (by decide), if_neg (by omega), if_pos rfl]
      norm_num
  · refine ⟨a, fun i => if i = a then 2 * N a - 2 else 1, (key _ (by omega) (by omega)).1, ?_, ?_,
      (key _ (by omega) (by omega)).2⟩
    · rintro ⟨f, ⟨i, hpi, hf⟩, hs⟩
      rw [hm] at hf
      by_cases hi : i = a
      · subst hi
        simp only [if_true] at hf
        rcases hf with ⟨-, hf⟩ | ⟨hf, -⟩
        · omega
        · rw [hf, ho] at hs; simp at hs
      · simp only [hi, if_false] at hf
        have := hnc i hpi
        rcases hf with ⟨-, hf⟩ | ⟨-, hf⟩ <;> omega
    · simp only [if_true]
      unfold outward
      rw [hpp, hm, hma, hp, if_neg (by decide), if_pos (by omega), if_neg (by omega)]
      norm_num

/-- Open case. -/
theorem solvable_open (rs : List (Fin d → ℕ)) (hrs : AllProcs (velLayout N per lx) rs) (bc : BC d ℝ)
    (h : Pos d ℝ) (hh : ∀ c, 0 < h c) (hlin : Combines (blockMatrix (velLayout N per lx) apply))
    (ho : OpenWall per bc) (hN : ∀ i, 2 ≤ N i)
    (hnull : ∀ u, (∀ g ∈ gridNodes (velLayout N per lx), ∀ c, u g c = 0) →
      ∀ g c, blockMatrix (velLayout N per lx) apply u g c = 0)
    (hgrad : ∀ p0 : ℝ, ∀ g ∈ gridNodes (velLayout N per lx), ∀ a,
      (offDiagMatrix (velLayout N per lx) (presLayout N per lx) elemP elemV B 0 (fun _ _ => p0)).1 g a =
        -p0 * (outward (velLayout N per lx a) (g a) *
        ∏ j ∈ Finset.univ.erase a, trapezoid (velLayout N per lx j) (g j) * h j))
    (hker : ∀ u p, Solves (velLayout N per lx) (presLayout N per lx) (stokesMatrixBC (velLayout N per lx)
      (presLayout N per lx) rs bc apply elemP elemV B) 0 0 u p →
      (∀ g ∈ gridNodes (velLayout N per lx), ∀ c, u g c = 0) ∧
      ∃ k, ∀ q ∈ gridNodes (presLayout N per lx), p q 0 = k)
    (f : NodeVec d d ℝ) (s : NodeVec d 1 ℝ) :
    ∃ u p, Solves (velLayout N per lx) (presLayout N per lx) (stokesMatrixBC (velLayout N per lx)
      (presLayout N per lx) rs bc apply elemP elemV B) f s u p ∧
      ∀ u' p', Solves (velLayout N per lx) (presLayout N per lx) (stokesMatrixBC (velLayout N per lx)
        (presLayout N per lx) rs bc apply elemP elemV B) f s u' p' →
      (∀ g ∈ gridNodes (velLayout N per lx), ∀ c, u' g c = u g c) ∧
      ∀ q ∈ gridNodes (presLayout N per lx), p' q 0 = p q 0 := by
  have hv := velLayout_wf N per lx hne hW
  have hF := stokesBC_combines N per lx hne hW elemP elemV hel off hoff apply B rs hrs bc hlin
  have hker' : ∀ u p, Solves (velLayout N per lx) (presLayout N per lx) (stokesMatrixBC
      (velLayout N per lx) (presLayout N per lx) rs bc apply elemP elemV B) 0 0 u p →
      (∀ g ∈ gridNodes (velLayout N per lx), ∀ c, u g c = 0) ∧
      ∀ q ∈ gridNodes (presLayout N per lx), p q 0 = 0 := by
    intro u p hs
    obtain ⟨hu, k, hk⟩ := hker u p hs
    refine ⟨hu, fun q hq => ?_⟩
    rw [hk q hq]
    obtain ⟨a, g, hg, hc, hout, htr⟩ := open_node N per lx hne hW elemP elemV hel off hoff hN bc ho
    have h1 := hs.1 g hg a
    have h2 : (stokesMatrixBC (velLayout N per lx) (presLayout N per lx) rs bc apply elemP elemV B u p).1
        g a = (stokesMatrix (velLayout N per lx) (presLayout N per lx) apply elemP elemV B u p).1 g a := by
      show setDirichletOnVec _ rs bc u _ g a = _
      rw [C25_vec _ hv rs hrs, if_neg fun hh => hc hh.2]
    have h3 : (offDiagMatrix (velLayout N per lx) (presLayout N per lx) elemP elemV B u p).1 g a =
        (offDiagMatrix (velLayout N per lx) (presLayout N per lx) elemP elemV B 0 (fun _ _ => k)).1 g a := by
      unfold offDiagMatrix
      rw [vel_out N per lx hne hW elemP elemV hel off hoff,
        block_id_zero N per lx hne hW elemP elemV hel off hoff,
        vel_out N per lx hne hW elemP elemV hel off hoff,
        block_id_zero N per lx hne hW elemP elemV hel off hoff]
      congr 1
      refine Finset.sum_congr rfl fun e he => Finset.sum_congr rfl fun j _ => ?_
      split_ifs
      · exact Finset.sum_congr rfl fun ip _ => by
          rw [hk _ (wrap_q1_mem (presLayout N per lx) elemP hel e he ip)]
      · rfl
    rw [h2, (stokes_split N per lx hne hW elemP elemV hel off hoff apply B u p).1, hnull u hu, zero_add,
      h3, hgrad k g hg a] at h1
    have h4 : ∏ j ∈ Finset.univ.erase a, trapezoid (velLayout N per lx j) (g j) * h j ≠ 0 := by
      refine Finset.prod_ne_zero_iff.2 fun j hj => ?_
      rw [htr j (Finset.ne_of_mem_erase hj), one_mul]
      exact (hh j).ne'
    have h5 := mul_eq_zero.1 h1
    rcases h5 with h5 | h5
    · exact neg_eq_zero.1 h5
    · exact absurd h5 (mul_ne_zero hout h4)
  set Sv := gridNodes (velLayout N per lx) with hSv
  set Sp := gridNodes (presLayout N per lx) with hSp
  set T := onGrid Sv Sp _ hF with hT
  have hinj : Function.Injective T := by
    rw [← LinearMap.ker_eq_bot, LinearMap.ker_eq_bot']
    intro x hx
    obtain ⟨h1, h2⟩ := hker' (extend Sv x.1) (extend Sp x.2)
      ⟨fun g hg c => congrFun (congrFun (congrArg Prod.fst hx) ⟨g, hg⟩) c,
       fun q hq => congrFun (congrFun (congrArg Prod.snd hx) ⟨q, hq⟩) 0⟩
    refine Prod.ext (funext fun g => funext fun c => ?_) (funext fun q => funext fun c => ?_)
    · have := h1 g.1 g.2 c
      rwa [extend_mem Sv _ g.1 g.2] at this
    · have := h2 q.1 q.2
      rw [extend_mem Sp _ q.1 q.2] at this
      have hc : c = 0 := Subsingleton.elim _ _
      subst hc
      exact this
  obtain ⟨x, hx⟩ := (LinearMap.injective_iff_surjective.1 hinj) (fun g c => f g.1 c, fun q c => s q.1 c)
  have hsol : Solves (velLayout N per lx) (presLayout N per lx) (stokesMatrixBC (velLayout N per lx)
      (presLayout N per lx) rs bc apply elemP elemV B) f s (extend Sv x.1) (extend Sp x.2) :=
    ⟨fun g hg c => congrFun (congrFun (congrArg Prod.fst hx) ⟨g, hg⟩) c,
      fun q hq => congrFun (congrFun (congrArg Prod.snd hx) ⟨q, hq⟩) 0⟩
  refine ⟨extend Sv x.1, extend Sp x.2, hsol, fun u' p' hs' => ?_⟩
  have hd := hF 1 (-1) (u', p') (extend Sv x.1, extend Sp x.2)
  obtain ⟨h1, h2⟩ := hker' (u' - extend Sv x.1) (p' - extend Sp x.2) (by
    have e1 : (1 : ℝ) • (u', p') + (-1 : ℝ) • (extend Sv x.1, extend Sp x.2) =
        (u' - extend Sv x.1, p' - extend Sp x.2) := by
      rw [one_smul, neg_smul, one_smul, ← sub_eq_add_neg]; rfl
    rw [e1] at hd
    refine ⟨fun g hg c => ?_, fun q hq => ?_⟩
    · have := congrFun (congrFun (congrArg Prod.fst hd) g) c
      simp only [Prod.fst_add, Prod.smul_fst, Pi.add_apply, Pi.smul_apply, smul_eq_mul] at this
      rw [this, hs'.1 g hg c, hsol.1 g hg c]; simp
    · have := congrFun (congrFun (congrArg Prod.snd hd) q) 0
      simp only [Prod.snd_add, Prod.smul_snd, Pi.add_apply, Pi.smul_apply, smul_eq_mul] at this
      rw [this, hs'.2 q hq, hsol.2 q hq]; simp)
  exact ⟨fun g hg c => sub_eq_zero.1 (h1 g hg c), fun q hq => sub_eq_zero.1 (h2 q hq)⟩

end main

/-- The matrix-free Stokes system with boundary conditions, strain tensor form (2D). -/
noncomputable abbrev stokesStrain2 (N : Fin 2 → ℤ) (per : Fin 2 → Bool) (lx : Fin 2 → List ℤ)
    (rs : List (Fin 2 → ℕ)) (bc : BC 2 ℝ) (h : Pos 2 ℝ) :
    NodeVec 2 2 ℝ → NodeVec 2 1 ℝ → NodeVec 2 2 ℝ × NodeVec 2 1 ℝ :=
  stokesMatrixBC (velLayout N per lx) (presLayout N per lx) rs bc
    (tensorBlockMult (velLayout N per lx) getElement2 (matElemStrain2 h))
    getElement2 getElement4Q1_2 (matElemPressure2 h)

/-- The matrix-free Stokes system with boundary conditions, Laplacian form (2D). -/
noncomputable abbrev stokesLap2 (N : Fin 2 → ℤ) (per : Fin 2 → Bool) (lx : Fin 2 → List ℤ)
    (rs : List (Fin 2 → ℕ)) (bc : BC 2 ℝ) (h : Pos 2 ℝ) :
    NodeVec 2 2 ℝ → NodeVec 2 1 ℝ → NodeVec 2 2 ℝ × NodeVec 2 1 ℝ :=
  stokesMatrixBC (velLayout N per lx) (presLayout N per lx) rs bc
    (diagBlockMult (velLayout N per lx) getElement2 (matElemLaplacian2 h))
    getElement2 getElement4Q1_2 (matElemPressure2 h)

/-- The matrix-free Stokes system with boundary conditions, strain tensor form (3D). -/
noncomputable abbrev stokesStrain3 (N : Fin 3 → ℤ) (per : Fin 3 → Bool) (lx : Fin 3 → List ℤ)
    (rs : List (Fin 3 → ℕ)) (bc : BC 3 ℝ) (h : Pos 3 ℝ) :
    NodeVec 3 3 ℝ → NodeVec 3 1 ℝ → NodeVec 3 3 ℝ × NodeVec 3 1 ℝ :=
  stokesMatrixBC (velLayout N per lx) (presLayout N per lx) rs bc
    (tensorBlockMult (velLayout N per lx) getElement3 (matElemStrain3 h))
    getElement3 getElement4Q1_3 (matElemPressure3 h)

/-- The matrix-free Stokes system with boundary conditions, Laplacian form (3D). -/
noncomputable abbrev stokesLap3 (N : Fin 3 → ℤ) (per : Fin 3 → Bool) (lx : Fin 3 → List ℤ)
    (rs : List (Fin 3 → ℕ)) (bc : BC 3 ℝ) (h : Pos 3 ℝ) :
    NodeVec 3 3 ℝ → NodeVec 3 1 ℝ → NodeVec 3 3 ℝ × NodeVec 3 1 ℝ :=
  stokesMatrixBC (velLayout N per lx) (presLayout N per lx) rs bc
    (diagBlockMult (velLayout N per lx) getElement3 (matElemLaplacian3 h))
    getElement3 getElement4Q1_3 (matElemPressure3 h)

theorem ker_strain2 (N : Fin 2 → ℤ) (per : Fin 2 → Bool) (lx : Fin 2 → List ℤ)
    (hne : ∀ i, lx i ≠ []) (hW : ∀ i, (presLayout N per lx i).WF) (hN : Fine N)
    (h : Pos 2 ℝ) (hh : ∀ c, 0 < h c) (rs : List (Fin 2 → ℕ)) (hrs : AllProcs (velLayout N per lx) rs)
    (bc : BC 2 ℝ) (hb : WallHeld (velLayout N per lx) bc) (u : NodeVec 2 2 ℝ) (p : NodeVec 2 1 ℝ)
    (hs : Solves (velLayout N per lx) (presLayout N per lx) (stokesStrain2 N per lx rs bc h) 0 0 u p) :
    (∀ g ∈ gridNodes (velLayout N per lx), ∀ c, u g c = 0) ∧
      ∃ k, ∀ q ∈ gridNodes (presLayout N per lx), p q 0 = k := by
  have hv := velLayout_wf N per lx hne hW
  have hF := stokesBC_combines N per lx hne hW _ _ isQ1_2 _ is4Q1_2 _ (matElemPressure2 h) rs hrs bc
    (tensorBlock_combines (velLayout N per lx) hv _ isQ1_2 (matElemStrain2 h))
  have h0 := hF 0 0 (0, 0) (0, 0)
  simp only [zero_smul, add_zero] at h0
  have e1 : ∀ g ∈ gridNodes (velLayout N per lx), ∀ c,
      (stokesStrain2 N per lx rs bc h u p).1 g c = (stokesStrain2 N per lx rs bc h 0 0).1 g c := fun g hg c => by
    rw [hs.1 g hg c]; exact (congrFun (congrFun (congrArg Prod.fst h0) g) c).symm
  have e2 : ∀ q ∈ gridNodes (presLayout N per lx),
      (stokesStrain2 N per lx rs bc h u p).2 q 0 = (stokesStrain2 N per lx rs bc h 0 0).2 q 0 := fun q hq => by
    rw [hs.2 q hq]; exact (congrFun (congrFun (congrArg Prod.snd h0) q) 0).symm
  have hu := (C93_velocity2 N per lx hne hW hN.1 h hh rs hrs bc u 0 p 0).1 hb e1 e2
  obtain ⟨k, hk⟩ := (C93_pressure2 N per lx hne hW hN h hh rs hrs bc u 0 p 0).1 hb e1 e2
  exact ⟨fun g hg c => hu g hg c, k, fun q hq => by rw [hk q hq]; simp⟩

theorem ker_lap2 (N : Fin 2 → ℤ) (per : Fin 2 → Bool) (lx : Fin 2 → List ℤ)
    (hne : ∀ i, lx i ≠ []) (hW : ∀ i, (presLayout N per lx i).WF) (hN : Fine N)
    (h : Pos 2 ℝ) (hh : ∀ c, 0 < h c) (rs : List (Fin 2 → ℕ)) (hrs : AllProcs (velLayout N per lx) rs)
    (bc : BC 2 ℝ) (hb : ComponentsHeld (velLayout N per lx) bc) (u : NodeVec 2 2 ℝ) (p : NodeVec 2 1 ℝ)
    (hs : Solves (velLayout N per lx) (presLayout N per lx) (stokesLap2 N per lx rs bc h) 0 0 u p) :
    (∀ g ∈ gridNodes (velLayout N per lx), ∀ c, u g c = 0) ∧
      ∃ k, ∀ q ∈ gridNodes (presLayout N per lx), p q 0 = k := by
  have hv := velLayout_wf N per lx hne hW
  have hF := stokesBC_combines N per lx hne hW _ _ isQ1_2 _ is4Q1_2 _ (matElemPressure2 h) rs hrs bc
    (diagBlock_combines (velLayout N per lx) hv _ isQ1_2 (matElemLaplacian2 h))
  have h0 := hF 0 0 (0, 0) (0, 0)
  simp only [zero_smul, add_zero] at h0
  have e1 : ∀ g ∈ gridNodes (velLayout N per lx), ∀ c,
      (stokesLap2 N per lx rs bc h u p).1 g c = (stokesLap2 N per lx rs bc h 0 0).1 g c := fun g hg c => by
    rw [hs.1 g hg c]; exact (congrFun (congrFun (congrArg Prod.fst h0) g) c).symm
  have e2 : ∀ q ∈ gridNodes (presLayout N per lx),
      (stokesLap2 N per lx rs bc h u p).2 q 0 = (stokesLap2 N per lx rs bc h 0 0).2 q 0 := fun q hq => by
    rw [hs.2 q hq]; exact (congrFun (congrFun (congrArg Prod.snd h0) q) 0).symm
  have hu := (C93_velocity2 N per lx hne hW hN.1 h hh rs hrs bc u 0 p 0).2 hb e1 e2
  obtain ⟨k, hk⟩ := (C93_pressure2 N per lx hne hW hN h hh rs hrs bc u 0 p 0).2 hb e1 e2
  exact ⟨fun g hg c => hu g hg c, k, fun q hq => by rw [hk q hq]; simp⟩

theorem ker_strain3 (N : Fin 3 → ℤ) (per : Fin 3 → Bool) (lx : Fin 3 → List ℤ)
    (hne : ∀ i, lx i ≠ []) (hW : ∀ i, (presLayout N per lx i).WF) (hN : Fine N)
    (h : Pos 3 ℝ) (hh : ∀ c, 0 < h c) (rs : List (Fin 3 → ℕ)) (hrs : AllProcs (velLayout N per lx) rs)
    (bc : BC 3 ℝ) (hb : WallHeld (velLayout N per lx) bc) (u : NodeVec 3 3 ℝ) (p : NodeVec 3 1 ℝ)
    (hs : Solves (velLayout N per lx) (presLayout N per lx) (stokesStrain3 N per lx rs bc h) 0 0 u p) :
    (∀ g ∈ gridNodes (velLayout N per lx), ∀ c, u g c = 0) ∧
      ∃ k, ∀ q ∈ gridNodes (presLayout N per lx), p q 0 = k := by
  have hv := velLayout_wf N per lx hne hW
  have hF := stokesBC_combines N per lx hne hW _ _ isQ1_3 _ is4Q1_3 _ (matElemPressure3 h) rs hrs bc
    (tensorBlock_combines (velLayout N per lx) hv _ isQ1_3 (matElemStrain3 h))
  have h0 := hF 0 0 (0, 0) (0, 0)
  simp only [zero_smul, add_zero] at h0
  have e1 : ∀ g ∈ gridNodes (velLayout N per lx), ∀ c,
      (stokesStrain3 N per lx rs bc h u p).1 g c = (stokesStrain3 N per lx rs bc h 0 0).1 g c := fun g hg c => by
    rw [hs.1 g hg c]; exact (congrFun (congrFun (congrArg Prod.fst h0) g) c).symm
  have e2 : ∀ q ∈ gridNodes (presLayout N per lx),
      (stokesStrain3 N per lx rs bc h u p).2 q 0 = (stokesStrain3 N per lx rs bc h 0 0).2 q 0 := fun q hq => by
    rw [hs.2 q hq]; exact (congrFun (congrFun (congrArg Prod.snd h0) q) 0).symm
  have hu := (C93_velocity3 N per lx hne hW hN.1 h hh rs hrs bc u 0 p 0).1 hb e1 e2
  obtain ⟨k, hk⟩ := (C93_pressure3 N per lx hne hW hN h hh rs hrs bc u 0 p 0).1 hb e1 e2
  exact ⟨fun g hg c => hu g hg c, k, fun q hq => by rw [hk q hq]; simp⟩

theorem ker_lap3 (N : Fin 3 → ℤ) (per : Fin 3 → Bool) (lx : Fin 3 → List ℤ)
    (hne : ∀ i, lx i ≠ []) (hW : ∀ i, (presLayout N per lx i).WF) (hN : Fine N)
    (h : Pos 3 ℝ) (hh : ∀ c, 0 < h c) (rs : List (Fin 3 → ℕ)) (hrs : AllProcs (velLayout N per lx) rs)
    (bc : BC 3 ℝ) (hb : ComponentsHeld (velLayout N per lx) bc) (u : NodeVec 3 3 ℝ) (p : NodeVec 3 1 ℝ)
    (hs : Solves (velLayout N per lx) (presLayout N per lx) (stokesLap3 N per lx rs bc h) 0 0 u p) :
    (∀ g ∈ gridNodes (velLayout N per lx), ∀ c, u g c = 0) ∧
      ∃ k, ∀ q ∈ gridNodes (presLayout N per lx), p q 0 = k := by
  have hv := velLayout_wf N per lx hne hW
  have hF := stokesBC_combines N per lx hne hW _ _ isQ1_3 _ is4Q1_3 _ (matElemPressure3 h) rs hrs bc
    (diagBlock_combines (velLayout N per lx) hv _ isQ1_3 (matElemLaplacian3 h))
  have h0 := hF 0 0 (0, 0) (0, 0)
  simp only [zero_smul, add_zero] at h0
  have e1 : ∀ g ∈ gridNodes (velLayout N per lx), ∀ c,
      (stokesLap3 N per lx rs bc h u p).1 g c = (stokesLap3 N per lx rs bc h 0 0).1 g c := fun g hg c => by
    rw [hs.1 g hg c]; exact (congrFun (congrFun (congrArg Prod.fst h0) g) c).symm
  have e2 : ∀ q ∈ gridNodes (presLayout N per lx),
      (stokesLap3 N per lx rs bc h u p).2 q 0 = (stokesLap3 N per lx rs bc h 0 0).2 q 0 := fun q hq => by
    rw [hs.2 q hq]; exact (congrFun (congrFun (congrArg Prod.snd h0) q) 0).symm
  have hu := (C93_velocity3 N per lx hne hW hN.1 h hh rs hrs bc u 0 p 0).2 hb e1 e2
  obtain ⟨k, hk⟩ := (C93_pressure3 N per lx hne hW hN h hh rs hrs bc u 0 p 0).2 hb e1 e2
  exact ⟨fun g hg c => hu g hg c, k, fun q hq => by rw [hk q hq]; simp⟩

/-- C94 (2D, flux): the total of the divergence rows is the flux through the walls. -/
theorem C94_flux2 (N : Fin 2 → ℤ) (per : Fin 2 → Bool) (lx : Fin 2 → List ℤ)
    (hne : ∀ i, lx i ≠ []) (hW : ∀ i, (presLayout N per lx i).WF) (hN : ∀ i, 2 ≤ N i)
    (h : Pos 2 ℝ) (rs : List (Fin 2 → ℕ)) (bc : BC 2 ℝ) (u : NodeVec 2 2 ℝ) (p : NodeVec 2 1 ℝ) :
    ∑ q ∈ gridNodes (presLayout N per lx), (stokesStrain2 N per lx rs bc h u p).2 q 0 =
      wallFlux (velLayout N per lx) h u ∧
    ∑ q ∈ gridNodes (presLayout N per lx), (stokesLap2 N per lx rs bc h u p).2 q 0 =
      wallFlux (velLayout N per lx) h u := by
  rw [← total_div2 N per lx hne hW hN h u p]
  exact ⟨Finset.sum_congr rfl fun q _ =>
      stokesBC_div N per lx hne hW _ _ isQ1_2 _ is4Q1_2 _ _ rs bc u p q,
    Finset.sum_congr rfl fun q _ =>
      stokesBC_div N per lx hne hW _ _ isQ1_2 _ is4Q1_2 _ _ rs bc u p q⟩

/-- C94 (2D, closed box): when all the walls impose their normal component, the discrete Stokes system
has a solution if and only if the total of the divergence source is the flux of the imposed
velocity. -/
theorem C94_closed2 (N : Fin 2 → ℤ) (per : Fin 2 → Bool) (lx : Fin 2 → List ℤ)
    (hne : ∀ i, lx i ≠ []) (hW : ∀ i, (presLayout N per lx i).WF) (hN : Fine N)
    (h : Pos 2 ℝ) (hh : ∀ c, 0 < h c) (rs : List (Fin 2 → ℕ)) (hrs : AllProcs (velLayout N per lx) rs)
    (bc : BC 2 ℝ)
    (hn : NormalHeld per bc) (f : NodeVec 2 2 ℝ) (s : NodeVec 2 1 ℝ) :
    (WallHeld (velLayout N per lx) bc →
      ((∃ u p, Solves (velLayout N per lx) (presLayout N per lx) (stokesStrain2 N per lx rs bc h) f s u p) ↔
        ∑ q ∈ gridNodes (presLayout N per lx), s q 0 = wallFlux (velLayout N per lx) h f)) ∧
    (ComponentsHeld (velLayout N per lx) bc →
      ((∃ u p, Solves (velLayout N per lx) (presLayout N per lx) (stokesLap2 N per lx rs bc h) f s u p) ↔
        ∑ q ∈ gridNodes (presLayout N per lx), s q 0 = wallFlux (velLayout N per lx) h f)) := by
  have hv := velLayout_wf N per lx hne hW
  exact ⟨fun hb => solvable_closed N per lx hne hW _ _ isQ1_2 _ is4Q1_2 _ _ rs hrs bc h
      (tensorBlock_combines _ hv _ isQ1_2 _) hn hN.1 (total_div2 N per lx hne hW hN.1 h)
      (ker_strain2 N per lx hne hW hN h hh rs hrs bc hb) f s,
    fun hb => solvable_closed N per lx hne hW _ _ isQ1_2 _ is4Q1_2 _ _ rs hrs bc h
      (diagBlock_combines _ hv _ isQ1_2 _) hn hN.1 (total_div2 N per lx hne hW hN.1 h)
      (ker_lap2 N per lx hne hW hN h hh rs hrs bc hb) f s⟩

/-- C94 (2D, open box): when some wall leaves its normal component free, the discrete Stokes system has
exactly one solution, pressure included, for every right-hand side. -/
theorem C94_open2 (N : Fin 2 → ℤ) (per : Fin 2 → Bool) (lx : Fin 2 → List ℤ)
    (hne : ∀ i, lx i ≠ []) (hW : ∀ i, (presLayout N per lx i).WF) (hN : Fine N)
    (h : Pos 2 ℝ) (hh : ∀ c, 0 < h c) (rs : List (Fin 2 → ℕ)) (hrs : AllProcs (velLayout N per lx) rs)
    (bc : BC 2 ℝ)
    (ho : OpenWall per bc) (f : NodeVec 2 2 ℝ) (s : NodeVec 2 1 ℝ) :
    (WallHeld (velLayout N per lx) bc →
      ∃ u p, Solves (velLayout N per lx) (presLayout N per lx) (stokesStrain2 N per lx rs bc h) f s u p ∧
        ∀ u' p', Solves (velLayout N per lx) (presLayout N per lx) (stokesStrain2 N per lx rs bc h) f s u' p' →
          (∀ g ∈ gridNodes (velLayout N per lx), ∀ c, u' g c = u g c) ∧
          ∀ q ∈ gridNodes (presLayout N per lx), p' q 0 = p q 0) ∧
    (ComponentsHeld (velLayout N per lx) bc →
      ∃ u p, Solves (velLayout N per lx) (presLayout N per lx) (stokesLap2 N per lx rs bc h) f s u p ∧
        ∀ u' p', Solves (velLayout N per lx) (presLayout N per lx) (stokesLap2 N per lx rs bc h) f s u' p' →
          (∀ g ∈ gridNodes (velLayout N per lx), ∀ c, u' g c = u g c) ∧
          ∀ q ∈ gridNodes (presLayout N per lx), p' q 0 = p q 0) := by
  have hv := velLayout_wf N per lx hne hW
  exact ⟨fun hb => solvable_open N per lx hne hW _ _ isQ1_2 _ is4Q1_2 _ _ rs hrs bc h hh
      (tensorBlock_combines _ hv _ isQ1_2 _) ho hN.1 (tensorBlock_null _ hv _ isQ1_2 _)
      (fun p0 g hg a => grad_const2 N per lx hne hW hN.1 h 0 p0 g hg a)
      (ker_strain2 N per lx hne hW hN h hh rs hrs bc hb) f s,
    fun hb => solvable_open N per lx hne hW _ _ isQ1_2 _ is4Q1_2 _ _ rs hrs bc h hh
      (diagBlock_combines _ hv _ isQ1_2 _) ho hN.1 (diagBlock_null _ hv _ isQ1_2 _)
      (fun p0 g hg a => grad_const2 N per lx hne hW hN.1 h 0 p0 g hg a)
      (ker_lap2 N per lx hne hW hN h hh rs hrs bc hb) f s⟩

/-- C94 (2D, velocity operators): the Laplacian and strain tensor operators with boundary conditions
are onto. -/
theorem C94_operator2 (L : Fin 2 → Dir) (hL : ∀ i, (L i).WF) (hne : ∀ i, 1 ≤ (L i).nElem)
    (h : Pos 2 ℝ) (hh : ∀ c, 0 < h c) (rs : List (Fin 2 → ℕ)) (hrs : AllProcs L rs) (bc : BC 2 ℝ)
    (f : NodeVec 2 2 ℝ) :
    (ComponentsHeld L bc → ∃ u, ∀ g ∈ gridNodes L, ∀ c,
      blockMatrixBC L rs bc (diagBlockMult L getElement2 (matElemLaplacian2 h)) u g c = f g c) ∧
    (WallHeld L bc → ∃ u, ∀ g ∈ gridNodes L, ∀ c,
      blockMatrixBC L rs bc (tensorBlockMult L getElement2 (matElemStrain2 h)) u g c = f g c) :=
  ⟨fun hb => onto_of_injective _ _ (blockBC_combines L hL rs hrs bc _
      (diagBlock_combines L hL _ isQ1_2 _))
      (fun u u' => (C93_operator2 L hL hne h hh rs hrs bc u u').1 hb) f,
   fun hb => onto_of_injective _ _ (blockBC_combines L hL rs hrs bc _
      (tensorBlock_combines L hL _ isQ1_2 _))
      (fun u u' => (C93_operator2 L hL hne h hh rs hrs bc u u').2 hb) f⟩

/-- C94 (2D, the problem of `setup_RHS`): in a closed box, the system with the sources and the boundary
values written by `setup_RHS`, and no divergence source, has a solution if and only if the imposed
velocity has no net flux through the walls; `U` is any field with the imposed values on the walls. -/
theorem C94_problem2 (N : Fin 2 → ℤ) (per : Fin 2 → Bool) (lx : Fin 2 → List ℤ)
    (hne : ∀ i, lx i ≠ []) (hW : ∀ i, (presLayout N per lx i).WF) (hN : Fine N)
    (h : Pos 2 ℝ) (hh : ∀ c, 0 < h c) (rs : List (Fin 2 → ℕ)) (hrs : AllProcs (velLayout N per lx) rs)
    (bc : BC 2 ℝ)
    (hn : NormalHeld per bc) {NQ : ℕ} (elem : Pos 2 ℤ → Fin NQ → Pos 2 ℤ) (hel : IsQ1 elem)
    (M : Fin NQ → Fin NQ → ℝ) (src : Fin 2 → Cond 2 ℝ) (rhs U : NodeVec 2 2 ℝ)
    (hU : ∀ g ∈ gridNodes (velLayout N per lx), ∀ a φ, LastCond (velLayout N per lx) bc g a φ →
      U g a = φ fun i => (g i : ℝ) * h i) :
    (WallHeld (velLayout N per lx) bc →
      ((∃ u p, Solves (velLayout N per lx) (presLayout N per lx) (stokesStrain2 N per lx rs bc h)
        (stokesSetupRHS (velLayout N per lx) rs src bc h (diagBlockMult (velLayout N per lx) elem M) rhs)
        0 u p) ↔ wallFlux (velLayout N per lx) h U = 0)) ∧
    (ComponentsHeld (velLayout N per lx) bc →
      ((∃ u p, Solves (velLayout N per lx) (presLayout N per lx) (stokesLap2 N per lx rs bc h)
        (stokesSetupRHS (velLayout N per lx) rs src bc h (diagBlockMult (velLayout N per lx) elem M) rhs)
        0 u p) ↔ wallFlux (velLayout N per lx) h U = 0)) := by
  have hv := velLayout_wf N per lx hne hW
  have hfl : wallFlux (velLayout N per lx) h
      (stokesSetupRHS (velLayout N per lx) rs src bc h (diagBlockMult (velLayout N per lx) elem M) rhs) =
      wallFlux (velLayout N per lx) h U := by
    refine wallFlux_congr _ h _ _ fun g hg a hp hw => ?_
    have hc : Constrained (velLayout N per lx) bc g a := by
      have := hn a hp
      rcases hw with hw | hw
      · exact ⟨2 * a.1, ⟨a, hp, Or.inl ⟨rfl, hw⟩⟩, this.1⟩
      · exact ⟨2 * a.1 + 1, ⟨a, hp, Or.inr ⟨rfl, hw⟩⟩, this.2⟩
    obtain ⟨φ, hφ⟩ := (C26_rhs _ hv rs hrs bc h rhs g a).2.2.1 hc
    rw [(setup_once _ hv rs hrs elem hel M src bc h rhs g a).1 hg φ hφ, hU g hg a φ hφ]
  have hc := C94_closed2 N per lx hne hW hN h hh rs hrs bc hn
    (stokesSetupRHS (velLayout N per lx) rs src bc h (diagBlockMult (velLayout N per lx) elem M) rhs) 0
  rw [hfl] at hc
  simp only [Pi.zero_apply, Finset.sum_const_zero] at hc
  exact ⟨fun hb => (hc.1 hb).trans eq_comm, fun hb => (hc.2 hb).trans eq_comm⟩

/-- C94 (3D, flux): the total of the divergence rows is the flux through the walls. -/
theorem C94_flux3 (N : Fin 3 → ℤ) (per : Fin 3 → Bool) (lx : Fin 3 → List ℤ)
    (hne : ∀ i, lx i ≠ []) (hW : ∀ i, (presLayout N per lx i).WF) (hN : ∀ i, 2 ≤ N i)
    (h : Pos 3 ℝ) (rs : List (Fin 3 → ℕ)) (bc : BC 3 ℝ) (u : NodeVec 3 3 ℝ) (p : NodeVec 3 1 ℝ) :
    ∑ q ∈ gridNodes (presLayout N per lx), (stokesStrain3 N per lx rs bc h u p).2 q 0 =
      wallFlux (velLayout N per lx) h u ∧
    ∑ q ∈ gridNodes (presLayout N per lx), (stokesLap3 N per lx rs bc h u p).2 q 0 =
      wallFlux (velLayout N per lx) h u := by
  rw [← total_div3 N per lx hne hW hN h u p]
  exact ⟨Finset.sum_congr rfl fun q _ =>
      stokesBC_div N per lx hne hW _ _ isQ1_3 _ is4Q1_3 _ _ rs bc u p q,
    Finset.sum_congr rfl fun q _ =>
      stokesBC_div N per lx hne hW _ _ isQ1_3 _ is4Q1_3 _ _ rs bc u p q⟩

/-- C94 (3D, closed box): when all the walls impose their normal component, the discrete Stokes system
has a solution if and only if the total of the divergence source is the flux of the imposed
velocity. -/
theorem C94_closed3 (N : Fin 3 → ℤ) (per : Fin 3 → Bool) (lx : Fin 3 → List ℤ)
    (hne : ∀ i, lx i ≠ []) (hW : ∀ i, (presLayout N per lx i).WF) (hN : Fine N)
    (h : Pos 3 ℝ) (hh : ∀ c, 0 < h c) (rs : List (Fin 3 → ℕ)) (hrs : AllProcs (velLayout N per lx) rs)
    (bc : BC 3 ℝ)
    (hn : NormalHeld per bc) (f : NodeVec 3 3 ℝ) (s : NodeVec 3 1 ℝ) :
    (WallHeld (velLayout N per lx) bc →
      ((∃ u p, Solves (velLayout N per lx) (presLayout N per lx) (stokesStrain3 N per lx rs bc h) f s u p) ↔
        ∑ q ∈ gridNodes (presLayout N per lx), s q 0 = wallFlux (velLayout N per lx) h f)) ∧
    (ComponentsHeld (velLayout N per lx) bc →
      ((∃ u p, Solves (velLayout N per lx) (presLayout N per lx) (stokesLap3 N per lx rs bc h) f s u p) ↔
        ∑ q ∈ gridNodes (presLayout N per lx), s q 0 = wallFlux (velLayout N per lx) h f)) := by
  have hv := velLayout_wf N per lx hne hW
  exact ⟨fun hb => solvable_closed N per lx hne hW _ _ isQ1_3 _ is4Q1_3 _ _ rs hrs bc h
      (tensorBlock_combines _ hv _ isQ1_3 _) hn hN.1 (total_div3 N per lx hne hW hN.1 h)
      (ker_strain3 N per lx hne hW hN h hh rs hrs bc hb) f s,
    fun hb => solvable_closed N per lx hne hW _ _ isQ1_3 _ is4Q1_3 _ _ rs hrs bc h
      (diagBlock_combines _ hv _ isQ1_3 _) hn hN.1 (total_div3 N per lx hne hW hN.1 h)
      (ker_lap3 N per lx hne hW hN h hh rs hrs bc hb) f s⟩

/-- C94 (3D, open box): when some wall leaves its normal component free, the discrete Stokes system has
exactly one solution, pressure included, for every right-hand side. -/
theorem C94_open3 (N : Fin 3 → ℤ) (per : Fin 3 → Bool) (lx : Fin 3 → List ℤ)
    (hne : ∀ i, lx i ≠ []) (hW : ∀ i, (presLayout N per lx i).WF) (hN : Fine N)
    (h : Pos 3 ℝ) (hh : ∀ c, 0 < h c) (rs : List (Fin 3 → ℕ)) (hrs : AllProcs (velLayout N per lx) rs)
    (bc : BC 3 ℝ)
    (ho : OpenWall per bc) (f : NodeVec 3 3 ℝ) (s : NodeVec 3 1 ℝ) :
    (WallHeld (velLayout N per lx) bc →
      ∃ u p, Solves (velLayout N per lx) (presLayout N per lx) (stokesStrain3 N per lx rs bc h) f s u p ∧
        ∀ u' p', Solves (velLayout N per lx) (presLayout N per lx) (stokesStrain3 N per lx rs bc h) f s u' p' →
          (∀ g ∈ gridNodes (velLayout N per lx), ∀ c, u' g c = u g c) ∧
          ∀ q ∈ gridNodes (presLayout N per lx), p' q 0 = p q 0) ∧
    (ComponentsHeld (velLayout N per lx) bc →
      ∃ u p, Solves (velLayout N per lx) (presLayout N per lx) (stokesLap3 N per lx rs bc h) f s u p ∧
        ∀ u' p', Solves (velLayout N per lx) (presLayout N per lx) (stokesLap3 N per lx rs bc h) f s u' p' →
          (∀ g ∈ gridNodes (velLayout N per lx), ∀ c, u' g c = u g c) ∧
          ∀ q ∈ gridNodes (presLayout N per lx), p' q 0 = p q 0) := by
  have hv := velLayout_wf N per lx hne hW
  exact ⟨fun hb => solvable_open N per lx hne hW _ _ isQ1_3 _ is4Q1_3 _ _ rs hrs bc h hh
      (tensorBlock_combines _ hv _ isQ1_3 _) ho hN.1 (tensorBlock_null _ hv _ isQ1_3 _)
      (fun p0 g hg a => grad_const3 N per lx hne hW hN.1 h 0 p0 g hg a)
      (ker_strain3 N per lx hne hW hN h hh rs hrs bc hb) f s,
    fun hb => solvable_open N per lx hne hW _ _ isQ1_3 _ is4Q1_3 _ _ rs hrs bc h hh
      (diagBlock_combines _ hv _ isQ1_3 _) ho hN.1 (diagBlock_null _ hv _ isQ1_3 _)
      (fun p0 g hg a => grad_const3 N per lx hne hW hN.1 h 0 p0 g hg a)
      (ker_lap3 N per lx hne hW hN h hh rs hrs bc hb) f s⟩

/-- C94 (3D, velocity operators): the Laplacian and strain tensor operators with boundary conditions
are onto. -/
theorem C94_operator3 (L : Fin 3 → Dir) (hL : ∀ i, (L i).WF) (hne : ∀ i, 1 ≤ (L i).nElem)
    (h : Pos 3 ℝ) (hh : ∀ c, 0 < h c) (rs : List (Fin 3 → ℕ)) (hrs : AllProcs L rs) (bc : BC 3 ℝ)
    (f : NodeVec 3 3 ℝ) :
    (ComponentsHeld L bc → ∃ u, ∀ g ∈ gridNodes L, ∀ c,
      blockMatrixBC L rs bc (diagBlockMult L getElement3 (matElemLaplacian3 h)) u g c = f g c) ∧
    (WallHeld L bc → ∃ u, ∀ g ∈ gridNodes L, ∀ c,
      blockMatrixBC L rs bc (tensorBlockMult L getElement3 (matElemStrain3 h)) u g c = f g c) :=
  ⟨fun hb => onto_of_injective _ _ (blockBC_combines L hL rs hrs bc _
      (diagBlock_combines L hL _ isQ1_3 _))
      (fun u u' => (C93_operator3 L hL hne h hh rs hrs bc u u').1 hb) f,
   fun hb => onto_of_injective _ _ (blockBC_combines L hL rs hrs bc _
      (tensorBlock_combines L hL _ isQ1_3 _))
      (fun u u' => (C93_operator3 L hL hne h hh rs hrs bc u u').2 hb) f⟩

/-- C94 (3D, the problem of `setup_RHS`): in a closed box, the system with the sources and the boundary
values written by `setup_RHS`, and no divergence source, has a solution if and only if the imposed
velocity has no net flux through the walls; `U` is any field with the imposed values on the walls. -/
theorem C94_problem3 (N : Fin 3 → ℤ) (per : Fin 3 → Bool) (lx : Fin 3 → List ℤ)
    (hne : ∀ i, lx i ≠ []) (hW : ∀ i, (presLayout N per lx i).WF) (hN : Fine N)
    (h : Pos 3 ℝ) (hh : ∀ c, 0 < h c) (rs : List (Fin 3 → ℕ)) (hrs : AllProcs (velLayout N per lx) rs)
    (bc : BC 3 ℝ)
    (hn : NormalHeld per bc) {NQ : ℕ} (elem : Pos 3 ℤ → Fin NQ → Pos 3 ℤ) (hel : IsQ1 elem)
    (M : Fin NQ → Fin NQ → ℝ) (src : Fin 3 → Cond 3 ℝ) (rhs U : NodeVec 3 3 ℝ)
    (hU : ∀ g ∈ gridNodes (velLayout N per lx), ∀ a φ, LastCond (velLayout N per lx) bc g a φ →
      U g a = φ fun i => (g i : ℝ) * h i) :
    (WallHeld (velLayout N per lx) bc →
      ((∃ u p, Solves (velLayout N per lx) (presLayout N per lx) (stokesStrain3 N per lx rs bc h)
        (stokesSetupRHS (velLayout N per lx) rs src bc h (diagBlockMult (velLayout N per lx) elem M) rhs)
        0 u p) ↔ wallFlux (velLayout N per lx) h U = 0)) ∧
    (ComponentsHeld (velLayout N per lx) bc →
      ((∃ u p, Solves (velLayout N per lx) (presLayout N per lx) (stokesLap3 N per lx rs bc h)
        (stokesSetupRHS (velLayout N per lx) rs src bc h (diagBlockMult (velLayout N per lx) elem M) rhs)
        0 u p) ↔ wallFlux (velLayout N per lx) h U = 0)) := by
  have hv := velLayout_wf N per lx hne hW
  have hfl : wallFlux (velLayout N per lx) h
      (stokesSetupRHS (velLayout N per lx) rs src bc h (diagBlockMult (velLayout N per lx) elem M) rhs) =
      wallFlux (velLayout N per lx) h U := by
    refine wallFlux_congr _ h _ _ fun g hg a hp hw => ?_
    have hc : Constrained (velLayout N per lx) bc g a := by
      have := hn a hp
      rcases hw with hw | hw
      · exact ⟨2 * a.1, ⟨a, hp, Or.inl ⟨rfl, hw⟩⟩, this.1⟩
      · exact ⟨2 * a.1 + 1, ⟨a, hp, Or.inr ⟨rfl, hw⟩⟩, this.2⟩
    obtain ⟨φ, hφ⟩ := (C26_rhs _ hv rs hrs bc h rhs g a).2.2.1 hc
    rw [(setup_once _ hv rs hrs elem hel M src bc h rhs g a).1 hg φ hφ, hU g hg a φ hφ]
  have hc := C94_closed3 N per lx hne hW hN h hh rs hrs bc hn
    (stokesSetupRHS (velLayout N per lx) rs src bc h (diagBlockMult (velLayout N per lx) elem M) rhs) 0
  rw [hfl] at hc
  simp only [Pi.zero_apply, Finset.sum_const_zero] at hc
  exact ⟨fun hb => (hc.1 hb).trans eq_comm, fun hb => (hc.2 hb).trans eq_comm⟩

/-- The hypotheses are met, on a grid of `6 x 6` pressure nodes periodic in the second direction and
split on `3 x 2` processes: closed when both walls hold the two components, open when the lower wall
alone does. -/
example : NormalHeld (fun i : Fin 2 => decide (i = 1))
      (fun _ _ => some (fun _ : Pos 2 ℝ => (1:ℝ))) ∧
    WallHeld (velLayout (fun _ => 6) (fun i => decide (i = 1)) ![[2, 3, 1], [2, 3]])
      (fun f _ => if f = 0 then some (fun _ : Pos 2 ℝ => (1:ℝ)) else none) ∧
    OpenWall (fun i : Fin 2 => decide (i = 1))
      (fun f _ => if f = 0 then some (fun _ : Pos 2 ℝ => (1:ℝ)) else none) ∧
    Fine (fun _ : Fin 2 => 6) := by
  refine ⟨fun a _ => ⟨rfl, rfl⟩, ⟨![0, 3], ?_, 0, ⟨0, rfl, Or.inl ⟨rfl, rfl⟩⟩, fun c => rfl⟩,
    ⟨0, rfl, Or.inr rfl⟩, fun _ => by norm_num, fun _ _ _ => by norm_num⟩
  rw [mem_gridNodes]; intro i; fin_cases i <;> decide

/-- Both sides of the solvability condition occur: a uniform velocity has no net flux. -/
theorem flux_uniform2 (N : Fin 2 → ℤ) (per : Fin 2 → Bool) (lx : Fin 2 → List ℤ)
    (hne : ∀ i, lx i ≠ []) (hW : ∀ i, (presLayout N per lx i).WF) (hN : ∀ i, 2 ≤ N i) (h : Pos 2 ℝ)
    (v : Fin 2 → ℝ) : wallFlux (velLayout N per lx) h (fun _ => v) = 0 := by
  rw [← total_div2 N per lx hne hW hN h (fun _ => v) 0]
  exact Finset.sum_eq_zero fun q _ => C20_constant_velocity2 N per lx hne hW h v 0 q

/-- A velocity that enters by the lower wall and does not leave has a negative flux. -/
theorem flux_inlet2 (N : Fin 2 → ℤ) (per : Fin 2 → Bool) (lx : Fin 2 → List ℤ) (hp : per 0 = false)
    (hN : ∀ i, 2 ≤ N i) (h : Pos 2 ℝ) (hh : ∀ c, 0 < h c) :
    wallFlux (velLayout N per lx) h (fun g c => if g 0 = 0 ∧ c = 0 then 1 else 0) < 0 := by
  have h0 := hN 0; have h1 := hN 1
  have ho : ∀ g : Pos 2 ℤ, outward (velLayout N per lx 0) (g 0) * (if g 0 = 0 then 1 else 0) =
      if g 0 = 0 then -1 else 0 := by
    intro g
    by_cases hg : g 0 = 0
    · have hm : (velLayout N per lx 0).m = 2 * N 0 - 1 := by simp [velLayout, velDir, meshVel, hp]
      have hq : (velLayout N per lx 0).periodic = false := hp
      unfold outward
      rw [hm, hq, hg, if_neg (by decide), if_neg (by omega)]
      norm_num
    · simp [hg]
  have ht : ∀ j (x : ℤ), 0 < trapezoid (velLayout N per lx j) x * h j := by
    intro j x
    refine mul_pos ?_ (hh j)
    unfold trapezoid; split_ifs <;> norm_num
  unfold wallFlux
  rw [Fin.sum_univ_two]
  have e1 : ∑ g ∈ gridNodes (velLayout N per lx), outward (velLayout N per lx 1) (g 1) *
      (if g 0 = 0 ∧ (1 : Fin 2) = 0 then (1 : ℝ) else 0) * ∏ j ∈ Finset.univ.erase (1 : Fin 2),
        trapezoid (velLayout N per lx j) (g j) * h j = 0 :=
    Finset.sum_eq_zero fun g _ => by simp
  rw [e1, add_zero]
  have e0 : ∀ g ∈ gridNodes (velLayout N per lx), outward (velLayout N per lx 0) (g 0) *
      (if g 0 = 0 ∧ (0 : Fin 2) = 0 then (1 : ℝ) else 0) * ∏ j ∈ Finset.univ.erase (0 : Fin 2),
        trapezoid (velLayout N per lx j) (g j) * h j ≤ 0 := by
    intro g _
    have hpos : 0 < ∏ j ∈ Finset.univ.erase (0 : Fin 2),
        trapezoid (velLayout N per lx j) (g j) * h j := Finset.prod_pos fun j _ => ht j _
    simp only [and_true, ho]
    split_ifs
    · linarith
    · simp
  have hz : (fun _ => 0 : Pos 2 ℤ) ∈ gridNodes (velLayout N per lx) := by
    rw [mem_gridNodes]
    intro i
    have := hN i
    simp only [velLayout, velDir, meshVel]
    split_ifs <;> omega
  refine Finset.sum_neg' e0 ⟨_, hz, ?_⟩
  have hpos : 0 < ∏ j ∈ Finset.univ.erase (0 : Fin 2),
      trapezoid (velLayout N per lx j) 0 * h j := Finset.prod_pos fun j _ => ht j _
  have := ho (fun _ => 0)
  simp only [if_true] at this
  simp only [and_true, if_true, this]
  linarith

end Cafes.Props
