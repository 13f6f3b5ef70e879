/-
Property theorems: C96, the discrete Stokes problem computes the polynomial Stokes flows exactly.
-/
import Verif.Props.Solvable
import Verif.Lemmas.Exact

namespace Cafes.Props
open Cafes Cafes.Spec
variable {d n NP NV : ℕ}

/-- The nodal values of the velocity of a flow: the velocity nodes are `h` apart. -/
def nodalVel {per : Fin d → Bool} (w : PolyFlow per) (h : Pos d ℝ) : NodeVec d d ℝ :=
  fun g c => w.vel (fun i => (g i : ℝ) * h i) c

/-- The nodal values of the pressure of a flow: the pressure nodes are `2 h` apart. -/
def nodalPres {per : Fin d → Bool} (w : PolyFlow per) (h : Pos d ℝ) : NodeVec d 1 ℝ :=
  fun q _ => w.pres (fun i => (q i : ℝ) * (2 * h i))

/-- Every wall imposes every component, and the imposed values are those of the flow. -/
def WallsMatch {per : Fin d → Bool} (w : PolyFlow per) (L : Fin d → Dir) (h : Pos d ℝ) (bc : BC d ℝ) : Prop :=
  (∀ a : Fin d, per a = false → ∀ c, (bc (2 * a.1) c).isSome ∧ (bc (2 * a.1 + 1) c).isSome) ∧
  ∀ g ∈ gridNodes L, ∀ f c φ, OnFace L g f → bc f c = some φ →
    φ (fun i => (g i : ℝ) * h i) = w.vel (fun i => (g i : ℝ) * h i) c

/-- The source is the force of the flow: a component without source has no force. -/
def SourceMatch {per : Fin d → Bool} (w : PolyFlow per) (src : Fin d → Cond d ℝ) : Prop :=
  ∀ c, (∃ φ, src c = some φ ∧ ∀ x, φ x = w.F c) ∨ (src c = none ∧ w.F c = 0)

theorem source_const {per : Fin d → Bool} (w : PolyFlow per) (src : Fin d → Cond d ℝ)
    (hs : SourceMatch w src) (h : Pos d ℝ) (g : Pos d ℤ) (c : Fin d) : sourceVec src h g c = w.F c := by
  unfold sourceVec
  rcases hs c with ⟨φ, h1, h2⟩ | ⟨h1, h2⟩
  · rw [h1]; exact h2 _
  · rw [h1]; exact h2.symm

/-- A node with an unconstrained component is on no wall. -/
theorem free_of_not {per : Fin d → Bool} (w : PolyFlow per) (N : Fin d → ℤ) (lx : Fin d → List ℤ)
    (h : Pos d ℝ) (bc : BC d ℝ) (hb : WallsMatch w (velLayout N per lx) h bc) (g : Pos d ℤ)
    (hg : g ∈ gridNodes (velLayout N per lx)) (c : Fin d)
    (hc : ¬ Constrained (velLayout N per lx) bc g c) (i : Fin d) : Free1 (velLayout N per lx i) (g i) := by
  rw [mem_gridNodes] at hg
  refine ⟨(hg i).1, (hg i).2, fun hp => ⟨fun h0 => hc ?_, fun h0 => hc ?_⟩⟩
  · exact ⟨2 * i.1, ⟨i, hp, Or.inl ⟨rfl, h0⟩⟩, (hb.1 i hp c).1⟩
  · exact ⟨2 * i.1 + 1, ⟨i, hp, Or.inr ⟨rfl, h0⟩⟩, (hb.1 i hp c).2⟩

section main
variable (N : Fin d → ℤ) (per : Fin d → Bool)
  (lx : Fin d → List ℤ) (hne : ∀ i, lx i ≠ []) (hW : ∀ i, (presLayout N per lx i).WF) (hN : ∀ i, 2 ≤ N i)
  (elemP : Pos d ℤ → Fin NP → Pos d ℤ) (elemV : Pos d ℤ → Fin NV → Pos d ℤ) (hel : IsQ1 elemP)
  (offP : Fin NP → Fin d → Fin 2) (hbijP : Function.Bijective offP)
  (helem : ∀ e k i, elemP e k i = e i + ((offP k i : ℕ) : ℤ))
  (off : Fin NV → Fin d → Fin 3) (hbij : Function.Bijective off) (hoff : Is4Q1 elemV off)
  (w : PolyFlow per) (h : Pos d ℝ)
include hne hW hel hbijP helem

/-- The Laplacian rows. -/
theorem lap_rows (M : Fin NP → Fin NP → ℝ)
    (hM : ∀ k1 k2, M k1 k2 = ∑ p, ∏ i, J (decide (p = i)) (decide (p = i)) (offP k1 i) (offP k2 i) (h i))
    (g : Pos d ℤ) (hg : ∀ i, Free1 (velLayout N per lx i) (g i)) (c : Fin d) :
    blockMatrix (velLayout N per lx) (diagBlockMult (velLayout N per lx) elemP M) (nodalVel w h) g c =
      -(∑ j, (w.H c j j + w.H c j j)) * ∏ i, h i := by
  have hv := velLayout_wf N per lx hne hW
  rw [diagBlock_global _ hv _ hel]
  have e : M = fun k1 k2 => ∑ p ∈ (Finset.univ : Finset (Fin d)), 1 *
      ∏ i, J (decide (p = i)) (decide (p = i)) (offP k1 i) (offP k2 i) (h i) := by
    funext k1 k2; simp only [hM, one_mul]
  have := sten_comb (velLayout N per lx) elemP Finset.univ (fun _ => 1)
    (fun (p : Fin d) k1 k2 => ∏ i, J (decide (p = i)) (decide (p = i)) (offP k1 i) (offP k2 i) (h i))
    (fun y => quad (w.a c) (w.G c) (w.H c) fun i => (y i : ℝ) * h i) g
  rw [e]
  refine this.trans ?_
  rw [← Finset.sum_neg_distrib, Finset.sum_mul]
  refine Finset.sum_congr rfl fun p _ => ?_
  rw [one_mul, sten_second (velLayout N per lx) elemP offP hbijP helem h p p _ _ _ (fun i hi => w.perG i hi c)
    (fun i hi k => w.perH i hi c k) g hg]

/-- The strain rows. -/
theorem strain_rows (M : Fin NP → Fin NP → Fin d → Fin d → ℝ)
    (hM : ∀ k1 k2 a b, M k1 k2 a b = ∑ p, ∑ q, strainCoef a b p q *
      ∏ i, J (decide (p = i)) (decide (q = i)) (offP k1 i) (offP k2 i) (h i))
    (g : Pos d ℤ) (hg : ∀ i, Free1 (velLayout N per lx i) (g i)) (c : Fin d) :
    blockMatrix (velLayout N per lx) (tensorBlockMult (velLayout N per lx) elemP M) (nodalVel w h) g c =
      -(∑ j, (w.H c j j + w.H c j j)) * ∏ i, h i := by
  have hv := velLayout_wf N per lx hne hW
  have hdiv := ((stokesFlow_iff _ _ _ _ _ _).1 w.stokes).2.1
  rw [tensorBlock_global _ hv _ hel]
  have e1 : (∑ e ∈ gridElems (velLayout N per lx), ∑ k1,
      if wrap (velLayout N per lx) (elemP e k1) = g then
        ∑ k2, ∑ b, nodalVel w h (wrap (velLayout N per lx) (elemP e k2)) b * M k1 k2 c b else 0) =
      ∑ b, sten (velLayout N per lx) elemP (fun k1 k2 => M k1 k2 c b)
        (fun y => quad (w.a b) (w.G b) (w.H b) fun i => (y i : ℝ) * h i) g := by
    unfold sten
    refine Eq.trans ?_ Finset.sum_comm
    refine Finset.sum_congr rfl fun e _ => ?_
    refine Eq.trans ?_ Finset.sum_comm
    refine Finset.sum_congr rfl fun k1 _ => ?_
    split_ifs
    · exact Finset.sum_comm
    · simp
  rw [e1]
  have e2 : ∀ b, sten (velLayout N per lx) elemP (fun k1 k2 => M k1 k2 c b)
        (fun y => quad (w.a b) (w.G b) (w.H b) fun i => (y i : ℝ) * h i) g =
      ∑ p, ∑ q, strainCoef c b p q * (-(w.H b p q + w.H b q p) * ∏ i, h i) := by
    intro b
    have e : (fun k1 k2 => M k1 k2 c b) = fun k1 k2 => ∑ p ∈ (Finset.univ : Finset (Fin d)), 1 *
        ∑ q, strainCoef c b p q * ∏ i, J (decide (p = i)) (decide (q = i)) (offP k1 i) (offP k2 i) (h i) := by
      funext k1 k2; simp only [hM, one_mul]
    rw [e]
    refine (sten_comb (velLayout N per lx) elemP Finset.univ (fun _ => 1) (fun (p : Fin d) k1 k2 =>
      ∑ q, strainCoef c b p q * ∏ i, J (decide (p = i)) (decide (q = i)) (offP k1 i) (offP k2 i) (h i)) _ g).trans ?_
    refine Finset.sum_congr rfl fun p _ => ?_
    rw [one_mul]
    refine (sten_comb (velLayout N per lx) elemP Finset.univ (fun q => strainCoef c b p q)
      (fun (q : Fin d) k1 k2 =>
      ∏ i, J (decide (p = i)) (decide (q = i)) (offP k1 i) (offP k2 i) (h i)) _ g).trans ?_
    refine Finset.sum_congr rfl fun q _ => ?_
    rw [sten_second (velLayout N per lx) elemP offP hbijP helem h p q _ _ _ (fun i hi => w.perG i hi b)
      (fun i hi k => w.perH i hi b k) g hg]
  simp only [e2]
  have e3 : ∀ b, ∑ p, ∑ q, strainCoef c b p q * (-(w.H b p q + w.H b q p) * ∏ i, h i) =
      (if c = b then -(∑ p, (w.H b p p + w.H b p p)) * ∏ i, h i else 0) +
        -(w.H b b c + w.H b c b) * ∏ i, h i := by
    intro b
    simp only [strainCoef, add_mul, Finset.sum_add_distrib]
    congr 1
    · by_cases hcb : c = b
      · simp only [hcb, true_and, ite_mul, one_mul, zero_mul, if_true, Finset.sum_ite_eq, Finset.mem_univ]
        rw [← Finset.sum_mul, Finset.sum_neg_distrib, Finset.sum_add_distrib]
      · simp [hcb]
    · simp only [ite_and, ite_mul, one_mul, zero_mul]
      simp
  simp only [e3, Finset.sum_add_distrib, Finset.sum_ite_eq, Finset.mem_univ, if_true]
  rw [← Finset.sum_mul, Finset.sum_neg_distrib, hdiv c, neg_zero, zero_mul, add_zero]

/-- The rows of the mass operator on a constant. -/
theorem mass_rows (M : Fin NP → Fin NP → ℝ)
    (hM : ∀ k1 k2, M k1 k2 = ∏ i, J false false (offP k1 i) (offP k2 i) (h i)) (x : NodeVec d d ℝ) (F : Fin d → ℝ)
    (hx : ∀ g c, x g c = F c)
    (g : Pos d ℤ) (hg : ∀ i, Free1 (velLayout N per lx i) (g i)) (c : Fin d) :
    blockMatrix (velLayout N per lx) (diagBlockMult (velLayout N per lx) elemP M) x g c =
      F c * ∏ i, h i := by
  have hv := velLayout_wf N per lx hne hW
  rw [diagBlock_global _ hv _ hel]
  have e : M = fun k1 k2 => ∏ i, J false false (offP k1 i) (offP k2 i) (h i) := by
    funext k1 k2; exact hM k1 k2
  have := sten_mono (velLayout N per lx) elemP offP hbijP helem (fun i a b => J false false a b (h i)) h
    (fun _ => 0) (fun _ _ => rfl) g hg
  have h2 := sten_smul (velLayout N per lx) elemP M (F c) (fun p => ∏ i, ((p i : ℝ) * h i) ^ 0) g
  rw [e] at h2
  rw [this] at h2
  simp only [hx, e]
  refine Eq.trans ?_ (h2.trans ?_)
  · simp [sten]
  · rw [Finset.prod_congr rfl fun i _ => st1_mass (h i) (g i)]

include hbij hoff hN

/-- The nodal values solve the discrete problem. -/
theorem exact_solves (rs : List (Fin d → ℕ)) (hrs : AllProcs (velLayout N per lx) rs) (bc : BC d ℝ)
    (src : Fin d → Cond d ℝ) (hb : WallsMatch w (velLayout N per lx) h bc) (hs : SourceMatch w src)
    (B : Fin NP → Fin NV → Fin d → ℝ)
    (hB : ∀ ip k c, B ip k c = ∏ i, JP (decide (c = i)) (offP ip i) (off k i) (h i))
    (Mm : Fin NP → Fin NP → ℝ)
    (hMm : ∀ k1 k2, Mm k1 k2 = ∏ i, J false false (offP k1 i) (offP k2 i) (h i))
    (apply : (Fin d → ℕ) → NodeVec d d ℝ → NodeVec d d ℝ → NodeVec d d ℝ)
    (hA : ∀ g : Pos d ℤ, (∀ i, Free1 (velLayout N per lx i) (g i)) → ∀ c,
      blockMatrix (velLayout N per lx) apply (nodalVel w h) g c =
        -(∑ j, (w.H c j j + w.H c j j)) * ∏ i, h i) :
    Solves (velLayout N per lx) (presLayout N per lx)
      (stokesMatrixBC (velLayout N per lx) (presLayout N per lx) rs bc apply elemP elemV B)
      (stokesSetupRHS (velLayout N per lx) rs src bc h (diagBlockMult (velLayout N per lx) elemP Mm) 0) 0
      (nodalVel w h) (nodalPres w h) := by
  have hv := velLayout_wf N per lx hne hW
  obtain ⟨hG, hH, hF⟩ := (stokesFlow_iff _ _ _ _ _ _).1 w.stokes
  constructor
  · intro g hg c
    obtain ⟨r1, r2⟩ := setup_once (velLayout N per lx) hv rs hrs elemP hel Mm src bc h 0 g c
    show setDirichletOnVec _ rs bc (nodalVel w h) _ g c = _
    rw [C25_vec _ hv rs hrs]
    by_cases hc : Constrained (velLayout N per lx) bc g c
    · rw [if_pos ⟨hg, hc⟩]
      obtain ⟨φ, hφ⟩ := (constrained_iff_last (velLayout N per lx) bc g c).1 hc
      rw [r1 hg φ hφ]
      obtain ⟨f, h1, h2, -⟩ := hφ
      exact (hb.2 g hg f c φ h1 h2).symm
    · rw [if_neg fun hh => hc hh.2, r2 fun hh => hc hh.2]
      have hfree := free_of_not w N lx h bc hb g hg c hc
      rw [vel_out N per lx hne hW elemP elemV hel off hoff, hA g hfree c,
        mass_rows N per lx hne hW elemP hel offP hbijP helem h Mm hMm _ w.F (source_const w src hs h) g hfree c]
      have := grad_affine N per lx elemP offP hbijP helem elemV off hbij hoff h hN c w.p0 w.γ w.perγ g hfree
      simp only [hB]
      refine (congrArg (fun t => -(∑ j, (w.H c j j + w.H c j j)) * ∏ i, h i + t) this).trans ?_
      rw [← add_mul, hF c]; simp
  · intro q hq
    rw [stokesBC_div N per lx hne hW elemP elemV hel off hoff]
    show (stokesMatrix _ _ _ _ _ _ _ _).2 q 0 = 0
    rw [pres_out N per lx hne hW elemP elemV hel off hoff]
    refine Finset.sum_eq_zero fun e _ => Finset.sum_eq_zero fun ip _ => ?_
    split_ifs
    · rw [Finset.sum_comm]
      simp only [hB]
      have := fun c => div_quad (velLayout N per lx) elemV off hbij hoff h c (offP ip) (w.a c) (w.G c) (w.H c)
        (fun i hi => w.perG i hi c) (fun i hi k => w.perH i hi c k) (w.noSquare c) e
      refine (Finset.sum_congr rfl fun c _ => this c).trans ?_
      rw [Finset.sum_add_distrib, ← Finset.sum_mul, hG, zero_mul, zero_add, Finset.sum_comm]
      refine Finset.sum_eq_zero fun k _ => ?_
      rw [← Finset.sum_mul, hH k, zero_mul]
    · rfl

end main

/-! ### The element matrices -/

theorem bit2_bij : Function.Bijective bit2 := by
  rw [Fintype.bijective_iff_injective_and_card]
  exact ⟨by decide +kernel, by simp⟩

theorem bit3_bij : Function.Bijective bit3 := by
  rw [Fintype.bijective_iff_injective_and_card]
  exact ⟨by decide +kernel, by simp⟩

theorem elem2_bit (e : Pos 2 ℤ) (k : Fin 4) (i : Fin 2) : getElement2 e k i = e i + ((bit2 k i : ℕ) : ℤ) := by
  rw [getElement2_eq]; fin_cases i <;> rfl

theorem elem3_bit (e : Pos 3 ℤ) (k : Fin 8) (i : Fin 3) : getElement3 e k i = e i + ((bit3 k i : ℕ) : ℤ) := by
  rw [getElement3_eq]; fin_cases i <;> rfl

theorem lap2_tensor (h : Pos 2 ℝ) (hh : ∀ c, 0 < h c) (i j : Fin 4) : matElemLaplacian2 h i j =
    ∑ p, ∏ t, J (decide (p = t)) (decide (p = t)) (bit2 i t) (bit2 j t) (h t) := by
  rw [C10_laplacian2 h hh, int2_sum _ _ _ fun c => cont_gg2 h i j c c]
  refine Finset.sum_congr rfl fun p _ => ?_
  rw [int2_gg h (fun c => (hh c).ne'), Fin.prod_univ_two]

theorem lap3_tensor (h : Pos 3 ℝ) (hh : ∀ c, 0 < h c) (i j : Fin 8) : matElemLaplacian3 h i j =
    ∑ p, ∏ t, J (decide (p = t)) (decide (p = t)) (bit3 i t) (bit3 j t) (h t) := by
  rw [C10_laplacian3 h hh, int3_sum _ _ _ fun c => cont_gg3 h i j c c]
  refine Finset.sum_congr rfl fun p _ => ?_
  rw [int3_gg h (fun c => (hh c).ne'), Fin.prod_univ_three]

theorem strain2_tensor (h : Pos 2 ℝ) (hh : ∀ c, 0 < h c) (i j : Fin 4) (a b : Fin 2) : matElemStrain2 h i j a b =
    ∑ p, ∑ q, strainCoef a b p q *
      ∏ t, J (decide (p = t)) (decide (q = t)) (bit2 i t) (bit2 j t) (h t) := by
  rw [C12_strain2 h hh, int2_strain]
  refine Finset.sum_congr rfl fun p _ => Finset.sum_congr rfl fun q _ => ?_
  rw [int2_gg h (fun c => (hh c).ne'), Fin.prod_univ_two]

theorem strain3_tensor (h : Pos 3 ℝ) (hh : ∀ c, 0 < h c) (i j : Fin 8) (a b : Fin 3) : matElemStrain3 h i j a b =
    ∑ p, ∑ q, strainCoef a b p q *
      ∏ t, J (decide (p = t)) (decide (q = t)) (bit3 i t) (bit3 j t) (h t) := by
  rw [C12_strain3 h hh, int3_strain]
  refine Finset.sum_congr rfl fun p _ => Finset.sum_congr rfl fun q _ => ?_
  rw [int3_gg h (fun c => (hh c).ne'), Fin.prod_univ_three]

theorem mass2_tensor (h : Pos 2 ℝ) (hh : ∀ c, 0 < h c) (i j : Fin 4) : matElemMass2 h i j =
    ∏ t, J false false (bit2 i t) (bit2 j t) (h t) := by
  rw [C11_mass2 h hh, int2_pp h (fun c => (hh c).ne'), Fin.prod_univ_two]; rfl

theorem mass3_tensor (h : Pos 3 ℝ) (hh : ∀ c, 0 < h c) (i j : Fin 8) : matElemMass3 h i j =
    ∏ t, J false false (bit3 i t) (bit3 j t) (h t) := by
  rw [C11_mass3 h hh, int3_pp h (fun c => (hh c).ne'), Fin.prod_univ_three]; rfl

/-! ### C96 -/

/-- C96 (2D): for a polynomial Stokes flow whose velocity is imposed on all the walls and whose force is the
source, the nodal values of the velocity and of the pressure satisfy all the rows of the discrete Stokes
problem assembled by the code (strain form and Laplacian form). -/
theorem C96_exact2 (N : Fin 2 → ℤ) (per : Fin 2 → Bool) (lx : Fin 2 → List ℤ)
    (hne : ∀ i, lx i ≠ []) (hW : ∀ i, (presLayout N per lx i).WF) (hN : ∀ i, 2 ≤ N i)
    (h : Pos 2 ℝ) (hh : ∀ c, 0 < h c) (rs : List (Fin 2 → ℕ)) (hrs : AllProcs (velLayout N per lx) rs)
    (bc : BC 2 ℝ) (src : Fin 2 → Cond 2 ℝ) (w : PolyFlow per)
    (hb : WallsMatch w (velLayout N per lx) h bc) (hs : SourceMatch w src) :
    Solves (velLayout N per lx) (presLayout N per lx) (stokesStrain2 N per lx rs bc h)
      (stokesSetupRHS (velLayout N per lx) rs src bc h
        (diagBlockMult (velLayout N per lx) getElement2 (matElemMass2 h)) 0) 0
      (nodalVel w h) (nodalPres w h) ∧
    Solves (velLayout N per lx) (presLayout N per lx) (stokesLap2 N per lx rs bc h)
      (stokesSetupRHS (velLayout N per lx) rs src bc h
        (diagBlockMult (velLayout N per lx) getElement2 (matElemMass2 h)) 0) 0
      (nodalVel w h) (nodalPres w h) := by
  have hB : ∀ ip k c, matElemPressure2 h ip k c =
      ∏ i, JP (decide (c = i)) (bit2 ip i) (trit2 k i) (h i) := fun ip k c => by
    rw [pressure2_tensor h hh, Fin.prod_univ_two]
  exact ⟨exact_solves N per lx hne hW hN _ _ isQ1_2 bit2 bit2_bij elem2_bit trit2 trit2_bij is4Q1_2 w h rs hrs bc
      src hb hs _ hB _ (mass2_tensor h hh) _ fun g hg c =>
        strain_rows N per lx hne hW _ isQ1_2 bit2 bit2_bij elem2_bit w h _ (strain2_tensor h hh) g hg c,
    exact_solves N per lx hne hW hN _ _ isQ1_2 bit2 bit2_bij elem2_bit trit2 trit2_bij is4Q1_2 w h rs hrs bc
      src hb hs _ hB _ (mass2_tensor h hh) _ fun g hg c =>
        lap_rows N per lx hne hW _ isQ1_2 bit2 bit2_bij elem2_bit w h _ (lap2_tensor h hh) g hg c⟩

/-- C96 (3D). -/
theorem C96_exact3 (N : Fin 3 → ℤ) (per : Fin 3 → Bool) (lx : Fin 3 → List ℤ)
    (hne : ∀ i, lx i ≠ []) (hW : ∀ i, (presLayout N per lx i).WF) (hN : ∀ i, 2 ≤ N i)
    (h : Pos 3 ℝ) (hh : ∀ c, 0 < h c) (rs : List (Fin 3 → ℕ)) (hrs : AllProcs (velLayout N per lx) rs)
    (bc : BC 3 ℝ) (src : Fin 3 → Cond 3 ℝ) (w : PolyFlow per)
    (hb : WallsMatch w (velLayout N per lx) h bc) (hs : SourceMatch w src) :
    Solves (velLayout N per lx) (presLayout N per lx) (stokesStrain3 N per lx rs bc h)
      (stokesSetupRHS (velLayout N per lx) rs src bc h
        (diagBlockMult (velLayout N per lx) getElement3 (matElemMass3 h)) 0) 0
      (nodalVel w h) (nodalPres w h) ∧
    Solves (velLayout N per lx) (presLayout N per lx) (stokesLap3 N per lx rs bc h)
      (stokesSetupRHS (velLayout N per lx) rs src bc h
        (diagBlockMult (velLayout N per lx) getElement3 (matElemMass3 h)) 0) 0
      (nodalVel w h) (nodalPres w h) := by
  have hB : ∀ ip k c, matElemPressure3 h ip k c =
      ∏ i, JP (decide (c = i)) (bit3 ip i) (trit3 k i) (h i) := fun ip k c => by
    rw [pressure3_tensor h hh, Fin.prod_univ_three]
  exact ⟨exact_solves N per lx hne hW hN _ _ isQ1_3 bit3 bit3_bij elem3_bit trit3 trit3_bij is4Q1_3 w h rs hrs bc
      src hb hs _ hB _ (mass3_tensor h hh) _ fun g hg c =>
        strain_rows N per lx hne hW _ isQ1_3 bit3 bit3_bij elem3_bit w h _ (strain3_tensor h hh) g hg c,
    exact_solves N per lx hne hW hN _ _ isQ1_3 bit3 bit3_bij elem3_bit trit3 trit3_bij is4Q1_3 w h rs hrs bc
      src hb hs _ hB _ (mass3_tensor h hh) _ fun g hg c =>
        lap_rows N per lx hne hW _ isQ1_3 bit3 bit3_bij elem3_bit w h _ (lap3_tensor h hh) g hg c⟩

/-- With a wall, some wall imposes all the components. -/
theorem walls_held {per : Fin d → Bool} (w : PolyFlow per) (N : Fin d → ℤ) (lx : Fin d → List ℤ)
    (hN : ∀ i, 2 ≤ N i) (h : Pos d ℝ) (bc : BC d ℝ) (hb : WallsMatch w (velLayout N per lx) h bc)
    (hp : ∃ a, per a = false) : WallHeld (velLayout N per lx) bc := by
  obtain ⟨a, ha⟩ := hp
  refine ⟨fun _ => 0, ?_, 2 * a.1, ⟨a, ha, Or.inl ⟨rfl, rfl⟩⟩, fun c => (hb.1 a ha c).1⟩
  rw [mem_gridNodes]
  intro i
  have := hN i
  simp only [velLayout, velDir, meshVel]
  split_ifs <;> omega

/-- C96 (2D, what a solver finds): if at least one direction is not periodic, every solution of the discrete
problem (strain form or Laplacian form) has the velocity of the flow at all the nodes, and its pressure up
to a constant when no two directions have only two pressure nodes. -/
theorem C96_unique2 (N : Fin 2 → ℤ) (per : Fin 2 → Bool) (lx : Fin 2 → List ℤ)
    (hne : ∀ i, lx i ≠ []) (hW : ∀ i, (presLayout N per lx i).WF) (hN : ∀ i, 2 ≤ N i)
    (h : Pos 2 ℝ) (hh : ∀ c, 0 < h c) (rs : List (Fin 2 → ℕ)) (hrs : AllProcs (velLayout N per lx) rs)
    (bc : BC 2 ℝ) (src : Fin 2 → Cond 2 ℝ) (w : PolyFlow per)
    (hb : WallsMatch w (velLayout N per lx) h bc) (hs : SourceMatch w src) (hp : ∃ a, per a = false)
    (u : NodeVec 2 2 ℝ) (p : NodeVec 2 1 ℝ)
    (hsol : Solves (velLayout N per lx) (presLayout N per lx) (stokesStrain2 N per lx rs bc h)
        (stokesSetupRHS (velLayout N per lx) rs src bc h
          (diagBlockMult (velLayout N per lx) getElement2 (matElemMass2 h)) 0) 0 u p ∨
      Solves (velLayout N per lx) (presLayout N per lx) (stokesLap2 N per lx rs bc h)
        (stokesSetupRHS (velLayout N per lx) rs src bc h
          (diagBlockMult (velLayout N per lx) getElement2 (matElemMass2 h)) 0) 0 u p) :
    (∀ g ∈ gridNodes (velLayout N per lx), ∀ c, u g c = w.vel (fun i => (g i : ℝ) * h i) c) ∧
    (Fine N → ∃ k, ∀ q ∈ gridNodes (presLayout N per lx),
      p q 0 = w.pres (fun i => (q i : ℝ) * (2 * h i)) + k) := by
  obtain ⟨x1, x2⟩ := C96_exact2 N per lx hne hW hN h hh rs hrs bc src w hb hs
  have hw := walls_held w N lx hN h bc hb hp
  have hv := C93_velocity2 N per lx hne hW hN h hh rs hrs bc u (nodalVel w h) p (nodalPres w h)
  have hq := fun hF => C93_pressure2 N per lx hne hW hF h hh rs hrs bc u (nodalVel w h) p (nodalPres w h)
  rcases hsol with hsol | hsol
  · have e1 := fun g hg c => (hsol.1 g hg c).trans (x1.1 g hg c).symm
    have e2 := fun q hq => (hsol.2 q hq).trans (x1.2 q hq).symm
    exact ⟨hv.1 hw e1 e2, fun hF => (hq hF).1 hw e1 e2⟩
  · have e1 := fun g hg c => (hsol.1 g hg c).trans (x2.1 g hg c).symm
    have e2 := fun q hq => (hsol.2 q hq).trans (x2.2 q hq).symm
    exact ⟨hv.2 hw.components e1 e2, fun hF => (hq hF).2 hw.components e1 e2⟩

/-- C96 (3D, what a solver finds). -/
theorem C96_unique3 (N : Fin 3 → ℤ) (per : Fin 3 → Bool) (lx : Fin 3 → List ℤ)
    (hne : ∀ i, lx i ≠ []) (hW : ∀ i, (presLayout N per lx i).WF) (hN : ∀ i, 2 ≤ N i)
    (h : Pos 3 ℝ) (hh : ∀ c, 0 < h c) (rs : List (Fin 3 → ℕ)) (hrs : AllProcs (velLayout N per lx) rs)
    (bc : BC 3 ℝ) (src : Fin 3 → Cond 3 ℝ) (w : PolyFlow per)
    (hb : WallsMatch w (velLayout N per lx) h bc) (hs : SourceMatch w src) (hp : ∃ a, per a = false)
    (u : NodeVec 3 3 ℝ) (p : NodeVec 3 1 ℝ)
    (hsol : Solves (velLayout N per lx) (presLayout N per lx) (stokesStrain3 N per lx rs bc h)
        (stokesSetupRHS (velLayout N per lx) rs src bc h
          (diagBlockMult (velLayout N per lx) getElement3 (matElemMass3 h)) 0) 0 u p ∨
      Solves (velLayout N per lx) (presLayout N per lx) (stokesLap3 N per lx rs bc h)
        (stokesSetupRHS (velLayout N per lx) rs src bc h
          (diagBlockMult (velLayout N per lx) getElement3 (matElemMass3 h)) 0) 0 u p) :
    (∀ g ∈ gridNodes (velLayout N per lx), ∀ c, u g c = w.vel (fun i => (g i : ℝ) * h i) c) ∧
    (Fine N → ∃ k, ∀ q ∈ gridNodes (presLayout N per lx),
      p q 0 = w.pres (fun i => (q i : ℝ) * (2 * h i)) + k) := by
  obtain ⟨x1, x2⟩ := C96_exact3 N per lx hne hW hN h hh rs hrs bc src w hb hs
  have hw := walls_held w N lx hN h bc hb hp
  have hv := C93_velocity3 N per lx hne hW hN h hh rs hrs bc u (nodalVel w h) p (nodalPres w h)
  have hq := fun hF => C93_pressure3 N per lx hne hW hF h hh rs hrs bc u (nodalVel w h) p (nodalPres w h)
  rcases hsol with hsol | hsol
  · have e1 := fun g hg c => (hsol.1 g hg c).trans (x1.1 g hg c).symm
    have e2 := fun q hq => (hsol.2 q hq).trans (x1.2 q hq).symm
    exact ⟨hv.1 hw e1 e2, fun hF => (hq hF).1 hw e1 e2⟩
  · have e1 := fun g hg c => (hsol.1 g hg c).trans (x2.1 g hg c).symm
    have e2 := fun q hq => (hsol.2 q hq).trans (x2.2 q hq).symm
    exact ⟨hv.2 hw.components e1 e2, fun hF => (hq hF).2 hw.components e1 e2⟩

/-! ### Concrete flows -/

/-- Couette flow between two walls moving along `x`, periodic in `x`: `u = (y, 0)`, no force. -/
noncomputable def couette : PolyFlow (d := 2) ![true, false] where
  a := 0
  G := fun c i => if c = 0 ∧ i = 1 then 1 else 0
  H := 0
  p0 := 0
  γ := 0
  F := 0
  stokes := by
    refine (stokesFlow_iff _ _ _ _ _ _).2 ⟨?_, ?_, ?_⟩ <;> simp [Fin.sum_univ_two]
  noSquare := fun _ => rfl
  perG := fun i hi c => by fin_cases i <;> simp_all
  perH := fun _ _ _ _ => ⟨rfl, rfl⟩
  perγ := fun _ _ => rfl

theorem couette_vel (x : Fin 2 → ℝ) : couette.vel x = ![x 1, 0] := by
  funext c; fin_cases c <;> simp [PolyFlow.vel, couette, quad, Fin.sum_univ_two]

/-- Poiseuille flow in a channel of height one driven by a pressure drop, with an inlet and an outlet:
`u = (y (1 - y), 0)`, `p = - 2 x`. -/
noncomputable def poiseuille : PolyFlow (d := 2) ![false, false] where
  a := 0
  G := fun c i => if c = 0 ∧ i = 1 then 1 else 0
  H := fun c i j => if c = 0 ∧ i = 1 ∧ j = 1 then -1 else 0
  p0 := 0
  γ := ![-2, 0]
  F := 0
  stokes := by
    refine (stokesFlow_iff _ _ _ _ _ _).2 ⟨?_, fun k => ?_, fun c => ?_⟩
    · simp [Fin.sum_univ_two]
    · fin_cases k <;> simp [Fin.sum_univ_two]
    · fin_cases c <;> simp [Fin.sum_univ_two] <;> norm_num
  noSquare := fun c => by fin_cases c <;> simp
  perG := fun i hi c => by fin_cases i <;> simp_all
  perH := fun i hi c => by fin_cases i <;> simp_all
  perγ := fun i hi => by fin_cases i <;> simp_all

theorem poiseuille_vel (x : Fin 2 → ℝ) : poiseuille.vel x = ![x 1 * (1 - x 1), 0] ∧
    poiseuille.pres x = -2 * x 0 := by
  constructor
  · funext c; fin_cases c
    · simp [PolyFlow.vel, poiseuille, quad, Fin.sum_univ_two]; ring
    · simp [PolyFlow.vel, poiseuille, quad, Fin.sum_univ_two]
  · simp [PolyFlow.pres, poiseuille, affine, Fin.sum_univ_two]

/-- The same profile in a channel that is periodic in `x`, driven by the force `(2, 0)`. -/
noncomputable def drivenChannel : PolyFlow (d := 2) ![true, false] where
  a := 0
  G := fun c i => if c = 0 ∧ i = 1 then 1 else 0
  H := fun c i j => if c = 0 ∧ i = 1 ∧ j = 1 then -1 else 0
  p0 := 0
  γ := 0
  F := ![2, 0]
  stokes := by
    refine (stokesFlow_iff _ _ _ _ _ _).2 ⟨?_, fun k => ?_, fun c => ?_⟩
    · simp [Fin.sum_univ_two]
    · fin_cases k <;> simp [Fin.sum_univ_two]
    · fin_cases c <;> simp [Fin.sum_univ_two] <;> norm_num
  noSquare := fun c => by fin_cases c <;> simp
  perG := fun i hi c => by fin_cases i <;> simp_all
  perH := fun i hi c k => by fin_cases i <;> simp_all
  perγ := fun i hi => rfl

/-- The flow `u = (x², - 2 x y)`, `p = 2 x` is a Stokes flow without force. -/
theorem square_stokes : StokesFlow (d := 2) (fun x => ![x 0 * x 0, -2 * (x 0 * x 1)]) (fun x => 2 * x 0) 0 := by
  have h1 : (fun x : Fin 2 → ℝ => ![x 0 * x 0, -2 * (x 0 * x 1)]) = fun x c => quad 0 0
      ((![![![1, 0], ![0, 0]], ![![0, -2], ![0, 0]]] : Fin 2 → Fin 2 → Fin 2 → ℝ) c) x := by
    funext x c
    fin_cases c <;> simp [quad, Fin.sum_univ_two]
  have h2 : (fun x : Fin 2 → ℝ => 2 * x 0) = affine 0 ![2, 0] := by
    funext x; simp [affine, Fin.sum_univ_two]
  rw [h1, h2]
  refine (stokesFlow_iff (fun _ => 0) (fun _ => 0) _ _ _ _).2 ⟨by simp, fun k => ?_, fun c => ?_⟩
  · fin_cases k <;> simp [Fin.sum_univ_two] <;> norm_num
  · fin_cases c <;> simp [Fin.sum_univ_two] <;> norm_num

/-- C96 (the restriction is needed): in a closed box the nodal values of that flow do not satisfy the
divergence row of the corner, whatever the pressure: the method does not compute exactly the flows where a
component contains the square of its own coordinate. -/
theorem C96_square_needed (N : Fin 2 → ℤ) (lx : Fin 2 → List ℤ)
    (hne : ∀ i, lx i ≠ []) (hW : ∀ i, (presLayout N (fun _ => false) lx i).WF) (hN : ∀ i, 2 ≤ N i)
    (h : Pos 2 ℝ) (hh : ∀ c, 0 < h c) (rs : List (Fin 2 → ℕ)) (bc : BC 2 ℝ) (p : NodeVec 2 1 ℝ) :
    (stokesStrain2 N (fun _ => false) lx rs bc h (fun g =>
      ![(g 0 * h 0) * (g 0 * h 0), -2 * ((g 0 * h 0) * (g 1 * h 1))]) p).2 (fun _ => 0) 0 ≠ 0 := by
  have hB : ∀ ip k c, matElemPressure2 h ip k c =
      ∏ i, JP (decide (c = i)) (bit2 ip i) (trit2 k i) (h i) := fun ip k c => by
    rw [pressure2_tensor h hh, Fin.prod_univ_two]
  have h0 := hh 0
  have h1 := hh 1
  rw [stokesBC_div N _ lx hne hW _ _ isQ1_2 _ is4Q1_2]
  show (stokesMatrix _ _ _ _ _ _ _ _).2 (fun _ => 0) 0 ≠ 0
  rw [pres_out N _ lx hne hW _ _ isQ1_2 _ is4Q1_2]
  have hw : ∀ e : Pos 2 ℤ, wrap (presLayout N (fun _ => false) lx) e = e := fun e => by
    funext i; simp [wrap, presLayout, presDir]
  have hw2 : ∀ e : Pos 2 ℤ, wrap (velLayout N (fun _ => false) lx) e = e := fun e => by
    funext i; simp [wrap, velLayout, velDir]
  rw [Finset.sum_eq_single (fun _ => 0), Finset.sum_eq_single 0]
  · rw [hw, if_pos (by funext i; rw [elem2_bit]; fin_cases i <;> rfl)]
    simp only [hB, Fin.sum_univ_two, Fin.prod_univ_two]
    simp only [hw2, is4Q1_2 _ _ _]
    have := sum_trit2 (fun a b => ((2 * (0:ℤ) + ((a : ℕ):ℤ) : ℤ) * h 0) * ((2 * (0:ℤ) + ((a : ℕ):ℤ) : ℤ) * h 0) *
      (JP true 0 a (h 0) * JP false 0 b (h 1)) + (-2 * (((2 * (0:ℤ) + ((a : ℕ):ℤ) : ℤ) * h 0) *
        ((2 * (0:ℤ) + ((b : ℕ):ℤ) : ℤ) * h 1))) * (JP false 0 a (h 0) * JP true 0 b (h 1)))
    intro hz
    have e := this.symm.trans (Eq.trans ?_ hz)
    · simp [Fin.sum_univ_three, JP, pT, qT] at e
      have hm := mul_pos (mul_pos h0 h0) h1
      have hm2 := mul_pos (mul_pos h0 h1) h1
      nlinarith
    · refine Finset.sum_congr rfl fun k _ => ?_
      have b0 : bit2 0 0 = 0 := rfl
      have b1 : bit2 0 1 = 0 := rfl
      simp [b0, b1]
  · intro ip _ hip
    rw [hw, if_neg]
    intro hc
    have c0 := congrFun hc 0
    have c1 := congrFun hc 1
    rw [elem2_bit] at c0 c1
    fin_cases ip <;> simp [bit2] at c0 c1 hip
  · simp
  · intro e he hne
    refine Finset.sum_eq_zero fun ip _ => ?_
    rw [hw, if_neg]
    intro hc
    rw [mem_gridElems] at he
    refine hne (funext fun i => ?_)
    have ci := congrFun hc i
    rw [elem2_bit] at ci
    have := (he i).1
    omega
  · intro hc
    refine absurd ?_ hc
    rw [mem_gridElems]
    intro i
    have := hN i
    rw [pres_nElem]
    omega
/-- The hypotheses are met for any flow: impose its velocity on every face and its force as a source. -/
theorem walls_of {per : Fin d → Bool} (w : PolyFlow per) (L : Fin d → Dir) (h : Pos d ℝ) :
    WallsMatch w L h (fun _ c => some fun x => w.vel x c) ∧ SourceMatch w (fun c => some fun _ => w.F c) := by
  refine ⟨⟨fun _ _ _ => ⟨rfl, rfl⟩, fun g _ f c φ _ hφ => ?_⟩, fun c => Or.inl ⟨_, rfl, fun _ => rfl⟩⟩
  rw [← Option.some.inj hφ]

/-- The mesh of 4 x 3 pressure nodes, periodic in `x`, on 2 x 1 processes: the hypotheses of `C96_unique2`
are met with the driven channel, whose imposed and computed velocities are not zero. -/
example : (∀ i, (![[2, 1], [3]] : Fin 2 → List ℤ) i ≠ []) ∧
    (∀ i, (presLayout ![4, 3] ![true, false] ![[2, 1], [3]] i).WF) ∧ Fine (![4, 3] : Fin 2 → ℤ) ∧
    AllProcs (velLayout ![4, 3] ![true, false] ![[2, 1], [3]])
      (procs (velLayout ![4, 3] ![true, false] ![[2, 1], [3]])).toList ∧
    (∃ a : Fin 2, (![true, false] : Fin 2 → Bool) a = false) ∧
    drivenChannel.vel ![0, 1 / 4] 0 = 3 / 16 := by
  refine ⟨fun i => by fin_cases i <;> simp, fun i => ?_, ⟨fun i => by fin_cases i <;> simp, fun i j hij => ?_⟩,
    ⟨Finset.nodup_toList _, by simp⟩, ⟨1, rfl⟩, ?_⟩
  · fin_cases i
    · exact ⟨by decide, by decide⟩
    · exact ⟨by decide, by decide⟩
  · fin_cases i <;> fin_cases j <;> simp_all
  · simp [PolyFlow.vel, drivenChannel, quad, Fin.sum_univ_two]; norm_num

end Cafes.Props
