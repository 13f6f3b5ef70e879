/-
Property theorems: C104, from the command line to the discrete problem.
-/
import Verif.Model.Options
import Verif.Props.Exact
import Verif.Props.AssembleBC

namespace Cafes.Props
open Cafes Cafes.Spec Cafes.Opt

/-- The letter of each direction in the names of the options. -/
def letter : Fin 3 → String := ![ "x", "y", "z"]

/-- C104 (2D): each field of the options is the value given to the option named after its direction
(`-mx`, `-my`; `-Lx`, `-Ly`; `-xperiod`, `-yperiod`), else 17 points, length 1, no periodicity; the three
switches are off by default. No other option matters. -/
theorem C104_options2 (db : Db) : let o := process2 db (Options.init 2)
    (∀ i : Fin 2, o.mx i = (db.int ("-m" ++ letter (i.castLE (by omega)))).getD 17 ∧
      o.lx i = (db.real ("-L" ++ letter (i.castLE (by omega)))).getD 1 ∧
      o.xperiod i = (db.bool ("-" ++ letter (i.castLE (by omega)) ++ "period")).getD false) ∧
    o.strainTensor = (db.bool "-strain_tensor").getD false ∧
    o.assembling = (db.bool "-assembling").getD false ∧ o.pmm = (db.bool "-PMM").getD false := by
  refine ⟨fun i => ?_, rfl, rfl, rfl⟩
  fin_cases i
  · exact ⟨rfl, rfl, rfl⟩
  · exact ⟨rfl, rfl, rfl⟩

/-- C104 (3D). -/
theorem C104_options3 (db : Db) : let o := process3 db (Options.init 3)
    (∀ i : Fin 3, o.mx i = (db.int ("-m" ++ letter i)).getD 17 ∧
      o.lx i = (db.real ("-L" ++ letter i)).getD 1 ∧
      o.xperiod i = (db.bool ("-" ++ letter i ++ "period")).getD false) ∧
    o.strainTensor = (db.bool "-strain_tensor").getD false ∧
    o.assembling = (db.bool "-assembling").getD false ∧ o.pmm = (db.bool "-PMM").getD false := by
  refine ⟨fun i => ?_, rfl, rfl, rfl⟩
  fin_cases i
  · exact ⟨rfl, rfl, rfl⟩
  · exact ⟨rfl, rfl, rfl⟩
  · exact ⟨rfl, rfl, rfl⟩

/-- C104 (box): in every direction, periodic or not, the cells of the velocity grid and those of the pressure
grid cover exactly the length given by the options, and there are two velocity cells per pressure cell. -/
theorem C104_box {d : ℕ} (o : Options d) (lx : Fin d → List ℤ) (i : Fin d) (hN : 2 ≤ o.mx i) :
    (((velGrid o lx i).nElem : ℤ) : ℝ) * hu o i = o.lx i ∧
    (((presGrid o lx i).nElem : ℤ) : ℝ) * hp o i = o.lx i ∧
    (velGrid o lx i).nElem = 2 * (presGrid o lx i).nElem ∧ hp o i = 2 * hu o i ∧
    (0 < hu o i ↔ 0 < o.lx i) := by
  have h1 : (((o.mx i - 1 : ℤ)) : ℝ) ≠ 0 := by
    have : (o.mx i - 1 : ℤ) ≠ 0 := by omega
    exact_mod_cast this
  have hpos : (0:ℝ) < (((o.mx i - 1 : ℤ)) : ℝ) := by
    have : (0 : ℤ) < o.mx i - 1 := by omega
    exact_mod_cast this
  have e1 : (presGrid o lx i).nElem = o.mx i - 1 := by
    simp only [presGrid, presDir, Dir.nElem, meshPres]
    split_ifs <;> rfl
  have e2 : (velGrid o lx i).nElem = 2 * (o.mx i - 1) := by
    simp only [velGrid, velDir, Dir.nElem, meshVel]
    split_ifs <;> ring
  refine ⟨?_, ?_, by rw [e1, e2], by unfold hu; ring, ?_⟩
  · rw [e2]; unfold hu hp; push_cast at h1 ⊢; field_simp
  · rw [e1]; unfold hp; field_simp
  · unfold hu hp
    constructor
    · intro h
      have : 0 < o.lx i / (((o.mx i - 1 : ℤ)) : ℝ) := by linarith
      have := mul_pos this hpos
      rwa [div_mul_cancel₀ _ h1] at this
    · intro h
      have := div_pos h hpos
      linarith

/-- The linear system handed to the outer solver: assembled or matrix-free. -/
def System2 (o : Options 2) (lx : Fin 2 → List ℤ) (rs : List (Fin 2 → ℕ)) (bc : BC 2 ℝ)
    (f : NodeVec 2 2 ℝ) (s : NodeVec 2 1 ℝ) (u : NodeVec 2 2 ℝ) (p : NodeVec 2 1 ℝ) : Prop :=
  if o.assembling then ∃ A, assembled2 o lx rs = some A ∧
    (∀ g ∈ gridNodes (velGrid o lx), ∀ c,
      applyMat (velGrid o lx) (presGrid o lx) A (pack u p) (.inl (g, c)) = f g c) ∧
    ∀ q ∈ gridNodes (presGrid o lx), applyMat (velGrid o lx) (presGrid o lx) A (pack u p) (.inr q) = s q 0
  else Solves (velGrid o lx) (presGrid o lx) (operator2 o lx rs bc) f s u p

/-- C104 (assembling): with conditions on every wall, and outside of the case (one process, first direction
periodic, second not) of `C28_stride_refuted`, the option `-assembling` does not change the set of solutions. -/
theorem C104_assembling2 (o : Options 2) (lx : Fin 2 → List ℤ) (hne : ∀ i, lx i ≠ [])
    (hW : ∀ i, (presGrid o lx i).WF) (rs : List (Fin 2 → ℕ)) (hrs : AllProcs (velGrid o lx) rs)
    (bc : BC 2 ℝ) (hbc : ∀ f c, (bc f c).isSome)
    (hH : o.assembling = true → ¬ (rs.length = 1 ∧ o.xperiod 0 = true ∧ o.xperiod 1 = false))
    (f u : NodeVec 2 2 ℝ) (s p : NodeVec 2 1 ℝ) :
    System2 o lx rs bc f s u p ↔
      Solves (velGrid o lx) (presGrid o lx) (operator2 o lx rs bc) f s u p := by
  unfold System2
  by_cases ha : o.assembling = true
  · rw [if_pos ha]
    have hrs' : AllProcs (presLayout o.mx o.xperiod lx) rs :=
      ⟨hrs.1, fun r => by rw [← procs_layout o.mx o.xperiod lx]; exact hrs.2 r⟩
    obtain ⟨A, hA, h1⟩ : ∃ A, assembled2 o lx rs = some A ∧ ∀ u p,
        (∀ g ∈ gridNodes (velGrid o lx), ∀ c, applyMat (velGrid o lx) (presGrid o lx) A (pack u p)
          (.inl (g, c)) = (operator2 o lx rs bc u p).1 g c) ∧
        ∀ g, applyMat (velGrid o lx) (presGrid o lx) A (pack u p) (.inr g) =
          (operator2 o lx rs bc u p).2 g 0 := by
      unfold assembled2 operator2
      by_cases hst : o.strainTensor = true
      · simp only [hst, if_true]
        exact C28_stokes_strain o.mx o.xperiod lx hne hW rs hrs' (hu o) bc hbc (hH ha)
      · simp only [hst]
        exact C28_stokes_laplacian o.mx o.xperiod lx hne hW rs hrs' (hu o) bc hbc (hH ha)
    constructor
    · rintro ⟨A2, hA2, h2, h3⟩
      rw [hA] at hA2
      cases hA2
      exact ⟨fun g hg c => ((h1 u p).1 g hg c).symm.trans (h2 g hg c),
        fun q hq => ((h1 u p).2 q).symm.trans (h3 q hq)⟩
    · rintro ⟨h2, h3⟩
      exact ⟨A, hA, fun g hg c => ((h1 u p).1 g hg c).trans (h2 g hg c),
        fun q hq => ((h1 u p).2 q).trans (h3 q hq)⟩
  · rw [if_neg ha]

/-- The operator of the constructor is one of the two operators of C94, C96. -/
theorem operator2_eq (o : Options 2) (lx : Fin 2 → List ℤ) (rs : List (Fin 2 → ℕ)) (bc : BC 2 ℝ) :
    operator2 o lx rs bc = if o.strainTensor then stokesStrain2 o.mx o.xperiod lx rs bc (hu o)
      else stokesLap2 o.mx o.xperiod lx rs bc (hu o) := by
  unfold operator2
  by_cases hst : o.strainTensor = true
  · simp only [hst, if_true]; rfl
  · simp only [hst]; rfl

/-- C104 (2D, well posed): whatever the command line with enough points and positive lengths, the
distribution chosen by PETSc and the conditions that hold the flow on some wall and the normal components on
all, the matrix-free system of the `stokes` object has a solution if and only if the divergence source
balances the flux of the imposed velocity through the walls, and two solutions have the same velocity and
pressures that differ by a constant. -/
theorem C104_wellposed2 (db : Db) (lx : Fin 2 → List ℤ) (hne : ∀ i, lx i ≠ []) :
    let o := process2 db (Options.init 2)
    Fine o.mx → (∀ i, 0 < o.lx i) → (∀ i, (presGrid o lx i).WF) →
    ∀ (rs : List (Fin 2 → ℕ)), AllProcs (velGrid o lx) rs → ∀ (bc : BC 2 ℝ), NormalHeld o.xperiod bc →
      WallHeld (velGrid o lx) bc → ∀ (f : NodeVec 2 2 ℝ) (s : NodeVec 2 1 ℝ),
    ((∃ u p, Solves (velGrid o lx) (presGrid o lx) (operator2 o lx rs bc) f s u p) ↔
      ∑ q ∈ gridNodes (presGrid o lx), s q 0 = wallFlux (velGrid o lx) (hu o) f) ∧
    ∀ u p u' p', Solves (velGrid o lx) (presGrid o lx) (operator2 o lx rs bc) f s u p →
      Solves (velGrid o lx) (presGrid o lx) (operator2 o lx rs bc) f s u' p' →
      (∀ g ∈ gridNodes (velGrid o lx), ∀ c, u g c = u' g c) ∧
      ∃ k, ∀ q ∈ gridNodes (presGrid o lx), p q 0 = p' q 0 + k := by
  intro o hF hl hW rs hrs bc hn hb f s
  have hh : ∀ c, 0 < hu o c := fun c => (C104_box o lx c (hF.1 c)).2.2.2.2.2 (hl c)
  have hc := C94_closed2 o.mx o.xperiod lx hne hW hF (hu o) hh rs hrs bc hn f s
  rw [operator2_eq]
  by_cases hst : o.strainTensor = true
  · rw [if_pos hst]
    refine ⟨hc.1 hb, fun u p u' p' h1 h2 => ?_⟩
    have e1 := fun g hg c => (h1.1 g hg c).trans (h2.1 g hg c).symm
    have e2 := fun q hq => (h1.2 q hq).trans (h2.2 q hq).symm
    exact ⟨(C93_velocity2 o.mx o.xperiod lx hne hW hF.1 (hu o) hh rs hrs bc u u' p p').1 hb e1 e2,
      (C93_pressure2 o.mx o.xperiod lx hne hW hF (hu o) hh rs hrs bc u u' p p').1 hb e1 e2⟩
  · rw [if_neg hst]
    refine ⟨hc.2 hb.components, fun u p u' p' h1 h2 => ?_⟩
    have e1 := fun g hg c => (h1.1 g hg c).trans (h2.1 g hg c).symm
    have e2 := fun q hq => (h1.2 q hq).trans (h2.2 q hq).symm
    exact ⟨(C93_velocity2 o.mx o.xperiod lx hne hW hF.1 (hu o) hh rs hrs bc u u' p p').2 hb.components e1 e2,
      (C93_pressure2 o.mx o.xperiod lx hne hW hF (hu o) hh rs hrs bc u u' p p').2 hb.components e1 e2⟩

/-- C104 (2D, exact flows, matrix-free): whatever the command line with enough points, positive lengths and a
wall, if the velocity of a polynomial Stokes flow is imposed on the walls and its force is given as source,
the system prepared by the constructor and `setup_RHS` has a solution, and every solution is the flow: at the
velocity node `g` its velocity at the point `g hu`, at the pressure node `q` its pressure at `q hp` up to a
constant. -/
theorem C104_flow2 (db : Db) (lx : Fin 2 → List ℤ) (hne : ∀ i, lx i ≠ []) :
    let o := process2 db (Options.init 2)
    Fine o.mx → (∀ i, 0 < o.lx i) → (∀ i, (presGrid o lx i).WF) → (∃ i, o.xperiod i = false) →
    ∀ (rs : List (Fin 2 → ℕ)), AllProcs (velGrid o lx) rs → ∀ w : PolyFlow o.xperiod,
    let bc : BC 2 ℝ := fun _ c => some fun x => w.vel x c
    let f := stokesSetupRHS (velGrid o lx) rs (fun c => some fun _ => w.F c) bc (hu o)
        (diagBlockMult (velGrid o lx) getElement2 (matElemMass2 (hu o))) 0
    (∃ u p, Solves (velGrid o lx) (presGrid o lx) (operator2 o lx rs bc) f 0 u p) ∧
    ∀ u p, Solves (velGrid o lx) (presGrid o lx) (operator2 o lx rs bc) f 0 u p →
      (∀ g ∈ gridNodes (velGrid o lx), ∀ c, u g c = w.vel (fun i => (g i : ℝ) * hu o i) c) ∧
      ∃ k, ∀ q ∈ gridNodes (presGrid o lx), p q 0 = w.pres (fun i => (q i : ℝ) * hp o i) + k := by
  intro o hF hl hW hper rs hrs w bc f
  have hh : ∀ c, 0 < hu o c := fun c => (C104_box o lx c (hF.1 c)).2.2.2.2.2 (hl c)
  obtain ⟨hb, hs⟩ := walls_of w (velGrid o lx) (hu o)
  have hex := C96_exact2 o.mx o.xperiod lx hne hW hF.1 (hu o) hh rs hrs bc _ w hb hs
  have hhp : ∀ q : Pos 2 ℤ, (fun i => (q i : ℝ) * (2 * hu o i)) = fun i => (q i : ℝ) * hp o i := fun q => by
    funext i; rw [(C104_box o lx i (hF.1 i)).2.2.2.1]
  have key : ∀ u p, (Solves (velGrid o lx) (presGrid o lx) (stokesStrain2 o.mx o.xperiod lx rs bc (hu o)) f 0 u p ∨
      Solves (velGrid o lx) (presGrid o lx) (stokesLap2 o.mx o.xperiod lx rs bc (hu o)) f 0 u p) →
      (∀ g ∈ gridNodes (velGrid o lx), ∀ c, u g c = w.vel (fun i => (g i : ℝ) * hu o i) c) ∧
      ∃ k, ∀ q ∈ gridNodes (presGrid o lx), p q 0 = w.pres (fun i => (q i : ℝ) * hp o i) + k := by
    intro u p hup
    have := C96_unique2 o.mx o.xperiod lx hne hW hF.1 (hu o) hh rs hrs bc _ w hb hs hper u p hup
    obtain ⟨k, hk⟩ := this.2 hF
    exact ⟨this.1, k, fun q hq => by rw [hk q hq, hhp]⟩
  rw [operator2_eq]
  by_cases hst : o.strainTensor = true
  · rw [if_pos hst]
    exact ⟨⟨_, _, hex.1⟩, fun u p h => key u p (Or.inl h)⟩
  · rw [if_neg hst]
    exact ⟨⟨_, _, hex.2⟩, fun u p h => key u p (Or.inr h)⟩

/-- The operator of the constructor is one of the two operators of C94, C96. -/
theorem operator3_eq (o : Options 3) (lx : Fin 3 → List ℤ) (rs : List (Fin 3 → ℕ)) (bc : BC 3 ℝ) :
    operator3 o lx rs bc = if o.strainTensor then stokesStrain3 o.mx o.xperiod lx rs bc (hu o)
      else stokesLap3 o.mx o.xperiod lx rs bc (hu o) := by
  unfold operator3
  by_cases hst : o.strainTensor = true
  · simp only [hst, if_true]; rfl
  · simp only [hst]; rfl

/-- C104 (3D, well posed): whatever the command line with enough points and positive lengths, the
distribution chosen by PETSc and the conditions that hold the flow on some wall and the normal components on
all, the matrix-free system of the `stokes` object has a solution if and only if the divergence source
balances the flux of the imposed velocity through the walls, and two solutions have the same velocity and
pressures that differ by a constant. -/
theorem C104_wellposed3 (db : Db) (lx : Fin 3 → List ℤ) (hne : ∀ i, lx i ≠ []) :
    let o := process3 db (Options.init 3)
    Fine o.mx → (∀ i, 0 < o.lx i) → (∀ i, (presGrid o lx i).WF) →
    ∀ (rs : List (Fin 3 → ℕ)), AllProcs (velGrid o lx) rs → ∀ (bc : BC 3 ℝ), NormalHeld o.xperiod bc →
      WallHeld (velGrid o lx) bc → ∀ (f : NodeVec 3 3 ℝ) (s : NodeVec 3 1 ℝ),
    ((∃ u p, Solves (velGrid o lx) (presGrid o lx) (operator3 o lx rs bc) f s u p) ↔
      ∑ q ∈ gridNodes (presGrid o lx), s q 0 = wallFlux (velGrid o lx) (hu o) f) ∧
    ∀ u p u' p', Solves (velGrid o lx) (presGrid o lx) (operator3 o lx rs bc) f s u p →
      Solves (velGrid o lx) (presGrid o lx) (operator3 o lx rs bc) f s u' p' →
      (∀ g ∈ gridNodes (velGrid o lx), ∀ c, u g c = u' g c) ∧
      ∃ k, ∀ q ∈ gridNodes (presGrid o lx), p q 0 = p' q 0 + k := by
  intro o hF hl hW rs hrs bc hn hb f s
  have hh : ∀ c, 0 < hu o c := fun c => (C104_box o lx c (hF.1 c)).2.2.2.2.2 (hl c)
  have hc := C94_closed3 o.mx o.xperiod lx hne hW hF (hu o) hh rs hrs bc hn f s
  rw [operator3_eq]
  by_cases hst : o.strainTensor = true
  · rw [if_pos hst]
    refine ⟨hc.1 hb, fun u p u' p' h1 h2 => ?_⟩
    have e1 := fun g hg c => (h1.1 g hg c).trans (h2.1 g hg c).symm
    have e2 := fun q hq => (h1.2 q hq).trans (h2.2 q hq).symm
    exact ⟨(C93_velocity3 o.mx o.xperiod lx hne hW hF.1 (hu o) hh rs hrs bc u u' p p').1 hb e1 e2,
      (C93_pressure3 o.mx o.xperiod lx hne hW hF (hu o) hh rs hrs bc u u' p p').1 hb e1 e2⟩
  · rw [if_neg hst]
    refine ⟨hc.2 hb.components, fun u p u' p' h1 h2 => ?_⟩
    have e1 := fun g hg c => (h1.1 g hg c).trans (h2.1 g hg c).symm
    have e2 := fun q hq => (h1.2 q hq).trans (h2.2 q hq).symm
    exact ⟨(C93_velocity3 o.mx o.xperiod lx hne hW hF.1 (hu o) hh rs hrs bc u u' p p').2 hb.components e1 e2,
      (C93_pressure3 o.mx o.xperiod lx hne hW hF (hu o) hh rs hrs bc u u' p p').2 hb.components e1 e2⟩

/-- C104 (3D, exact flows, matrix-free): whatever the command line with enough points, positive lengths and a
wall, if the velocity of a polynomial Stokes flow is imposed on the walls and its force is given as source,
the system prepared by the constructor and `setup_RHS` has a solution, and every solution is the flow: at the
velocity node `g` its velocity at the point `g hu`, at the pressure node `q` its pressure at `q hp` up to a
constant. -/
theorem C104_flow3 (db : Db) (lx : Fin 3 → List ℤ) (hne : ∀ i, lx i ≠ []) :
    let o := process3 db (Options.init 3)
    Fine o.mx → (∀ i, 0 < o.lx i) → (∀ i, (presGrid o lx i).WF) → (∃ i, o.xperiod i = false) →
    ∀ (rs : List (Fin 3 → ℕ)), AllProcs (velGrid o lx) rs → ∀ w : PolyFlow o.xperiod,
    let bc : BC 3 ℝ := fun _ c => some fun x => w.vel x c
    let f := stokesSetupRHS (velGrid o lx) rs (fun c => some fun _ => w.F c) bc (hu o)
        (diagBlockMult (velGrid o lx) getElement3 (matElemMass3 (hu o))) 0
    (∃ u p, Solves (velGrid o lx) (presGrid o lx) (operator3 o lx rs bc) f 0 u p) ∧
    ∀ u p, Solves (velGrid o lx) (presGrid o lx) (operator3 o lx rs bc) f 0 u p →
      (∀ g ∈ gridNodes (velGrid o lx), ∀ c, u g c = w.vel (fun i => (g i : ℝ) * hu o i) c) ∧
      ∃ k, ∀ q ∈ gridNodes (presGrid o lx), p q 0 = w.pres (fun i => (q i : ℝ) * hp o i) + k := by
  intro o hF hl hW hper rs hrs w bc f
  have hh : ∀ c, 0 < hu o c := fun c => (C104_box o lx c (hF.1 c)).2.2.2.2.2 (hl c)
  obtain ⟨hb, hs⟩ := walls_of w (velGrid o lx) (hu o)
  have hex := C96_exact3 o.mx o.xperiod lx hne hW hF.1 (hu o) hh rs hrs bc _ w hb hs
  have hhp : ∀ q : Pos 3 ℤ, (fun i => (q i : ℝ) * (2 * hu o i)) = fun i => (q i : ℝ) * hp o i := fun q => by
    funext i; rw [(C104_box o lx i (hF.1 i)).2.2.2.1]
  have key : ∀ u p, (Solves (velGrid o lx) (presGrid o lx) (stokesStrain3 o.mx o.xperiod lx rs bc (hu o)) f 0 u p ∨
      Solves (velGrid o lx) (presGrid o lx) (stokesLap3 o.mx o.xperiod lx rs bc (hu o)) f 0 u p) →
      (∀ g ∈ gridNodes (velGrid o lx), ∀ c, u g c = w.vel (fun i => (g i : ℝ) * hu o i) c) ∧
      ∃ k, ∀ q ∈ gridNodes (presGrid o lx), p q 0 = w.pres (fun i => (q i : ℝ) * hp o i) + k := by
    intro u p hup
    have := C96_unique3 o.mx o.xperiod lx hne hW hF.1 (hu o) hh rs hrs bc _ w hb hs hper u p hup
    obtain ⟨k, hk⟩ := this.2 hF
    exact ⟨this.1, k, fun q hq => by rw [hk q hq, hhp]⟩
  rw [operator3_eq]
  by_cases hst : o.strainTensor = true
  · rw [if_pos hst]
    exact ⟨⟨_, _, hex.1⟩, fun u p h => key u p (Or.inl h)⟩
  · rw [if_neg hst]
    exact ⟨⟨_, _, hex.2⟩, fun u p h => key u p (Or.inr h)⟩

/-- C104 (2D, exact flows): the same for the system handed to the solver with any value of `-assembling`,
outside of the case of `C28_stride_refuted`. -/
theorem C104_flow_assembling2 (db : Db) (lx : Fin 2 → List ℤ) (hne : ∀ i, lx i ≠ []) :
    let o := process2 db (Options.init 2)
    Fine o.mx → (∀ i, 0 < o.lx i) → (∀ i, (presGrid o lx i).WF) → (∃ i, o.xperiod i = false) →
    ∀ (rs : List (Fin 2 → ℕ)), AllProcs (velGrid o lx) rs →
    (o.assembling = true → ¬ (rs.length = 1 ∧ o.xperiod 0 = true ∧ o.xperiod 1 = false)) →
    ∀ w : PolyFlow o.xperiod,
    let bc : BC 2 ℝ := fun _ c => some fun x => w.vel x c
    let f := stokesSetupRHS (velGrid o lx) rs (fun c => some fun _ => w.F c) bc (hu o)
        (diagBlockMult (velGrid o lx) getElement2 (matElemMass2 (hu o))) 0
    (∃ u p, System2 o lx rs bc f 0 u p) ∧
    ∀ u p, System2 o lx rs bc f 0 u p →
      (∀ g ∈ gridNodes (velGrid o lx), ∀ c, u g c = w.vel (fun i => (g i : ℝ) * hu o i) c) ∧
      ∃ k, ∀ q ∈ gridNodes (presGrid o lx), p q 0 = w.pres (fun i => (q i : ℝ) * hp o i) + k := by
  intro o hF hl hW hper rs hrs hH w bc f
  have h := C104_flow2 db lx hne hF hl hW hper rs hrs w
  have e := fun u p => C104_assembling2 o lx hne hW rs hrs bc (fun _ _ => rfl) hH f u 0 p
  refine ⟨?_, fun u p hup => h.2 u p ((e u p).1 hup)⟩
  obtain ⟨u, p, hup⟩ := h.1
  exact ⟨u, p, (e u p).2 hup⟩

/-- The hypotheses are met by the default options (a closed square of 17 x 17 pressure points) on 2 x 1
processes, and by `-mx 4 -my 3 -xperiod 1` with the driven channel. -/
example : (let o := process2 ⟨fun _ => none, fun _ => none, fun _ => none⟩ (Options.init 2);
      Fine o.mx ∧ (∀ i, 0 < o.lx i) ∧ (∀ i, (presGrid o ![[9, 8], [17]] i).WF) ∧ hu o 0 = 1 / 32) ∧
    (let o := process2 ⟨fun n => if n = "-mx" then some 4 else if n = "-my" then some 3 else none,
        fun _ => none, fun n => if n = "-xperiod" then some true else none⟩ (Options.init 2);
      o.mx = ![4, 3] ∧ o.xperiod = ![true, false]) := by
  refine ⟨⟨⟨fun i => ?_, fun i j _ => Or.inl ?_⟩, fun i => ?_, fun i => ?_, ?_⟩, ?_, ?_⟩
  · fin_cases i
    · show (2:ℤ) ≤ 17; norm_num
    · show (2:ℤ) ≤ 17; norm_num
  · fin_cases i
    · show (3:ℤ) ≤ 17; norm_num
    · show (3:ℤ) ≤ 17; norm_num
  · fin_cases i
    · show (0:ℝ) < 1; norm_num
    · show (0:ℝ) < 1; norm_num
  · fin_cases i
    · exact ⟨by decide, by decide⟩
    · exact ⟨by decide, by decide⟩
  · show (1 / 2 : ℝ) * (1 / (((17 - 1 : ℤ)) : ℝ)) = 1 / 32
    norm_num
  · funext i; fin_cases i <;> rfl
  · funext i; fin_cases i <;> rfl

end Cafes.Props
