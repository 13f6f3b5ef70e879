/-
Property theorems for boundary conditions and right-hand sides: C25, C26, C27, C29, and the null space
part of C19.
-/
import Verif.Lemmas.Dirichlet
import Verif.Props.Stokes

namespace Cafes.Props
open Cafes
variable {d : ℕ} {K : Type*}

/-! ### C25: Dirichlet rows are identity rows -/

open Classical in
/-- C25: after `SetDirichletOnVec(x, y)` the constrained dofs of `y` hold the entries of `x`, every
other entry is unchanged (any process grid, any order of the processes, any dimension). -/
theorem C25_vec (L : Fin d → Dir) (hL : ∀ i, (L i).WF) (rs : List (Fin d → ℕ))
    (hrs : AllProcs L rs) (bc : BC d K) (x y : NodeVec d d K) (g : Pos d ℤ) (c : Fin d) :
    setDirichletOnVec L rs bc x y g c =
      if g ∈ gridNodes L ∧ Constrained L bc g c then x g c else y g c := by
  unfold setDirichletOnVec
  rw [setDirichlet_apply L hL rs hrs]
  have h := nodeFold_apply L bc (fun pos c _ => x pos c) g (y g) c
  by_cases hg : g ∈ gridNodes L
  · by_cases hc : Constrained L bc g c
    · obtain ⟨φ, hφ⟩ := (constrained_iff_last L bc g c).1 hc
      rw [if_pos hg, if_pos ⟨hg, hc⟩]
      exact h.1 φ hφ
    · rw [if_pos hg, if_neg fun hh => hc hh.2]
      exact h.2 hc
  · rw [if_neg hg, if_neg fun hh => hg hh.1]

open Classical in
/-- C25 (operators): a shell matrix with boundary conditions acts as the identity on the constrained
dofs and as the bare operator on all the others. -/
theorem C25_matrix [CommRing K] (L : Fin d → Dir) (hL : ∀ i, (L i).WF) (rs : List (Fin d → ℕ))
    (hrs : AllProcs L rs) (bc : BC d K)
    (apply : (Fin d → ℕ) → NodeVec d d K → NodeVec d d K → NodeVec d d K)
    (x : NodeVec d d K) (g : Pos d ℤ) (hg : g ∈ gridNodes L) (c : Fin d) :
    blockMatrixBC L rs bc apply x g c =
      if Constrained L bc g c then x g c else blockMatrix L apply x g c := by
  unfold blockMatrixBC
  rw [C25_vec L hL rs hrs]
  simp [hg]

/-- Concrete case: on the grid `6 x 5` (second direction periodic) split on `3 x 2` processes, with a
condition on the lower wall for the first component only. -/
example : (∀ i, ((![exDir, exDirP] : Fin 2 → Dir) i).WF) ∧
    AllProcs ![exDir, exDirP] (procs ![exDir, exDirP]).toList ∧
    Constrained ![exDir, exDirP] (fun f c => if f = 0 ∧ c = 0 then some (fun _ : Pos 2 ℚ => (1:ℚ))
      else none) ![0, 3] 0 ∧
    ¬ Constrained ![exDir, exDirP] (fun f c => if f = 0 ∧ c = 0 then some (fun _ : Pos 2 ℚ => (1:ℚ))
      else none) ![1, 0] 0 := by
  refine ⟨?_, ⟨Finset.nodup_toList _, by simp⟩, ⟨0, ⟨0, rfl, Or.inl ⟨rfl, rfl⟩⟩, rfl⟩, ?_⟩
  · intro i; fin_cases i
    · exact exDir_wf
    · exact exDirP_wf
  · rintro ⟨f, ⟨i, hp, h⟩, hs⟩
    have hf : f = 0 := by by_contra hf; simp [hf] at hs
    subst hf
    rcases h with ⟨hi, hg⟩ | ⟨hi, -⟩
    · fin_cases i <;> simp at hi hg
    · omega

/-! ### C26: values written in the right-hand side -/

/-- C26: `SetDirichletOnRHS` writes, at every constrained dof of the grid, the value at the node of
the condition of the last face (in the order of the conditions) that has one; all the other entries
are unchanged. -/
theorem C26_rhs [Mul K] [IntCast K] (L : Fin d → Dir) (hL : ∀ i, (L i).WF) (rs : List (Fin d → ℕ))
    (hrs : AllProcs L rs) (bc : BC d K) (h : Pos d K) (y : NodeVec d d K) (g : Pos d ℤ) (c : Fin d) :
    (g ∈ gridNodes L → ∀ φ, LastCond L bc g c φ →
      setDirichletOnRHS L rs bc h y g c = φ fun i => (g i : K) * h i) ∧
    (¬ (g ∈ gridNodes L ∧ Constrained L bc g c) → setDirichletOnRHS L rs bc h y g c = y g c) ∧
    (Constrained L bc g c ↔ ∃ φ, LastCond L bc g c φ) := by
  unfold setDirichletOnRHS
  rw [setDirichlet_apply L hL rs hrs]
  have hn := nodeFold_apply L bc (fun pos _ f => f fun i => (pos i : K) * h i) g (y g) c
  refine ⟨fun hg φ hφ => ?_, fun hg => ?_, constrained_iff_last L bc g c⟩
  · rw [if_pos hg]; exact hn.1 φ hφ
  · split_ifs with hgn
    · exact hn.2 fun hc => hg ⟨hgn, hc⟩
    · rfl

theorem rhs_determined [Mul K] [IntCast K] (L L' : Fin d → Dir) (hL : ∀ i, (L i).WF)
    (hL' : ∀ i, (L' i).WF) (hs : SameGrid L L')
    (rs rs' : List (Fin d → ℕ)) (hrs : AllProcs L rs) (hrs' : AllProcs L' rs') (bc : BC d K)
    (h : Pos d K) (y y' : NodeVec d d K)
    (hy : ∀ g c, ¬ (g ∈ gridNodes L ∧ Constrained L bc g c) → y g c = y' g c) :
    setDirichletOnRHS L rs bc h y = setDirichletOnRHS L' rs' bc h y' := by
  funext g c
  have hnode : gridNodes L = gridNodes L' := by
    unfold gridNodes; congr 1; funext i; rw [(hs i).1]
  have hface : ∀ f, OnFace L g f ↔ OnFace L' g f := by
    intro f; unfold OnFace
    simp only [fun i => (hs i).1, fun i => (hs i).2]
  have h1 := C26_rhs L hL rs hrs bc h y g c
  have h2 := C26_rhs L' hL' rs' hrs' bc h y' g c
  have hcon : Constrained L bc g c ↔ Constrained L' bc g c := by
    unfold Constrained; simp only [hface]
  have hlast : ∀ φ, LastCond L bc g c φ ↔ LastCond L' bc g c φ := by
    intro φ; unfold LastCond; simp only [hface]
  by_cases hc : g ∈ gridNodes L ∧ Constrained L bc g c
  · obtain ⟨φ, hφ⟩ := h1.2.2.1 hc.2
    rw [h1.1 hc.1 φ hφ, h2.1 (hnode ▸ hc.1) φ ((hlast φ).1 hφ)]
  · rw [h1.2.1 hc, h2.2.1 (by rw [← hnode, ← hcon]; exact hc), hy g c hc]

/-- C26 (idempotence and independence of the decomposition). -/
theorem C26_idempotent_decomposition [Mul K] [IntCast K] (L L' : Fin d → Dir) (hL : ∀ i, (L i).WF)
    (hL' : ∀ i, (L' i).WF) (hs : SameGrid L L')
    (rs rs' : List (Fin d → ℕ)) (hrs : AllProcs L rs) (hrs' : AllProcs L' rs') (bc : BC d K)
    (h : Pos d K) (y : NodeVec d d K) :
    setDirichletOnRHS L rs bc h (setDirichletOnRHS L rs bc h y) = setDirichletOnRHS L rs bc h y ∧
    setDirichletOnRHS L rs bc h y = setDirichletOnRHS L' rs' bc h y :=
  ⟨rhs_determined L L hL hL (fun _ => ⟨rfl, rfl⟩) rs rs hrs hrs bc h _ _ fun g c hc =>
      (C26_rhs L hL rs hrs bc h y g c).2.1 hc,
   rhs_determined L L' hL hL' hs rs rs' hrs hrs' bc h y y fun _ _ _ => rfl⟩

/-- Concrete case: at the corner of a `6 x 6` grid both walls have a condition, the second one
applies. -/
example : LastCond ![exDir, exDir] (fun f _ => some fun _ : Pos 2 ℚ => (f : ℚ)) ![0, 0] 1
    (fun _ => (2 : ℚ)) := by
  refine ⟨2, ⟨1, rfl, Or.inl ⟨rfl, rfl⟩⟩, rfl, ?_⟩
  rintro f hf ⟨i, -, ⟨h, -⟩ | ⟨h, hg⟩⟩
  · omega
  · exfalso; fin_cases i <;> simp [exDir] at h hg

/-! ### C27: null Dirichlet step -/

open Classical in
/-- C27: `SetNullDirichletOnRHS` zeroes exactly the constrained dofs. -/
theorem C27_null [Zero K] (L : Fin d → Dir) (hL : ∀ i, (L i).WF) (rs : List (Fin d → ℕ))
    (hrs : AllProcs L rs) (bc : BC d K) (y : NodeVec d d K) (g : Pos d ℤ) (c : Fin d) :
    setNullDirichletOnRHS L rs bc y g c =
      if g ∈ gridNodes L ∧ Constrained L bc g c then 0 else y g c := by
  unfold setNullDirichletOnRHS
  rw [setDirichlet_apply L hL rs hrs]
  have h := nodeFold_apply L bc (fun _ _ _ => (0 : K)) g (y g) c
  by_cases hg : g ∈ gridNodes L
  · by_cases hc : Constrained L bc g c
    · obtain ⟨φ, hφ⟩ := (constrained_iff_last L bc g c).1 hc
      rw [if_pos hg, if_pos ⟨hg, hc⟩]
      exact h.1 φ hφ
    · rw [if_pos hg, if_neg fun hh => hc hh.2]
      exact h.2 hc
  · rw [if_neg hg, if_neg fun hh => hg hh.1]

/-! ### C29: right-hand side -/

/-- The nodal values of a source: zero for the components without a source. -/
def sourceVec [Zero K] [Mul K] [IntCast K] (src : Fin d → Cond d K) (h : Pos d K) : NodeVec d d K :=
  fun p c => match src c with
    | none => 0
    | some f => f fun i => (p i : K) * h i

/-- C29: `set_rhs` adds to the right-hand side the mass operator applied to the nodal values of the
source, whatever the decomposition. -/
theorem C29_rhs {N : ℕ} [CommRing K] (L : Fin d → Dir) (hL : ∀ i, (L i).WF) (rs : List (Fin d → ℕ))
    (hrs : AllProcs L rs) (elem : Pos d ℤ → Fin N → Pos d ℤ) (hel : IsQ1 elem)
    (M : Fin N → Fin N → K) (src : Fin d → Cond d K) (h : Pos d K) (rhs : NodeVec d d K)
    (g : Pos d ℤ) (c : Fin d) :
    setRhs L rs src h (diagBlockMult L elem M) rhs g c =
      rhs g c + blockMatrix L (diagBlockMult L elem M) (sourceVec src h) g c := by
  classical
  have htmp : ∀ p, p ∈ gridNodes L →
      rs.foldl (fun y r => setRhsImpl L r src h y) (0 : NodeVec d d K) p = sourceVec src h p := by
    intro p hp
    have hval : ∀ u : Fin d → K, u = 0 → kernelFuncOnBC h src p u = sourceVec src h p := by
      intro u hu; funext c
      unfold kernelFuncOnBC sourceVec
      rw [dofLoop_apply]; subst hu; rfl
    have key : ∀ (l : List (Fin d → ℕ)) (y : NodeVec d d K), l.Nodup → (∀ r ∈ l, r ∈ procs L) →
        l.foldl (fun y r => setRhsImpl L r src h y) y p =
          if ∃ r ∈ l, p ∈ (getDMBounds L r false).visited then kernelFuncOnBC h src p (y p)
          else y p := by
      intro l
      induction l with
      | nil => intro y _ _; simp
      | cons a l ih =>
        intro y hn hm
        rw [List.nodup_cons] at hn
        rw [List.foldl_cons, ih _ hn.2 fun r hr => hm r (by simp [hr])]
        unfold setRhsImpl
        rw [iterate_updNode]
        by_cases hga : p ∈ (getDMBounds L a false).visited
        · have hno : ¬ ∃ r ∈ l, p ∈ (getDMBounds L r false).visited := by
            rintro ⟨r, hr, hgr⟩
            have hgrid : p ∈ (globalNodes L).halfOpen :=
              (C02_nodes_partition L hL).2 a (hm a (by simp))
                (fun i => (Box.mem_visited _ _).1 hga i)
            obtain ⟨q, -, hq⟩ := (C02_nodes_partition L hL).1 p hgrid
            have e1 := hq r ⟨hm r (by simp [hr]), fun i => (Box.mem_visited _ _).1 hgr i⟩
            have e2 := hq a ⟨hm a (by simp), fun i => (Box.mem_visited _ _).1 hga i⟩
            rw [e1, ← e2] at hr
            exact hn.1 hr
          rw [if_neg hno, if_pos hga, if_pos ⟨a, by simp, hga⟩]
        · simp only [hga, if_false, List.mem_cons, exists_eq_or_imp, false_or]
    rw [key rs 0 hrs.1 fun r hr => (hrs.2 r).1 hr, if_pos]
    · exact hval _ rfl
    · have hg' : p ∈ (globalNodes L).halfOpen := by
        rw [← visited_globalNodes, List.mem_toFinset, Box.mem_visited] at hp; exact hp
      obtain ⟨r, ⟨hr, hgr⟩, -⟩ := (C02_nodes_partition L hL).1 p hg'
      exact ⟨r, (hrs.2 r).2 hr, (Box.mem_visited _ _).2 hgr⟩
  have hadd : ∀ yl : (Fin d → ℕ) → NodeVec d d K, localToGlobalAdd L yl rhs g c
      = rhs g c + localToGlobalAdd L yl 0 g c := by
    intro yl; simp [localToGlobalAdd]
  unfold setRhs
  rw [hadd]
  congr 1
  have h1 := diagBlock_global L hL elem hel M
    (rs.foldl (fun y r => setRhsImpl L r src h y) (0 : NodeVec d d K)) g c
  have h2 := diagBlock_global L hL elem hel M (sourceVec src h) g c
  rw [h2]
  refine h1.trans ?_
  refine Finset.sum_congr rfl fun e he => Finset.sum_congr rfl fun k _ => ?_
  split_ifs
  · refine Finset.sum_congr rfl fun k2 _ => ?_
    rw [htmp _ (wrap_q1_mem L elem hel e he k2)]
  · rfl

/-- C29 (no source): without any source nothing is added, and `has_condition` reports it. -/
theorem C29_no_source {N : ℕ} [CommRing K] (L : Fin d → Dir) (hL : ∀ i, (L i).WF)
    (rs : List (Fin d → ℕ)) (hrs : AllProcs L rs) (elem : Pos d ℤ → Fin N → Pos d ℤ)
    (hel : IsQ1 elem) (M : Fin N → Fin N → K) (src : Fin d → Cond d K) (h : Pos d K)
    (rhs : NodeVec d d K) :
    (hasCondition src = false ↔ ∀ c, src c = none) ∧
    (hasCondition src = false →
      ∀ g c, setRhs L rs src h (diagBlockMult L elem M) rhs g c = rhs g c) := by
  have hc : hasCondition src = false ↔ ∀ c, src c = none := by
    simp [hasCondition]
  refine ⟨hc, fun h0 g c => ?_⟩
  rw [C29_rhs L hL rs hrs elem hel, diagBlock_global L hL elem hel]
  rw [Finset.sum_eq_zero, add_zero]
  intro e _
  refine Finset.sum_eq_zero fun k _ => ?_
  split_ifs
  · refine Finset.sum_eq_zero fun k2 _ => ?_
    simp [sourceVec, hc.1 h0 c]
  · rfl

/-! ### C19: null space of the Stokes operator with walls -/

/-- C19 (null space, 2D): when every wall carries a condition for its normal component, a constant
pressure with zero velocity is in the kernel of the matrix-free Stokes operator. -/
theorem C19_nullspace2 (N : Fin 2 → ℤ) (per : Fin 2 → Bool) (lx : Fin 2 → List ℤ)
    (hne : ∀ i, lx i ≠ []) (hW : ∀ i, (presLayout N per lx i).WF) (h : Pos 2 ℝ)
    (rs : List (Fin 2 → ℕ)) (hrs : AllProcs (velLayout N per lx) rs) (bc : BC 2 ℝ)
    (hbc : ∀ a : Fin 2, per a = false → (bc (2 * a.1) a).isSome ∧ (bc (2 * a.1 + 1) a).isSome)
    (p0 : ℝ) (g : Pos 2 ℤ) (hg : g ∈ gridNodes (velLayout N per lx)) :
    (∀ a, (stokesMatrixBC (velLayout N per lx) (presLayout N per lx) rs bc
      (tensorBlockMult (velLayout N per lx) getElement2 (matElemStrain2 h))
      getElement2 getElement4Q1_2 (matElemPressure2 h) 0 (fun _ _ => p0)).1 g a = 0) ∧
    (∀ q, (stokesMatrixBC (velLayout N per lx) (presLayout N per lx) rs bc
      (tensorBlockMult (velLayout N per lx) getElement2 (matElemStrain2 h))
      getElement2 getElement4Q1_2 (matElemPressure2 h) 0 (fun _ _ => p0)).2 q 0 = 0) := by
  have hv := velLayout_wf N per lx hne hW
  refine ⟨fun a => ?_, fun q => ?_⟩
  · unfold stokesMatrixBC
    simp only
    rw [C25_vec _ hv rs hrs]
    split_ifs with hc
    · rfl
    · rw [(stokes_split N per lx hne hW _ _ isQ1_2 _ is4Q1_2 _ _ _ _).1 g a]
      have e1 : blockMatrix (velLayout N per lx)
          (tensorBlockMult (velLayout N per lx) getElement2 (matElemStrain2 h)) 0 g a = 0 := by
        rw [tensorBlock_global _ hv _ isQ1_2]; simp
      rw [e1, zero_add]
      refine C19_constant_pressure2 N per lx hne hW h 0 p0 g a ?_
      by_contra hb
      push Not at hb
      apply hc
      have hp : per a = false := by simpa using hb.1
      refine ⟨hg, ?_⟩
      by_cases h0 : g a = 0
      · exact ⟨2 * a.1, (onFace_low _ g a).2 ⟨hp, h0⟩, (hbc a hp).1⟩
      · exact ⟨2 * a.1 + 1, (onFace_up _ g a).2 ⟨hp, hb.2 h0⟩, (hbc a hp).2⟩
  · unfold stokesMatrixBC
    simp only
    rw [(stokes_split N per lx hne hW _ _ isQ1_2 _ is4Q1_2 _ _ _ _).2 q 0]
    exact C20_constant_velocity2 N per lx hne hW h 0 _ q

/-- C19 (null space, 3D). -/
theorem C19_nullspace3 (N : Fin 3 → ℤ) (per : Fin 3 → Bool) (lx : Fin 3 → List ℤ)
    (hne : ∀ i, lx i ≠ []) (hW : ∀ i, (presLayout N per lx i).WF) (h : Pos 3 ℝ)
    (rs : List (Fin 3 → ℕ)) (hrs : AllProcs (velLayout N per lx) rs) (bc : BC 3 ℝ)
    (hbc : ∀ a : Fin 3, per a = false → (bc (2 * a.1) a).isSome ∧ (bc (2 * a.1 + 1) a).isSome)
    (p0 : ℝ) (g : Pos 3 ℤ) (hg : g ∈ gridNodes (velLayout N per lx)) :
    (∀ a, (stokesMatrixBC (velLayout N per lx) (presLayout N per lx) rs bc
      (tensorBlockMult (velLayout N per lx) getElement3 (matElemStrain3 h))
      getElement3 getElement4Q1_3 (matElemPressure3 h) 0 (fun _ _ => p0)).1 g a = 0) ∧
    (∀ q, (stokesMatrixBC (velLayout N per lx) (presLayout N per lx) rs bc
      (tensorBlockMult (velLayout N per lx) getElement3 (matElemStrain3 h))
      getElement3 getElement4Q1_3 (matElemPressure3 h) 0 (fun _ _ => p0)).2 q 0 = 0) := by
  have hv := velLayout_wf N per lx hne hW
  refine ⟨fun a => ?_, fun q => ?_⟩
  · unfold stokesMatrixBC
    simp only
    rw [C25_vec _ hv rs hrs]
    split_ifs with hc
    · rfl
    · rw [(stokes_split N per lx hne hW _ _ isQ1_3 _ is4Q1_3 _ _ _ _).1 g a]
      have e1 : blockMatrix (velLayout N per lx)
          (tensorBlockMult (velLayout N per lx) getElement3 (matElemStrain3 h)) 0 g a = 0 := by
        rw [tensorBlock_global _ hv _ isQ1_3]; simp
      rw [e1, zero_add]
      refine C19_constant_pressure3 N per lx hne hW h 0 p0 g a ?_
      by_contra hb
      push Not at hb
      apply hc
      have hp : per a = false := by simpa using hb.1
      refine ⟨hg, ?_⟩
      by_cases h0 : g a = 0
      · exact ⟨2 * a.1, (onFace_low _ g a).2 ⟨hp, h0⟩, (hbc a hp).1⟩
      · exact ⟨2 * a.1 + 1, (onFace_up _ g a).2 ⟨hp, hb.2 h0⟩, (hbc a hp).2⟩
  · unfold stokesMatrixBC
    simp only
    rw [(stokes_split N per lx hne hW _ _ isQ1_3 _ is4Q1_3 _ _ _ _).2 q 0]
    exact C20_constant_velocity3 N per lx hne hW h 0 _ q

end Cafes.Props
