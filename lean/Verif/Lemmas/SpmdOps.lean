/-
Vectors held by the processes, and what the programs of Verif/Model/SpmdOps.lean do to them.
-/
import Verif.Lemmas.Spmd
import Verif.Model.SpmdOps
import Verif.Props.Work
import Verif.Props.DtonInst
import Verif.Props.AddSing

namespace Cafes.Spmd
open Cafes Cafes.Particle Cafes.Driver Cafes.Geometry Cafes.Props

variable {d N n : ℕ} {A : Type}

/-- Every process holds the values of the vector `x` at the nodes that it owns. -/
def Holds (L : Fin d → Dir) (v : Rank L → NodeVec d n ℝ) (x : NodeVec d n ℝ) : Prop :=
  ∀ r : Rank L, ∀ p ∈ (getDMBounds L r.1 false).halfOpen, v r p = x p

theorem everywhere_apply {V : Type} [Zero V] (L : Fin d → Dir) (v : Rank L → V) (r : Rank L) :
    everywhere L v r.1 = v r := dif_pos r.2

/-- The vector made of the parts. -/
theorem glue_apply (L : Fin d → Dir) (hL : ∀ i, (L i).WF) (v : Rank L → NodeVec d n ℝ) (x : NodeVec d n ℝ)
    (h : Holds L v x) (g : Pos d ℤ) (hg : g ∈ gridNodes L) : glue L (everywhere L v) g = x g := by
  funext c
  obtain ⟨r, ⟨hr, hgr⟩, -⟩ := owner_unique L hL g ((mem_gridNodes L g).1 hg)
  have hgr' : g ∈ (getDMBounds L r false).halfOpen := (mem_ownBox L r g).2 hgr
  unfold glue
  rw [Finset.sum_eq_single r]
  · rw [if_pos ((Box.pointInside_iff _ _).2 hgr'), everywhere_apply L v ⟨r, hr⟩, h ⟨r, hr⟩ g hgr']
  · intro s hs hne
    refine if_neg fun hc => hne ?_
    exact owned_unique L hL g s r hs hr ((Box.pointInside_iff _ _).1 hc) hgr'
  · exact fun h => absurd hr h

theorem wrap_window (L : Fin d → Dir) (hL : ∀ i, (L i).WF) (r : Fin d → ℕ) (hr : r ∈ procs L) (p : Pos d ℤ)
    (hp : p ∈ (ghostWindow L r).visited) : wrap L p ∈ gridNodes L := by
  rw [mem_gridNodes]
  intro i
  have h0 := (Box.mem_visited _ _).1 hp i
  have h2 := Dir.xs_nonneg (hL i) (r i)
  have h3 := Dir.xe_le (hL i) ((mem_procs L r).1 hr i)
  have h4 := Dir.xm_pos (hL i) ((mem_procs L r).1 hr i)
  simp only [ghostWindow, Dir.gxs, Dir.gxe] at h0
  unfold wrap
  cases hb : (L i).periodic
  · simp only [hb, Bool.false_eq_true, if_false] at h0 ⊢
    exact ⟨le_trans (le_max_right _ _) h0.1, lt_of_lt_of_le h0.2 (min_le_right _ _)⟩
  · simp only [if_true]
    exact ⟨Int.emod_nonneg _ (by omega), Int.emod_lt_of_pos _ (by omega)⟩

/-- After the ghost exchange, the window of a process has the values of the vector. -/
theorem ghosts_eqv (L : Fin d → Dir) (hL : ∀ i, (L i).WF) (v : Rank L → NodeVec d n ℝ) (x old : NodeVec d n ℝ)
    (h : Holds L v x) (r : Rank L) :
    Work.Eqv L r.1 (fun p => if p ∈ (ghostWindow L r.1).visited then globalToLocal L (glue L (everywhere L v)) p else old p)
      (globalToLocal L x) := fun p hp => by
  beta_reduce
  rw [if_pos hp]
  exact glue_apply L hL v x h _ (wrap_window L hL r.1 r.2 p hp)

theorem assemble_eq (L : Fin d → Dir) (v : Rank L → NodeVec d n ℝ) (yl : (Fin d → ℕ) → NodeVec d n ℝ)
    (h : ∀ r : Rank L, Work.Eqv L r.1 (v r) (yl r.1)) (z : NodeVec d n ℝ) :
    localToGlobalAdd L (everywhere L v) z = localToGlobalAdd L yl z :=
  Work.l2g_congr L _ _ (fun r hr => by rw [everywhere_apply L v ⟨r, hr⟩]; exact h ⟨r, hr⟩) z

theorem assemble_holds (L : Fin d → Dir) (w v : Rank L → NodeVec d n ℝ) (R : NodeVec d n ℝ)
    (yl : (Fin d → ℕ) → NodeVec d n ℝ) (hw : Holds L w R) (h : ∀ r : Rank L, Work.Eqv L r.1 (v r) (yl r.1)) :
    Holds L (fun r => ownPart L r.1 (fun p c => w r p c + localToGlobalAdd L (everywhere L v) 0 p c) (w r))
      (localToGlobalAdd L yl R) := fun r p hp => by
  funext c
  unfold ownPart
  beta_reduce
  rw [if_pos ((Box.pointInside_iff _ _).2 hp), assemble_eq L v yl h, localToGlobalAdd_base L yl R, hw r p hp]
  rfl

/-! ### Operations of a process on its own nodes -/

/-- `f` only changes the nodes of the process `r`, and what it leaves there only depends on the values there. -/
structure OwnOp (L : Fin d → Dir) (r : Fin d → ℕ) (f : NodeVec d n ℝ → NodeVec d n ℝ) : Prop where
  off : ∀ y p, p ∉ (getDMBounds L r false).halfOpen → f y p = y p
  on : ∀ y y', (∀ p ∈ (getDMBounds L r false).halfOpen, y p = y' p) →
    ∀ p ∈ (getDMBounds L r false).halfOpen, f y p = f y' p

theorem ownOp_comp {L : Fin d → Dir} {r : Fin d → ℕ} {f g : NodeVec d n ℝ → NodeVec d n ℝ} (hf : OwnOp L r f)
    (hg : OwnOp L r g) : OwnOp L r fun y => f (g y) :=
  ⟨fun y p hp => (hf.off _ p hp).trans (hg.off y p hp), fun y y' h => hf.on _ _ (hg.on y y' h)⟩

theorem ownOp_id (L : Fin d → Dir) (r : Fin d → ℕ) : OwnOp (n := n) L r fun y => y := ⟨fun _ _ _ => rfl, fun _ _ h => h⟩

theorem ownOp_foldl {α : Type*} {L : Fin d → Dir} {r : Fin d → ℕ} (l : List α) (f : NodeVec d n ℝ → α → NodeVec d n ℝ)
    (h : ∀ x ∈ l, OwnOp L r fun y => f y x) : OwnOp L r fun y => l.foldl f y := by
  induction l with
  | nil => exact ownOp_id L r
  | cons a t ih =>
    exact ownOp_comp (ih fun x hx => h x (List.mem_cons_of_mem _ hx)) (h a (List.mem_cons_self ..))

theorem ownOp_iterate {L : Fin d → Dir} {r : Fin d → ℕ} (b : Box d ℤ) (f : Pos d ℤ → NodeVec d n ℝ → NodeVec d n ℝ)
    (h : ∀ p ∈ b.halfOpen, OwnOp L r fun y => f p y) : OwnOp L r fun y => iterate b f y := by
  simp only [iterate_eq_foldl]
  exact ownOp_foldl _ _ fun p hp => h p ((Box.mem_visited _ _).1 hp)

theorem ownOp_updNode {L : Fin d → Dir} {r : Fin d → ℕ} (p : Pos d ℤ) (hp : p ∈ (getDMBounds L r false).halfOpen)
    (k : (Fin d → ℝ) → Fin d → ℝ) : OwnOp L r fun y => updNode y p k := by
  refine ⟨fun y q hq => ?_, fun y y' h q hq => ?_⟩
  · exact Function.update_of_ne (fun e => hq (by rw [e]; exact hp)) ..
  · unfold updNode
    by_cases e : q = p
    · subst e; rw [Function.update_self, Function.update_self, h q hq]
    · rw [Function.update_of_ne e, Function.update_of_ne e, h q hq]

theorem ownOp_dirichlet (L : Fin d → Dir) (hL : ∀ i, (L i).WF) (r : Fin d → ℕ) (hr : r ∈ procs L) (bc : BC d ℝ)
    (kernel : BCKernel d ℝ) : OwnOp L r (setDirichletImpl L r bc kernel) := by
  unfold setDirichletImpl
  refine ownOp_foldl _ _ fun i _ => ?_
  dsimp only
  split
  · exact ownOp_id L r
  · have h4 := Dir.xm_pos (hL i) ((mem_procs L r).1 hr i)
    have key : ∀ b : Box d ℤ, (∀ p ∈ b.halfOpen, p ∈ (getDMBounds L r false).halfOpen) → ∀ c : Fin d → Cond d ℝ,
        OwnOp L r fun y => iterate b (fun p y => updNode y p (kernel c p)) y := fun b hb c =>
      ownOp_iterate b _ fun p hp => ownOp_updNode p (hb p hp) _
    have h1 : (getDMBounds L r false).bl i = 0 → OwnOp L r fun y =>
        iterate { getDMBounds L r false with ur := Function.update (getDMBounds L r false).ur i 1 }
            (fun p y => updNode y p (kernel (bc (2 * i.1)) p)) y := fun h0 => key _ (fun p hp j => by
      have := hp j
      by_cases e : j = i
      · subst e
        simp only [Function.update_self] at this
        refine ⟨this.1, ?_⟩
        simp only [getDMBounds, Bool.false_and] at h0 this ⊢
        simp
        omega
      · simpa [Function.update_of_ne e] using this) _
    have h2 : (getDMBounds L r false).ur i = (L i).m → OwnOp L r fun y =>
        iterate { getDMBounds L r false with bl := Function.update (getDMBounds L r false).bl i ((L i).m - 1) }
            (fun p y => updNode y p (kernel (bc (2 * i.1 + 1)) p)) y := fun h0 => key _ (fun p hp j => by
      have := hp j
      by_cases e : j = i
      · subst e
        simp only [Function.update_self] at this
        refine ⟨?_, this.2⟩
        simp only [getDMBounds, Bool.false_and] at h0 this ⊢
        simp at h0
        omega
      · simpa [Function.update_of_ne e] using this) _
    split
    · rename_i hm
      split
      · rename_i h0
        exact ownOp_comp (h2 hm) (h1 h0)
      · exact h2 hm
    · split
      · rename_i h0
        exact h1 h0
      · exact ownOp_id L r

theorem ownOp_source (L : Fin d → Dir) (r : Fin d → ℕ) (src : Fin d → Cond d ℝ) (h : Pos d ℝ) :
    OwnOp L r (Cafes.setRhsImpl L r src h) :=
  ownOp_iterate _ _ fun _ hp => ownOp_updNode _ hp _

/-- When every process works on its own nodes, it has its part of what all of them have done. -/
theorem holds_foldl (L : Fin d → Dir) (hL : ∀ i, (L i).WF) (rs : List (Fin d → ℕ)) (hrs : AllProcs L rs)
    (f : (Fin d → ℕ) → NodeVec d n ℝ → NodeVec d n ℝ) (hf : ∀ r ∈ procs L, OwnOp L r (f r))
    (v : Rank L → NodeVec d n ℝ) (x : NodeVec d n ℝ) (h : Holds L v x) :
    Holds L (fun r => f r.1 (v r)) (rs.foldl (fun y r => f r y) x) := by
  intro r p hp
  have key : ∀ (l : List (Fin d → ℕ)) (y : NodeVec d n ℝ), l.Nodup → (∀ s ∈ l, s ∈ procs L) →
      (∀ q ∈ (getDMBounds L r.1 false).halfOpen, v r q = y q) →
      ∀ q ∈ (getDMBounds L r.1 false).halfOpen, (l.foldl (fun y r => f r y) y) q = if r.1 ∈ l then f r.1 (v r) q else y q := by
    intro l
    induction l with
    | nil => intro y _ _ _ q _; simp
    | cons a t ih =>
      intro y hn hm hy q hq
      rw [List.nodup_cons] at hn
      rw [List.foldl_cons]
      have ha := hm a (List.mem_cons_self ..)
      by_cases e : r.1 = a
      · subst e
        rw [if_pos (List.mem_cons_self ..)]
        have gen : ∀ (l : List (Fin d → ℕ)) (z : NodeVec d n ℝ), r.1 ∉ l → (∀ s ∈ l, s ∈ procs L) →
            (l.foldl (fun y r => f r y) z) q = z q := by
          intro l
          induction l with
          | nil => intro z _ _; rfl
          | cons b l ih2 =>
            intro z hb hl
            rw [List.foldl_cons, ih2 _ (fun h => hb (List.mem_cons_of_mem _ h)) fun s hs => hl s (List.mem_cons_of_mem _ hs)]
            refine (hf b (hl b (List.mem_cons_self ..))).off z q fun hc => hb ?_
            rw [owned_unique L hL q r.1 b r.2 (hl b (List.mem_cons_self ..)) hq hc]
            exact List.mem_cons_self ..
        rw [gen t _ hn.1 fun s hs => hm s (List.mem_cons_of_mem _ hs)]
        exact ((hf r.1 r.2).on _ _ hy q hq).symm
      · have hkeep : ∀ q ∈ (getDMBounds L r.1 false).halfOpen, f a y q = y q := fun q hq =>
          (hf a ha).off y q fun hc => e (owned_unique L hL q r.1 a r.2 ha hq hc)
        rw [ih _ hn.2 (fun s hs => hm s (List.mem_cons_of_mem _ hs)) (fun q hq => (hy q hq).trans (hkeep q hq).symm) q hq]
        rw [hkeep q hq]
        simp [e]
  rw [key rs x hrs.1 (fun s hs => (hrs.2 s).1 hs) (h r) p hp, if_pos ((hrs.2 r.1).2 r.2)]

end Cafes.Spmd
