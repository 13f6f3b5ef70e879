import Verif.Model.Dirichlet
import Verif.Spec.Dirichlet
import Verif.Lemmas.OperatorForm

namespace Cafes
variable {d : ℕ} {K : Type*}

theorem dofLoop_apply (cond : Fin d → Cond d K) (val : Fin d → (Pos d K → K) → K) (u : Fin d → K)
    (c : Fin d) : dofLoop cond val u c = match cond c with | none => u c | some f => val c f := by
  unfold dofLoop
  have key : ∀ (l : List (Fin d)) (u : Fin d → K), l.Nodup →
      l.foldl (fun u c => match cond c with | none => u | some f => Function.update u c (val c f)) u c
        = if c ∈ l then (match cond c with | none => u c | some f => val c f) else u c := by
    intro l
    induction l with
    | nil => intro u _; simp
    | cons a l ih =>
      intro u hn
      rw [List.nodup_cons] at hn
      rw [List.foldl_cons, ih _ hn.2]
      by_cases hca : c = a
      · subst hca
        rw [if_neg hn.1, if_pos (by simp)]
        cases hc : cond c <;> simp
      · have e : (match cond a with | none => u | some f => Function.update u a (val a f)) c = u c := by
          cases cond a <;> simp [hca]
        simp only [e, List.mem_cons, hca, false_or]
  exact (key _ _ (List.nodup_finRange d)).trans (if_pos (List.mem_finRange c))

/-- A loop of node-local updates, seen from one node. -/
theorem iterate_updNode (b : Box d ℤ) (f : Pos d ℤ → (Fin d → K) → (Fin d → K)) (y : NodeVec d d K)
    (g : Pos d ℤ) :
    iterate b (fun p y => updNode y p (f p)) y g
      = if g ∈ b.visited then f g (y g) else y g := by
  rw [iterate_eq_foldl]
  have key : ∀ (l : List (Pos d ℤ)) (y : NodeVec d d K), l.Nodup →
      l.foldl (fun y p => updNode y p (f p)) y g = if g ∈ l then f g (y g) else y g := by
    intro l
    induction l with
    | nil => intro y _; simp
    | cons a l ih =>
      intro y hn
      rw [List.nodup_cons] at hn
      rw [List.foldl_cons, ih _ hn.2]
      by_cases hga : g = a
      · subst hga
        rw [if_neg hn.1, if_pos (by simp)]
        simp [updNode]
      · have e : updNode y a (f a) g = y g := by simp [updNode, hga]
        simp only [e, List.mem_cons, hga, false_or]
  exact key _ _ b.visited_nodup

/-- The faces, in the order of the loop. -/
def faceList (d : ℕ) : List ℕ := (List.finRange d).flatMap fun i => [2 * i.1, 2 * i.1 + 1]

open Classical in
/-- Effect of one call on one owned node. -/
noncomputable def nodeFold (L : Fin d → Dir) (bc : BC d K) (kernel : BCKernel d K) (g : Pos d ℤ)
    (l : List ℕ) (u : Fin d → K) : Fin d → K :=
  l.foldl (fun u f => if OnFace L g f then kernel (bc f) g u else u) u

theorem onFace_low (L : Fin d → Dir) (g : Pos d ℤ) (i : Fin d) :
    OnFace L g (2 * i.1) ↔ (L i).periodic = false ∧ g i = 0 := by
  constructor
  · rintro ⟨j, hp, ⟨hf, hg⟩ | ⟨hf, hg⟩⟩
    · have : i = j := Fin.ext (by omega)
      subst this; exact ⟨hp, hg⟩
    · omega
  · rintro ⟨hp, hg⟩; exact ⟨i, hp, Or.inl ⟨rfl, hg⟩⟩

theorem onFace_up (L : Fin d → Dir) (g : Pos d ℤ) (i : Fin d) :
    OnFace L g (2 * i.1 + 1) ↔ (L i).periodic = false ∧ g i = (L i).m - 1 := by
  constructor
  · rintro ⟨j, hp, ⟨hf, hg⟩ | ⟨hf, hg⟩⟩
    · omega
    · have : i = j := Fin.ext (by omega)
      subst this; exact ⟨hp, hg⟩
  · rintro ⟨hp, hg⟩; exact ⟨i, hp, Or.inr ⟨rfl, hg⟩⟩

theorem onFace_mem (L : Fin d → Dir) (g : Pos d ℤ) (f : ℕ) (h : OnFace L g f) : f ∈ faceList d := by
  obtain ⟨i, -, ⟨hf, -⟩ | ⟨hf, -⟩⟩ := h <;>
  · unfold faceList
    rw [List.mem_flatMap]
    exact ⟨i, List.mem_finRange i, by simp [hf]⟩

theorem faceList_sorted (d : ℕ) : (faceList d).Pairwise (· < ·) := by
  unfold faceList
  rw [List.pairwise_flatMap]
  refine ⟨fun i _ => by simp, ?_⟩
  have := List.pairwise_lt_finRange d
  refine this.imp ?_
  intro a b hab x hx y hy
  simp at hx hy
  have : a.1 < b.1 := hab
  omega

/-- One process, seen from a node. -/
theorem setDirichletImpl_apply (L : Fin d → Dir) (hL : ∀ i, (L i).WF) (r : Fin d → ℕ)
    (hr : ∀ i, r i < (L i).l.length) (bc : BC d K) (kernel : BCKernel d K) (y : NodeVec d d K)
    (g : Pos d ℤ) :
    setDirichletImpl L r bc kernel y g =
      if g ∈ (getDMBounds L r false).visited then nodeFold L bc kernel g (faceList d) (y g)
      else y g := by
  unfold setDirichletImpl nodeFold faceList
  rw [List.foldl_flatMap]
  simp only
  have hbox : ∀ p : Pos d ℤ, p ∈ (getDMBounds L r false).visited ↔
      ∀ i, (L i).xs (r i) ≤ p i ∧ p i < (L i).xs (r i) + (L i).xm (r i) := by
    intro p; rw [Box.mem_visited]; simp [getDMBounds]
  generalize List.finRange d = l
  induction l generalizing y with
  | nil => simp
  | cons i l ih =>
    rw [List.foldl_cons, ih]
    have step : (if (L i).periodic = true then y
        else if (getDMBounds L r false).ur i = (L i).m then
          iterate { bl := Function.update (getDMBounds L r false).bl i ((L i).m - 1),
                    ur := (getDMBounds L r false).ur }
            (fun p y => updNode y p (kernel (bc (2 * i.1 + 1)) p))
            (if (getDMBounds L r false).bl i = 0 then
              iterate { bl := (getDMBounds L r false).bl,
                        ur := Function.update (getDMBounds L r false).ur i 1 }
                (fun p y => updNode y p (kernel (bc (2 * i.1)) p)) y
              else y)
          else if (getDMBounds L r false).bl i = 0 then
              iterate { bl := (getDMBounds L r false).bl,
                        ur := Function.update (getDMBounds L r false).ur i 1 }
                (fun p y => updNode y p (kernel (bc (2 * i.1)) p)) y
              else y) g
        = if g ∈ (getDMBounds L r false).visited then
            [2 * i.1, 2 * i.1 + 1].foldl (fun u f =>
              open Classical in if OnFace L g f then kernel (bc f) g u else u) (y g)
          else y g := by
      have h1 := Dir.xs_nonneg (hL i) (r i)
      have h2 := Dir.xm_pos (hL i) (hr i)
      have h3 := Dir.xe_le (hL i) (hr i)
      cases hp : (L i).periodic
      · -- not periodic
        have lowIff : ∀ y : NodeVec d d K, (if (getDMBounds L r false).bl i = 0 then
              iterate { bl := (getDMBounds L r false).bl,
                        ur := Function.update (getDMBounds L r false).ur i 1 }
                (fun p y => updNode y p (kernel (bc (2 * i.1)) p)) y
              else y) g = if g ∈ (getDMBounds L r false).visited ∧ g i = 0 then
                kernel (bc (2 * i.1)) g (y g) else y g := by
          intro y
          split_ifs with hb hg hg
          · rw [iterate_updNode, if_pos]
            rw [Box.mem_visited]
            intro j
            have := (hbox g).1 hg.1 j
            by_cases hj : j = i
            · subst hj; simp [getDMBounds]; omega
            · simp [getDMBounds, hj]; omega
          · rw [iterate_updNode, if_neg]
            intro hv
            apply hg
            rw [Box.mem_visited] at hv
            have hvi := hv i
            simp [getDMBounds] at hvi
            simp only [getDMBounds] at hb
            refine ⟨(hbox g).2 fun j => ?_, by omega⟩
            have hvj := hv j
            by_cases hj : j = i
            · subst hj; omega
            · simp [getDMBounds, hj] at hvj; omega
          · exfalso
            have := (hbox g).1 hg.1 i
            simp only [getDMBounds] at hb
            omega
          · rfl
        have upIff : ∀ y : NodeVec d d K, (if (getDMBounds L r false).ur i = (L i).m then
              iterate { bl := Function.update (getDMBounds L r false).bl i ((L i).m - 1),
                        ur := (getDMBounds L r false).ur }
                (fun p y => updNode y p (kernel (bc (2 * i.1 + 1)) p)) y
              else y) g = if g ∈ (getDMBounds L r false).visited ∧ g i = (L i).m - 1 then
                kernel (bc (2 * i.1 + 1)) g (y g) else y g := by
          intro y
          split_ifs with hb hg hg
          · rw [iterate_updNode, if_pos]
            rw [Box.mem_visited]
            intro j
            have := (hbox g).1 hg.1 j
            by_cases hj : j = i
            · subst hj; simp [getDMBounds]; omega
            · simp [getDMBounds, hj]; omega
          · rw [iterate_updNode, if_neg]
            intro hv
            apply hg
            rw [Box.mem_visited] at hv
            have hvi := hv i
            simp [getDMBounds] at hvi
            simp [getDMBounds] at hb
            refine ⟨(hbox g).2 fun j => ?_, by omega⟩
            have hvj := hv j
            by_cases hj : j = i
            · subst hj; omega
            · simp [getDMBounds, hj] at hvj; omega
          · exfalso
            have := (hbox g).1 hg.1 i
            simp [getDMBounds] at hb
            omega
          · rfl
        simp only [Bool.false_eq_true, if_false]
        have u1 := upIff (if (getDMBounds L r false).bl i = 0 then
              iterate { bl := (getDMBounds L r false).bl,
                        ur := Function.update (getDMBounds L r false).ur i 1 }
                (fun p y => updNode y p (kernel (bc (2 * i.1)) p)) y
              else y)
        rw [u1, lowIff]
        simp only [List.foldl_cons, List.foldl_nil, onFace_low, onFace_up, hp, true_and]
        by_cases hv : g ∈ (getDMBounds L r false).visited <;> simp [hv]
      · simp only [if_true, List.foldl_cons, List.foldl_nil, onFace_low, onFace_up, hp,
          Bool.true_eq_false, false_and, if_false]
        split_ifs <;> rfl
    rw [step]
    rw [List.foldl_cons]
    by_cases hv : g ∈ (getDMBounds L r false).visited <;> simp [hv]

/-- Fold over the faces with "override" kernels: the last condition wins. -/
theorem nodeFold_apply (L : Fin d → Dir) (bc : BC d K) (val : Pos d ℤ → Fin d → (Pos d K → K) → K)
    (g : Pos d ℤ) (u : Fin d → K) (c : Fin d) :
    (∀ φ, LastCond L bc g c φ →
      nodeFold L bc (fun cond pos u => dofLoop cond (val pos) u) g (faceList d) u c = val g c φ) ∧
    (¬ Constrained L bc g c →
      nodeFold L bc (fun cond pos u => dofLoop cond (val pos) u) g (faceList d) u c = u c) := by
  classical
  have none_case : ∀ (l : List ℕ) (u : Fin d → K), (∀ f ∈ l, OnFace L g f → bc f c = none) →
      nodeFold L bc (fun cond pos u => dofLoop cond (val pos) u) g l u c = u c := by
    intro l
    induction l with
    | nil => intro u _; rfl
    | cons a l ih =>
      intro u h
      unfold nodeFold at ih ⊢
      rw [List.foldl_cons, ih _ fun f hf => h f (by simp [hf])]
      split_ifs with ha
      · show dofLoop (bc a) (val g) u c = u c
        rw [dofLoop_apply, h a (by simp) ha]
      · rfl
  constructor
  · rintro φ ⟨f, hf, hφ, hlast⟩
    obtain ⟨l1, l2, hl⟩ := List.append_of_mem (onFace_mem L g f hf)
    have hs := faceList_sorted d
    rw [hl, List.pairwise_append] at hs
    have hs2 := (List.pairwise_cons.1 hs.2.1).1
    rw [hl]
    unfold nodeFold
    rw [List.foldl_append, List.foldl_cons]
    have := none_case l2 (if OnFace L g f then dofLoop (bc f) (val g)
      (List.foldl (fun u f => if OnFace L g f then dofLoop (bc f) (val g) u else u) u l1) else
      (List.foldl (fun u f => if OnFace L g f then dofLoop (bc f) (val g) u else u) u l1))
      (fun f' hf' ho => hlast f' (hs2 f' hf') ho)
    unfold nodeFold at this
    refine Eq.trans ?_ (this.trans ?_)
    · congr
    · rw [if_pos hf, dofLoop_apply, hφ]
  · intro hc
    apply none_case
    intro f _ hf
    by_contra hne
    exact hc ⟨f, hf, Option.isSome_iff_ne_none.2 hne⟩

theorem constrained_iff_last (L : Fin d → Dir) (bc : BC d K) (g : Pos d ℤ) (c : Fin d) :
    Constrained L bc g c ↔ ∃ φ, LastCond L bc g c φ := by
  classical
  constructor
  · rintro ⟨f0, h0, hs⟩
    have hfin : ({f ∈ (faceList d).toFinset | OnFace L g f ∧ (bc f c).isSome}).Nonempty :=
      ⟨f0, by simp [onFace_mem L g f0 h0, h0, hs]⟩
    have hmax := Finset.max'_mem _ hfin
    set f := Finset.max' _ hfin with hf
    rw [Finset.mem_filter] at hmax
    obtain ⟨φ, hφ⟩ := Option.isSome_iff_exists.1 hmax.2.2
    refine ⟨φ, f, hmax.2.1, hφ, fun f' hlt ho => ?_⟩
    by_contra hne
    have : f' ≤ f := Finset.le_max' _ f' (by
      simp only [Finset.mem_filter, List.mem_toFinset]
      exact ⟨onFace_mem L g f' ho, ho, Option.isSome_iff_ne_none.2 hne⟩)
    omega
  · rintro ⟨φ, f, hf, hφ, -⟩
    exact ⟨f, hf, by simp [hφ]⟩

/-- Collective effect at a node. -/
theorem setDirichlet_apply (L : Fin d → Dir) (hL : ∀ i, (L i).WF) (rs : List (Fin d → ℕ))
    (hrs : AllProcs L rs) (bc : BC d K) (kernel : BCKernel d K) (y : NodeVec d d K) (g : Pos d ℤ) :
    setDirichlet L rs bc kernel y g =
      open Classical in if g ∈ gridNodes L then nodeFold L bc kernel g (faceList d) (y g)
      else y g := by
  classical
  unfold setDirichlet
  have key : ∀ (l : List (Fin d → ℕ)) (y : NodeVec d d K), l.Nodup → (∀ r ∈ l, r ∈ procs L) →
      l.foldl (fun y r => setDirichletImpl L r bc kernel y) y g =
        if ∃ r ∈ l, g ∈ (getDMBounds L r false).visited then
          nodeFold L bc kernel g (faceList d) (y g) else y g := by
    intro l
    induction l with
    | nil => intro y _ _; simp
    | cons a l ih =>
      intro y hn hm
      rw [List.nodup_cons] at hn
      rw [List.foldl_cons, ih _ hn.2 fun r hr => hm r (by simp [hr])]
      have ha := (mem_procs L a).1 (hm a (by simp))
      rw [setDirichletImpl_apply L hL a ha]
      by_cases hga : g ∈ (getDMBounds L a false).visited
      · have hno : ¬ ∃ r ∈ l, g ∈ (getDMBounds L r false).visited := by
          rintro ⟨r, hr, hgr⟩
          have hgrid : g ∈ (globalNodes L).halfOpen :=
            (Props.C02_nodes_partition L hL).2 a (hm a (by simp))
              (fun i => (Box.mem_visited _ _).1 hga i)
          obtain ⟨q, -, hq⟩ := (Props.C02_nodes_partition L hL).1 g hgrid
          have e1 := hq r ⟨hm r (by simp [hr]), fun i => (Box.mem_visited _ _).1 hgr i⟩
          have e2 := hq a ⟨hm a (by simp), fun i => (Box.mem_visited _ _).1 hga i⟩
          rw [e1, ← e2] at hr
          exact hn.1 hr
        rw [if_neg hno, if_pos hga, if_pos ⟨a, by simp, hga⟩]
      · simp only [hga, if_false, List.mem_cons, exists_eq_or_imp, false_or]
  rw [key rs y hrs.1 fun r hr => (hrs.2 r).1 hr]
  have hiff : (∃ r ∈ rs, g ∈ (getDMBounds L r false).visited) ↔ g ∈ gridNodes L := by
    rw [← visited_globalNodes]
    have hu := Props.C02_nodes_partition L hL
    rw [List.mem_toFinset, Box.mem_visited]
    constructor
    · rintro ⟨r, hr, hg⟩
      exact hu.2 r ((hrs.2 r).1 hr) (fun i => (Box.mem_visited _ _).1 hg i)
    · intro hg
      obtain ⟨r, ⟨hr, hgr⟩, -⟩ := hu.1 g hg
      exact ⟨r, (hrs.2 r).2 hr, (Box.mem_visited _ _).2 hgr⟩
  simp only [hiff]

end Cafes
