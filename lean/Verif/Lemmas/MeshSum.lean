import Verif.Lemmas.Mesh
import Verif.Spec.Mesh
import Mathlib.Algebra.BigOperators.Group.Finset.Sigma

namespace Cafes

theorem getElement2_eq (e : Pos 2 ℤ) (k : Fin 4) : getElement2 e k =
      ![e 0 + (k.1 % 2 : ℕ), e 1 + (k.1 / 2 : ℕ)] := by
  fin_cases k <;> (show (![_, _] : Pos 2 ℤ) = ![_, _]) <;> norm_num

theorem getElement3_eq (e : Pos 3 ℤ) (k : Fin 8) : getElement3 e k =
      ![e 0 + (k.1 % 2 : ℕ), e 1 + (k.1 / 2 % 2 : ℕ), e 2 + (k.1 / 4 : ℕ)] := by
  fin_cases k <;> (show (![_, _, _] : Pos 3 ℤ) = ![_, _, _]) <;> norm_num

theorem getElement2_mem (e : Pos 2 ℤ) (k : Fin 4) (i : Fin 2) :
    getElement2 e k i = e i ∨ getElement2 e k i = e i + 1 := by
  rw [getElement2_eq]
  fin_cases i <;> simp <;> omega

theorem getElement3_mem (e : Pos 3 ℤ) (k : Fin 8) (i : Fin 3) :
    getElement3 e k i = e i ∨ getElement3 e k i = e i + 1 := by
  rw [getElement3_eq]
  fin_cases i <;> simp <;> omega

theorem getElement4Q1_2_eq (e : Pos 2 ℤ) (k : Fin 9) : getElement4Q1_2 e k =
      ![2 * e 0 + (k.1 % 3 : ℕ), 2 * e 1 + (k.1 / 3 : ℕ)] := by
  fin_cases k <;> (show (![_, _] : Pos 2 ℤ) = ![_, _]) <;> norm_num

theorem getElement4Q1_3_eq (e : Pos 3 ℤ) (k : Fin 27) : getElement4Q1_3 e k =
      ![2 * e 0 + (k.1 % 3 : ℕ), 2 * e 1 + (k.1 / 3 % 3 : ℕ), 2 * e 2 + (k.1 / 9 : ℕ)] := by
  fin_cases k <;> (show (![_, _, _] : Pos 3 ℤ) = ![_, _, _]) <;> norm_num

theorem mem_procs {d : ℕ} (L : Fin d → Dir) (r : Fin d → ℕ) :
    r ∈ procs L ↔ ∀ i, r i < (L i).l.length := by
  simp [procs, Fintype.mem_piFinset]

/-- Membership of an element in the element box of a process. -/
theorem mem_elemBox {d : ℕ} (L : Fin d → Dir) (hL : ∀ i, (L i).WF) (r : Fin d → ℕ)
    (hr : r ∈ procs L) (e : Pos d ℤ) :
    e ∈ (getDMBounds L r true).halfOpen ↔
      ∀ i, ((L i).xs (r i) ≤ e i ∧ e i < (L i).xs (r i) + (L i).xm (r i)) ∧ e i < (L i).nElem := by
  rw [mem_procs] at hr
  unfold Box.halfOpen getDMBounds Dir.nElem
  simp only [Set.mem_ofPred_eq, Bool.true_and]
  refine forall_congr' fun i => ?_
  have h1 := Dir.xe_le (hL i) (hr i)
  cases hp : (L i).periodic
  · by_cases hu : (L i).xs (r i) + (L i).xm (r i) = (L i).m
    · simp [hu]; omega
    · simp [hu]; omega
  · simp; omega

theorem mem_ownBox {d : ℕ} (L : Fin d → Dir) (r : Fin d → ℕ) (e : Pos d ℤ) :
    e ∈ (getDMBounds L r false).halfOpen ↔
      ∀ i, ((L i).xs (r i) ≤ e i ∧ e i < (L i).xs (r i) + (L i).xm (r i)) := by
  simp [Box.halfOpen, getDMBounds]

theorem nElem_le (D : Dir) : D.nElem ≤ D.m := by unfold Dir.nElem; split_ifs <;> omega

/-- One owner per point of the grid. -/
theorem owner_unique {d : ℕ} (L : Fin d → Dir) (hL : ∀ i, (L i).WF) (e : Pos d ℤ)
    (he : e ∈ (globalNodes L).halfOpen) :
    ∃! r, r ∈ procs L ∧ ∀ i, (L i).xs (r i) ≤ e i ∧ e i < (L i).xs (r i) + (L i).xm (r i) := by
  choose r hr hu using fun i => Dir.block_unique (hL i) (e i) (he i).1 (he i).2
  refine ⟨r, ⟨(mem_procs L r).2 fun i => (hr i).1, fun i => (hr i).2⟩, ?_⟩
  rintro s ⟨hs, hs'⟩
  rw [mem_procs] at hs
  exact funext fun i => hu i (s i) (hs i) (hs' i).1 (hs' i).2

theorem globalElems_sub {d : ℕ} (L : Fin d → Dir) (e : Pos d ℤ)
    (he : e ∈ (globalElems L).halfOpen) : e ∈ (globalNodes L).halfOpen :=
  fun i => ⟨(he i).1, lt_of_lt_of_le (he i).2 (nElem_le _)⟩

theorem sum_visited_eq {d : ℕ} {M : Type*} [AddCommMonoid M] (b : Box d ℤ) (f : Pos d ℤ → M) :
    (b.visited.map f).sum = ∑ e ∈ b.visited.toFinset, f e := by
  rw [List.sum_toFinset _ b.visited_nodup]

/-- Summation over the boxes of all the processes is summation over the global box, for any family
of boxes that partitions it. -/
theorem sum_procs_visited {d : ℕ} {M ι : Type*} [AddCommMonoid M] (R : Finset ι)
    (bx : ι → Box d ℤ) (g : Box d ℤ)
    (h1 : ∀ e ∈ g.halfOpen, ∃! r, r ∈ R ∧ e ∈ (bx r).halfOpen)
    (h2 : ∀ r ∈ R, (bx r).halfOpen ⊆ g.halfOpen) (f : Pos d ℤ → M) :
    ∑ r ∈ R, ((bx r).visited.map f).sum = (g.visited.map f).sum := by
  classical
  simp only [sum_visited_eq]
  rw [← Finset.sum_biUnion]
  · apply Finset.sum_congr _ (fun _ _ => rfl)
    ext e
    simp only [Finset.mem_biUnion, List.mem_toFinset]
    constructor
    · rintro ⟨r, hr, he⟩
      exact (g.mem_visited e).2 (h2 r hr ((bx r).mem_visited e |>.1 he))
    · intro he
      obtain ⟨r, ⟨hr, her⟩, -⟩ := h1 e ((g.mem_visited e).1 he)
      exact ⟨r, hr, ((bx r).mem_visited e).2 her⟩
  · intro r hr s hs hrs
    rw [Function.onFun, Finset.disjoint_left]
    intro e he hes
    rw [List.mem_toFinset, Box.mem_visited] at he hes
    obtain ⟨t, -, hu⟩ := h1 e (h2 r hr he)
    exact hrs ((hu r ⟨hr, he⟩).trans (hu s ⟨hs, hes⟩).symm)

theorem foldl_mul_eq_prod {d : ℕ} (a : ℤ) (f : Fin d → ℤ) :
    (List.finRange d).foldl (fun a i => a * f i) a = a * ∏ i, f i := by
  have : ∀ (l : List (Fin d)) (a : ℤ), l.foldl (fun a i => a * f i) a = a * (l.map f).prod := by
    intro l
    induction l with
    | nil => simp
    | cons x l ih => intro a; simp [ih, mul_assoc]
  rw [this, Fin.prod_univ_def]

theorem Dir.sum_xm {D : Dir} (h : D.WF) : ∑ r ∈ Finset.range D.l.length, D.xm r = D.m := by
  have : ∀ n ≤ D.l.length, ∑ r ∈ Finset.range n, D.xm r = D.xs n := by
    intro n
    induction n with
    | zero => simp [Dir.xs]
    | succ n ih =>
      intro hn
      rw [Finset.sum_range_succ, ih (by omega), D.xs_succ n (by omega)]
  rw [this _ le_rfl, D.xs_length h]

theorem sum_dmLocalSize {d : ℕ} (dof : ℤ) (L : Fin d → Dir) (hL : ∀ i, (L i).WF) :
    ∑ r ∈ procs L, dmLocalSize dof L r = dmTotalSize dof L := by
  unfold dmLocalSize dmTotalSize procs
  simp only [foldl_mul_eq_prod]
  rw [← Finset.mul_sum]
  congr 1
  rw [← Finset.prod_univ_sum]
  exact Finset.prod_congr rfl fun i _ => Dir.sum_xm (hL i)

end Cafes
