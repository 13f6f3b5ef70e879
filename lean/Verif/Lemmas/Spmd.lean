/-
The order in which the processes take their steps does not matter.
-/
import Verif.Model.Spmd
import Mathlib.Logic.Relation
import Mathlib.Data.Finset.Insert

namespace Cafes.Spmd
variable {ι : Type} {C : Comm ι} {S : Type}

theorem pstep_det {a b c : Proc C S} (h1 : PStep a b) (h2 : PStep a c) : b = c := by
  cases h1 <;> cases h2 <;> rfl

theorem pstep_not_coll {a b : Proc C S} (h : PStep a b) (k : C.Kind) (count : S → ℕ) (send : S → C.Val k)
    (recv : S → C.Val k → S) (rest : List (Stmt C S)) : a.2 ≠ Stmt.coll k count send recv :: rest := by
  cases h <;> simp

variable [DecidableEq ι]

/-- Two different steps can be taken in any order, with the same result. -/
theorem step_diamond [Nonempty ι] {a b c : Machine ι C S} (h1 : Step a b) (h2 : Step a c) :
    b = c ∨ ∃ e, Step b e ∧ Step c e := by
  cases h1 with
  | one i ci hi =>
    cases h2 with
    | one j cj hj =>
      by_cases hij : i = j
      · subst hij
        exact Or.inl (by rw [pstep_det hi hj])
      · refine Or.inr ⟨Function.update (Function.update a i ci) j cj, Step.one _ j cj ?_, ?_⟩
        · rw [Function.update_of_ne (Ne.symm hij)]; exact hj
        · rw [Function.update_comm hij]
          refine Step.one _ i ci ?_
          rw [Function.update_of_ne hij]; exact hi
    | all k count send recv rest n h hn => exact absurd (h i) (pstep_not_coll hi _ _ _ _ _)
  | all k count send recv rest n h hn =>
    cases h2 with
    | one j cj hj => exact absurd (h j) (pstep_not_coll hj _ _ _ _ _)
    | all k' count' send' recv' rest' n' h' hn' =>
      refine Or.inl ?_
      have hk : k = k' := by
        obtain ⟨i⟩ := ‹Nonempty ι›
        have := (h i).symm.trans (h' i)
        simp only [List.cons.injEq, Stmt.coll.injEq] at this
        exact this.1.1
      subst hk
      have hs : ∀ i, send i = send' i ∧ recv i = recv' i ∧ rest i = rest' i := fun i => by
        have := (h i).symm.trans (h' i)
        simp only [List.cons.injEq, Stmt.coll.injEq, heq_eq_eq, true_and] at this
        exact ⟨this.1.2.1, this.1.2.2, this.2⟩
      have e1 : send = send' := funext fun i => (hs i).1
      have e2 : recv = recv' := funext fun i => (hs i).2.1
      have e3 : rest = rest' := funext fun i => (hs i).2.2
      rw [e1, e2, e3]

theorem run_trans {a b c : Machine ι C S} {m n : ℕ} (h1 : Run m a b) (h2 : Run n b c) : Run (m + n) a c := by
  induction h1 with
  | refl => rw [Nat.zero_add]; exact h2
  | step s _ ih => rw [Nat.add_right_comm]; exact Run.step s (ih h2)

theorem done_no_step [Nonempty ι] {a b : Machine ι C S} (ha : Done a) (h : Step a b) : False := by
  cases h with
  | one i c hi =>
    have := ha i
    cases hm : a i with
    | mk s l =>
      rw [hm] at this hi
      subst this
      cases hi
  | all k count send recv rest n h hn =>
    obtain ⟨i⟩ := ‹Nonempty ι›
    have := (ha i).symm.trans (h i)
    simp at this

/-- When a run of `n` steps ends, every first step is the first step of a run of `n` steps with the same end. -/
theorem run_step [Nonempty ι] {n : ℕ} {a f : Machine ι C S} (h : Run n a f) (hf : Done f) :
    ∀ {b}, Step a b → ∃ k, n = k + 1 ∧ Run k b f := by
  induction h with
  | refl => exact fun hb => absurd hb (fun hb => done_no_step hf hb)
  | @step n a x f s r ih =>
    intro b hb
    rcases step_diamond s hb with rfl | ⟨e, h1, h2⟩
    · exact ⟨n, rfl, r⟩
    · obtain ⟨k, rfl, hk⟩ := ih hf h1
      exact ⟨k + 1, rfl, Run.step h2 hk⟩

theorem run_complete [Nonempty ι] {m : ℕ} {a b : Machine ι C S} (h : Run m a b) :
    ∀ {n f}, Run n a f → Done f → m ≤ n ∧ Run (n - m) b f := by
  induction h with
  | refl => exact fun h _ => ⟨Nat.zero_le _, h⟩
  | step s _ ih =>
    intro n f hn hf
    obtain ⟨k, rfl, hk⟩ := run_step hn hf s
    obtain ⟨h1, h2⟩ := ih hk hf
    exact ⟨by omega, by rwa [Nat.add_sub_add_right]⟩

theorem run_zero {a b : Machine ι C S} (h : Run 0 a b) : a = b := by cases h; rfl

/-- The program `p` leads the memories `σ` to `σ'`, whatever comes after it. -/
def Exec (p : ι → Stmt C S) (σ σ' : ι → S) : Prop :=
  ∀ rest : ι → List (Stmt C S), ∃ n, Run n (fun i => (σ i, p i :: rest i)) (fun i => (σ' i, rest i))

theorem run_one {m : Machine ι C S} {i : ι} {a c : Proc C S} (h : Relation.ReflTransGen PStep a c) (ha : m i = a) :
    ∃ n, Run n m (Function.update m i c) := by
  induction h using Relation.ReflTransGen.head_induction_on generalizing m with
  | refl => exact ⟨0, by rw [← ha, Function.update_eq_self]; exact Run.refl m⟩
  | @head a b hab _ ih =>
    obtain ⟨n, hn⟩ := ih (m := Function.update m i b) (Function.update_self ..)
    rw [Function.update_idem] at hn
    exact ⟨n + 1, Run.step (Step.one m i b (ha ▸ hab)) hn⟩

/-- Steps that wait for nobody, on all the processes. -/
theorem run_local [Fintype ι] {a b : Machine ι C S} (h : ∀ i, Relation.ReflTransGen PStep (a i) (b i)) :
    ∃ n, Run n a b := by
  have key : ∀ s : Finset ι, ∃ n, Run n a (fun i => if i ∈ s then b i else a i) := fun s => by
    induction s using Finset.induction_on with
    | empty => exact ⟨0, by simpa using Run.refl a⟩
    | insert j s hj ih =>
      obtain ⟨n, hn⟩ := ih
      obtain ⟨k, hk⟩ := run_one (m := fun i => if i ∈ s then b i else a i) (i := j) (h j) (if_neg hj)
      refine ⟨n + k, run_trans hn ?_⟩
      have e : (fun i => if i ∈ insert j s then b i else a i) =
          Function.update (fun i => if i ∈ s then b i else a i) j (b j) := by
        funext i
        by_cases hi : i = j
        · subst hi; simp
        · rw [Function.update_of_ne hi]; simp [hi]
      rw [e]
      exact hk
  obtain ⟨n, hn⟩ := key Finset.univ
  exact ⟨n, by simpa using hn⟩

theorem exec_seq [Fintype ι] {p q : ι → Stmt C S} {σ σ₁ σ₂ : ι → S} (h1 : Exec p σ σ₁) (h2 : Exec q σ₁ σ₂) :
    Exec (fun i => .seq (p i) (q i)) σ σ₂ := fun rest => by
  obtain ⟨n1, r1⟩ := h1 fun i => q i :: rest i
  obtain ⟨n2, r2⟩ := h2 rest
  obtain ⟨n0, r0⟩ := run_local (a := fun i => (σ i, Stmt.seq (p i) (q i) :: rest i))
    (b := fun i => (σ i, p i :: q i :: rest i)) fun i => Relation.ReflTransGen.single (PStep.seq ..)
  exact ⟨_, run_trans (run_trans r0 r1) r2⟩

theorem exec_skip [Fintype ι] (σ : ι → S) : Exec (C := C) (fun _ => .skip) σ σ := fun _ =>
  run_local fun _ => Relation.ReflTransGen.single (PStep.skip ..)

theorem exec_loc [Fintype ι] (f : ι → S → S) (σ : ι → S) :
    Exec (C := C) (fun i => .loc (f i)) σ (fun i => f i (σ i)) := fun _ =>
  run_local fun _ => Relation.ReflTransGen.single (PStep.loc ..)

theorem exec_coll (k : C.Kind) (count : ι → S → ℕ) (send : ι → S → C.Val k) (recv : ι → S → C.Val k → S) (σ : ι → S)
    (n : ℕ) (hn : ∀ i, count i (σ i) = n) :
    Exec (fun i => .coll k (count i) (send i) (recv i)) σ
      (fun i => recv i (σ i) (C.comb k (fun j => send j (σ j)) i)) := fun rest =>
  ⟨1, Run.step (Step.all _ k count send recv rest n (fun _ => rfl) hn) (Run.refl _)⟩

/-- A branch that the processes may take differently: the two sides wait for nobody. -/
theorem exec_local [Fintype ι] (p : ι → Stmt C S) (f : ι → S → S) (σ : ι → S)
    (h : ∀ i k, Relation.ReflTransGen PStep (σ i, p i :: k) (f i (σ i), k)) : Exec p σ (fun i => f i (σ i)) := fun _ =>
  run_local fun i => h i _

/-- A branch taken in the same way by all the processes. -/
theorem exec_ite [Fintype ι] (c : ι → S → Bool) (a b : ι → Stmt C S) (σ σ' : ι → S) (v : Bool)
    (hc : ∀ i, c i (σ i) = v) (h : Exec (fun i => if v then a i else b i) σ σ') :
    Exec (fun i => .ite (c i) (a i) (b i)) σ σ' := fun rest => by
  obtain ⟨n, r⟩ := h rest
  obtain ⟨n0, r0⟩ := run_local (a := fun i => (σ i, Stmt.ite (c i) (a i) (b i) :: rest i))
    (b := fun i => (σ i, (if v then a i else b i) :: rest i)) fun i => by
      have := PStep.ite (σ i) (c i) (a i) (b i) (rest i)
      rw [hc i] at this
      exact Relation.ReflTransGen.single this
  exact ⟨_, run_trans r0 r⟩

theorem exec_seqs [Fintype ι] {α : Type*} (l : List α) (p : α → ι → Stmt C S) (σ : α → (ι → S) → ι → S) (Inv : (ι → S) → Prop)
    (h : ∀ x ∈ l, ∀ s, Inv s → Exec (p x) s (σ x s) ∧ Inv (σ x s)) :
    ∀ s, Inv s → Exec (fun i => seqs (l.map fun x => p x i)) s (l.foldl (fun s x => σ x s) s) := by
  induction l with
  | nil => exact fun s _ => exec_skip s
  | cons x l ih =>
    intro s hs
    obtain ⟨h1, h2⟩ := h x (List.mem_cons_self ..) s hs
    exact exec_seq h1 (ih (fun y hy => h y (List.mem_cons_of_mem _ hy)) _ h2)

/-- What `Exec` says of the runs: a program that can be run to its end is run to its end by every schedule. -/
theorem exec_all [Fintype ι] [Nonempty ι] {p : ι → Stmt C S} {σ σ' : ι → S} (h : Exec p σ σ') :
    ∃ n, ∀ m b, Run m (start p σ) b → m ≤ n ∧ (Done b ∨ ∃ c, Step b c) ∧ (Done b → ∀ i, (b i).1 = σ' i) := by
  obtain ⟨n, hn⟩ := h fun _ => []
  refine ⟨n, fun m b hb => ?_⟩
  obtain ⟨h1, h2⟩ := run_complete hb hn (fun _ => rfl)
  refine ⟨h1, ?_, fun hd i => ?_⟩
  · generalize hk : n - m = k at h2
    cases h2 with
    | refl => exact Or.inl fun _ => rfl
    | step s _ => exact Or.inr ⟨_, s⟩
  · generalize hk : n - m = k at h2
    cases h2 with
    | refl => rfl
    | step s _ => exact absurd s fun s => done_no_step hd s

end Cafes.Spmd
