/-
A semantics for the parallel programs of the library: every process runs its own sequence of instructions on its own
memory, the processes are interleaved in any order, and they only meet in the collective operations of MPI and PETSc
(`MPI_Allreduce`, `MPI_Gather`, `DMGlobalToLocalBegin/End`, `DMLocalToGlobalBegin/End`, `KSPSolve`).

Contract of a collective operation: a process that reaches it waits until every process of the communicator has reached
a collective operation of the same kind with the same count; then every process receives its part of the result, which
depends on what all of them have sent. Processes that wait in different collective operations, or with different
counts, wait for ever.
-/
import Mathlib.Logic.Function.Basic
import Mathlib.Data.Fintype.Basic

namespace Cafes.Spmd

/-- What the collective operations do: `Val k` is the type of the messages of the kind `k`, `comb k` computes what each
process receives from what all have sent. -/
structure Comm (ι : Type) where
  Kind : Type
  Val : Kind → Type
  comb : ∀ k, (ι → Val k) → ι → Val k

/-- The instructions of a process with the memory `S`: a computation in its own memory, a collective operation (with
the count of its arguments, what is sent, and where the result is stored), a sequence, a branch. -/
inductive Stmt {ι : Type} (C : Comm ι) (S : Type) where
  | loc (f : S → S)
  | coll (k : C.Kind) (count : S → ℕ) (send : S → C.Val k) (recv : S → C.Val k → S)
  | skip
  | seq (a b : Stmt C S)
  | ite (c : S → Bool) (a b : Stmt C S)

variable {ι : Type} {C : Comm ι} {S : Type}

/-- A process: its memory, and the instructions it has still to run. -/
abbrev Proc (C : Comm ι) (S : Type) := S × List (Stmt C S)

/-- One step of a process that does not wait for the others. -/
inductive PStep : Proc C S → Proc C S → Prop
  | loc (s f k) : PStep (s, Stmt.loc f :: k) (f s, k)
  | skip (s k) : PStep (s, Stmt.skip :: k) (s, k)
  | seq (s a b k) : PStep (s, Stmt.seq a b :: k) (s, a :: b :: k)
  | ite (s c a b k) : PStep (s, Stmt.ite c a b :: k) (s, (if c s then a else b) :: k)

/-- The machine: all the processes. -/
abbrev Machine (ι : Type) (C : Comm ι) (S : Type) := ι → Proc C S

/-- One step of the machine: a step of one process, or a collective operation reached by all the processes. -/
inductive Step [DecidableEq ι] : Machine ι C S → Machine ι C S → Prop
  | one (m : Machine ι C S) (i : ι) (c : Proc C S) (h : PStep (m i) c) : Step m (Function.update m i c)
  | all (m : Machine ι C S) (k : C.Kind) (count : ι → S → ℕ) (send : ι → S → C.Val k) (recv : ι → S → C.Val k → S)
      (rest : ι → List (Stmt C S)) (n : ℕ)
      (h : ∀ i, (m i).2 = Stmt.coll k (count i) (send i) (recv i) :: rest i) (hn : ∀ i, count i (m i).1 = n) :
      Step m fun i => (recv i (m i).1 (C.comb k (fun j => send j (m j).1) i), rest i)

/-- A run of `n` steps: the steps may be taken in any order. -/
inductive Run [DecidableEq ι] : ℕ → Machine ι C S → Machine ι C S → Prop
  | refl (m : Machine ι C S) : Run 0 m m
  | step {n : ℕ} {a b c : Machine ι C S} : Step a b → Run n b c → Run (n + 1) a c

/-- Every process has run its program. -/
def Done (m : Machine ι C S) : Prop := ∀ i, (m i).2 = []

/-- The machine where each process starts the program `p` in its own memory. -/
def start (p : ι → Stmt C S) (σ : ι → S) : Machine ι C S := fun i => (σ i, [p i])

/-- A sequence of instructions. -/
def seqs : List (Stmt C S) → Stmt C S
  | [] => .skip
  | a :: l => .seq a (seqs l)

end Cafes.Spmd
