/-
Model of cafes/algorithm/iterate.hpp.
-/
import Verif.Model.Box

namespace Cafes

/-- The values taken by the variable of `for (v = lo; v < hi; ++v)`, in order
(loop header of cafes/algorithm/iterate.hpp:53). -/
def forRange (lo hi : ℤ) : List ℤ :=
  if lo < hi then lo :: forRange (lo + 1) hi else []
termination_by (hi - lo).toNat

/-- `iterate_impl` (cafes/algorithm/iterate.hpp:41-60). `n` is `Index::value`; the position `p` is
the mutable scratch position of the C++ code, `s` the state on which the kernel acts.
Simplification: the kernel does not modify the position it is given. -/
def iterateImpl {d : ℕ} {σ : Type*} (b : Box d ℤ) (f : Pos d ℤ → σ → σ) :
    (n : ℕ) → n ≤ d → Pos d ℤ → σ → Pos d ℤ × σ
  | 0, _, p, s => (p, f p s)
  | n + 1, h, p, s =>
    (forRange (b.bl ⟨n, h⟩) (b.ur ⟨n, h⟩)).foldl
      (fun (ps : Pos d ℤ × σ) v =>
        iterateImpl b f n (Nat.le_of_succ_le h) (Function.update ps.1 ⟨n, h⟩ v) ps.2)
      (p, s)

/-- `iterate` (cafes/algorithm/iterate.hpp:62-69). The C++ scratch position is default
constructed; its initial content is irrelevant (proved in the lemmas), we take `0`. -/
def iterate {d : ℕ} {σ : Type*} (b : Box d ℤ) (f : Pos d ℤ → σ → σ) (s : σ) : σ :=
  (iterateImpl b f d le_rfl (fun _ => 0) s).2

/-- The list of points on which `iterate` calls its kernel, in order: `iterate` run with the kernel
that records its argument. -/
def Box.visited {d : ℕ} (b : Box d ℤ) : List (Pos d ℤ) :=
  iterate b (fun p l => l ++ [p]) []

end Cafes
