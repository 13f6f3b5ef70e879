import Mathlib.Analysis.Calculus.Deriv.Pow
import Mathlib.Analysis.Calculus.Deriv.Inv
import Mathlib.Analysis.Calculus.Deriv.Add
import Mathlib.Tactic.Positivity

/-!
Rules and a small tactic `hd` that differentiates a rational expression structurally; leaves that
are not of this form are looked for among the hypotheses.
-/

namespace Cafes
section
variable {f g : ℝ → ℝ} {f' g' x : ℝ}

theorem hd_sub (h : HasDerivAt f f' x) (h2 : HasDerivAt g g' x) :
    HasDerivAt (fun x => f x - g x) (f' - g') x := HasDerivAt.sub h h2
theorem hd_add (h : HasDerivAt f f' x) (h2 : HasDerivAt g g' x) :
    HasDerivAt (fun x => f x + g x) (f' + g') x := HasDerivAt.add h h2
theorem hd_mul (h : HasDerivAt f f' x) (h2 : HasDerivAt g g' x) :
    HasDerivAt (fun x => f x * g x) (f' * g x + f x * g') x := HasDerivAt.mul h h2
theorem hd_div (h : HasDerivAt f f' x) (h2 : HasDerivAt g g' x) (h0 : g x ≠ 0) :
    HasDerivAt (fun x => f x / g x) ((f' * g x - f x * g') / g x ^ 2) x := HasDerivAt.div h h2 h0
theorem hd_divc (c : ℝ) (h : HasDerivAt f f' x) :
    HasDerivAt (fun x => f x / c) (f' / c) x := h.div_const c
theorem hd_neg (h : HasDerivAt f f' x) :
    HasDerivAt (fun x => - f x) (-f') x := HasDerivAt.neg h
theorem hd_pow (n : ℕ) (h : HasDerivAt f f' x) :
    HasDerivAt (fun x => f x ^ n) ((n : ℝ) * f x ^ (n - 1) * f') x := h.pow n
theorem hd_cmul (c : ℝ) (h : HasDerivAt f f' x) :
    HasDerivAt (fun x => c * f x) (c * f') x := h.const_mul c
theorem hd_mulc (c : ℝ) (h : HasDerivAt f f' x) :
    HasDerivAt (fun x => f x * c) (f' * c) x := h.mul_const c
end

/-- structural differentiation -/
macro "hd" : tactic => `(tactic| repeat' (first
  | with_reducible exact hasDerivAt_const _ _
  | with_reducible exact hasDerivAt_id' _
  | with_reducible assumption
  | with_reducible apply hd_add
  | with_reducible apply hd_sub
  | with_reducible apply hd_cmul
  | with_reducible apply hd_mulc
  | with_reducible apply hd_mul
  | with_reducible apply hd_divc
  | with_reducible apply hd_div
  | with_reducible apply hd_neg
  | with_reducible apply hd_pow))

end Cafes
