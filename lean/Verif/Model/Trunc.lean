import Mathlib.Analysis.SpecialFunctions.Sqrt

/-!
Truncation functions of particle/singularity/truncation.hpp. `PetscReal`/`PetscScalar`/`double`
are modelled by `ℝ`. The `assert(l>=eps)` of the `chi` family is a precondition of the theorems.
-/

namespace Cafes.Sing

/-- particle/singularity/truncation.hpp:40-55 -/
noncomputable def alphaTrunc (X : ℝ) : ℝ :=
  let X2 := X * X
  let X3 := X * X2
  let X5 := X3 * X2
  let X7 := X5 * X2
  let X9 := X7 * X2
  315 / 128 * (X9 / 9 - 4 / 7 * X7 + 6 / 5 * X5 - 4 / 3 * X3 + X)

/-- particle/singularity/truncation.hpp:57-68 -/
noncomputable def dalphaTrunc (X : ℝ) : ℝ :=
  let X2Mun := X * X - 1
  let X2Mun2 := X2Mun * X2Mun
  let X2Mun4 := X2Mun2 * X2Mun2
  315 / 128 * X2Mun4

/-- particle/singularity/truncation.hpp:70-79 -/
noncomputable def d2alphaTrunc (X : ℝ) : ℝ :=
  let X2Mun := X * X - 1
  let X2Mun3 := X2Mun * X2Mun * X2Mun
  2520 / 128 * X2Mun3 * X

/-- particle/singularity/truncation.hpp:80-91 -/
noncomputable def d3alphaTrunc (X : ℝ) : ℝ :=
  let X2Mun := X * X - 1
  let X2Mun2 := X2Mun * X2Mun
  let septX2Mun := 7 * X * X - 1
  2520 / 128 * X2Mun2 * septX2Mun

/-- particle/singularity/truncation.hpp:94-103 -/
noncomputable def d4alphaTrunc (X : ℝ) : ℝ :=
  let X2 := X * X
  let X4 := X2 * X2
  15120 / 128 * (7 * X4 - 10 * X2 + 3)

/-- The C++ expression `0<=x<y`: it parses as `(0<=x) < y`, the truth value being the `int` 0 or 1
(particle/singularity/truncation.hpp:111, 127, 143, 159, 174). -/
def ChainedLess (x y : ℝ) : Prop := (if 0 ≤ x then (1 : ℝ) else 0) < y

open Classical in
/-- particle/singularity/truncation.hpp:105-118 -/
noncomputable def chiTrunc (X l eps : ℝ) : ℝ :=
  let X2 := X * X
  if ChainedLess X2 (l - eps) then 1
  else if l - eps ≤ X2 ∧ X2 < l + eps then 1 / 2 * (1 - alphaTrunc ((X2 - l) / eps))
  else 0

open Classical in
/-- particle/singularity/truncation.hpp:120-134 -/
noncomputable def dchiTrunc (X l eps : ℝ) : ℝ :=
  let X2 := X * X
  if ChainedLess X2 (l - eps) then 1
  else if l - eps ≤ X2 ∧ X2 < l + eps then - dalphaTrunc ((X2 - l) / eps) / eps / 2
  else 0

open Classical in
/-- particle/singularity/truncation.hpp:136-150 (the first test is on `X`, not `X2`) -/
noncomputable def d2chiTrunc (X l eps : ℝ) : ℝ :=
  let X2 := X * X
  if ChainedLess X (l - eps) then 1
  else if l - eps ≤ X2 ∧ X2 < l + eps then - d2alphaTrunc ((X2 - l) / eps) / eps / eps / 2
  else 0

open Classical in
/-- particle/singularity/truncation.hpp:152-166 -/
noncomputable def d3chiTrunc (X l eps : ℝ) : ℝ :=
  let X2 := X * X
  if ChainedLess X (l - eps) then 1
  else if l - eps ≤ X2 ∧ X2 < l + eps then
    - d3alphaTrunc ((X2 - l) / eps) / eps / eps / eps / 2
  else 0

open Classical in
/-- particle/singularity/truncation.hpp:168-181 -/
noncomputable def d4chiTrunc (X l eps : ℝ) : ℝ :=
  let X2 := X * X
  if ChainedLess X (l - eps) then 1
  else if l - eps ≤ X2 ∧ X2 < l + eps then
    - d4alphaTrunc ((X2 - l) / eps) / eps / eps / eps / eps / 2
  else 0

end Cafes.Sing
