/-
Model of `PreallocateMat` (cafes/fem/assembling.hpp:55-458) on plane meshes (the only ones for which the assembling
functions exist): the loops over `k` have the single value 0, so that `DMDALocalIndex3D` is `localIndex2`.

PETSc contract, `MatPreallocateSetLocal(rmap, nrows, rows, cmap, ncols, cols, dnz, onz)`: the ids are mapped to global
dofs (negative ids stay negative, an id above the range of the map is an error), each row must belong to the calling
process, and for each row and each column `dnz` of the row is incremented when the column belongs to the process and
`onz` otherwise; in particular a negative column counts in `onz`. (Recent versions of PETSc bound `dnz` by the number
of local columns; this is not modelled, it keeps `dnz` large enough.) `none` is an error or a buffer overrun.
-/
import Verif.Model.Assemble

namespace Cafes.Prealloc

/-- The counters of all rows: (`dnz`, `onz`). -/
abbrev Nnz := Dof → ℕ × ℕ

/-- Does the process `r` own this dof? (contract of the composite DM: `__start <= col < __end`) -/
def owns (Lv Lp : Fin 2 → Dir) (r : Fin 2 → ℕ) : Dof → Bool
  | .inl (g, _) => decide (∀ i, (Lv i).xs (r i) ≤ g i ∧ g i < (Lv i).xs (r i) + (Lv i).xm (r i))
  | .inr g => decide (∀ i, (Lp i).xs (r i) ≤ g i ∧ g i < (Lp i).xs (r i) + (Lp i).xm (r i))

/-- A local column id mapped to a dof; `some none` for a negative id (`ISLocalToGlobalMappingApply`). -/
def colDof (map : ℤ → Option Dof) (id : ℤ) : Option (Option Dof) :=
  if id < 0 then some none else (map id).map some

/-- `MatPreallocateSetLocal` for one row (already mapped) and the mapped columns `cs`. -/
def setRow (own : Dof → Bool) (cs : List (Option Dof)) (ρ : Dof) (s : Nnz) : Nnz := fun ρ' =>
  if ρ' = ρ then
    ((s ρ').1 + cs.countP (fun c => c.any own), (s ρ').2 + cs.countP (fun c => !c.any own))
  else s ρ'

/-- `MatPreallocateSetLocal(ltog, rows.length, rows, ltog, cnt, cols, dnz, onz)`; `cap` is the size of the buffer the
columns were written to: a longer list is an overrun. -/
def setLocal (map : ℤ → Option Dof) (own : Dof → Bool) (cap : ℕ) (rows cols : List ℤ) (s : Option Nnz) :
    Option Nnz :=
  if cols.length ≤ cap then
    match cols.mapM (colDof map) with
    | some cs => rows.foldl (fun s row =>
        match map row, s with
        | some ρ, some s => if own ρ then some (setRow own cs ρ s) else none
        | _, _ => none) s
    | none => none
  else none

/-- Offsets `p` from `pstart` to `pend` of the blocks (1,1) and (2,2) (cafes/fem/assembling.hpp:141-145, 248-252). -/
def offs1 (D : Dir) (i : ℤ) : List ℤ :=
  forRange (if D.periodic then -1 else max (-1) (-i)) ((if D.periodic then 1 else min 1 (D.m - i - 1)) + 1)

/-- Offsets of the block (2,1) (cafes/fem/assembling.hpp:325-330): `i` is a pressure index, `Dv` the velocity. -/
def offs21 (Dv Dp : Dir) (i : ℤ) : List ℤ :=
  forRange (if Dp.periodic then -2 else max (-2) (-2 * i))
    ((if Dp.periodic then 2 else min 2 (Dv.m - 2 * i - 1)) + 1)

/-- Offsets of the block (1,2) (cafes/fem/assembling.hpp:389-394): `i` is a velocity index (not negative), `i & 1` its
parity, `-i / 2` the C++ division, truncated towards zero. -/
def offs12 (Dp : Dir) (i : ℤ) : List ℤ :=
  forRange (if Dp.periodic then -(1 - i % 2) else max (-(1 - i % 2)) (Int.tdiv (-i) 2))
    ((if Dp.periodic then 1 else min 1 (Dp.m - i / 2 - 1)) + 1)

/-- The pairs `(l, p)` of a double loop, `l` outside. -/
def pairs (ls ps : List ℤ) : List (ℤ × ℤ) := ls.flatMap fun l => ps.map fun p => (l, p)

/-- The owned nodes of process `r`, in the order of the loops `i`, `j` (cafes/fem/assembling.hpp:139-147). -/
def ownedNodes (L : Fin 2 → Dir) (r : Fin 2 → ℕ) : List (ℤ × ℤ) :=
  pairs (forRange ((L 0).xs (r 0)) ((L 0).xs (r 0) + (L 0).xm (r 0)))
    (forRange ((L 1).xs (r 1)) ((L 1).xs (r 1) + (L 1).xm (r 1)))

/-- The macro `SetInRange` (cafes/fem/assembling.hpp:40). -/
def setInRange (i m : ℤ) : ℤ := if i < 0 then m + i else if i ≥ m then i - m else i

section
variable (Lv Lp : Fin 2 → Dir) (r : Fin 2 → ℕ)

/-- Local id of component `kd` of the velocity node `(i, j)`: `kd + DMDALocalIndex3D(&infov, i, j, 0)`. -/
def velId (kd : ℕ) (i j : ℤ) : ℤ :=
  kd + localIndex2 2 ((Lv 0).gxs (r 0)) ((Lv 1).gxs (r 1)) ((Lv 0).gxm (r 0)) i j

/-- Local id of the pressure node `(i, j)`: `dec + DMDALocalIndex3D(&infop, i, j, 0)`. -/
def presId (i j : ℤ) : ℤ :=
  decOf Lv r + localIndex2 1 ((Lp 0).gxs (r 0)) ((Lp 1).gxs (r 1)) ((Lp 0).gxm (r 0)) i j

/-- Sizes of the column buffers (cafes/fem/assembling.hpp:122-131, 234-237): `colsu`, `colsp`. -/
def capU : ℕ := 2 * 5 ^ 2
def capP : ℕ := 3 ^ 2

/-- Block (1,1), `strain_tensor` (cafes/fem/assembling.hpp:137-182): the columns of the node are gathered for the two
components, then set for its two rows. -/
def block11Strain (s : Option Nnz) : Option Nnz :=
  (ownedNodes Lv r).foldl (fun s ij =>
    setLocal (ltog Lv Lp r) (owns Lv Lp r) capU
      ((List.range 2).map fun kd => velId Lv r kd ij.1 ij.2)
      ((List.range 2).flatMap fun kd =>
        (pairs (offs1 (Lv 1) ij.2) (offs1 (Lv 0) ij.1)).map fun lp => velId Lv r kd (ij.1 + lp.2) (ij.2 + lp.1)) s) s

/-- Block (1,1), Laplacian (cafes/fem/assembling.hpp:184-230): one row at a time. -/
def block11Lap (s : Option Nnz) : Option Nnz :=
  (ownedNodes Lv r).foldl (fun s ij =>
    (List.range 2).foldl (fun s kd =>
      setLocal (ltog Lv Lp r) (owns Lv Lp r) capU [velId Lv r kd ij.1 ij.2]
        ((pairs (offs1 (Lv 1) ij.2) (offs1 (Lv 0) ij.1)).map fun lp => velId Lv r kd (ij.1 + lp.2) (ij.2 + lp.1)) s) s) s

/-- Block (2,2) (cafes/fem/assembling.hpp:239-288). -/
def block22 (s : Option Nnz) : Option Nnz :=
  (ownedNodes Lp r).foldl (fun s ij =>
    setLocal (ltog Lv Lp r) (owns Lv Lp r) capP [presId Lv Lp r ij.1 ij.2]
      ((pairs (offs1 (Lp 1) ij.2) (offs1 (Lp 0) ij.1)).map fun lp =>
        presId Lv Lp r (ij.1 + lp.2) (ij.2 + lp.1)) s) s

/-- `px` (cafes/fem/assembling.hpp:302-304): `npx` is the number of processes of the direction. -/
def shift21 (D : Dir) (q : ℕ) : ℤ := if D.l.length = 1 then 0 else D.gxs q

/-- `ii` (cafes/fem/assembling.hpp:347-351). -/
def loc21 (Dv Dp : Dir) (q : ℕ) (i p : ℤ) : ℤ :=
  if Dp.periodic then setInRange (2 * i + p - Dv.gxs q) Dv.m else 2 * i + p - Dv.gxs q

/-- The test `ii + px < infov.xs || ii + px > infov.xs + infov.xm` (cafes/fem/assembling.hpp:353-358). -/
def out21 (Dv : Dir) (q : ℕ) (ii : ℤ) : Bool :=
  decide (ii + shift21 Dv q < Dv.xs q) || decide (ii + shift21 Dv q > Dv.xs q + Dv.xm q)

/-- The column written for the offsets `(l, p)` and the component `kd` (cafes/fem/assembling.hpp:353-371). -/
def col21 (i j l p : ℤ) (kd : ℕ) : ℤ :=
  let ii := loc21 (Lv 0) (Lp 0) (r 0) i p
  let jj := loc21 (Lv 1) (Lp 1) (r 1) j l
  if out21 (Lv 0) (r 0) ii || out21 (Lv 1) (r 1) jj then -1 else 2 * (jj * (Lv 0).gxm (r 0) + ii) + kd

/-- Block (2,1) (cafes/fem/assembling.hpp:292-381); here the loop over `j` is outside. -/
def block21 (s : Option Nnz) : Option Nnz :=
  ((forRange ((Lp 1).xs (r 1)) ((Lp 1).xs (r 1) + (Lp 1).xm (r 1))).flatMap fun j =>
    (forRange ((Lp 0).xs (r 0)) ((Lp 0).xs (r 0) + (Lp 0).xm (r 0))).map fun i => (i, j)).foldl (fun s ij =>
    setLocal (ltog Lv Lp r) (owns Lv Lp r) capU [presId Lv Lp r ij.1 ij.2]
      ((pairs (offs21 (Lv 1) (Lp 1) ij.2) (offs21 (Lv 0) (Lp 0) ij.1)).flatMap fun lp =>
        (List.range 2).map fun kd => col21 Lv Lp r ij.1 ij.2 lp.1 lp.2 kd) s) s

/-- Block (1,2) (cafes/fem/assembling.hpp:387-434): `slotp + infop.gxm * l + p` with `slotp` the local number of the
pressure node `(i/2, j/2)`. -/
def block12 (s : Option Nnz) : Option Nnz :=
  (ownedNodes Lv r).foldl (fun s ij =>
    let slotu := (ij.2 - (Lv 1).gxs (r 1)) * (Lv 0).gxm (r 0) + (ij.1 - (Lv 0).gxs (r 0))
    let slotp := (ij.2 / 2 - (Lp 1).gxs (r 1)) * (Lp 0).gxm (r 0) + (ij.1 / 2 - (Lp 0).gxs (r 0))
    setLocal (ltog Lv Lp r) (owns Lv Lp r) capP
      ((List.range 2).map fun (kd : ℕ) => (kd : ℤ) + 2 * slotu)
      ((pairs (offs12 (Lp 1) ij.2) (offs12 (Lp 0) ij.1)).map fun lp =>
        decOf Lv r + slotp + (Lp 0).gxm (r 0) * lp.1 + lp.2) s) s

/-- `PreallocateMat` (cafes/fem/assembling.hpp:58-458): the counters of process `r`, given to
`MatMPIAIJSetPreallocation`. -/
def preallocateMat (strain precond : Bool) : Option Nnz :=
  let s := if strain then block11Strain Lv Lp r (some fun _ => 0) else block11Lap Lv Lp r (some fun _ => 0)
  let s := block22 Lv Lp r s
  if precond then s else block12 Lv Lp r (block21 Lv Lp r s)

end

end Cafes.Prealloc
