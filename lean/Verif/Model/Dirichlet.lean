/-
Model of cafes/fem/bc.hpp (vector part) and cafes/fem/rhs.hpp.

`petsc_vec::at_g` (cafes/petsc/vec.hpp:152-166) gives access to the owned entries of the global
vector; a collective routine is modelled by running the body of every process, in some order `rs`,
on the global vector. A condition (`condition_fn`, bc.hpp:40, possibly null) is an optional
function of the coordinates; simplification: the callback writes its result and does nothing else.
-/
import Verif.Model.Operator

namespace Cafes

/-- `condition_fn` (cafes/fem/bc.hpp:40): null, or a function of the coordinates. -/
abbrev Cond (d : ℕ) (K : Type*) := Option (Pos d K → K)

/-- `dirichlet_conditions::conditions_` (cafes/fem/bc.hpp:43-60): for each face `2 d`, `2 d + 1`, one
condition per component. -/
abbrev BC (d : ℕ) (K : Type*) := ℕ → Fin d → Cond d K

variable {d : ℕ} {K : Type*}

/-- A kernel of bc.hpp: given the conditions of a face, a node and the entries of the node, the new
entries of the node. -/
abbrev BCKernel (d : ℕ) (K : Type*) := (Fin d → Cond d K) → Pos d ℤ → (Fin d → K) → (Fin d → K)

/-- `for dof: if (bc_conditions[dof]) uy[dof] = ...` (loops of cafes/fem/bc.hpp:65-67, 76-78, 91-93). -/
def dofLoop (cond : Fin d → Cond d K) (val : Fin d → (Pos d K → K) → K) (u : Fin d → K) : Fin d → K :=
  (List.finRange d).foldl (fun u c =>
    match cond c with
    | none => u
    | some f => Function.update u c (val c f)) u

/-- `kernel_vec_on_bc` (cafes/fem/bc.hpp:61-70): copies the entries of `x`. -/
def kernelVecOnBC (x : NodeVec d d K) : BCKernel d K :=
  fun cond pos u => dofLoop cond (fun c _ => x pos c) u

/-- `kernel_const_on_bc` (cafes/fem/bc.hpp:72-80): writes the constant `v`. -/
def kernelConstOnBC (v : K) : BCKernel d K :=
  fun cond _ u => dofLoop cond (fun _ _ => v) u

/-- `kernel_func_on_bc` (cafes/fem/bc.hpp:82-95): evaluates the condition at the coordinates
`pos * h`. -/
def kernelFuncOnBC [Mul K] [IntCast K] (h : Pos d K) : BCKernel d K :=
  fun cond pos u => dofLoop cond (fun _ f => f fun i => (pos i : K) * h i) u

/-- Application of a node kernel to the entries `y.at_g(pos)`. -/
def updNode (y : NodeVec d d K) (pos : Pos d ℤ) (f : (Fin d → K) → (Fin d → K)) : NodeVec d d K :=
  Function.update y pos (f (y pos))

/-- `set_dirichlet_impl` on the process `r` (cafes/fem/bc.hpp:97-134). -/
def setDirichletImpl (L : Fin d → Dir) (r : Fin d → ℕ) (bc : BC d K) (kernel : BCKernel d K)
    (y : NodeVec d d K) : NodeVec d d K :=
  let box := getDMBounds L r false
  (List.finRange d).foldl (fun y i =>
    if (L i).periodic then y else
      let y1 := if box.bl i = 0 then
          iterate { box with ur := Function.update box.ur i 1 }
            (fun p y => updNode y p (kernel (bc (2 * i.1)) p)) y
        else y
      if box.ur i = (L i).m then
          iterate { box with bl := Function.update box.bl i ((L i).m - 1) }
            (fun p y => updNode y p (kernel (bc (2 * i.1 + 1)) p)) y1
        else y1) y

/-- The collective call, the processes acting in the order `rs`. -/
def setDirichlet (L : Fin d → Dir) (rs : List (Fin d → ℕ)) (bc : BC d K) (kernel : BCKernel d K)
    (y : NodeVec d d K) : NodeVec d d K :=
  rs.foldl (fun y r => setDirichletImpl L r bc kernel y) y

/-- `SetDirichletOnVec` (cafes/fem/bc.hpp:136-149). -/
def setDirichletOnVec (L : Fin d → Dir) (rs : List (Fin d → ℕ)) (bc : BC d K) (x y : NodeVec d d K) :
    NodeVec d d K := setDirichlet L rs bc (kernelVecOnBC x) y

/-- `SetDirichletOnRHS` (cafes/fem/bc.hpp:151-164). -/
def setDirichletOnRHS [Mul K] [IntCast K] (L : Fin d → Dir) (rs : List (Fin d → ℕ)) (bc : BC d K)
    (h : Pos d K) (y : NodeVec d d K) : NodeVec d d K := setDirichlet L rs bc (kernelFuncOnBC h) y

/-- `SetNullDirichletOnRHS` (cafes/fem/bc.hpp:166-178). -/
def setNullDirichletOnRHS [Zero K] (L : Fin d → Dir) (rs : List (Fin d → ℕ)) (bc : BC d K)
    (y : NodeVec d d K) : NodeVec d d K := setDirichlet L rs bc (kernelConstOnBC 0) y

/-- `diag_block_matrix` with `set_bc_` (cafes/fem/matrixFree.hpp:44-80). -/
def blockMatrixBC [CommRing K] (L : Fin d → Dir) (rs : List (Fin d → ℕ)) (bc : BC d K)
    (apply : (Fin d → ℕ) → NodeVec d d K → NodeVec d d K → NodeVec d d K) (x : NodeVec d d K) :
    NodeVec d d K := setDirichletOnVec L rs bc x (blockMatrix L apply x)

/-- `stokes_matrix` with `set_bc_` (cafes/fem/matrixFree.hpp:196-246). -/
def stokesMatrixBC [CommRing K] {NP NV : ℕ} (Lv Lp : Fin d → Dir) (rs : List (Fin d → ℕ)) (bc : BC d K)
    (apply : (Fin d → ℕ) → NodeVec d d K → NodeVec d d K → NodeVec d d K)
    (elemP : Pos d ℤ → Fin NP → Pos d ℤ) (elemV : Pos d ℤ → Fin NV → Pos d ℤ)
    (B : Fin NP → Fin NV → Fin d → K) (x1 : NodeVec d d K) (x2 : NodeVec d 1 K) :
    NodeVec d d K × NodeVec d 1 K :=
  let y := stokesMatrix Lv Lp apply elemP elemV B x1 x2
  (setDirichletOnVec Lv rs bc x1 y.1, y.2)

/-- `set_rhs_impl` with `kernel_func_on_rhs` on process `r` (cafes/fem/rhs.hpp:54-85): writes the
source at every owned node. -/
def setRhsImpl [Mul K] [IntCast K] (L : Fin d → Dir) (r : Fin d → ℕ) (src : Fin d → Cond d K)
    (h : Pos d K) (y : NodeVec d d K) : NodeVec d d K :=
  iterate (getDMBounds L r false) (fun p y => updNode y p (kernelFuncOnBC h src p)) y

/-- `set_rhs` (cafes/fem/rhs.hpp:87-113); `applyMass` is `mass_mult`. -/
def setRhs [CommRing K] (L : Fin d → Dir) (rs : List (Fin d → ℕ)) (src : Fin d → Cond d K)
    (h : Pos d K) (applyMass : (Fin d → ℕ) → NodeVec d d K → NodeVec d d K → NodeVec d d K)
    (rhs : NodeVec d d K) : NodeVec d d K :=
  let tmp := rs.foldl (fun y r => setRhsImpl L r src h y) (0 : NodeVec d d K)
  localToGlobalAdd L (fun r => applyMass r (globalToLocal L tmp) 0) rhs

/-- `rhs_conditions::has_condition` (cafes/fem/rhs.hpp:49-51). -/
def hasCondition (src : Fin d → Cond d K) : Bool :=
  !((List.finRange d).all fun c => (src c).isNone)

end Cafes
