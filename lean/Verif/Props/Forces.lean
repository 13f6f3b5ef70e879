/-
Property theorems for forces and torques: C52, C53, C72.
-/
import Verif.Props.Control

namespace Cafes.Particle
open Cafes Cafes.Geometry Cafes.Props
variable {d : ℕ} {A : Type*}

/-- Numbered accumulation: the state is `(num, u)`, each step adds `val num x` at the key of `x`. -/
theorem foldl_accum {S κ : Type*} [DecidableEq κ] (key : S → κ) (val : ℕ → S → ℝ) (l : List S) (n0 : ℕ)
    (u : κ → ℝ) :
    let res := l.foldl (fun (s : ℕ × (κ → ℝ)) x =>
      (s.1 + 1, Function.update s.2 (key x) (s.2 (key x) + val s.1 x))) (n0, u)
    res.1 = n0 + l.length ∧ (∀ k, k ∉ l.map key → res.2 k = u k) ∧
    ((l.map key).Nodup → ∀ (i : ℕ) (hi : i < l.length), res.2 (key l[i]) = u (key l[i]) + val (n0 + i) l[i]) := by
  induction l generalizing n0 u with
  | nil => simp
  | cons a l ih =>
    obtain ⟨h1, h2, h3⟩ := ih (n0 + 1) (Function.update u (key a) (u (key a) + val n0 a))
    simp only [List.foldl_cons]
    refine ⟨by rw [h1, List.length_cons]; omega, ?_, ?_⟩
    · intro k hk
      rw [List.map_cons, List.mem_cons, not_or] at hk
      rw [h2 k hk.2, Function.update_of_ne hk.1]
    · intro hn i hi
      rw [List.map_cons, List.nodup_cons] at hn
      cases i with
      | zero =>
        simp only [List.getElem_cons_zero]
        rw [h2 _ hn.1, Function.update_self]
        simp
      | succ i =>
        simp only [List.getElem_cons_succ]
        have hi' : i < l.length := by simpa using hi
        rw [h3 hn.2 i hi', Function.update_of_ne, show n0 + 1 + i = n0 + (i + 1) by omega]
        intro e
        exact hn.1 (e ▸ List.mem_map_of_mem (List.getElem_mem hi'))

/-- One node: the force receives the `d` next entries of the control, which are also copied in `g`. -/
theorem node_read (pc : ℕ → ℝ) (i : ℕ) (F G : Pos d ℝ) :
    (List.finRange d).foldl (fun (t : ℕ × Pos d ℝ × Pos d ℝ) c =>
      (t.1 + 1, Function.update t.2.1 c (t.2.1 c + pc t.1), Function.update t.2.2 c (pc t.1))) (i, F, G) =
      (i + d, fun c : Fin d => F c + pc (i + c), fun c : Fin d => pc (i + c)) := by
  have split : ∀ (l : List (Fin d)) (n : ℕ) (F G : Pos d ℝ),
      l.foldl (fun (t : ℕ × Pos d ℝ × Pos d ℝ) c =>
        (t.1 + 1, Function.update t.2.1 c (t.2.1 c + pc t.1), Function.update t.2.2 c (pc t.1))) (n, F, G) =
      ((l.foldl (fun (s : ℕ × (Fin d → ℝ)) x =>
        (s.1 + 1, Function.update s.2 x (s.2 x + pc s.1))) (n, F)).1,
       (l.foldl (fun (s : ℕ × (Fin d → ℝ)) x =>
        (s.1 + 1, Function.update s.2 x (s.2 x + pc s.1))) (n, F)).2,
       (l.foldl (fun (s : ℕ × (Fin d → ℝ)) x => (s.1 + 1, Function.update s.2 x (pc s.1))) (n, G)).2) := by
    intro l
    induction l with
    | nil => intro n F G; rfl
    | cons a l ih => intro n F G; rw [List.foldl_cons, ih]; rfl
  obtain ⟨a1, -, a3⟩ := foldl_accum (fun x : Fin d => x) (fun n _ => pc n) (List.finRange d) i F
  obtain ⟨-, -, b3⟩ := foldl_write (fun x : Fin d => x) (fun n _ => pc n) (List.finRange d) i G
  have hn : ((List.finRange d).map fun x : Fin d => x).Nodup := by
    rw [List.map_id']; exact List.nodup_finRange d
  rw [split]
  refine Prod.ext ?_ (Prod.ext ?_ ?_)
  · rw [a1, List.length_finRange]
  · funext c
    have := a3 hn c.1 (by rw [List.length_finRange]; exact c.2)
    simpa using this
  · funext c
    have := b3 hn c.1 (by rw [List.length_finRange]; exact c.2)
    simpa using this

/-- The loop on the nodes of one particle, when the control read is that of the nodal field `F`. -/
theorem forceLoop_eq [AddCommGroup A] (S : Spin d A) (h : Pos d ℝ) (pc : ℕ → ℝ) (center : Pos d ℝ)
    (F : NodeVec d d ℝ) (nodes : List (Pos d ℤ)) (i0 : ℕ) (f : Pos d ℝ) (t : A)
    (hF : ∀ (j : ℕ) (hj : j < nodes.length) (c : Fin d), pc (i0 + d * j + c) = F nodes[j] c) :
    forceLoop S h pc center nodes (i0, f, t) =
      (i0 + d * nodes.length, fun c => f c + (nodes.map fun k => F k c).sum,
       t + (nodes.map fun k => S.cross (fun i => node h k i - center i) (F k)).sum) := by
  induction nodes generalizing i0 f t with
  | nil => simp [forceLoop]
  | cons k nodes ih =>
    have h0 : (fun c : Fin d => pc (i0 + c)) = F k := by
      funext c
      have := hF 0 (by simp) c
      simpa using this
    have h0' : ∀ c : Fin d, pc (i0 + c) = F k c := fun c => congrFun h0 c
    have step : forceLoop S h pc center (k :: nodes) (i0, f, t) =
        forceLoop S h pc center nodes (i0 + d, fun c => f c + F k c,
          t + S.cross (fun i => node h k i - center i) (F k)) := by
      unfold forceLoop
      rw [List.foldl_cons]
      simp only [node_read, h0, h0']
      rfl
    rw [step, ih]
    · refine Prod.ext ?_ (Prod.ext ?_ ?_)
      · simp only [List.length_cons]; ring
      · funext c; simp only [List.map_cons, List.sum_cons]; ring
      · simp only [List.map_cons, List.sum_cons]; abel
    · intro j hj c
      have := hF (j + 1) (by simpa using hj) c
      rw [List.getElem_cons_succ] at this
      rw [← this]
      congr 1
      ring

theorem getElem_flatMap_finRange {P : Type*} (p : P) (nodes : List (Pos d ℤ)) (j : ℕ) (hj : j < nodes.length)
    (c : Fin d) (rest : List (P × Pos d ℤ × Fin d)) :
    ∃ hi : d * j + c.1 < ((nodes.flatMap fun k => (List.finRange d).map fun c => (p, k, c)) ++ rest).length,
    ((nodes.flatMap fun k => (List.finRange d).map fun c => (p, k, c)) ++ rest)[d * j + c.1] =
      (p, nodes[j], c) := by
  induction nodes generalizing j with
  | nil => simp at hj
  | cons k nodes ih =>
    have hl : ((List.finRange d).map fun c => (p, k, c)).length = d := by simp
    cases j with
    | zero =>
      refine ⟨?_, ?_⟩
      · simp only [List.flatMap_cons, List.length_append, hl]
        have := c.2
        omega
      · simp only [List.flatMap_cons, List.append_assoc]
        rw [List.getElem_append_left (by rw [hl]; have := c.2; omega)]
        simp
    | succ j =>
      obtain ⟨h1, h2⟩ := ih j (by simpa using hj)
      refine ⟨?_, ?_⟩
      · simp only [List.flatMap_cons, List.append_assoc, List.length_append, hl] at h1 ⊢
        rw [Nat.mul_add]
        omega
      · simp only [List.flatMap_cons, List.append_assoc, List.getElem_cons_succ]
        rw [List.getElem_append_right (by rw [hl, Nat.mul_add]; omega)]
        rw [← h2]
        congr 1
        rw [hl, Nat.mul_add]
        omega

/-- The forces and torques of one process, when its control is that of the nodal field `F`. -/
theorem localForces_eq [AddCommGroup A] [Module ℝ A] (S : Spin d A)
    (fluid : (Pos d ℝ → Bool) → Box d ℤ → Pos d ℝ → List (Pos d ℤ))
    (box : Box d ℤ) (h : Pos d ℝ) (pc : ℕ → ℝ) (F : NodeVec d d ℝ) (parts : List (Part d A × ℕ))
    (hF : ∀ (i : ℕ) (hi : i < (layout (partNodes fluid Box.boxInside box h) (parts.map Prod.fst)).length),
      pc i = F (layout (partNodes fluid Box.boxInside box h) (parts.map Prod.fst))[i].2.1
        (layout (partNodes fluid Box.boxInside box h) (parts.map Prod.fst))[i].2.2) :
    localForces S fluid box h pc parts =
      ((layout (partNodes fluid Box.boxInside box h) (parts.map Prod.fst)).length,
        parts.map fun q => (fun c => q.1.volume / (q.2 : ℝ) *
            ((partNodes fluid Box.boxInside box h q.1).map fun k => F k c).sum,
          (q.1.volume / (q.2 : ℝ)) • ((partNodes fluid Box.boxInside box h q.1).map fun k =>
            S.cross (fun i => node h k i - q.1.center i) (F k)).sum)) := by
  have gen : ∀ (parts : List (Part d A × ℕ)) (i0 : ℕ) (acc : List (Pos d ℝ × A))
      (_ : ∀ (i : ℕ) (hi : i < (layout (partNodes fluid Box.boxInside box h) (parts.map Prod.fst)).length),
        pc (i0 + i) = F (layout (partNodes fluid Box.boxInside box h) (parts.map Prod.fst))[i].2.1
          (layout (partNodes fluid Box.boxInside box h) (parts.map Prod.fst))[i].2.2),
      parts.foldl (fun (s : ℕ × List (Pos d ℝ × A)) q =>
        let t := forceLoop S h pc q.1.center (partNodes fluid Box.boxInside box h q.1) (s.1, fun _ => 0, 0)
        (t.1, s.2 ++ [(vecMulScal t.2.1 (q.1.volume / (q.2 : ℝ)), (q.1.volume / (q.2 : ℝ)) • t.2.2)]))
        (i0, acc) =
      (i0 + (layout (partNodes fluid Box.boxInside box h) (parts.map Prod.fst)).length,
        acc ++ parts.map fun q => (fun c => q.1.volume / (q.2 : ℝ) *
            ((partNodes fluid Box.boxInside box h q.1).map fun k => F k c).sum,
          (q.1.volume / (q.2 : ℝ)) • ((partNodes fluid Box.boxInside box h q.1).map fun k =>
            S.cross (fun i => node h k i - q.1.center i) (F k)).sum)) := by
    intro parts
    induction parts with
    | nil => intro i0 acc _; simp [layout]
    | cons q parts ih =>
      intro i0 acc hpc
      have hlay : layout (partNodes fluid Box.boxInside box h) ((q :: parts).map Prod.fst) =
          ((partNodes fluid Box.boxInside box h q.1).flatMap fun k =>
            (List.finRange d).map fun c => (q.1, k, c)) ++
          layout (partNodes fluid Box.boxInside box h) (parts.map Prod.fst) := by
        unfold layout
        rw [List.map_cons, List.flatMap_cons]
      have hlen : ((partNodes fluid Box.boxInside box h q.1).flatMap fun k =>
            (List.finRange d).map fun c => (q.1, k, c)).length =
            d * (partNodes fluid Box.boxInside box h q.1).length := by
        rw [List.length_flatMap]
        simp [mul_comm]
      rw [hlay] at hpc
      have hloop := forceLoop_eq S h pc q.1.center F (partNodes fluid Box.boxInside box h q.1) i0
        (fun _ => 0) 0 (by
          intro j hj c
          obtain ⟨h1, h2⟩ := getElem_flatMap_finRange q.1 (partNodes fluid Box.boxInside box h q.1) j hj c
            (layout (partNodes fluid Box.boxInside box h) (parts.map Prod.fst))
          have := hpc (d * j + c) h1
          rw [← add_assoc] at this
          rw [this, h2])
      rw [List.foldl_cons]
      simp only [hloop]
      rw [ih]
      · refine Prod.ext ?_ ?_
        · simp only [hlay, List.length_append, hlen, add_assoc]
        · simp only [List.append_assoc, List.map_cons, List.cons_append, List.nil_append]
          congr 2
          refine Prod.ext ?_ ?_
          · funext c
            simp only [vecMulScal, compLoop_apply, zero_add]
            ring
          · simp only [zero_add]
      · intro i hi
        have := hpc (d * (partNodes fluid Box.boxInside box h q.1).length + i)
          (by rw [List.length_append, hlen]; omega)
        rw [← add_assoc] at this
        rw [this]
        have e := List.getElem_append_right (as := (partNodes fluid Box.boxInside box h q.1).flatMap fun k =>
            (List.finRange d).map fun c => (q.1, k, c))
            (bs := layout (partNodes fluid Box.boxInside box h) (parts.map Prod.fst))
            (i := d * (partNodes fluid Box.boxInside box h q.1).length + i) (by rw [hlen]; omega)
            (h₂ := by rw [List.length_append, hlen]; omega)
        rw [e]
        simp only [hlen, Nat.add_sub_cancel_left]
  have := gen parts 0 [] (by intro i hi; rw [zero_add]; exact hF i hi)
  unfold localForces
  rw [overlap_eq_boxInside]
  simpa using this

/-! ### C52: forces and torques -/

/-- C52: after the reductions, on every process, the force on the particle `ip` is `volume/num` times the sum
of the control over the nodes of the mesh in the particle, and its torque is `volume/num` times the sum of
the moments of the control with respect to the centre; `F` is the nodal field of the control (C48). -/
theorem C52_forces_torques [AddCommGroup A] [Module ℝ A] (S : Spin d A)
    {fluid : (Pos d ℝ → Bool) → Box d ℤ → Pos d ℝ → List (Pos d ℤ)} (hf : IsFluid fluid)
    (L : Fin d → Dir) (hL : GoodMesh L) (h : Pos d ℝ) (parts : List (Part d A × ℕ))
    (hd : Disjoint (parts.map Prod.fst))
    (henc : ∀ q ∈ parts, ∀ k, q.1.contains (node h k) = true → k ∈ q.1.bbox.halfOpen)
    (pxs : (Fin d → ℕ) → ℕ → ℝ) (rs : List (Fin d → ℕ)) (hrs : ∀ r, r ∈ rs ↔ r ∈ procs L) (hnd : rs.Nodup)
    (ip : ℕ) (hip : ip < parts.length) :
    let F := controlField fluid L rs h pxs false (parts.map Prod.fst)
    let inside := (gridElems L).filter fun k => parts[ip].1.contains (node h k) = true
    allReduce (procs L) (fun r => (localForces S fluid (getDMBounds L r true) h (pxs r) parts).2.map Prod.fst) ip =
      (fun c => parts[ip].1.volume / parts[ip].2 * ∑ k ∈ inside, F k c) ∧
    allReduce (procs L) (fun r => (localForces S fluid (getDMBounds L r true) h (pxs r) parts).2.map Prod.snd) ip =
      (parts[ip].1.volume / parts[ip].2 : ℝ) •
        ∑ k ∈ inside, S.cross (fun i => node h k i - parts[ip].1.center i) (F k) := by
  classical
  intro F inside
  obtain ⟨h1, -⟩ := controlField_spec hf L hL h (parts.map Prod.fst) hd pxs false rs
    (fun r hr => (hrs r).1 hr) hnd 0
  have hloc : ∀ r ∈ procs L, localForces S fluid (getDMBounds L r true) h (pxs r) parts = _ := fun r hr =>
    localForces_eq S fluid (getDMBounds L r true) h (pxs r) F parts (fun i hi => by
      have := h1 r ((hrs r).2 hr) i hi
      simp only [Bool.false_eq_true, if_false, add_zero] at this
      exact this.symm)
  have hin : inside = (gridElems L).filter fun k => k ∈ parts[ip].1.bbox.halfOpen ∧
      parts[ip].1.contains (node h k) = true := by
    ext k
    simp only [inside, Finset.mem_filter]
    exact ⟨fun hk => ⟨hk.1, henc _ (List.getElem_mem hip) k hk.2, hk.2⟩, fun hk => ⟨hk.1, hk.2.2⟩⟩
  constructor
  · funext c
    unfold allReduce
    rw [Finset.sum_apply, hin, ← sum_partNodes hf L hL h parts[ip].1, Finset.mul_sum]
    refine Finset.sum_congr rfl fun r hr => ?_
    beta_reduce
    rw [hloc r hr]
    simp only [List.map_map]
    rw [List.getD_eq_getElem _ _ (by simpa using hip), List.getElem_map]
    rfl
  · unfold allReduce
    rw [hin, ← sum_partNodes hf L hL h parts[ip].1, Finset.smul_sum]
    refine Finset.sum_congr rfl fun r hr => ?_
    beta_reduce
    rw [hloc r hr]
    simp only [List.map_map]
    rw [List.getD_eq_getElem _ _ (by simpa using hip), List.getElem_map]
    rfl

/-- The cross product is additive in each argument and homogeneous in the second one. -/
structure SpinLaws [AddCommGroup A] [Module ℝ A] (S : Spin d A) : Prop where
  add_left : ∀ x y z, S.cross (x + y) z = S.cross x z + S.cross y z
  add_right : ∀ x y z, S.cross x (y + z) = S.cross x y + S.cross x z
  smul_right : ∀ (a : ℝ) x y, S.cross x (a • y) = a • S.cross x y

theorem spinLaws2 : SpinLaws spin2 where
  add_left x y z := by simp only [spin2, cross2, Pi.add_apply]; ring
  add_right x y z := by simp only [spin2, cross2, Pi.add_apply]; ring
  smul_right a x y := by simp only [spin2, cross2, Pi.smul_apply, smul_eq_mul]; ring

theorem spinLaws3 : SpinLaws spin3 where
  add_left x y z := by
    have a0 : spin3.cross (x + y) z 0 = (spin3.cross x z + spin3.cross y z) 0 := by
      simp [spin3, cross3]; ring
    have a1 : spin3.cross (x + y) z 1 = (spin3.cross x z + spin3.cross y z) 1 := by
      simp [spin3, cross3]; ring
    have a2 : spin3.cross (x + y) z 2 = (spin3.cross x z + spin3.cross y z) 2 := by
      simp [spin3, cross3]; ring
    funext i; fin_cases i
    exacts [a0, a1, a2]
  add_right x y z := by
    have a0 : spin3.cross x (y + z) 0 = (spin3.cross x y + spin3.cross x z) 0 := by
      simp [spin3, cross3]; ring
    have a1 : spin3.cross x (y + z) 1 = (spin3.cross x y + spin3.cross x z) 1 := by
      simp [spin3, cross3]; ring
    have a2 : spin3.cross x (y + z) 2 = (spin3.cross x y + spin3.cross x z) 2 := by
      simp [spin3, cross3]; ring
    funext i; fin_cases i
    exacts [a0, a1, a2]
  smul_right a x y := by
    have a0 : spin3.cross x (a • y) 0 = (a • spin3.cross x y) 0 := by simp [spin3, cross3]; ring
    have a1 : spin3.cross x (a • y) 1 = (a • spin3.cross x y) 1 := by simp [spin3, cross3]; ring
    have a2 : spin3.cross x (a • y) 2 = (a • spin3.cross x y) 2 := by simp [spin3, cross3]; ring
    funext i; fin_cases i
    exacts [a0, a1, a2]

theorem sum_cross_right [AddCommGroup A] [Module ℝ A] {S : Spin d A} (hS : SpinLaws S) {ι : Type*}
    (s : Finset ι) (x : Pos d ℝ) (f : ι → Pos d ℝ) :
    ∑ k ∈ s, S.cross x (f k) = S.cross x (∑ k ∈ s, f k) := by
  classical
  induction s using Finset.induction_on with
  | empty =>
    have := hS.smul_right 0 x 0
    simpa using this.symm
  | insert a s ha ih => rw [Finset.sum_insert ha, Finset.sum_insert ha, hS.add_right, ih]

/-- C52 (change of reference point): computing with the reference point `c'` instead of the centre `c` adds
to the torque the moment of the force at `c`: `(c - c') x force`. -/
theorem C52_shift [AddCommGroup A] [Module ℝ A] {S : Spin d A} (hS : SpinLaws S)
    {fluid : (Pos d ℝ → Bool) → Box d ℤ → Pos d ℝ → List (Pos d ℤ)} (hf : IsFluid fluid)
    (L : Fin d → Dir) (hL : GoodMesh L) (h : Pos d ℝ) (p : Part d A) (num : ℕ)
    (henc : ∀ k, p.contains (node h k) = true → k ∈ p.bbox.halfOpen)
    (pxs : (Fin d → ℕ) → ℕ → ℝ) (rs : List (Fin d → ℕ)) (hrs : ∀ r, r ∈ rs ↔ r ∈ procs L) (hnd : rs.Nodup)
    (c' : Pos d ℝ) :
    let force := allReduce (procs L)
      (fun r => (localForces S fluid (getDMBounds L r true) h (pxs r) [(p, num)]).2.map Prod.fst) 0
    let torque := fun q : Part d A => allReduce (procs L)
      (fun r => (localForces S fluid (getDMBounds L r true) h (pxs r) [(q, num)]).2.map Prod.snd) 0
    torque { p with center := c' } = torque p + S.cross (fun i => p.center i - c' i) force := by
  intro force torque
  have hd : ∀ q : Part d A, Disjoint ([(q, num)].map Prod.fst) := fun q => by simp [Disjoint]
  have e := C52_forces_torques S hf L hL h [(p, num)] (hd p)
    (by intro q hq; rw [List.mem_singleton] at hq; subst hq; exact henc) pxs rs hrs hnd 0 (by simp)
  have e' := C52_forces_torques S hf L hL h [({ p with center := c' }, num)] (hd _)
    (by intro q hq; rw [List.mem_singleton] at hq; subst hq; exact henc) pxs rs hrs hnd 0 (by simp)
  have hforce : force = _ := e.1
  have ht : torque p = _ := e.2
  have ht' : torque { p with center := c' } = _ := e'.2
  rw [hforce, ht, ht']
  simp only [List.getElem_cons_zero, List.map_cons, List.map_nil]
  have hF : controlField fluid L rs h pxs false [{ p with center := c' }] =
      controlField fluid L rs h pxs false [p] := rfl
  rw [hF]
  set F := controlField fluid L rs h pxs false [p]
  set I := (gridElems L).filter fun k => p.contains (node h k) = true
  have hv : (fun c => p.volume / (num : ℝ) * ∑ k ∈ I, F k c) = (p.volume / (num : ℝ)) • ∑ k ∈ I, F k := by
    funext c
    simp [Finset.sum_apply]
  rw [hv, hS.smul_right, ← smul_add, ← sum_cross_right hS, ← Finset.sum_add_distrib]
  congr 1
  refine Finset.sum_congr rfl fun k _ => ?_
  rw [← hS.add_left]
  congr 1
  funext i
  simp only [Pi.add_apply]
  ring

/-! ### C72: normalisation of the force -/

/-- C72 (exact value): for a control equal to the constant `g` in the particle, the force is
`volume * g * (number of nodes in the particle) / num`. -/
theorem C72_constant [AddCommGroup A] [Module ℝ A] (S : Spin d A)
    {fluid : (Pos d ℝ → Bool) → Box d ℤ → Pos d ℝ → List (Pos d ℤ)} (hf : IsFluid fluid)
    (L : Fin d → Dir) (hL : GoodMesh L) (h : Pos d ℝ) (p : Part d A) (num : ℕ)
    (henc : ∀ k, p.contains (node h k) = true → k ∈ p.bbox.halfOpen)
    (pxs : (Fin d → ℕ) → ℕ → ℝ) (rs : List (Fin d → ℕ)) (hrs : ∀ r, r ∈ rs ↔ r ∈ procs L) (hnd : rs.Nodup)
    (g : Pos d ℝ) (hg : ∀ k ∈ gridElems L, p.contains (node h k) = true → ∀ c,
      controlField fluid L rs h pxs false [p] k c = g c) :
    allReduce (procs L)
      (fun r => (localForces S fluid (getDMBounds L r true) h (pxs r) [(p, num)]).2.map Prod.fst) 0 =
      fun c => p.volume * g c * (((gridElems L).filter fun k => p.contains (node h k) = true).card / num) := by
  have e := (C52_forces_torques S hf L hL h [(p, num)] (by simp [Disjoint])
    (by intro q hq; rw [List.mem_singleton] at hq; subst hq; exact henc) pxs rs hrs hnd 0 (by simp)).1
  refine e.trans ?_
  simp only [List.getElem_cons_zero, List.map_cons, List.map_nil]
  funext c
  rw [Finset.sum_congr rfl fun k hk => hg k (Finset.mem_filter.1 hk).1 (Finset.mem_filter.1 hk).2 c,
    Finset.sum_const, nsmul_eq_mul]
  ring

theorem exPart_contains (p : Pos 2 ℝ) : exPart.contains p = true ↔ (p 0 - 2) ^ 2 + (p 1 - 2) ^ 2 < 1 := by
  show (mkShape2 ![2, 2] ![1, 1] 2 quat0).contains2 p = true ↔ _
  unfold Shape.contains2
  have hl : (mkShape2 ![2, 2] ![1, 1] 2 quat0).local2 p = ![p 0 - 2, p 1 - 2] := by
    unfold Shape.local2
    have : isRotate (mkShape2 ![2, 2] ![1, 1] 2 quat0).q = false := isRotate_quat0
    rw [this]
    funext i; fin_cases i <;> simp [mkShape2, posSub, compLoop_apply]
  rw [decide_eq_true_eq, implicit2_eq, hl]
  have h2 : (2 : ℝ) / (mkShape2 ![2, 2] ![1, 1] 2 quat0).n_ = ((2 : ℕ) : ℝ) := by
    show (2 : ℝ) / (2 / 2) = _
    norm_num
  rw [h2, Real.rpow_natCast, Real.rpow_natCast]
  simp [mkShape2]

theorem exMesh : GoodMesh (![exDir, exDir] : Fin 2 → Dir) := by
  intro i; fin_cases i <;> exact ⟨exDir_wf, by decide⟩

theorem exPart_encloses : (∀ k, exPart.contains (node ![1, 1] k) = true → k ∈ exPart.bbox.halfOpen) ∧
    SubEncloses ![1, 1] 4 exPart := by
  have := encloses2 (A := ℝ) ![2, 2] ![1, 1] (by intro i; fin_cases i <;> norm_num) 2 (by norm_num) quat0
    (Or.inl rfl) ![1, 1] (by intro i; fin_cases i <;> norm_num) exPart ⟨rfl, rfl⟩
  exact ⟨this.1, this.2 4 (by norm_num)⟩

theorem exPart_nodes : ((gridElems ![exDir, exDir]).filter fun k => exPart.contains (node ![1, 1] k) = true) =
    {![2, 2]} := by
  ext k
  rw [Finset.mem_filter, Finset.mem_singleton, exPart_contains]
  simp only [node, Matrix.cons_val_zero, Matrix.cons_val_one, mul_one]
  constructor
  · rintro ⟨-, hk⟩
    have hk' : (k 0 - 2) ^ 2 + (k 1 - 2) ^ 2 < 1 := by exact_mod_cast hk
    have e0 : k 0 = 2 := by nlinarith [sq_nonneg (k 0 - 2), sq_nonneg (k 1 - 2)]
    have e1 : k 1 = 2 := by nlinarith [sq_nonneg (k 0 - 2), sq_nonneg (k 1 - 2)]
    funext i; fin_cases i
    exacts [e0, e1]
  · rintro rfl
    refine ⟨?_, by norm_num⟩
    decide +kernel

/-- C72 is false of the code: the sum over the mesh nodes is divided by the number of points of the grid
refined 4 times, so that for the disc of centre (2,2) and radius 1 on a unit mesh with 6x6 nodes and the
control density (1,1), the force returned is at most half of `volume * (1,1)`. -/
theorem C72_refuted (rs : List (Fin 2 → ℕ)) (hrs : ∀ r, r ∈ rs ↔ r ∈ procs ![exDir, exDir]) (hnd : rs.Nodup) :
    (∀ k ∈ gridElems ![exDir, exDir], exPart.contains (node ![1, 1] k) = true → ∀ c,
      controlField fluidPoints2 ![exDir, exDir] rs ![1, 1] (fun _ _ => 1) false [exPart] k c = 1) ∧
    ∀ r c, allReduce (procs ![exDir, exDir]) (fun r' => (localForces spin2 fluidPoints2
        (getDMBounds ![exDir, exDir] r' true) ![1, 1] (fun _ => 1)
        [(exPart, (setMaterials fluidPoints2 ![exDir, exDir] ![1, 1] 4 exPart
          (fun _ => PartData.empty) r).num)]).2.map Prod.fst) 0 c ≤ exPart.volume * 1 / 2 := by
  have hone : ∀ k ∈ gridElems ![exDir, exDir], exPart.contains (node ![1, 1] k) = true → ∀ c,
      controlField fluidPoints2 ![exDir, exDir] rs ![1, 1] (fun _ _ => 1) false [exPart] k c = 1 := by
    intro k hk hc c
    obtain ⟨r, hr, hm⟩ := C48_reached isFluid2 ![exDir, exDir] exMesh ![1, 1] [exPart] exPart (by simp)
      exPart_encloses.1 k hk hc c
    obtain ⟨i, hi, e⟩ := List.getElem_of_mem hm
    have := (controlField_spec isFluid2 ![exDir, exDir] exMesh ![1, 1] [exPart] (by simp [Disjoint])
      (fun _ _ => 1) false rs (fun r hr => (hrs r).1 hr) hnd 0).1 r ((hrs r).2 hr) i hi
    rw [e] at this
    unfold controlField
    simpa using this
  refine ⟨hone, fun r c => ?_⟩
  rw [C72_constant spin2 isFluid2 ![exDir, exDir] exMesh ![1, 1] exPart _ exPart_encloses.1
    (fun _ _ => 1) rs hrs hnd (fun _ => 1) hone, exPart_nodes, Finset.card_singleton]
  have hnum : 2 ≤ (setMaterials fluidPoints2 ![exDir, exDir] ![1, 1] 4 exPart
          (fun _ => PartData.empty) r).num := by
    rw [C46_count _ _ exMesh _ 4 (by norm_num) _ exPart_encloses.2]
    have hs : ({![8, 8], ![9, 8]} : Finset (Pos 2 ℤ)) ⊆ (subGrid ![exDir, exDir] 4).filter fun k =>
        exPart.contains (subNode ![1, 1] 4 k) = true := by
      intro k hk
      rw [Finset.mem_filter, exPart_contains]
      rw [Finset.mem_insert, Finset.mem_singleton] at hk
      rcases hk with rfl | rfl
      · exact ⟨by decide +kernel, by norm_num [subNode]⟩
      · exact ⟨by decide +kernel, by norm_num [subNode]⟩
    have h2 : ({![8, 8], ![9, 8]} : Finset (Pos 2 ℤ)).card = 2 := by decide +kernel
    rw [← h2]
    exact Finset.card_le_card hs
  have hv : exPart.volume = 3 := rfl
  have h2 : (2 : ℝ) ≤ ((setMaterials fluidPoints2 ![exDir, exDir] ![1, 1] 4 exPart
          (fun _ => PartData.empty) r).num : ℝ) := by exact_mod_cast hnum
  rw [hv]
  have : (((1 : ℕ) : ℝ) / ((setMaterials fluidPoints2 ![exDir, exDir] ![1, 1] 4 exPart
          (fun _ => PartData.empty) r).num : ℝ)) ≤ 1 / 2 := by
    rw [Nat.cast_one]
    exact one_div_le_one_div_of_le (by norm_num) h2
  linarith

/-! ### C53: singular forces -/

/-- C53 is false of the code: with two particles or more (in dimension at least two) the index
`ipart * Dimensions` runs past the end of the array of forces. -/
theorem C53_refuted (hd : 2 ≤ d) (forces sing : List (Pos d ℝ)) (hl : forces.length = sing.length)
    (h2 : 2 ≤ sing.length) : addSingForces forces sing = none := by
  have hnone : ∀ l : List ℕ, l.foldl (fun (acc : Option (List (Pos d ℝ))) ipart => acc.bind fun l =>
      if ipart * d < l.length then some (l.modify (ipart * d) fun f => fun c => f c + sing.getD ipart 0 c)
      else none) none = none := by
    intro l
    induction l with
    | nil => rfl
    | cons a l ih => exact ih
  have hlast : ∀ (n : ℕ) (l0 : List (Pos d ℝ)), (∃ i < n, l0.length ≤ i * d) →
      (List.range n).foldl (fun (acc : Option (List (Pos d ℝ))) ipart => acc.bind fun l =>
      if ipart * d < l.length then some (l.modify (ipart * d) fun f => fun c => f c + sing.getD ipart 0 c)
      else none) (some l0) = none := by
    intro n l0 ⟨i, hi, hil⟩
    have key : ∀ (m : ℕ), (List.range m).foldl (fun (acc : Option (List (Pos d ℝ))) ipart => acc.bind fun l =>
      if ipart * d < l.length then some (l.modify (ipart * d) fun f => fun c => f c + sing.getD ipart 0 c)
      else none) (some l0) = none ∨ (m ≤ i ∧ ∃ l, l.length = l0.length ∧
      (List.range m).foldl (fun (acc : Option (List (Pos d ℝ))) ipart => acc.bind fun l =>
      if ipart * d < l.length then some (l.modify (ipart * d) fun f => fun c => f c + sing.getD ipart 0 c)
      else none) (some l0) = some l) := by
      intro m
      induction m with
      | zero => exact Or.inr ⟨Nat.zero_le _, l0, rfl, rfl⟩
      | succ m ih =>
        rw [List.range_succ, List.foldl_append]
        rcases ih with h | ⟨hm, l, hl, h⟩
        · left; rw [h]; exact hnone [m]
        · rw [h]
          by_cases hc : m * d < l.length
          · right
            refine ⟨?_, l.modify (m * d) fun f => fun c => f c + sing.getD m 0 c, ?_, ?_⟩
            · rw [hl] at hc
              have : m ≠ i := by rintro rfl; omega
              omega
            · rw [List.length_modify, hl]
            · simp only [List.foldl_cons, List.foldl_nil, Option.bind_some, if_pos hc]
          · left
            simp only [List.foldl_cons, List.foldl_nil, Option.bind_some, if_neg hc]
    rcases key n with h | ⟨hn, -⟩
    · exact h
    · omega
  unfold addSingForces
  refine hlast _ _ ⟨sing.length - 1, by omega, ?_⟩
  rw [hl]
  obtain ⟨n, hn⟩ : ∃ n, sing.length = n + 2 := ⟨sing.length - 2, by omega⟩
  rw [hn]
  have : (n + 2 - 1) * 2 ≤ (n + 2 - 1) * d := Nat.mul_le_mul_left _ hd
  omega

/-- C53, exact: in dimension at least two the loop stays inside the array of forces if and only if there
is at most one particle, and then the singular force is added to the force of the particle. -/
theorem C53_exact (hd : 2 ≤ d) (forces sing : List (Pos d ℝ)) (hl : forces.length = sing.length) :
    ((addSingForces forces sing).isSome ↔ sing.length ≤ 1) ∧
    (sing.length ≤ 1 → addSingForces forces sing = some (List.zipWith (· + ·) forces sing)) := by
  have h1 : sing.length ≤ 1 → addSingForces forces sing = some (List.zipWith (· + ·) forces sing) := by
    intro h
    match forces, sing, hl with
    | [], [], _ => rfl
    | [f], [s], _ =>
      simp [addSingForces, List.range_succ]
      rfl
    | _ :: _ :: _, [], hl => simp at hl
    | [], _ :: _, hl => simp at hl
    | _, _ :: _ :: _, hl => simp at h
    | _ :: _ :: _, [_], hl => simp at hl
    | [_], [], hl => simp at hl
  refine ⟨⟨fun h => ?_, fun h => ?_⟩, h1⟩
  · by_contra hc
    rw [C53_refuted hd forces sing hl (by omega)] at h
    simp at h
  · rw [h1 h]; rfl

example : addSingForces [(![1, 2] : Pos 2 ℝ), ![3, 4]] [![1, 1], ![1, 1]] = none :=
  C53_refuted le_rfl _ _ rfl le_rfl

end Cafes.Particle
