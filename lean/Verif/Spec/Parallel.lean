import Verif.Model.Parallel
import Verif.Spec.Petclaw
import Verif.Spec.BC

/-!
Specification of parallel runs (C64).
-/
namespace PyClaw.Spec

variable {ι K : Type*}

/-- A process of the distribution. -/
def ValidProc (D : Decomp ι) (P : Proc ι) : Prop := ∀ a, P a < D.p a

/-- Each axis is partitioned among the processes; every process has at least `g` cells along every axis. -/
structure GoodDecomp (D : Decomp ι) (n : ι → Nat) (g : Nat) : Prop where
  cells : D.n = n
  parts : ∀ a, IsPartition (n a) (D.p a) (D.cut a)
  wide : ∀ P, ValidProc D P → ∀ a, g ≤ D.size P a

/-- The local array `L` is the part of the global array `G` that process `P` owns. -/
def IsPart (D : Decomp ι) (P : Proc ι) (G L : GArr ι K) : Prop :=
  ∀ c (idx : ι → Nat), (∀ a, idx a < D.size P a) → L c idx = G c fun a => D.lo P a + idx a

/-- The same for arrays with `g` ghost cells. -/
def IsGhostedPart (D : Decomp ι) (g : Nat) (P : Proc ι) (G L : GArr ι K) : Prop :=
  ∀ c (idx : ι → Nat), (∀ a, idx a < D.size P a + 2 * g) → L c idx = G c fun a => D.lo P a + idx a

/-- `x` is the largest of the numbers in `S` and 0. -/
def IsMaxWithZero [LinearOrder K] [Zero K] (S : K → Prop) (x : K) : Prop := 0 ≤ x ∧ (∀ v, S v → v ≤ x) ∧ (x = 0 ∨ S x)

/-- What is required of a kernel for a parallel run: wherever the parts of a distributed ghosted array are updated separately,
the result on the interior cells is the part of the result for the whole array, the Courant number of the whole is the largest
of those of the parts, and the kernel stops on the whole exactly if it stops on a part. -/
structure LocalKernel [LinearOrder K] [Zero K] (kern : Kern ι K) (g numAux : Nat) : Prop where
  split : ∀ (dt : K) (n : ι → Nat) (D : Decomp ι), GoodDecomp D n g → (∀ a, 0 < n a) →
    ∀ (G : BCArrays ι K) (L : Proc ι → BCArrays ι K),
    (∀ P, ValidProc D P → IsGhostedPart D g P G.q (L P).q ∧ (0 < numAux → IsGhostedPart D g P G.aux (L P).aux)) →
    (kern dt n G = none → ∃ P, ValidProc D P ∧ kern dt (D.size P) (L P) = none) ∧
    ∀ r cfl, kern dt n G = some (r, cfl) → ∃ (rP : Proc ι → GArr ι K) (cP : Proc ι → K),
      (∀ P, ValidProc D P → kern dt (D.size P) (L P) = some (rP P, cP P) ∧
        ∀ c (idx : ι → Nat), (∀ a, idx a < D.size P a) → rP P c (fun a => idx a + g) = r c fun a => D.lo P a + idx a + g) ∧
      IsMaxWithZero (fun v => ∃ P, ValidProc D P ∧ v = cP P) cfl

/-- The processes hold together what the serial run holds: every process has the serial solver's settings and status, the serial
time and history, and its part of the serial `q` and `aux`. -/
structure Together (D : Decomp ι) (S : StepState K (GArr ι K) (GArr ι K × BCArrays ι K)) (s : ParState ι K) : Prop where
  set : ∀ P, ValidProc D P → (s P).set = S.set
  status : ∀ P, ValidProc D P → (s P).status = S.status
  t : ∀ P, ValidProc D P → (s P).sol.t = S.sol.t
  log : ∀ P, ValidProc D P → (s P).log = S.log
  q : ∀ P, ValidProc D P → IsPart D P S.sol.q (s P).sol.q
  aux : ∀ P, ValidProc D P → IsPart D P S.sol.rest.1 (s P).sol.rest.1

end PyClaw.Spec
