import Verif.Spec.Crs
import Verif.Spec.Equation
import Verif.Spec.Opening
import Verif.Model.Prove
import Verif.Model.Verify
import Mathlib.Algebra.Field.ZMod
import Mathlib.Tactic.NormNum.Prime
import Mathlib.Algebra.Algebra.Bilinear

/-!
# A concrete small bilinear group

Used only to show that the hypotheses of the theorems can be met: the field and the three groups are
the integers modulo 7 and the pairing is multiplication.
-/

namespace GS.Ex

abbrev K := ZMod 7

instance : Fact (Nat.Prime 7) := ⟨by norm_num⟩

/-- The pairing of the example. -/
def e7 : K →ₗ[K] K →ₗ[K] K := LinearMap.mul K K

theorem e7_apply (x y : K) : e7 x y = x * y := rfl

theorem prime7 : PrimeGroups e7 where
  cyclic1 g hg x := ⟨x / g, by simp [div_mul_cancel₀ _ hg]⟩
  cyclic2 g hg x := ⟨x / g, by simp [div_mul_cancel₀ _ hg]⟩
  nondeg x y h := by simpa [e7_apply] using h

/-- A counter as random number generator. -/
instance : Rng Nat K K K where
  randF s := (s, s + 1)
  randG1 s := (s, s + 1)
  randG2 s := (s, s + 1)

/-- A generated CRS: generators 1 and 2, a1 = 3, a2 = 4, t1 = 5, t2 = 6. -/
def crs7 : CRS K K K := (generateCrs e7 (1 : Nat)).1

theorem crs7_generated : GeneratedCrs e7 crs7 := ⟨Nat, _, 1, rfl⟩
theorem crs7_nonzero : crs7.NonzeroGens := by constructor <;> decide

/-- A simulated CRS. -/
def sim7 : CRS K K K := assembleCrs e7 prepareSimulatedHidingKey 1 2 3 4 5 6

theorem sim7_simulated : SimulatedCrs e7 sim7 := ⟨1, 2, 3, 4, 5, 6, rfl⟩
theorem sim7_nonzero : sim7.NonzeroGens := by constructor <;> decide

/-- One `x` variable, two `y` variables; satisfied by `x = [2]`, `y = [3, 4]` and by
`x = [0]`, `y = [1, 0]`, not by `x = [0]`, `y = [0, 0]`. -/
def ppe7 : PPE K K K K := ⟨[1, 2], [5], [[1, 2]], 1⟩
def msm1_7 : MSMEG1 K K := ⟨[1, 2], [5], [[1, 2]], 1⟩
def msm2_7 : MSMEG2 K K := ⟨[1, 2], [5], [[1, 2]], 1⟩
def quad7 : QuadEqu K := ⟨[1, 2], [5], [[1, 2]], 1⟩

theorem ppe7_dims : ppe7.Dims 1 2 := by constructor <;> simp [ppe7]
theorem msm1_7_dims : msm1_7.Dims 1 2 := by constructor <;> simp [msm1_7]
theorem msm2_7_dims : msm2_7.Dims 1 2 := by constructor <;> simp [msm2_7]
theorem quad7_dims : quad7.Dims 1 2 := by constructor <;> simp [quad7]

theorem ppe7_holds : ppe7.Holds e7 [2] [3, 4] := by unfold PPE.Holds; decide
theorem msm1_7_holds : msm1_7.Holds [2] [3, 4] := by unfold MSMEG1.Holds; decide
theorem msm2_7_holds : msm2_7.Holds [2] [3, 4] := by unfold MSMEG2.Holds; decide
theorem quad7_holds : quad7.Holds [2] [3, 4] := by unfold QuadEqu.Holds; decide

theorem ppe7_holds' : ppe7.Holds e7 [0] [1, 0] := by unfold PPE.Holds; decide
theorem msm1_7_holds' : msm1_7.Holds [0] [1, 0] := by unfold MSMEG1.Holds; decide
theorem msm2_7_holds' : msm2_7.Holds [0] [1, 0] := by unfold MSMEG2.Holds; decide
theorem quad7_holds' : quad7.Holds [0] [1, 0] := by unfold QuadEqu.Holds; decide

theorem ppe7_fails : ¬ ppe7.Holds e7 [0] [0, 0] := by unfold PPE.Holds; decide
theorem msm1_7_fails : ¬ msm1_7.Holds [0] [0, 0] := by unfold MSMEG1.Holds; decide
theorem msm2_7_fails : ¬ msm2_7.Holds [0] [0, 0] := by unfold MSMEG2.Holds; decide
theorem quad7_fails : ¬ quad7.Holds [0] [0, 0] := by unfold QuadEqu.Holds; decide

/-! What the prover makes with `crs7` and the counter at 1 for the values `[2]` and `[3, 4]`. -/

def ppe7_msg : CProof K K K :=
  ⟨⟨[⟨4, 0⟩], [[1, 2]]⟩, ⟨[⟨5, 2⟩, ⟨5, 3⟩], [[3, 4], [5, 6]]⟩, [⟨[⟨5, 1⟩, ⟨6, 0⟩], [⟨5, 5⟩, ⟨3, 1⟩], .PairingProduct, [[0, 1], [2, 3]]⟩]⟩
def msm1_7_msg : CProof K K K :=
  ⟨⟨[⟨4, 0⟩], [[1, 2]]⟩, ⟨[⟨0, 6⟩, ⟨0, 1⟩], [[3], [4]]⟩, [⟨[⟨1, 1⟩, ⟨3, 6⟩], [⟨0, 5⟩], .MultiScalarG1, [[5, 6]]⟩]⟩
def msm2_7_msg : CProof K K K :=
  ⟨⟨[⟨4, 0⟩], [[1]]⟩, ⟨[⟨5, 2⟩, ⟨5, 3⟩], [[2, 3], [4, 5]]⟩, [⟨[⟨3, 0⟩], [⟨2, 1⟩, ⟨6, 1⟩], .MultiScalarG2, [[6], [0]]⟩]⟩
def quad7_msg : CProof K K K :=
  ⟨⟨[⟨4, 0⟩], [[1]]⟩, ⟨[⟨5, 5⟩, ⟨5, 0⟩], [[2], [3]]⟩, [⟨[⟨4, 6⟩], [⟨5, 4⟩], .Quadratic, [[4]]⟩]⟩

theorem ppe7_made : ppe7.commitAndProve (fun _ => seqSched) [2] [3, 4] crs7 (1 : Nat) = .ok (ppe7_msg, 11) := rfl
theorem msm1_7_made : msm1_7.commitAndProve (fun _ => seqSched) [2] [3, 4] crs7 (1 : Nat) = .ok (msm1_7_msg, 7) := rfl
theorem msm2_7_made : msm2_7.commitAndProve (fun _ => seqSched) [2] [3, 4] crs7 (1 : Nat) = .ok (msm2_7_msg, 8) := rfl
theorem quad7_made : quad7.commitAndProve (fun _ => seqSched) [2] [3, 4] crs7 (1 : Nat) = .ok (quad7_msg, 5) := rfl

theorem ppe7_accepted : ppe7.verify e7 seqSched ppe7_msg crs7 = .ok true := by decide
theorem msm1_7_accepted : msm1_7.verify e7 seqSched msm1_7_msg crs7 = .ok true := by decide
theorem msm2_7_accepted : msm2_7.verify e7 seqSched msm2_7_msg crs7 = .ok true := by decide
theorem quad7_accepted : quad7.verify e7 seqSched quad7_msg crs7 = .ok true := by decide

theorem ppe7_xopens : ppe7_msg.xcoms.OpensGroup crs7.u [2] := ⟨_, _, [], rfl, [(1, 2)], rfl, rfl, rfl⟩
theorem ppe7_yopens : ppe7_msg.ycoms.OpensGroup crs7.v [3, 4] := ⟨_, _, [], rfl, [(3, 4), (5, 6)], rfl, rfl, rfl⟩
theorem msm1_7_xopens : msm1_7_msg.xcoms.OpensGroup crs7.u [2] := ⟨_, _, [], rfl, [(1, 2)], rfl, rfl, rfl⟩
theorem msm1_7_yopens : msm1_7_msg.ycoms.OpensScalar crs7.v crs7.g2_gen [3, 4] := ⟨_, _, [], rfl, [3, 4], rfl, rfl, rfl⟩
theorem msm2_7_xopens : msm2_7_msg.xcoms.OpensScalar crs7.u crs7.g1_gen [2] := ⟨_, _, [], rfl, [1], rfl, rfl, rfl⟩
theorem msm2_7_yopens : msm2_7_msg.ycoms.OpensGroup crs7.v [3, 4] := ⟨_, _, [], rfl, [(2, 3), (4, 5)], rfl, rfl, rfl⟩
theorem quad7_xopens : quad7_msg.xcoms.OpensScalar crs7.u crs7.g1_gen [2] := ⟨_, _, [], rfl, [1], rfl, rfl, rfl⟩
theorem quad7_yopens : quad7_msg.ycoms.OpensScalar crs7.v crs7.g2_gen [3, 4] := ⟨_, _, [], rfl, [2, 3], rfl, rfl, rfl⟩

end GS.Ex
