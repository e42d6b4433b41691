/-
Which circuit inputs are public: the struct tags of the circuits of /repo, and gnark's `witness.Public()`
(called at /repo/main.go:238 and /repo/kyc_test.go:96).
-/
import Verif.Model.Define
import Verif.Model.Kyc

namespace Verif

/-- The visibility of an input: `gnark:",public"`, or secret, which is the default.
/repo/circuit.go:18, /repo/aggregator_lib_circuit.go:609. -/
inductive Visibility where
  | pub
  | sec
deriving DecidableEq

/-- The 4 limbs of 64 bits of an `emulated.Element[emulated.Secp256k1Fr]`; all secret, /repo/kyc.go:27-28. -/
def limbs (n : ℕ) : List Var := (List.range 4).map fun i => .big (n / 2 ^ (64 * i) % 2 ^ 64 : ℕ)

/-- The inputs of `AggregatorCircuit` with their visibility, in the order of the fields, /repo/circuit.go:14-19. -/
def AggregatorCircuit.leaves (c : AggregatorCircuit) : List (Visibility × Var) :=
  c.Proof.map (Prod.mk .sec) ++ c.VerifyInst.map (Prod.mk .sec) ++ c.Aux.map (Prod.mk .sec) ++ c.TargetInst.map (Prod.mk .pub)

/-- The fields of `Conditions`, /repo/kyc.go:12-17, in order. -/
def Conditions.fields (d : Conditions) : List Var := d.ageMin :: d.ageMax :: (d.country ++ d.level ++ d.time)

/-- The inputs of `Circuit` with their visibility, in the order of the fields, /repo/kyc.go:26-31. The tag of
`ConditionHash` applies to all fields of `Conditions`. -/
def KycCircuit.leaves (c : KycCircuit) : List (Visibility × Var) :=
  (limbs c.sigR ++ limbs c.sigS ++ limbs c.kycHash ++ [c.kyc.age, c.kyc.country, c.kyc.level, c.kyc.time]).map (Prod.mk .sec) ++
    c.conditionHash.fields.map (Prod.mk .pub)

/-- `witness.Public()`: the values of the public inputs, modulo r, in order. This and the constraint system are all that the
verifier of the outer proof works with (/repo/main.go:238-242, /repo/kyc_test.go:96-100). -/
def publicWitness (l : List (Visibility × Var)) : List Fr := (l.filter fun p => p.1 = .pub).map fun p => p.2.fr

/-- The values of the secret inputs, modulo r, in order. They follow the public ones in the witness, /repo/main.go:220,
/repo/kyc_test.go:78. -/
def secretWitness (l : List (Visibility × Var)) : List Fr := (l.filter fun p => p.1 = .sec).map fun p => p.2.fr

/-- Has the input a value? The placeholders of /repo/main.go:173-178 have none before the assignments of /repo/main.go:199-218. -/
def Var.assigned : Var → Bool
  | .nil => false
  | _ => true

/-- `frontend.NewWitness`, called at /repo/main.go:220 and /repo/kyc_test.go:78: an error if an input has no value, otherwise the
values modulo r, the public inputs first. -/
def newWitness (l : List (Visibility × Var)) : Option (List Fr) :=
  if l.all fun p => p.2.assigned then some (publicWitness l ++ secretWitness l) else none

/-- The number of an `emulated.Element` whose 4 limbs are the witness entries from `o` on, /repo/kyc.go:27-28. -/
def ofLimbs (w : List Fr) (o : ℕ) : ℕ := ((List.range 4).map fun i => (w.getD (o + i) 0).val * 2 ^ (64 * i)).sum

/-- The KYC circuit that the prover solves (`plonk.Prove`, /repo/kyc_test.go:86): the inputs of the compiled circuit, with `nc`
countries, `nl` levels and `nt` times, are the entries of the witness in order, /repo/kyc.go:12-31. -/
def KycCircuit.ofWitness (nc nl nt : ℕ) (w : List Fr) : KycCircuit :=
  let p := 2 + (nc + nl + nt)
  let v (i : ℕ) : Var := .wire (w.getD i 0)
  { sigR := ofLimbs w p, sigS := ofLimbs w (p + 4), kycHash := ofLimbs w (p + 8),
    kyc := ⟨v (p + 12), v (p + 13), v (p + 14), v (p + 15)⟩,
    conditionHash := ⟨v 0, v 1, (List.range nc).map fun i => v (2 + i), (List.range nl).map fun i => v (2 + nc + i),
      (List.range nt).map fun i => v (2 + nc + nl + i)⟩ }

end Verif
