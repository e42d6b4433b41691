/-
A reader and a meaning for the text of `AggregatorCircuit.Define`, /repo/circuit.go:21-125, to check the hand-written
definition of Verif/Model/Define against the source (theorems in Verif/Props/SourceDefine).
-/
import Verif.Model.EccText
import Verif.Model.Define

namespace Verif.Go

/-- The two instance lists of the circuit. /repo/circuit.go:29-37. -/
inductive Inst where
  | target | verify
deriving DecidableEq

/-- Statements. /repo/circuit.go:22-124. -/
inductive DefStmt where
  /-- `buf := [n]frontend.Variable{}` -/
  | array (n : ℕ)
  /-- `for i := 0; i < n; i++ { buf[i] = new(big.Int).SetUint64(z) }` -/
  | fill (n z : ℕ)
  /-- `var bufLen = n` -/
  | bufLen (n : ℕ)
  /-- `for i := 0; i < len(circuit.TargetInst); i++ { buf[bufLen] = circuit.TargetInst[i]; bufLen++ }`, or the same with `VerifyInst` -/
  | copy (f : Inst)
  /-- `hashValBig, err := VerifyInstanceHash(api, buf[:bufLen])` -/
  | hash
  /-- `if err != nil { return err }`, with or without logging -/
  | ifErr
  /-- `hashMod := mod(api, hashValBig)` -/
  | modHash
  /-- `buf[k] = hashMod` -/
  | putHash (k : ℕ)
  /-- `err = CalcVerifyCircuitLagrange(api, buf[:])` -/
  | lagrange
  /-- `err = GetChallengesShPlonkCircuit(api, buf[:], circuit.Proof)` -/
  | challenges
  /-- `buf, err = VerifyProof1(api, circuit.Proof, circuit.Aux, buf)`, or 2, or 3 -/
  | step (j : ℕ)
  /-- `err = VerifyNotZero(api, buf[k])` -/
  | notZero (k : ℕ)
  /-- `witnessCircuit := BN256PairingCircuit{}` -/
  | newPairing
  /-- `witnessCircuit.FillVerifyCircuitsG1(buf[a], buf[b], buf[c], buf[d],)` -/
  | fillG1 (a b c d : ℕ)
  /-- `witnessCircuit.FillVerifyCircuitsG2()` -/
  | fillG2
  /-- `err = VerifyBN256Pairing(api, witnessCircuit.G1Points[:], witnessCircuit.G2Points[:])` -/
  | pairing
  /-- `return err` -/
  | retErr
deriving DecidableEq

/-! ### Meaning -/

/-- The local variables. /repo/circuit.go:22-117. -/
structure DefState where
  buf : List Var
  bufLen : ℕ
  hashValBig : Var
  hashMod : Var
  err : GoErr
  witness : BN256PairingCircuit

/-- A field of the circuit. /repo/circuit.go:14-19. -/
def Inst.get (c : AggregatorCircuit) : Inst → List Var
  | .target => c.TargetInst
  | .verify => c.VerifyInst

/-- `for i := i₀; i < n; i++ { buf[i] = z }`, with `k = n - i₀` rounds to go. /repo/circuit.go:23-25. -/
def fillLoop (z : Var) : ℕ → ℕ → List Var → Circ (List Var)
  | 0, _, buf => pure buf
  | k + 1, i, buf => do
    let buf ← setIdx buf i z
    fillLoop z k (i + 1) buf

/-- `for i := i₀; i < len(f); i++ { buf[bufLen] = f[i]; bufLen++ }`, with `k = len(f) - i₀` rounds to go.
/repo/circuit.go:29-37. -/
def copyLoop (f : List Var) : ℕ → ℕ → List Var → ℕ → Circ (List Var × ℕ)
  | 0, _, buf, n => pure (buf, n)
  | k + 1, i, buf, n => do
    let v ← idx f i
    let buf ← setIdx buf n v
    copyLoop f k (i + 1) buf (n + 1)

/-- The body of the function. Simplification: `buf[:bufLen]` is `take`, since `bufLen` exceeds the length of the array only
after an index panic. Logging is dropped. /repo/circuit.go:22-124. -/
def runDef (X : Ext) (c : AggregatorCircuit) : List DefStmt → DefState → Circ GoErr
  | [], _ => Circ.panic "missing return"
  | .array n :: l, st => runDef X c l { st with buf := List.replicate n .nil }
  | .fill n z :: l, st => do
    let buf ← fillLoop (.big z) n 0 st.buf
    runDef X c l { st with buf := buf }
  | .bufLen n :: l, st => runDef X c l { st with bufLen := n }
  | .copy f :: l, st => do
    let (buf, n) ← copyLoop (f.get c) (f.get c).length 0 st.buf st.bufLen
    runDef X c l { st with buf := buf, bufLen := n }
  | .hash :: l, st => do
    let (h, err) ← VerifyInstanceHash X (st.buf.take st.bufLen)
    runDef X c l { st with hashValBig := h, err := err }
  | .ifErr :: l, st => match st.err with
    | some m => pure (some m)
    | none => runDef X c l st
  | .modHash :: l, st => do
    let h ← Verif.mod st.hashValBig
    runDef X c l { st with hashMod := h }
  | .putHash k :: l, st => do
    let buf ← setIdx st.buf k st.hashMod
    runDef X c l { st with buf := buf }
  | .lagrange :: l, st => do
    let (err, buf) ← CalcVerifyCircuitLagrange X st.buf
    runDef X c l { st with buf := buf, err := err }
  | .challenges :: l, st => do
    let (err, buf) ← GetChallengesShPlonkCircuit X st.buf c.Proof
    runDef X c l { st with buf := buf, err := err }
  | .step j :: l, st => do
    let (buf, err) ← match j with
      | 1 => VerifyProof1 X c.Proof c.Aux st.buf
      | 2 => VerifyProof2 X c.Proof c.Aux st.buf
      | 3 => VerifyProof3 X c.Proof c.Aux st.buf
      | _ => Circ.panic "no such function"
    runDef X c l { st with buf := buf, err := err }
  | .notZero k :: l, st => do
    let v ← idx st.buf k
    let err ← VerifyNotZero v
    runDef X c l { st with err := err }
  | .newPairing :: l, st => runDef X c l { st with witness := ⟨[], []⟩ }
  | .fillG1 i j k m :: l, st => do
    let x ← idx st.buf i
    let y ← idx st.buf j
    let z ← idx st.buf k
    let w ← idx st.buf m
    let p ← FillVerifyCircuitsG1 st.witness x y z w
    runDef X c l { st with witness := p }
  | .fillG2 :: l, st => do
    let p ← FillVerifyCircuitsG2 st.witness
    runDef X c l { st with witness := p }
  | .pairing :: l, st => do
    let err ← VerifyBN256Pairing X st.witness.g1Points st.witness.g2Points
    runDef X c l { st with err := err }
  | .retErr :: _, st => pure st.err

/-! ### Reading -/

/-- `for i := 0; i < len(circuit.TargetInst); i++ { buf[bufLen] = circuit.TargetInst[i] bufLen++ }`. /repo/circuit.go:29-32. -/
def dCopyT : List Tok :=
  [.id ['f', 'o', 'r'], .id ['i'], .sym ':', .sym '=', .num 0, .sym ';', .id ['i'], .sym '<', .id ['l', 'e', 'n'],
   .sym '(', .id ['c', 'i', 'r', 'c', 'u', 'i', 't'], .sym '.', .id ['T', 'a', 'r', 'g', 'e', 't', 'I', 'n', 's', 't'],
   .sym ')', .sym ';', .id ['i'], .sym '+', .sym '+', .sym '{', .id ['b', 'u', 'f'], .sym '[',
   .id ['b', 'u', 'f', 'L', 'e', 'n'], .sym ']', .sym '=', .id ['c', 'i', 'r', 'c', 'u', 'i', 't'], .sym '.',
   .id ['T', 'a', 'r', 'g', 'e', 't', 'I', 'n', 's', 't'], .sym '[', .id ['i'], .sym ']',
   .id ['b', 'u', 'f', 'L', 'e', 'n'], .sym '+', .sym '+', .sym '}']

/-- `for i := 0; i < len(circuit.VerifyInst); i++ { buf[bufLen] = circuit.VerifyInst[i] bufLen++ }`. /repo/circuit.go:34-37. -/
def dCopyV : List Tok :=
  [.id ['f', 'o', 'r'], .id ['i'], .sym ':', .sym '=', .num 0, .sym ';', .id ['i'], .sym '<', .id ['l', 'e', 'n'],
   .sym '(', .id ['c', 'i', 'r', 'c', 'u', 'i', 't'], .sym '.', .id ['V', 'e', 'r', 'i', 'f', 'y', 'I', 'n', 's', 't'],
   .sym ')', .sym ';', .id ['i'], .sym '+', .sym '+', .sym '{', .id ['b', 'u', 'f'], .sym '[',
   .id ['b', 'u', 'f', 'L', 'e', 'n'], .sym ']', .sym '=', .id ['c', 'i', 'r', 'c', 'u', 'i', 't'], .sym '.',
   .id ['V', 'e', 'r', 'i', 'f', 'y', 'I', 'n', 's', 't'], .sym '[', .id ['i'], .sym ']',
   .id ['b', 'u', 'f', 'L', 'e', 'n'], .sym '+', .sym '+', .sym '}']

/-- `hashValBig, err := VerifyInstanceHash(api, buf[:bufLen])`. /repo/circuit.go:61. -/
def dHash : List Tok :=
  [.id ['h', 'a', 's', 'h', 'V', 'a', 'l', 'B', 'i', 'g'], .sym ',', .id ['e', 'r', 'r'], .sym ':', .sym '=',
   .id ['V', 'e', 'r', 'i', 'f', 'y', 'I', 'n', 's', 't', 'a', 'n', 'c', 'e', 'H', 'a', 's', 'h'], .sym '(',
   .id ['a', 'p', 'i'], .sym ',', .id ['b', 'u', 'f'], .sym '[', .sym ':', .id ['b', 'u', 'f', 'L', 'e', 'n'],
   .sym ']', .sym ')']

/-- `if err != nil { log.Println(err) return err }`. /repo/circuit.go:62-65. -/
def dIfErrLog : List Tok :=
  [.id ['i', 'f'], .id ['e', 'r', 'r'], .sym '!', .sym '=', .id ['n', 'i', 'l'], .sym '{', .id ['l', 'o', 'g'],
   .sym '.', .id ['P', 'r', 'i', 'n', 't', 'l', 'n'], .sym '(', .id ['e', 'r', 'r'], .sym ')',
   .id ['r', 'e', 't', 'u', 'r', 'n'], .id ['e', 'r', 'r'], .sym '}']

/-- `hashMod := mod(api, hashValBig)`. /repo/circuit.go:69. -/
def dMod : List Tok :=
  [.id ['h', 'a', 's', 'h', 'M', 'o', 'd'], .sym ':', .sym '=', .id ['m', 'o', 'd'], .sym '(', .id ['a', 'p', 'i'],
   .sym ',', .id ['h', 'a', 's', 'h', 'V', 'a', 'l', 'B', 'i', 'g'], .sym ')']

/-- `err = CalcVerifyCircuitLagrange(api, buf[:])`. /repo/circuit.go:73. -/
def dLagrange : List Tok :=
  [.id ['e', 'r', 'r'], .sym '=',
   .id ['C', 'a', 'l', 'c', 'V', 'e', 'r', 'i', 'f', 'y', 'C', 'i', 'r', 'c', 'u', 'i', 't', 'L', 'a', 'g', 'r', 'a', 'n', 'g', 'e'],
   .sym '(', .id ['a', 'p', 'i'], .sym ',', .id ['b', 'u', 'f'], .sym '[', .sym ':', .sym ']', .sym ')']

/-- `err = GetChallengesShPlonkCircuit(api, buf[:], circuit.Proof)`. /repo/circuit.go:80. -/
def dChallenges : List Tok :=
  [.id ['e', 'r', 'r'], .sym '=',
   .id ['G', 'e', 't', 'C', 'h', 'a', 'l', 'l', 'e', 'n', 'g', 'e', 's', 'S', 'h', 'P', 'l', 'o', 'n', 'k', 'C', 'i', 'r', 'c', 'u', 'i', 't'],
   .sym '(', .id ['a', 'p', 'i'], .sym ',', .id ['b', 'u', 'f'], .sym '[', .sym ':', .sym ']', .sym ',',
   .id ['c', 'i', 'r', 'c', 'u', 'i', 't'], .sym '.', .id ['P', 'r', 'o', 'o', 'f'], .sym ')']

/-- `buf, err = VerifyProof1(api, circuit.Proof, circuit.Aux, buf)`. /repo/circuit.go:86. -/
def dStep1 : List Tok :=
  [.id ['b', 'u', 'f'], .sym ',', .id ['e', 'r', 'r'], .sym '=',
   .id ['V', 'e', 'r', 'i', 'f', 'y', 'P', 'r', 'o', 'o', 'f', '1'], .sym '(', .id ['a', 'p', 'i'], .sym ',',
   .id ['c', 'i', 'r', 'c', 'u', 'i', 't'], .sym '.', .id ['P', 'r', 'o', 'o', 'f'], .sym ',',
   .id ['c', 'i', 'r', 'c', 'u', 'i', 't'], .sym '.', .id ['A', 'u', 'x'], .sym ',', .id ['b', 'u', 'f'], .sym ')']

/-- `buf, err = VerifyProof2(api, circuit.Proof, circuit.Aux, buf)`. /repo/circuit.go:91. -/
def dStep2 : List Tok :=
  [.id ['b', 'u', 'f'], .sym ',', .id ['e', 'r', 'r'], .sym '=',
   .id ['V', 'e', 'r', 'i', 'f', 'y', 'P', 'r', 'o', 'o', 'f', '2'], .sym '(', .id ['a', 'p', 'i'], .sym ',',
   .id ['c', 'i', 'r', 'c', 'u', 'i', 't'], .sym '.', .id ['P', 'r', 'o', 'o', 'f'], .sym ',',
   .id ['c', 'i', 'r', 'c', 'u', 'i', 't'], .sym '.', .id ['A', 'u', 'x'], .sym ',', .id ['b', 'u', 'f'], .sym ')']

/-- `buf, err = VerifyProof3(api, circuit.Proof, circuit.Aux, buf)`. /repo/circuit.go:96. -/
def dStep3 : List Tok :=
  [.id ['b', 'u', 'f'], .sym ',', .id ['e', 'r', 'r'], .sym '=',
   .id ['V', 'e', 'r', 'i', 'f', 'y', 'P', 'r', 'o', 'o', 'f', '3'], .sym '(', .id ['a', 'p', 'i'], .sym ',',
   .id ['c', 'i', 'r', 'c', 'u', 'i', 't'], .sym '.', .id ['P', 'r', 'o', 'o', 'f'], .sym ',',
   .id ['c', 'i', 'r', 'c', 'u', 'i', 't'], .sym '.', .id ['A', 'u', 'x'], .sym ',', .id ['b', 'u', 'f'], .sym ')']

/-- `witnessCircuit := BN256PairingCircuit{}`. /repo/circuit.go:118. -/
def dPairingNew : List Tok :=
  [.id ['w', 'i', 't', 'n', 'e', 's', 's', 'C', 'i', 'r', 'c', 'u', 'i', 't'], .sym ':', .sym '=',
   .id ['B', 'N', '2', '5', '6', 'P', 'a', 'i', 'r', 'i', 'n', 'g', 'C', 'i', 'r', 'c', 'u', 'i', 't'], .sym '{',
   .sym '}']

/-- `witnessCircuit.FillVerifyCircuitsG2()`. /repo/circuit.go:122. -/
def dG2 : List Tok :=
  [.id ['w', 'i', 't', 'n', 'e', 's', 's', 'C', 'i', 'r', 'c', 'u', 'i', 't'], .sym '.',
   .id ['F', 'i', 'l', 'l', 'V', 'e', 'r', 'i', 'f', 'y', 'C', 'i', 'r', 'c', 'u', 'i', 't', 's', 'G', '2'], .sym '(',
   .sym ')']

/-- `err = VerifyBN256Pairing(api, witnessCircuit.G1Points[:], witnessCircuit.G2Points[:])`. /repo/circuit.go:123. -/
def dPairing : List Tok :=
  [.id ['e', 'r', 'r'], .sym '=',
   .id ['V', 'e', 'r', 'i', 'f', 'y', 'B', 'N', '2', '5', '6', 'P', 'a', 'i', 'r', 'i', 'n', 'g'], .sym '(',
   .id ['a', 'p', 'i'], .sym ',', .id ['w', 'i', 't', 'n', 'e', 's', 's', 'C', 'i', 'r', 'c', 'u', 'i', 't'], .sym '.',
   .id ['G', '1', 'P', 'o', 'i', 'n', 't', 's'], .sym '[', .sym ':', .sym ']', .sym ',',
   .id ['w', 'i', 't', 'n', 'e', 's', 's', 'C', 'i', 'r', 'c', 'u', 'i', 't'], .sym '.',
   .id ['G', '2', 'P', 'o', 'i', 'n', 't', 's'], .sym '[', .sym ':', .sym ']', .sym ')']

/-- `buf := [`. /repo/circuit.go:22. -/
def dArray : List Tok :=
  [.id ['b', 'u', 'f'], .sym ':', .sym '=', .sym '[']

/-- `]frontend.Variable{}`. /repo/circuit.go:22. -/
def dArrayEnd : List Tok :=
  [.sym ']', .id ['f', 'r', 'o', 'n', 't', 'e', 'n', 'd'], .sym '.', .id ['V', 'a', 'r', 'i', 'a', 'b', 'l', 'e'],
   .sym '{', .sym '}']

/-- `; i++ { buf[i] = new(big.Int).SetUint64(`. /repo/circuit.go:23-24. -/
def dFill : List Tok :=
  [.sym ';', .id ['i'], .sym '+', .sym '+', .sym '{', .id ['b', 'u', 'f'], .sym '[', .id ['i'], .sym ']', .sym '=',
   .id ['n', 'e', 'w'], .sym '(', .id ['b', 'i', 'g'], .sym '.', .id ['I', 'n', 't'], .sym ')', .sym '.',
   .id ['S', 'e', 't', 'U', 'i', 'n', 't', '6', '4'], .sym '(']

/-- `var bufLen =`. /repo/circuit.go:28. -/
def dLen : List Tok :=
  [.id ['v', 'a', 'r'], .id ['b', 'u', 'f', 'L', 'e', 'n'], .sym '=']

/-- `err = VerifyNotZero(api, buf[`. /repo/circuit.go:101, 105, 109, 113. -/
def dNotZero : List Tok :=
  [.id ['e', 'r', 'r'], .sym '=', .id ['V', 'e', 'r', 'i', 'f', 'y', 'N', 'o', 't', 'Z', 'e', 'r', 'o'], .sym '(',
   .id ['a', 'p', 'i'], .sym ',', .id ['b', 'u', 'f'], .sym '[']

/-- `witnessCircuit.FillVerifyCircuitsG1(buf[`. /repo/circuit.go:119-120. -/
def dG1 : List Tok :=
  [.id ['w', 'i', 't', 'n', 'e', 's', 's', 'C', 'i', 'r', 'c', 'u', 'i', 't'], .sym '.',
   .id ['F', 'i', 'l', 'l', 'V', 'e', 'r', 'i', 'f', 'y', 'C', 'i', 'r', 'c', 'u', 'i', 't', 's', 'G', '1'], .sym '(',
   .id ['b', 'u', 'f'], .sym '[']

/-- `], buf[`. /repo/circuit.go:78, 120. -/
def dNext : List Tok :=
  [.sym ']', .sym ',', .id ['b', 'u', 'f'], .sym '[']

/-- `buf[`. For the text of /repo/circuit.go:22-124. -/
def dBuf : List Tok :=
  [.id ['b', 'u', 'f'], .sym '[']

/-- `] = hashMod`. /repo/circuit.go:71. -/
def dPut : List Tok :=
  [.sym ']', .sym '=', .id ['h', 'a', 's', 'h', 'M', 'o', 'd']]

/-- `log.Println(`. /repo/circuit.go:63, 70, 78. -/
def dLog : List Tok :=
  [.id ['l', 'o', 'g'], .sym '.', .id ['P', 'r', 'i', 'n', 't', 'l', 'n'], .sym '(']

/-- `func (circuit *AggregatorCircuit) Define(api frontend.API) error {`. /repo/circuit.go:21. -/
def dHead : List Tok :=
  [.id ['f', 'u', 'n', 'c'], .sym '(', .id ['c', 'i', 'r', 'c', 'u', 'i', 't'], .sym '*',
   .id ['A', 'g', 'g', 'r', 'e', 'g', 'a', 't', 'o', 'r', 'C', 'i', 'r', 'c', 'u', 'i', 't'], .sym ')',
   .id ['D', 'e', 'f', 'i', 'n', 'e'], .sym '(', .id ['a', 'p', 'i'], .id ['f', 'r', 'o', 'n', 't', 'e', 'n', 'd'],
   .sym '.', .id ['A', 'P', 'I'], .sym ')', .id ['e', 'r', 'r', 'o', 'r'], .sym '{']

/-- The text after the first closing parenthesis. For the text of /repo/circuit.go:22-124. -/
def skipParen : List Tok → Option (List Tok)
  | [] => none
  | .sym ')' :: ts => some ts
  | _ :: ts => skipParen ts

/-- One statement that has no number in it. For the text of /repo/circuit.go:22-124. -/
def defFixed (ts : List Tok) : Option (DefStmt × List Tok) :=
  match expect dCopyT ts with
  | some ts => some (.copy .target, ts)
  | none => match expect dCopyV ts with
  | some ts => some (.copy .verify, ts)
  | none => match expect dHash ts with
  | some ts => some (.hash, ts)
  | none => match expect kIfErr ts with
  | some ts => some (.ifErr, ts)
  | none => match expect dIfErrLog ts with
  | some ts => some (.ifErr, ts)
  | none => match expect dMod ts with
  | some ts => some (.modHash, ts)
  | none => match expect dLagrange ts with
  | some ts => some (.lagrange, ts)
  | none => match expect dChallenges ts with
  | some ts => some (.challenges, ts)
  | none => match expect dStep1 ts with
  | some ts => some (.step 1, ts)
  | none => match expect dStep2 ts with
  | some ts => some (.step 2, ts)
  | none => match expect dStep3 ts with
  | some ts => some (.step 3, ts)
  | none => match expect dPairingNew ts with
  | some ts => some (.newPairing, ts)
  | none => match expect dG2 ts with
  | some ts => some (.fillG2, ts)
  | none => match expect dPairing ts with
  | some ts => some (.pairing, ts)
  | none => none

/-- One statement with numbers in it. For the text of /repo/circuit.go:22-124. -/
def defNum (ts : List Tok) : Option (DefStmt × List Tok) :=
  match expect dArray ts with
  | some (.num n :: ts) => (expect dArrayEnd ts).map fun ts => (.array n, ts)
  | some _ => none
  | none => match expect kFor ts with
  | some (.num n :: ts) => match expect dFill ts with
    | some (.num z :: ts) => (expect [.sym ')', .sym '}'] ts).map fun ts => (.fill n z, ts)
    | _ => none
  | some _ => none
  | none => match expect dLen ts with
  | some (.num n :: ts) => some (.bufLen n, ts)
  | some _ => none
  | none => match expect dNotZero ts with
  | some (.num k :: ts) => (expect [.sym ']', .sym ')'] ts).map fun ts => (.notZero k, ts)
  | some _ => none
  | none => match expect dG1 ts with
  | some (.num i :: ts) => do
    let ts ← expect dNext ts
    match ts with
    | .num j :: ts => do
      let ts ← expect dNext ts
      match ts with
      | .num k :: ts => do
        let ts ← expect dNext ts
        match ts with
        | .num m :: ts => do
          let ts ← expect [.sym ']', .sym ',', .sym ')'] ts
          return (.fillG1 i j k m, ts)
        | _ => none
      | _ => none
    | _ => none
  | some _ => none
  | none => match expect dBuf ts with
  | some (.num k :: ts) => (expect dPut ts).map fun ts => (.putHash k, ts)
  | _ => none

/-- Statements up to the final return; the first argument bounds their number. For the text of /repo/circuit.go:22-124. -/
def defBody : ℕ → List Tok → Option (List DefStmt)
  | 0, _ => none
  | k + 1, ts =>
    match expect kReturnErr ts with
    | some _ => some [.retErr]
    | none => match expect dLog ts with
    | some ts => do
      let ts ← skipParen ts
      defBody k ts
    | none => do
      let (s, ts) ← (defFixed ts).orElse fun _ => defNum ts
      let l ← defBody k ts
      return s :: l

/-- The method `Define` of `AggregatorCircuit` in a file. For the text of /repo/circuit.go:22-124. -/
def define (s : List Char) : Option (List DefStmt) := do
  let ts ← after dHead (tokens s)
  defBody 100 ts

/-- The statements of `AggregatorCircuit.Define`, /repo/circuit.go:22-124. -/
def defineProg : List DefStmt := [.array 43, .fill 43 0, .bufLen 0, .copy .target, .copy .verify, .hash, .ifErr, .modHash, .putHash 2,
  .lagrange, .ifErr, .challenges, .ifErr, .step 1, .ifErr, .step 2, .ifErr, .step 3, .ifErr,
  .notZero 10, .ifErr, .notZero 11, .ifErr, .notZero 12, .ifErr, .notZero 13, .ifErr,
  .newPairing, .fillG1 10 11 12 13, .fillG2, .pairing, .retErr]

end Verif.Go
