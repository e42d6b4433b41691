/-
A reader and a meaning for the text of `SqueezeChallenge`, /repo/aggregator_lib_circuit.go:425-453, to check the hand-written
definition of Verif/Model/Transcript against the source (theorems in Verif/Props/SourceDefine).
-/
import Verif.Model.EccText
import Verif.Model.Transcript

namespace Verif.Go

/-- Statements. /repo/aggregator_lib_circuit.go:431-452. -/
inductive SqStmt where
  /-- `qMod, _ := new(big.Int).SetString(FrModulus, 10)` -/
  | qMod
  /-- `absorbing[length] = new(big.Int).SetUint64(z)` -/
  | putLength (z : ℕ)
  /-- `var inputBytes []byte` -/
  | bytes
  /-- `for i := i₀; i < length; i++ { res := absorbing[i].(*big.Int).FillBytes(make([]byte, 32)); inputBytes = append(inputBytes, res[:]...) }` -/
  | loop (i₀ : ℕ)
  /-- `inputBytes = append(inputBytes, 0x0)` -/
  | append0
  /-- `ethHashVal := sha256.Sum256(inputBytes)` -/
  | sum
  /-- `inputCircuit := uints.NewU8Array(inputBytes)` -/
  | inputCircuit
  /-- `hashValCircuit := uints.NewU8Array(ethHashVal[:])` -/
  | hashCircuit
  /-- `err := VerifySha256(api, inputCircuit, hashValCircuit)` -/
  | verify
  /-- `if err != nil { return nil, err }` -/
  | ifErr
  /-- `ethHashBig := new(big.Int).SetBytes(ethHashVal[:])` -/
  | big
  /-- `absorbing[k] = ethHashBig` -/
  | put (k : ℕ)
  /-- `return new(big.Int).Mod(ethHashBig, qMod), nil` -/
  | ret
deriving DecidableEq

/-! ### Meaning -/

/-- The variables. /repo/aggregator_lib_circuit.go:427-448. -/
structure SqState where
  absorbing : List Var
  qMod : ℤ
  inputBytes : List UInt8
  ethHashVal : List UInt8
  inputCircuit : List Var
  hashValCircuit : List Var
  err : GoErr
  ethHashBig : ℕ

/-- The loop, with `n` rounds to go. /repo/aggregator_lib_circuit.go:435-439. -/
def sqLoop (absorbing : List Var) : ℕ → ℕ → List UInt8 → Circ (List UInt8)
  | 0, _, bs => pure bs
  | n + 1, i, bs => do
    let v ← idx absorbing i
    let x ← asBigInt v
    match fillBytes32 x with
    | none => Circ.panic "math/big: buffer too small to fit value"
    | some b => sqLoop absorbing n (i + 1) (bs ++ b)

/-- The body of the function. Simplification: `SetString` on `FrModulus` gives r, since `FrModulus` is the decimal string of r
(`source_lib`). /repo/aggregator_lib_circuit.go:431-452. -/
def runSq (X : Ext) (length : ℕ) : List SqStmt → SqState → Circ ((Var × GoErr) × List Var)
  | [], _ => Circ.panic "missing return"
  | .qMod :: l, st => runSq X length l { st with qMod := rMod }
  | .putLength z :: l, st => do
    let a ← setIdx st.absorbing length (.big z)
    runSq X length l { st with absorbing := a }
  | .bytes :: l, st => runSq X length l { st with inputBytes := [] }
  | .loop i :: l, st => do
    let b ← sqLoop st.absorbing (length - i) i st.inputBytes
    runSq X length l { st with inputBytes := b }
  | .append0 :: l, st => runSq X length l { st with inputBytes := st.inputBytes ++ [0] }
  | .sum :: l, st => runSq X length l { st with ethHashVal := X.sha256 st.inputBytes }
  | .inputCircuit :: l, st => runSq X length l { st with inputCircuit := u8Array st.inputBytes }
  | .hashCircuit :: l, st => runSq X length l { st with hashValCircuit := u8Array st.ethHashVal }
  | .verify :: l, st => do
    let err ← VerifySha256 X st.inputCircuit st.hashValCircuit
    runSq X length l { st with err := err }
  | .ifErr :: l, st => match st.err with
    | some m => pure ((.nil, some m), st.absorbing)
    | none => runSq X length l st
  | .big :: l, st => runSq X length l { st with ethHashBig := beNat st.ethHashVal }
  | .put k :: l, st => do
    let a ← setIdx st.absorbing k (.big st.ethHashBig)
    runSq X length l { st with absorbing := a }
  | .ret :: _, st => pure ((.big ((st.ethHashBig : ℤ) % st.qMod), none), st.absorbing)

/-! ### Reading -/

/-- `qMod, _ := new(big.Int).SetString(FrModulus, 10)`. /repo/aggregator_lib_circuit.go:431. -/
def qMod : List Tok :=
  [.id ['q', 'M', 'o', 'd'], .sym ',', .id ['_'], .sym ':', .sym '=', .id ['n', 'e', 'w'], .sym '(',
   .id ['b', 'i', 'g'], .sym '.', .id ['I', 'n', 't'], .sym ')', .sym '.',
   .id ['S', 'e', 't', 'S', 't', 'r', 'i', 'n', 'g'], .sym '(', .id ['F', 'r', 'M', 'o', 'd', 'u', 'l', 'u', 's'],
   .sym ',', .num 10, .sym ')']

/-- `absorbing[length] = new(big.Int).SetUint64(`. /repo/aggregator_lib_circuit.go:432. -/
def qPutLength : List Tok :=
  [.id ['a', 'b', 's', 'o', 'r', 'b', 'i', 'n', 'g'], .sym '[', .id ['l', 'e', 'n', 'g', 't', 'h'], .sym ']', .sym '=',
   .id ['n', 'e', 'w'], .sym '(', .id ['b', 'i', 'g'], .sym '.', .id ['I', 'n', 't'], .sym ')', .sym '.',
   .id ['S', 'e', 't', 'U', 'i', 'n', 't', '6', '4'], .sym '(']

/-- `var inputBytes []byte`. /repo/aggregator_lib_circuit.go:434. -/
def qBytes : List Tok :=
  [.id ['v', 'a', 'r'], .id ['i', 'n', 'p', 'u', 't', 'B', 'y', 't', 'e', 's'], .sym '[', .sym ']',
   .id ['b', 'y', 't', 'e']]

/-- `for i :=`. /repo/aggregator_lib_circuit.go:435. -/
def qFor : List Tok :=
  [.id ['f', 'o', 'r'], .id ['i'], .sym ':', .sym '=']

/-- `; i < length; i++ { res := absorbing[i].(*big.Int).FillBytes(make([]byte, 32)) inputBytes = append(inputBytes, res[:]...) }`.
/repo/aggregator_lib_circuit.go:435-439. -/
def qLoop : List Tok :=
  [.sym ';', .id ['i'], .sym '<', .id ['l', 'e', 'n', 'g', 't', 'h'], .sym ';', .id ['i'], .sym '+', .sym '+',
   .sym '{', .id ['r', 'e', 's'], .sym ':', .sym '=', .id ['a', 'b', 's', 'o', 'r', 'b', 'i', 'n', 'g'], .sym '[',
   .id ['i'], .sym ']', .sym '.', .sym '(', .sym '*', .id ['b', 'i', 'g'], .sym '.', .id ['I', 'n', 't'], .sym ')',
   .sym '.', .id ['F', 'i', 'l', 'l', 'B', 'y', 't', 'e', 's'], .sym '(', .id ['m', 'a', 'k', 'e'], .sym '(', .sym '[',
   .sym ']', .id ['b', 'y', 't', 'e'], .sym ',', .num 32, .sym ')', .sym ')',
   .id ['i', 'n', 'p', 'u', 't', 'B', 'y', 't', 'e', 's'], .sym '=', .id ['a', 'p', 'p', 'e', 'n', 'd'], .sym '(',
   .id ['i', 'n', 'p', 'u', 't', 'B', 'y', 't', 'e', 's'], .sym ',', .id ['r', 'e', 's'], .sym '[', .sym ':', .sym ']',
   .sym '.', .sym '.', .sym '.', .sym ')', .sym '}']

/-- `inputBytes = append(inputBytes,`. /repo/aggregator_lib_circuit.go:438, 440. -/
def qAppend : List Tok :=
  [.id ['i', 'n', 'p', 'u', 't', 'B', 'y', 't', 'e', 's'], .sym '=', .id ['a', 'p', 'p', 'e', 'n', 'd'], .sym '(',
   .id ['i', 'n', 'p', 'u', 't', 'B', 'y', 't', 'e', 's'], .sym ',']

/-- `ethHashVal := sha256.Sum256(inputBytes)`. /repo/aggregator_lib_circuit.go:441. -/
def qSum : List Tok :=
  [.id ['e', 't', 'h', 'H', 'a', 's', 'h', 'V', 'a', 'l'], .sym ':', .sym '=', .id ['s', 'h', 'a', '2', '5', '6'],
   .sym '.', .id ['S', 'u', 'm', '2', '5', '6'], .sym '(', .id ['i', 'n', 'p', 'u', 't', 'B', 'y', 't', 'e', 's'],
   .sym ')']

/-- `inputCircuit := uints.NewU8Array(inputBytes)`. /repo/aggregator_lib_circuit.go:443. -/
def qInput : List Tok :=
  [.id ['i', 'n', 'p', 'u', 't', 'C', 'i', 'r', 'c', 'u', 'i', 't'], .sym ':', .sym '=', .id ['u', 'i', 'n', 't', 's'],
   .sym '.', .id ['N', 'e', 'w', 'U', '8', 'A', 'r', 'r', 'a', 'y'], .sym '(',
   .id ['i', 'n', 'p', 'u', 't', 'B', 'y', 't', 'e', 's'], .sym ')']

/-- `hashValCircuit := uints.NewU8Array(ethHashVal[:])`. /repo/aggregator_lib_circuit.go:444. -/
def qHash : List Tok :=
  [.id ['h', 'a', 's', 'h', 'V', 'a', 'l', 'C', 'i', 'r', 'c', 'u', 'i', 't'], .sym ':', .sym '=',
   .id ['u', 'i', 'n', 't', 's'], .sym '.', .id ['N', 'e', 'w', 'U', '8', 'A', 'r', 'r', 'a', 'y'], .sym '(',
   .id ['e', 't', 'h', 'H', 'a', 's', 'h', 'V', 'a', 'l'], .sym '[', .sym ':', .sym ']', .sym ')']

/-- `err := VerifySha256(api, inputCircuit, hashValCircuit)`. /repo/aggregator_lib_circuit.go:445. -/
def qVerify : List Tok :=
  [.id ['e', 'r', 'r'], .sym ':', .sym '=', .id ['V', 'e', 'r', 'i', 'f', 'y', 'S', 'h', 'a', '2', '5', '6'], .sym '(',
   .id ['a', 'p', 'i'], .sym ',', .id ['i', 'n', 'p', 'u', 't', 'C', 'i', 'r', 'c', 'u', 'i', 't'], .sym ',',
   .id ['h', 'a', 's', 'h', 'V', 'a', 'l', 'C', 'i', 'r', 'c', 'u', 'i', 't'], .sym ')']

/-- `if err != nil { return nil, err }`. /repo/aggregator_lib_circuit.go:446-448. -/
def qIfErr : List Tok :=
  [.id ['i', 'f'], .id ['e', 'r', 'r'], .sym '!', .sym '=', .id ['n', 'i', 'l'], .sym '{',
   .id ['r', 'e', 't', 'u', 'r', 'n'], .id ['n', 'i', 'l'], .sym ',', .id ['e', 'r', 'r'], .sym '}']

/-- `ethHashBig := new(big.Int).SetBytes(ethHashVal[:])`. /repo/aggregator_lib_circuit.go:449. -/
def qBig : List Tok :=
  [.id ['e', 't', 'h', 'H', 'a', 's', 'h', 'B', 'i', 'g'], .sym ':', .sym '=', .id ['n', 'e', 'w'], .sym '(',
   .id ['b', 'i', 'g'], .sym '.', .id ['I', 'n', 't'], .sym ')', .sym '.',
   .id ['S', 'e', 't', 'B', 'y', 't', 'e', 's'], .sym '(', .id ['e', 't', 'h', 'H', 'a', 's', 'h', 'V', 'a', 'l'],
   .sym '[', .sym ':', .sym ']', .sym ')']

/-- `absorbing[`. /repo/aggregator_lib_circuit.go:427, 432, 437, 450. -/
def qPut : List Tok :=
  [.id ['a', 'b', 's', 'o', 'r', 'b', 'i', 'n', 'g'], .sym '[']

/-- `] = ethHashBig`. /repo/aggregator_lib_circuit.go:450. -/
def qPutEnd : List Tok :=
  [.sym ']', .sym '=', .id ['e', 't', 'h', 'H', 'a', 's', 'h', 'B', 'i', 'g']]

/-- `return new(big.Int).Mod(ethHashBig, qMod), nil }`. /repo/aggregator_lib_circuit.go:452-453. -/
def qRet : List Tok :=
  [.id ['r', 'e', 't', 'u', 'r', 'n'], .id ['n', 'e', 'w'], .sym '(', .id ['b', 'i', 'g'], .sym '.',
   .id ['I', 'n', 't'], .sym ')', .sym '.', .id ['M', 'o', 'd'], .sym '(',
   .id ['e', 't', 'h', 'H', 'a', 's', 'h', 'B', 'i', 'g'], .sym ',', .id ['q', 'M', 'o', 'd'], .sym ')', .sym ',',
   .id ['n', 'i', 'l'], .sym '}']

/-- `func SqueezeChallenge( api frontend.API, absorbing []frontend.Variable, length int, ) (frontend.Variable, error) {`.
/repo/aggregator_lib_circuit.go:425-429. -/
def qHead : List Tok :=
  [.id ['f', 'u', 'n', 'c'], .id ['S', 'q', 'u', 'e', 'e', 'z', 'e', 'C', 'h', 'a', 'l', 'l', 'e', 'n', 'g', 'e'],
   .sym '(', .id ['a', 'p', 'i'], .id ['f', 'r', 'o', 'n', 't', 'e', 'n', 'd'], .sym '.', .id ['A', 'P', 'I'],
   .sym ',', .id ['a', 'b', 's', 'o', 'r', 'b', 'i', 'n', 'g'], .sym '[', .sym ']',
   .id ['f', 'r', 'o', 'n', 't', 'e', 'n', 'd'], .sym '.', .id ['V', 'a', 'r', 'i', 'a', 'b', 'l', 'e'], .sym ',',
   .id ['l', 'e', 'n', 'g', 't', 'h'], .id ['i', 'n', 't'], .sym ',', .sym ')', .sym '(',
   .id ['f', 'r', 'o', 'n', 't', 'e', 'n', 'd'], .sym '.', .id ['V', 'a', 'r', 'i', 'a', 'b', 'l', 'e'], .sym ',',
   .id ['e', 'r', 'r', 'o', 'r'], .sym ')', .sym '{']

/-- One statement. For the text of /repo/aggregator_lib_circuit.go:431-452. -/
def sqStmt (ts : List Tok) : Option (SqStmt × List Tok) :=
  match expect qMod ts with
  | some ts => some (.qMod, ts)
  | none => match expect qPutLength ts with
  | some (.num z :: .sym ')' :: ts) => some (.putLength z, ts)
  | some _ => none
  | none => match expect qBytes ts with
  | some ts => some (.bytes, ts)
  | none => match expect qFor ts with
  | some (.num i :: ts) => (expect qLoop ts).map fun ts => (.loop i, ts)
  | some _ => none
  | none => match expect qAppend ts with
  | some (.num 0 :: .id ['x', '0'] :: .sym ')' :: ts) => some (.append0, ts)
  | some _ => none
  | none => match expect qSum ts with
  | some ts => some (.sum, ts)
  | none => match expect qInput ts with
  | some ts => some (.inputCircuit, ts)
  | none => match expect qHash ts with
  | some ts => some (.hashCircuit, ts)
  | none => match expect qVerify ts with
  | some ts => some (.verify, ts)
  | none => match expect qIfErr ts with
  | some ts => some (.ifErr, ts)
  | none => match expect qBig ts with
  | some ts => some (.big, ts)
  | none => match expect qPut ts with
  | some (.num k :: ts) => (expect qPutEnd ts).map fun ts => (.put k, ts)
  | _ => none

/-- Statements up to the closing brace; the first argument bounds their number.
For the text of /repo/aggregator_lib_circuit.go:431-452. -/
def sqBody : ℕ → List Tok → Option (List SqStmt)
  | 0, _ => none
  | k + 1, ts =>
    match expect qRet ts with
    | some _ => some [.ret]
    | none => do
      let (s, ts) ← sqStmt ts
      let l ← sqBody k ts
      return s :: l

/-- The function `SqueezeChallenge` in a file. For the text of /repo/aggregator_lib_circuit.go:431-452. -/
def squeeze (s : List Char) : Option (List SqStmt) := do
  let ts ← after qHead (tokens s)
  sqBody 30 ts

/-- The statements of `SqueezeChallenge`, /repo/aggregator_lib_circuit.go:431-452. -/
def squeezeProg : List SqStmt :=
  [.qMod, .putLength 0, .bytes, .loop 0, .append0, .sum, .inputCircuit, .hashCircuit, .verify, .ifErr, .big, .put 0, .ret]

end Verif.Go
