/-
Readers and meanings for the text of `VerifyInstanceHash` (/repo/circuit.go:127-155), `PackUInt8Variables`
(/repo/utils.go:8-15), `VerifyKeccak256` and `VerifySha256` (/repo/aggregator_lib_circuit.go:317-370), to check the
hand-written definitions of Verif/Model/Transcript and Verif/Model/Fr against the source (theorems in
Verif/Props/SourceHash).
-/
import Verif.Model.DefineText
import Verif.Model.CalcText
import Verif.Model.SqueezeText

namespace Verif.Go

/-! ### VerifyInstanceHash -/

/-- Statements. /repo/circuit.go:128-153. -/
inductive InstStmt where
  /-- `length := a * (len(inputs) + b)` -/
  | length (a b : ℕ)
  /-- `result, err := api.Compiler().NewHint(Keccak256Hint, k+length, inputs...)` -/
  | hint (k : ℕ)
  /-- `if err != nil { return nil, err }` -/
  | ifErr
  /-- `binaryF, err := uints.New[uints.U32](api)` -/
  | bytes
  /-- `var hashU8Array, inputU8Array []uints.U8` -/
  | arrays
  /-- `for i := a; i < b; i++ { hashU8Array = append(hashU8Array, binaryF.ByteValueOf(result[i])) }` -/
  | hashLoop (a b : ℕ)
  /-- `for i := a; i < length+b; i++ { inputU8Array = append(inputU8Array, binaryF.ByteValueOf(result[i])) }` -/
  | inputLoop (a b : ℕ)
  /-- `err = VerifyKeccak256(api, inputU8Array, hashU8Array)` -/
  | verify
  /-- `return PackUInt8Variables(api, result[a:b]...), err` -/
  | ret (a b : ℕ)
deriving DecidableEq

/-- The variables. /repo/circuit.go:128-151. -/
structure InstState where
  length : ℕ
  result : List Var
  err : GoErr
  hashU8Array : List Var
  inputU8Array : List Var

/-- `for i := i₀; …` with `n` rounds to go: append the checked bytes. /repo/circuit.go:141-147. -/
def byteLoop (result : List Var) : ℕ → ℕ → List Var → Circ (List Var)
  | 0, _, l => pure l
  | n + 1, i, l => do
    let v ← idx result i
    let b ← byteValueOf v
    byteLoop result n (i + 1) (l ++ [b])

/-- The body of the function. Simplification: `NewHint` and `uints.New` return no Go error, see `newHint`. Logging is dropped.
/repo/circuit.go:128-153. -/
def runInst (X : Ext) (inputs : List Var) : List InstStmt → InstState → Circ (Var × GoErr)
  | [], _ => Circ.panic "missing return"
  | .length a b :: l, st => runInst X inputs l { st with length := a * (inputs.length + b) }
  | .hint k :: l, st => do
    let rs ← newHint .keccakHint (k + st.length) inputs
    runInst X inputs l { st with result := rs, err := none }
  | .ifErr :: l, st => match st.err with
    | some m => pure (.nil, some m)
    | none => runInst X inputs l st
  | .bytes :: l, st => runInst X inputs l { st with err := none }
  | .arrays :: l, st => runInst X inputs l { st with hashU8Array := [], inputU8Array := [] }
  | .hashLoop a b :: l, st => do
    let h ← byteLoop st.result (b - a) a st.hashU8Array
    runInst X inputs l { st with hashU8Array := h }
  | .inputLoop a b :: l, st => do
    let h ← byteLoop st.result (st.length + b - a) a st.inputU8Array
    runInst X inputs l { st with inputU8Array := h }
  | .verify :: l, st => do
    let err ← VerifyKeccak256 X st.inputU8Array st.hashU8Array
    runInst X inputs l { st with err := err }
  | .ret a b :: _, st =>
    if a ≤ b ∧ b ≤ st.result.length then do
      let v ← PackUInt8Variables ((st.result.drop a).take (b - a))
      pure (v, st.err)
    else Circ.panic "slice bounds out of range"

/-! ### PackUInt8Variables -/

/-- Statements. /repo/utils.go:9-14. -/
inductive PackStmt where
  /-- `res := inputs[k]` -/
  | init (k : ℕ)
  /-- `for _, input := range inputs[k:] { res = api.Mul(res, new(big.Int).Exp(big.NewInt(a), big.NewInt(b), nil)); res = api.Add(res, input) }` -/
  | loop (k a b : ℕ)
  /-- `return res` -/
  | ret
deriving DecidableEq

/-- The loop over the remaining elements. /repo/utils.go:10-13. -/
def packRun (a b : ℕ) : List Var → Var → Circ Var
  | [], res => pure res
  | v :: vs, res => do
    let res ← apiMul res (.big ((a : ℤ) ^ b))
    let res ← apiAdd res v
    packRun a b vs res

/-- The body of the function. /repo/utils.go:9-14. -/
def runPack (inputs : List Var) : List PackStmt → Var → Circ Var
  | [], _ => Circ.panic "missing return"
  | .init k :: l, _ => do
    let v ← idx inputs k
    runPack inputs l v
  | .loop k a b :: l, res =>
    if k ≤ inputs.length then do
      let res ← packRun a b (inputs.drop k) res
      runPack inputs l res
    else Circ.panic "slice bounds out of range"
  | .ret :: _, res => pure res

/-! ### VerifyKeccak256 and VerifySha256 -/

/-- Statements. /repo/aggregator_lib_circuit.go:322-337, 354-369. -/
inductive HashStmt where
  /-- `h, err := sha3.NewLegacyKeccak256(api); if err != nil { return err }` -/
  | keccak
  /-- `h, err := sha2.New(api); if err != nil { return err }` -/
  | sha
  /-- `uapi, err := uints.New[…](api); if err != nil { return err }` -/
  | bytes
  /-- `h.Write(inputValue)` -/
  | write
  /-- `res := h.Sum()` -/
  | sum
  /-- `for i := range res { uapi.ByteAssertEq(hashValue[i], res[i]) }` -/
  | loop
  /-- `return nil` -/
  | ret
deriving DecidableEq

/-- The variables: the hash function, what was written to it, `res`. /repo/aggregator_lib_circuit.go:322-332, 354-364. -/
structure HashState where
  h : List UInt8 → List UInt8
  written : List Var
  res : List Var

/-- `for i := i₀; i < len(res); i++` with `n` rounds to go. /repo/aggregator_lib_circuit.go:334-336, 366-368. -/
def assertLoop (hashValue res : List Var) : ℕ → ℕ → Circ Unit
  | 0, _ => pure ()
  | n + 1, i => do
    let v ← idx hashValue i
    let r ← idx res i
    apiAssertIsEqual v r
    assertLoop hashValue res n (i + 1)

/-- The body of a function. Simplification: the constructors do not fail; the hash gadget is that of Verif/Model/Transcript.
/repo/aggregator_lib_circuit.go:322-337, 354-369. -/
def runHash (X : Ext) (inputValue hashValue : List Var) : List HashStmt → HashState → Circ GoErr
  | [], _ => Circ.panic "missing return"
  | .keccak :: l, st => runHash X inputValue hashValue l { st with h := X.keccak, written := [] }
  | .sha :: l, st => runHash X inputValue hashValue l { st with h := X.sha256, written := [] }
  | .bytes :: l, st => runHash X inputValue hashValue l st
  | .write :: l, st => runHash X inputValue hashValue l { st with written := st.written ++ inputValue }
  | .sum :: l, st => do
    let r ← hashGadget st.h st.written
    runHash X inputValue hashValue l { st with res := r }
  | .loop :: l, st => do
    assertLoop hashValue st.res st.res.length 0
    runHash X inputValue hashValue l st
  | .ret :: _, _ => pure none

/-! ### Reading -/

/-- `length :=`. /repo/circuit.go:128. -/
def hLength : List Tok :=
  [.id ['l', 'e', 'n', 'g', 't', 'h'], .sym ':', .sym '=']

/-- `* (len(inputs) +`. /repo/circuit.go:128. -/
def hLength2 : List Tok :=
  [.sym '*', .sym '(', .id ['l', 'e', 'n'], .sym '(', .id ['i', 'n', 'p', 'u', 't', 's'], .sym ')', .sym '+']

/-- `result, err := api.Compiler().NewHint(Keccak256Hint,`. /repo/circuit.go:129. -/
def hHint : List Tok :=
  [.id ['r', 'e', 's', 'u', 'l', 't'], .sym ',', .id ['e', 'r', 'r'], .sym ':', .sym '=', .id ['a', 'p', 'i'],
   .sym '.', .id ['C', 'o', 'm', 'p', 'i', 'l', 'e', 'r'], .sym '(', .sym ')', .sym '.',
   .id ['N', 'e', 'w', 'H', 'i', 'n', 't'], .sym '(',
   .id ['K', 'e', 'c', 'c', 'a', 'k', '2', '5', '6', 'H', 'i', 'n', 't'], .sym ',']

/-- `+length, inputs...)`. /repo/circuit.go:129. -/
def hHint2 : List Tok :=
  [.sym '+', .id ['l', 'e', 'n', 'g', 't', 'h'], .sym ',', .id ['i', 'n', 'p', 'u', 't', 's'], .sym '.', .sym '.',
   .sym '.', .sym ')']

/-- `binaryF, err := uints.New[uints.U32](api)`. /repo/circuit.go:135. -/
def hBytes : List Tok :=
  [.id ['b', 'i', 'n', 'a', 'r', 'y', 'F'], .sym ',', .id ['e', 'r', 'r'], .sym ':', .sym '=',
   .id ['u', 'i', 'n', 't', 's'], .sym '.', .id ['N', 'e', 'w'], .sym '[', .id ['u', 'i', 'n', 't', 's'], .sym '.',
   .id ['U', '3', '2'], .sym ']', .sym '(', .id ['a', 'p', 'i'], .sym ')']

/-- `var hashU8Array, inputU8Array []uints.U8`. /repo/circuit.go:140. -/
def hArrays : List Tok :=
  [.id ['v', 'a', 'r'], .id ['h', 'a', 's', 'h', 'U', '8', 'A', 'r', 'r', 'a', 'y'], .sym ',',
   .id ['i', 'n', 'p', 'u', 't', 'U', '8', 'A', 'r', 'r', 'a', 'y'], .sym '[', .sym ']', .id ['u', 'i', 'n', 't', 's'],
   .sym '.', .id ['U', '8']]

/-- `; i <`. For the text of /repo/circuit.go:127-155; /repo/utils.go:8-15; /repo/aggregator_lib_circuit.go:317-370. -/
def hLoop1 : List Tok :=
  [.sym ';', .id ['i'], .sym '<']

/-- `; i < length+`. /repo/circuit.go:145. -/
def hLoop2 : List Tok :=
  [.sym ';', .id ['i'], .sym '<', .id ['l', 'e', 'n', 'g', 't', 'h'], .sym '+']

/-- `; i++ { hashU8Array = append(hashU8Array, binaryF.ByteValueOf(result[i])) }`. /repo/circuit.go:141-143. -/
def hLoopHash : List Tok :=
  [.sym ';', .id ['i'], .sym '+', .sym '+', .sym '{', .id ['h', 'a', 's', 'h', 'U', '8', 'A', 'r', 'r', 'a', 'y'],
   .sym '=', .id ['a', 'p', 'p', 'e', 'n', 'd'], .sym '(', .id ['h', 'a', 's', 'h', 'U', '8', 'A', 'r', 'r', 'a', 'y'],
   .sym ',', .id ['b', 'i', 'n', 'a', 'r', 'y', 'F'], .sym '.',
   .id ['B', 'y', 't', 'e', 'V', 'a', 'l', 'u', 'e', 'O', 'f'], .sym '(', .id ['r', 'e', 's', 'u', 'l', 't'], .sym '[',
   .id ['i'], .sym ']', .sym ')', .sym ')', .sym '}']

/-- `; i++ { inputU8Array = append(inputU8Array, binaryF.ByteValueOf(result[i])) }`. /repo/circuit.go:145-147. -/
def hLoopInput : List Tok :=
  [.sym ';', .id ['i'], .sym '+', .sym '+', .sym '{', .id ['i', 'n', 'p', 'u', 't', 'U', '8', 'A', 'r', 'r', 'a', 'y'],
   .sym '=', .id ['a', 'p', 'p', 'e', 'n', 'd'], .sym '(',
   .id ['i', 'n', 'p', 'u', 't', 'U', '8', 'A', 'r', 'r', 'a', 'y'], .sym ',', .id ['b', 'i', 'n', 'a', 'r', 'y', 'F'],
   .sym '.', .id ['B', 'y', 't', 'e', 'V', 'a', 'l', 'u', 'e', 'O', 'f'], .sym '(', .id ['r', 'e', 's', 'u', 'l', 't'],
   .sym '[', .id ['i'], .sym ']', .sym ')', .sym ')', .sym '}']

/-- `err = VerifyKeccak256(api, inputU8Array, hashU8Array)`. /repo/circuit.go:151. -/
def hVerify : List Tok :=
  [.id ['e', 'r', 'r'], .sym '=', .id ['V', 'e', 'r', 'i', 'f', 'y', 'K', 'e', 'c', 'c', 'a', 'k', '2', '5', '6'],
   .sym '(', .id ['a', 'p', 'i'], .sym ',', .id ['i', 'n', 'p', 'u', 't', 'U', '8', 'A', 'r', 'r', 'a', 'y'], .sym ',',
   .id ['h', 'a', 's', 'h', 'U', '8', 'A', 'r', 'r', 'a', 'y'], .sym ')']

/-- `return PackUInt8Variables(api, result[`. /repo/circuit.go:153. -/
def hRet : List Tok :=
  [.id ['r', 'e', 't', 'u', 'r', 'n'],
   .id ['P', 'a', 'c', 'k', 'U', 'I', 'n', 't', '8', 'V', 'a', 'r', 'i', 'a', 'b', 'l', 'e', 's'], .sym '(',
   .id ['a', 'p', 'i'], .sym ',', .id ['r', 'e', 's', 'u', 'l', 't'], .sym '[']

/-- `:`. For the text of /repo/circuit.go:127-155; /repo/utils.go:8-15; /repo/aggregator_lib_circuit.go:317-370. -/
def hRet2 : List Tok :=
  [.sym ':']

/-- `]...), err }`. /repo/circuit.go:153-155. -/
def hRet3 : List Tok :=
  [.sym ']', .sym '.', .sym '.', .sym '.', .sym ')', .sym ',', .id ['e', 'r', 'r'], .sym '}']

/-- `func VerifyInstanceHash(api frontend.API, inputs []frontend.Variable) (frontend.Variable, error) {`. /repo/circuit.go:127. -/
def hHead : List Tok :=
  [.id ['f', 'u', 'n', 'c'],
   .id ['V', 'e', 'r', 'i', 'f', 'y', 'I', 'n', 's', 't', 'a', 'n', 'c', 'e', 'H', 'a', 's', 'h'], .sym '(',
   .id ['a', 'p', 'i'], .id ['f', 'r', 'o', 'n', 't', 'e', 'n', 'd'], .sym '.', .id ['A', 'P', 'I'], .sym ',',
   .id ['i', 'n', 'p', 'u', 't', 's'], .sym '[', .sym ']', .id ['f', 'r', 'o', 'n', 't', 'e', 'n', 'd'], .sym '.',
   .id ['V', 'a', 'r', 'i', 'a', 'b', 'l', 'e'], .sym ')', .sym '(', .id ['f', 'r', 'o', 'n', 't', 'e', 'n', 'd'],
   .sym '.', .id ['V', 'a', 'r', 'i', 'a', 'b', 'l', 'e'], .sym ',', .id ['e', 'r', 'r', 'o', 'r'], .sym ')', .sym '{']

/-- `func PackUInt8Variables(api frontend.API, inputs ...frontend.Variable) frontend.Variable {`. /repo/utils.go:8. -/
def pHead : List Tok :=
  [.id ['f', 'u', 'n', 'c'],
   .id ['P', 'a', 'c', 'k', 'U', 'I', 'n', 't', '8', 'V', 'a', 'r', 'i', 'a', 'b', 'l', 'e', 's'], .sym '(',
   .id ['a', 'p', 'i'], .id ['f', 'r', 'o', 'n', 't', 'e', 'n', 'd'], .sym '.', .id ['A', 'P', 'I'], .sym ',',
   .id ['i', 'n', 'p', 'u', 't', 's'], .sym '.', .sym '.', .sym '.', .id ['f', 'r', 'o', 'n', 't', 'e', 'n', 'd'],
   .sym '.', .id ['V', 'a', 'r', 'i', 'a', 'b', 'l', 'e'], .sym ')', .id ['f', 'r', 'o', 'n', 't', 'e', 'n', 'd'],
   .sym '.', .id ['V', 'a', 'r', 'i', 'a', 'b', 'l', 'e'], .sym '{']

/-- `res := inputs[`. /repo/utils.go:9. -/
def pInit : List Tok :=
  [.id ['r', 'e', 's'], .sym ':', .sym '=', .id ['i', 'n', 'p', 'u', 't', 's'], .sym '[']

/-- `for _, input := range inputs[`. /repo/utils.go:10. -/
def pLoop : List Tok :=
  [.id ['f', 'o', 'r'], .id ['_'], .sym ',', .id ['i', 'n', 'p', 'u', 't'], .sym ':', .sym '=',
   .id ['r', 'a', 'n', 'g', 'e'], .id ['i', 'n', 'p', 'u', 't', 's'], .sym '[']

/-- `:] { res = api.Mul(res, new(big.Int).Exp(big.NewInt(`. /repo/utils.go:10-11. -/
def pExp : List Tok :=
  [.sym ':', .sym ']', .sym '{', .id ['r', 'e', 's'], .sym '=', .id ['a', 'p', 'i'], .sym '.', .id ['M', 'u', 'l'],
   .sym '(', .id ['r', 'e', 's'], .sym ',', .id ['n', 'e', 'w'], .sym '(', .id ['b', 'i', 'g'], .sym '.',
   .id ['I', 'n', 't'], .sym ')', .sym '.', .id ['E', 'x', 'p'], .sym '(', .id ['b', 'i', 'g'], .sym '.',
   .id ['N', 'e', 'w', 'I', 'n', 't'], .sym '(']

/-- `), big.NewInt(`. /repo/utils.go:11. -/
def pExp2 : List Tok :=
  [.sym ')', .sym ',', .id ['b', 'i', 'g'], .sym '.', .id ['N', 'e', 'w', 'I', 'n', 't'], .sym '(']

/-- `), nil)) res = api.Add(res, input) }`. /repo/utils.go:11-13. -/
def pAdd : List Tok :=
  [.sym ')', .sym ',', .id ['n', 'i', 'l'], .sym ')', .sym ')', .id ['r', 'e', 's'], .sym '=', .id ['a', 'p', 'i'],
   .sym '.', .id ['A', 'd', 'd'], .sym '(', .id ['r', 'e', 's'], .sym ',', .id ['i', 'n', 'p', 'u', 't'], .sym ')',
   .sym '}']

/-- `return res }`. /repo/utils.go:14-15. -/
def pRet : List Tok :=
  [.id ['r', 'e', 't', 'u', 'r', 'n'], .id ['r', 'e', 's'], .sym '}']

/-- `h, err := sha3.NewLegacyKeccak256(api) if err != nil { return err }`. /repo/aggregator_lib_circuit.go:322-325. -/
def wKeccak : List Tok :=
  [.id ['h'], .sym ',', .id ['e', 'r', 'r'], .sym ':', .sym '=', .id ['s', 'h', 'a', '3'], .sym '.',
   .id ['N', 'e', 'w', 'L', 'e', 'g', 'a', 'c', 'y', 'K', 'e', 'c', 'c', 'a', 'k', '2', '5', '6'], .sym '(',
   .id ['a', 'p', 'i'], .sym ')', .id ['i', 'f'], .id ['e', 'r', 'r'], .sym '!', .sym '=', .id ['n', 'i', 'l'],
   .sym '{', .id ['r', 'e', 't', 'u', 'r', 'n'], .id ['e', 'r', 'r'], .sym '}']

/-- `h, err := sha2.New(api) if err != nil { return err }`. /repo/aggregator_lib_circuit.go:354-357. -/
def wSha : List Tok :=
  [.id ['h'], .sym ',', .id ['e', 'r', 'r'], .sym ':', .sym '=', .id ['s', 'h', 'a', '2'], .sym '.',
   .id ['N', 'e', 'w'], .sym '(', .id ['a', 'p', 'i'], .sym ')', .id ['i', 'f'], .id ['e', 'r', 'r'], .sym '!',
   .sym '=', .id ['n', 'i', 'l'], .sym '{', .id ['r', 'e', 't', 'u', 'r', 'n'], .id ['e', 'r', 'r'], .sym '}']

/-- `uapi, err := uints.New[uints.U64](api) if err != nil { return err }`. /repo/aggregator_lib_circuit.go:326-329, 358-361. -/
def wBytes : List Tok :=
  [.id ['u', 'a', 'p', 'i'], .sym ',', .id ['e', 'r', 'r'], .sym ':', .sym '=', .id ['u', 'i', 'n', 't', 's'],
   .sym '.', .id ['N', 'e', 'w'], .sym '[', .id ['u', 'i', 'n', 't', 's'], .sym '.', .id ['U', '6', '4'], .sym ']',
   .sym '(', .id ['a', 'p', 'i'], .sym ')', .id ['i', 'f'], .id ['e', 'r', 'r'], .sym '!', .sym '=',
   .id ['n', 'i', 'l'], .sym '{', .id ['r', 'e', 't', 'u', 'r', 'n'], .id ['e', 'r', 'r'], .sym '}']

/-- `h.Write(inputValue)`. /repo/aggregator_lib_circuit.go:331, 363. -/
def wWrite : List Tok :=
  [.id ['h'], .sym '.', .id ['W', 'r', 'i', 't', 'e'], .sym '(',
   .id ['i', 'n', 'p', 'u', 't', 'V', 'a', 'l', 'u', 'e'], .sym ')']

/-- `res := h.Sum()`. /repo/aggregator_lib_circuit.go:332, 364. -/
def wSum : List Tok :=
  [.id ['r', 'e', 's'], .sym ':', .sym '=', .id ['h'], .sym '.', .id ['S', 'u', 'm'], .sym '(', .sym ')']

/-- `for i := range res { uapi.ByteAssertEq(hashValue[i], res[i]) }`. /repo/aggregator_lib_circuit.go:334-336, 366-368. -/
def wLoop : List Tok :=
  [.id ['f', 'o', 'r'], .id ['i'], .sym ':', .sym '=', .id ['r', 'a', 'n', 'g', 'e'], .id ['r', 'e', 's'], .sym '{',
   .id ['u', 'a', 'p', 'i'], .sym '.', .id ['B', 'y', 't', 'e', 'A', 's', 's', 'e', 'r', 't', 'E', 'q'], .sym '(',
   .id ['h', 'a', 's', 'h', 'V', 'a', 'l', 'u', 'e'], .sym '[', .id ['i'], .sym ']', .sym ',', .id ['r', 'e', 's'],
   .sym '[', .id ['i'], .sym ']', .sym ')', .sym '}']

/-- `( api frontend.API, inputValue []uints.U8, hashValue []uints.U8, ) error {`.
/repo/aggregator_lib_circuit.go:317-321, 349-353. -/
def wParams : List Tok :=
  [.sym '(', .id ['a', 'p', 'i'], .id ['f', 'r', 'o', 'n', 't', 'e', 'n', 'd'], .sym '.', .id ['A', 'P', 'I'],
   .sym ',', .id ['i', 'n', 'p', 'u', 't', 'V', 'a', 'l', 'u', 'e'], .sym '[', .sym ']', .id ['u', 'i', 'n', 't', 's'],
   .sym '.', .id ['U', '8'], .sym ',', .id ['h', 'a', 's', 'h', 'V', 'a', 'l', 'u', 'e'], .sym '[', .sym ']',
   .id ['u', 'i', 'n', 't', 's'], .sym '.', .id ['U', '8'], .sym ',', .sym ')', .id ['e', 'r', 'r', 'o', 'r'], .sym '{']

/-- A number between two given texts.
For the text of /repo/circuit.go:127-155; /repo/utils.go:8-15; /repo/aggregator_lib_circuit.go:317-370. -/
def between (p : List Tok) (q : List Tok) (ts : List Tok) : Option (ℕ × List Tok) :=
  match expect p ts with
  | some (.num n :: ts) => (expect q ts).map fun ts => (n, ts)
  | _ => none

/-- Two numbers among three given texts.
For the text of /repo/circuit.go:127-155; /repo/utils.go:8-15; /repo/aggregator_lib_circuit.go:317-370. -/
def between2 (p q r : List Tok) (ts : List Tok) : Option ((ℕ × ℕ) × List Tok) := do
  let (a, ts) ← between p [] ts
  let (b, ts) ← between q r ts
  return ((a, b), ts)

/-- One statement of `VerifyInstanceHash`.
For the text of /repo/circuit.go:127-155; /repo/utils.go:8-15; /repo/aggregator_lib_circuit.go:317-370. -/
def instStmt (ts : List Tok) : Option (InstStmt × List Tok) :=
  match between2 hLength hLength2 [.sym ')'] ts with
  | some ((a, b), ts) => some (.length a b, ts)
  | none => match between hHint hHint2 ts with
  | some (k, ts) => some (.hint k, ts)
  | none => match expect qIfErr ts with
  | some ts => some (.ifErr, ts)
  | none => match expect hBytes ts with
  | some ts => some (.bytes, ts)
  | none => match expect hArrays ts with
  | some ts => some (.arrays, ts)
  | none => match between2 qFor hLoop1 hLoopHash ts with
  | some ((a, b), ts) => some (.hashLoop a b, ts)
  | none => match between2 qFor hLoop2 hLoopInput ts with
  | some ((a, b), ts) => some (.inputLoop a b, ts)
  | none => match expect hVerify ts with
  | some ts => some (.verify, ts)
  | none => none

/-- Statements up to the closing brace; the first argument bounds their number.
For the text of /repo/circuit.go:127-155; /repo/utils.go:8-15; /repo/aggregator_lib_circuit.go:317-370. -/
def instBody : ℕ → List Tok → Option (List InstStmt)
  | 0, _ => none
  | k + 1, ts =>
    match between2 hRet hRet2 hRet3 ts with
    | some ((a, b), _) => some [.ret a b]
    | none => match expect dLog ts with
    | some ts => do
      let ts ← skipParen ts
      instBody k ts
    | none => do
      let (s, ts) ← instStmt ts
      let l ← instBody k ts
      return s :: l

/-- The function `VerifyInstanceHash` in a file.
For the text of /repo/circuit.go:127-155; /repo/utils.go:8-15; /repo/aggregator_lib_circuit.go:317-370. -/
def instanceHash (s : List Char) : Option (List InstStmt) := do
  let ts ← after hHead (tokens s)
  instBody 30 ts

/-- The statements of `VerifyInstanceHash`, /repo/circuit.go:128-153. -/
def instProg : List InstStmt :=
  [.length 32 1, .hint 1, .ifErr, .bytes, .ifErr, .arrays, .hashLoop 1 33, .inputLoop 33 1, .verify, .ret 1 33]

/-- The function `PackUInt8Variables` in a file.
For the text of /repo/circuit.go:127-155; /repo/utils.go:8-15; /repo/aggregator_lib_circuit.go:317-370. -/
def pack (s : List Char) : Option (List PackStmt) := do
  let ts ← after pHead (tokens s)
  let (k, ts) ← between pInit [.sym ']'] ts
  let (j, ts) ← between pLoop [] ts
  let ((a, b), ts) ← between2 pExp pExp2 pAdd ts
  let _ ← expect pRet ts
  return [.init k, .loop j a b, .ret]

/-- One statement of `VerifyKeccak256` or `VerifySha256`.
For the text of /repo/circuit.go:127-155; /repo/utils.go:8-15; /repo/aggregator_lib_circuit.go:317-370. -/
def hashStmt (ts : List Tok) : Option (HashStmt × List Tok) :=
  match expect wKeccak ts with
  | some ts => some (.keccak, ts)
  | none => match expect wSha ts with
  | some ts => some (.sha, ts)
  | none => match expect wBytes ts with
  | some ts => some (.bytes, ts)
  | none => match expect wWrite ts with
  | some ts => some (.write, ts)
  | none => match expect wSum ts with
  | some ts => some (.sum, ts)
  | none => match expect wLoop ts with
  | some ts => some (.loop, ts)
  | none => none

/-- Statements up to the closing brace; the first argument bounds their number.
For the text of /repo/circuit.go:127-155; /repo/utils.go:8-15; /repo/aggregator_lib_circuit.go:317-370. -/
def hashBody : ℕ → List Tok → Option (List HashStmt)
  | 0, _ => none
  | k + 1, ts =>
    match expect cRetNil ts with
    | some _ => some [.ret]
    | none => do
      let (s, ts) ← hashStmt ts
      let l ← hashBody k ts
      return s :: l

/-- The function of the given name in a file, if it has the parameters of `VerifyKeccak256`.
For the text of /repo/circuit.go:127-155; /repo/utils.go:8-15; /repo/aggregator_lib_circuit.go:317-370. -/
def hashFun (name : List Char) (s : List Char) : Option (List HashStmt) := do
  let ts ← after (.id ['f', 'u', 'n', 'c'] :: .id name :: wParams) (tokens s)
  hashBody 20 ts

end Verif.Go
