/-
A reader and a meaning for the text of `Keccak256Hint` (/repo/circuit.go:157-184), to check the hand-written definition of
Verif/Model/Hints against the source (theorem in Verif/Props/SourceHints).
-/
import Verif.Model.TwistText

namespace Verif.Go

/-- Statements. A flag tells the bytes of the hash (set) from those of the buffer. /repo/circuit.go:158-183. -/
inductive KecStmt where
  /-- `var hashBuf bytes.Buffer` -/
  | buffer
  /-- `for i := 0; i < len(inputs); i++ { fpEle := new(fp.Element).SetBigInt(inputs[i]) input := fpEle.Bytes() hashBuf.Write(input[:]) }` -/
  | absorb
  /-- `hashValHex := crypto.Keccak256Hash(hashBuf.Bytes())` -/
  | hash
  /-- `hashValBig := big.NewInt(0).SetBytes(hashValHex.Bytes())` -/
  | big (hash : Bool)
  /-- `results[n] = hashValBig` -/
  | result (n : ℕ)
  /-- `i := n` -/
  | setI (n : ℕ)
  /-- `for _, bigByte := range hashValHex.Bytes() { results[i] = new(big.Int).SetBytes([]byte{bigByte}) i++ }` -/
  | write (hash : Bool)
  /-- `return nil }` -/
  | retNil
deriving DecidableEq

/-! ### Meaning -/

/-- The variables: the buffer, the hash and its value as an integer, the counter and the results. /repo/circuit.go:158-183. -/
structure KecState where
  buf : List UInt8
  hash : List UInt8
  big : ℤ
  i : ℕ
  results : List ℤ

/-- `hashValHex.Bytes()` or `hashBuf.Bytes()`. /repo/circuit.go:164-165, 173, 178. -/
def KecState.bytes (st : KecState) (hash : Bool) : List UInt8 := if hash then st.hash else st.buf

/-- The loops of /repo/circuit.go:173-176, 178-181: one result per byte; an assignment past the end of the slice panics. -/
def writeBytes : List UInt8 → ℕ → List ℤ → Option (ℕ × List ℤ)
  | [], i, rs => some (i, rs)
  | b :: bs, i, rs => if i < rs.length then writeBytes bs (i + 1) (rs.set i (b.toNat : ℤ)) else none

/-- The body; `none` is a panic, otherwise the results when the function returns. /repo/circuit.go:158-183. -/
def runKec (X : Ext) (ins : List ℤ) : List KecStmt → KecState → Option (List ℤ)
  | [], _ => none
  | .buffer :: l, st => runKec X ins l { st with buf := [] }
  | .absorb :: l, st => runKec X ins l { st with buf := ins.foldl (fun b n => b ++ fpBytes n) st.buf }
  | .hash :: l, st => runKec X ins l { st with hash := X.keccak st.buf }
  | .big h :: l, st => runKec X ins l { st with big := beNat (st.bytes h) }
  | .result n :: l, st =>
    if n < st.results.length then runKec X ins l { st with results := st.results.set n st.big } else none
  | .setI n :: l, st => runKec X ins l { st with i := n }
  | .write h :: l, st => match writeBytes (st.bytes h) st.i st.results with
    | none => none
    | some (i, rs) => runKec X ins l { st with i := i, results := rs }
  | .retNil :: _, st => some st.results

/-- The variables before the first statement: `n` results that are zero. /repo/circuit.go:157. -/
def kecStart (n : ℕ) : KecState := ⟨[], [], 0, 0, List.replicate n 0⟩

/-! ### Reading -/

/-- `hashValHex.Bytes()`. /repo/circuit.go:165, 173. -/
def kecHexBytesK : List Tok :=
  [.id ['h', 'a', 's', 'h', 'V', 'a', 'l', 'H', 'e', 'x'], .sym '.', .id ['B', 'y', 't', 'e', 's'], .sym '(', .sym ')']

/-- `hashBuf.Bytes()`. /repo/circuit.go:164, 178. -/
def kecBufBytesK : List Tok :=
  [.id ['h', 'a', 's', 'h', 'B', 'u', 'f'], .sym '.', .id ['B', 'y', 't', 'e', 's'], .sym '(', .sym ')']

/-- `var hashBuf bytes.Buffer`. /repo/circuit.go:158. -/
def kecBufferK : List Tok :=
  [.id ['v', 'a', 'r'], .id ['h', 'a', 's', 'h', 'B', 'u', 'f'], .id ['b', 'y', 't', 'e', 's'], .sym '.',
   .id ['B', 'u', 'f', 'f', 'e', 'r']]

/-- `for i := 0; i < len(inputs); i++ { fpEle := new(fp.Element).SetBigInt(inputs[i]) input := fpEle.Bytes() hashBuf.Write(input[:]) }`.
/repo/circuit.go:159-163. -/
def kecAbsorbK : List Tok :=
  [.id ['f', 'o', 'r'], .id ['i'], .sym ':', .sym '=', .num 0, .sym ';', .id ['i'], .sym '<', .id ['l', 'e', 'n'],
   .sym '(', .id ['i', 'n', 'p', 'u', 't', 's'], .sym ')', .sym ';', .id ['i'], .sym '+', .sym '+', .sym '{',
   .id ['f', 'p', 'E', 'l', 'e'], .sym ':', .sym '=', .id ['n', 'e', 'w'], .sym '(', .id ['f', 'p'], .sym '.',
   .id ['E', 'l', 'e', 'm', 'e', 'n', 't'], .sym ')', .sym '.', .id ['S', 'e', 't', 'B', 'i', 'g', 'I', 'n', 't'],
   .sym '(', .id ['i', 'n', 'p', 'u', 't', 's'], .sym '[', .id ['i'], .sym ']', .sym ')',
   .id ['i', 'n', 'p', 'u', 't'], .sym ':', .sym '=', .id ['f', 'p', 'E', 'l', 'e'], .sym '.',
   .id ['B', 'y', 't', 'e', 's'], .sym '(', .sym ')', .id ['h', 'a', 's', 'h', 'B', 'u', 'f'], .sym '.',
   .id ['W', 'r', 'i', 't', 'e'], .sym '(', .id ['i', 'n', 'p', 'u', 't'], .sym '[', .sym ':', .sym ']', .sym ')',
   .sym '}']

/-- `hashValHex := crypto.Keccak256Hash(hashBuf.Bytes())`. /repo/circuit.go:164. -/
def kecHashK : List Tok :=
  [.id ['h', 'a', 's', 'h', 'V', 'a', 'l', 'H', 'e', 'x'], .sym ':', .sym '=', .id ['c', 'r', 'y', 'p', 't', 'o'],
   .sym '.', .id ['K', 'e', 'c', 'c', 'a', 'k', '2', '5', '6', 'H', 'a', 's', 'h'], .sym '(',
   .id ['h', 'a', 's', 'h', 'B', 'u', 'f'], .sym '.', .id ['B', 'y', 't', 'e', 's'], .sym '(', .sym ')', .sym ')']

/-- `hashValBig := big.NewInt(0).SetBytes(`. /repo/circuit.go:165. -/
def kecBigK : List Tok :=
  [.id ['h', 'a', 's', 'h', 'V', 'a', 'l', 'B', 'i', 'g'], .sym ':', .sym '=', .id ['b', 'i', 'g'], .sym '.',
   .id ['N', 'e', 'w', 'I', 'n', 't'], .sym '(', .num 0, .sym ')', .sym '.',
   .id ['S', 'e', 't', 'B', 'y', 't', 'e', 's'], .sym '(']

/-- `for _, bigByte := range`. /repo/circuit.go:173, 178. -/
def kecRangeK : List Tok :=
  [.id ['f', 'o', 'r'], .id ['_'], .sym ',', .id ['b', 'i', 'g', 'B', 'y', 't', 'e'], .sym ':', .sym '=',
   .id ['r', 'a', 'n', 'g', 'e']]

/-- `{ results[i] = new(big.Int).SetBytes([]byte{bigByte}) i++ }`. /repo/circuit.go:173-176, 178-181. -/
def kecWriteK : List Tok :=
  [.sym '{', .id ['r', 'e', 's', 'u', 'l', 't', 's'], .sym '[', .id ['i'], .sym ']', .sym '=', .id ['n', 'e', 'w'],
   .sym '(', .id ['b', 'i', 'g'], .sym '.', .id ['I', 'n', 't'], .sym ')', .sym '.',
   .id ['S', 'e', 't', 'B', 'y', 't', 'e', 's'], .sym '(', .sym '[', .sym ']', .id ['b', 'y', 't', 'e'], .sym '{',
   .id ['b', 'i', 'g', 'B', 'y', 't', 'e'], .sym '}', .sym ')', .id ['i'], .sym '+', .sym '+', .sym '}']

/-- `results[`. /repo/circuit.go:157, 171, 174, 179. -/
def kecResultsK : List Tok :=
  [.id ['r', 'e', 's', 'u', 'l', 't', 's'], .sym '[']

/-- `] = hashValBig`. /repo/circuit.go:171. -/
def kecResultBigK : List Tok :=
  [.sym ']', .sym '=', .id ['h', 'a', 's', 'h', 'V', 'a', 'l', 'B', 'i', 'g']]

/-- `i :=`. For the text of /repo/circuit.go:157-184. -/
def kecIK : List Tok :=
  [.id ['i'], .sym ':', .sym '=']

/-- `func Keccak256Hint(_ *big.Int, inputs []*big.Int, results []*big.Int) error {`. /repo/circuit.go:157. -/
def kecHeadK : List Tok :=
  [.id ['f', 'u', 'n', 'c'], .id ['K', 'e', 'c', 'c', 'a', 'k', '2', '5', '6', 'H', 'i', 'n', 't'], .sym '(',
   .id ['_'], .sym '*', .id ['b', 'i', 'g'], .sym '.', .id ['I', 'n', 't'], .sym ',',
   .id ['i', 'n', 'p', 'u', 't', 's'], .sym '[', .sym ']', .sym '*', .id ['b', 'i', 'g'], .sym '.',
   .id ['I', 'n', 't'], .sym ',', .id ['r', 'e', 's', 'u', 'l', 't', 's'], .sym '[', .sym ']', .sym '*',
   .id ['b', 'i', 'g'], .sym '.', .id ['I', 'n', 't'], .sym ')', .id ['e', 'r', 'r', 'o', 'r'], .sym '{']

/-- `hashValHex.Bytes()` or `hashBuf.Bytes()`. /repo/circuit.go:165, 173. -/
def kecBytes (ts : List Tok) : Option (Bool × List Tok) :=
  match expect kecHexBytesK ts with
  | some ts => some (true, ts)
  | none => match expect kecBufBytesK ts with
    | some ts => some (false, ts)
    | none => none

/-- A statement. For the text of /repo/circuit.go:157-184. -/
def kecStmt (ts : List Tok) : Option (KecStmt × List Tok) :=
  match expect kecBufferK ts with
  | some ts => some (.buffer, ts)
  | none => match expect kecAbsorbK ts with
  | some ts => some (.absorb, ts)
  | none => match expect kecHashK ts with
  | some ts => some (.hash, ts)
  | none => match expect kecBigK ts with
  | some ts => do
    let (h, ts) ← kecBytes ts
    let ts ← expect [.sym ')'] ts
    return (.big h, ts)
  | none => match expect kecRangeK ts with
  | some ts => do
    let (h, ts) ← kecBytes ts
    let ts ← expect kecWriteK ts
    return (.write h, ts)
  | none => match expect kecResultsK ts with
  | some (.num n :: ts) => do
    let ts ← expect kecResultBigK ts
    return (.result n, ts)
  | some _ => none
  | none => match expect kecIK ts with
  | some (.num n :: ts) => some (.setI n, ts)
  | _ => none

/-- Statements up to the closing brace; the first argument bounds their number. For the text of /repo/circuit.go:157-184. -/
def kecBody : ℕ → List Tok → Option (List KecStmt)
  | 0, _ => none
  | k + 1, ts =>
    match expect cRetNil ts with
    | some _ => some [.retNil]
    | none => do
      let (s, ts) ← kecStmt ts
      let l ← kecBody k ts
      return s :: l

/-- The body of `Keccak256Hint` in the text of a file. For the text of /repo/circuit.go:157-184. -/
def kecFun (s : List Char) : Option (List KecStmt) := do
  let ts ← after kecHeadK (tokens s)
  kecBody 30 ts

end Verif.Go
