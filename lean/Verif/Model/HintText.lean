/-
A reader and a meaning for the text of the hint functions `MsmHint` and `AddHint`
(/repo/aggregator_lib_circuit.go:104-125, 179-213) and of `modHint` (/repo/fr.go:66-74), to check the hand-written definitions of
Verif/Model/Hints and Verif/Model/Fr against the source (theorems in Verif/Props/SourceHints).
-/
import Verif.Model.HashText

namespace Verif.Go

/-- Statements; the local variables are numbered in the order of their declarations, leaving out `err`.
/repo/aggregator_lib_circuit.go:105-124, 180-212. -/
inductive HintStmt where
  /-- `if len(inputs) != n { panic("…") }` -/
  | arity (n : ℕ)
  /-- `var b []byte` -/
  | blob
  /-- `b := inputs[k].FillBytes(make([]byte, 32))` -/
  | fill (k : ℕ)
  /-- `b = append(b, c[:]...)` -/
  | append (b c : ℕ)
  /-- `p := new(bn256.G1)` -/
  | newPoint
  /-- `_, err := p.Unmarshal(b)`, `_, err = p.Unmarshal(b)` -/
  | unmarshal (p b : ℕ)
  /-- `if err != nil { return err }` -/
  | ifErr
  /-- `r.ScalarMult(p, inputs[k])` -/
  | mul (r p k : ℕ)
  /-- `r = r.Add(p, q)` -/
  | add (r p q : ℕ)
  /-- `xStr, yStr, _ := extractAndConvert(r.String())` -/
  | extract (r : ℕ)
  /-- `results[k], _ = new(big.Int).SetString(s, 10)`, where `s` is `yStr` if the flag is set, else `xStr` -/
  | result (k : ℕ) (y : Bool)
  /-- `return nil` -/
  | retNil
deriving DecidableEq

/-! ### Meaning -/

/-- Values of local variables. /repo/aggregator_lib_circuit.go:108-120, 184-207. -/
inductive HintVal where
  | bytes (b : List UInt8)
  | point (p : G1)

/-- The variables: the numbered ones, whether `err` is set, the two strings, and the results; a nil result is `none`.
/repo/aggregator_lib_circuit.go:104-124, 179-212. -/
structure HintState where
  env : List HintVal
  err : Bool
  xStr : List Char
  yStr : List Char
  results : List (Option ℤ)

/-- What the engine makes of the results: it panics on a nil result. /repo/aggregator_lib_circuit.go:122-123, 210-211. -/
def hintResult (rs : List (Option ℤ)) : HintRes := match rs.mapM id with
  | some l => .ok l
  | none => .panic

/-- The body of a hint function. Simplification: a failed `Unmarshal` leaves the point as it is (it is not used after it).
/repo/aggregator_lib_circuit.go:104-124, 179-212. -/
noncomputable def runHint (inputs : List ℤ) : List HintStmt → HintState → HintRes
  | [], _ => .panic
  | .arity n :: l, st => if inputs.length ≠ n then .panic else runHint inputs l st
  | .blob :: l, st => runHint inputs l { st with env := st.env ++ [.bytes []] }
  | .fill k :: l, st => match inputs[k]? with
    | none => .panic
    | some x => match fillBytes32 x with
      | none => .panic
      | some b => runHint inputs l { st with env := st.env ++ [.bytes b] }
  | .append b c :: l, st => match st.env[b]?, st.env[c]? with
    | some (.bytes x), some (.bytes y) => runHint inputs l { st with env := st.env.set b (.bytes (x ++ y)) }
    | _, _ => .panic
  | .newPoint :: l, st => runHint inputs l { st with env := st.env ++ [.point 0] }
  | .unmarshal p b :: l, st => match st.env[b]? with
    | some (.bytes x) => match bn256Unmarshal x with
      | none => runHint inputs l { st with err := true }
      | some P => runHint inputs l { st with env := st.env.set p (.point P), err := false }
    | _ => .panic
  | .ifErr :: l, st => if st.err then .err else runHint inputs l st
  | .mul r p k :: l, st => match st.env[p]?, inputs[k]? with
    | some (.point P), some n => runHint inputs l { st with env := st.env.set r (.point (n • P)) }
    | _, _ => .panic
  | .add r p q :: l, st => match st.env[p]?, st.env[q]? with
    | some (.point P), some (.point Q) => runHint inputs l { st with env := st.env.set r (.point (P + Q)) }
    | _, _ => .panic
  | .extract r :: l, st => match st.env[r]? with
    | some (.point P) => match extractAndConvert (bn256String P) with
      | none => runHint inputs l { st with xStr := [], yStr := [] }
      | some (x, y) => runHint inputs l { st with xStr := x, yStr := y }
    | _ => .panic
  | .result k y :: l, st =>
    if k < st.results.length then
      runHint inputs l { st with results := st.results.set k ((parseDec (if y then st.yStr else st.xStr)).map Int.ofNat) }
    else .panic
  | .retNil :: _, st => hintResult st.results

/-! ### Reading -/

/-- `if len(inputs) !=`. /repo/aggregator_lib_circuit.go:105, 180. -/
def mArity : List Tok :=
  [.id ['i', 'f'], .id ['l', 'e', 'n'], .sym '(', .id ['i', 'n', 'p', 'u', 't', 's'], .sym ')', .sym '!', .sym '=']

/-- `{ panic(`. /repo/aggregator_lib_circuit.go:105-106, 180-181. -/
def mPanic : List Tok :=
  [.sym '{', .id ['p', 'a', 'n', 'i', 'c'], .sym '(']

/-- `xStr, yStr, _ := extractAndConvert(`. /repo/aggregator_lib_circuit.go:121, 209. -/
def mExtract : List Tok :=
  [.id ['x', 'S', 't', 'r'], .sym ',', .id ['y', 'S', 't', 'r'], .sym ',', .id ['_'], .sym ':', .sym '=',
   .id ['e', 'x', 't', 'r', 'a', 'c', 't', 'A', 'n', 'd', 'C', 'o', 'n', 'v', 'e', 'r', 't'], .sym '(']

/-- `.String())`. /repo/aggregator_lib_circuit.go:121, 209. -/
def mString : List Tok :=
  [.sym '.', .id ['S', 't', 'r', 'i', 'n', 'g'], .sym '(', .sym ')', .sym ')']

/-- `results[`. /repo/aggregator_lib_circuit.go:104, 122, 123 and more. -/
def mResults : List Tok :=
  [.id ['r', 'e', 's', 'u', 'l', 't', 's'], .sym '[']

/-- `], _ = new(big.Int).SetString(`. /repo/aggregator_lib_circuit.go:122, 123, 210, 211. -/
def mSet : List Tok :=
  [.sym ']', .sym ',', .id ['_'], .sym '=', .id ['n', 'e', 'w'], .sym '(', .id ['b', 'i', 'g'], .sym '.',
   .id ['I', 'n', 't'], .sym ')', .sym '.', .id ['S', 'e', 't', 'S', 't', 'r', 'i', 'n', 'g'], .sym '(']

/-- `, 10)`. For the text of /repo/aggregator_lib_circuit.go:104-124, 179-212. -/
def mSetEnd : List Tok :=
  [.sym ',', .num 10, .sym ')']

/-- `.Unmarshal(`. /repo/aggregator_lib_circuit.go:114, 190, 201. -/
def mUnmarshal : List Tok :=
  [.sym '.', .id ['U', 'n', 'm', 'a', 'r', 's', 'h', 'a', 'l'], .sym '(']

/-- `ScalarMult(`. /repo/aggregator_lib_circuit.go:119. -/
def mMul : List Tok :=
  [.id ['S', 'c', 'a', 'l', 'a', 'r', 'M', 'u', 'l', 't'], .sym '(']

/-- `, inputs[`. /repo/aggregator_lib_circuit.go:104, 119, 179; /repo/fr.go:66. -/
def mInput : List Tok :=
  [.sym ',', .id ['i', 'n', 'p', 'u', 't', 's'], .sym '[']

/-- `append(`. /repo/aggregator_lib_circuit.go:110, 112, 186 and more. -/
def mAppend : List Tok :=
  [.id ['a', 'p', 'p', 'e', 'n', 'd'], .sym '(']

/-- `[:]...)`. /repo/aggregator_lib_circuit.go:110, 112, 186 and more. -/
def mAppendEnd : List Tok :=
  [.sym '[', .sym ':', .sym ']', .sym '.', .sym '.', .sym '.', .sym ')']

/-- `.Add(`. For the text of /repo/aggregator_lib_circuit.go:104-124, 179-212. -/
def mAdd : List Tok :=
  [.sym '.', .id ['A', 'd', 'd'], .sym '(']

/-- `[]byte`. /repo/aggregator_lib_circuit.go:108, 109, 111 and more. -/
def mByte : List Tok :=
  [.sym '[', .sym ']', .id ['b', 'y', 't', 'e']]

/-- `new(bn256.G1)`. /repo/aggregator_lib_circuit.go:113, 118, 189 and more. -/
def mNew : List Tok :=
  [.id ['n', 'e', 'w'], .sym '(', .id ['b', 'n', '2', '5', '6'], .sym '.', .id ['G', '1'], .sym ')']

/-- `inputs[`. /repo/aggregator_lib_circuit.go:104, 109, 111 and more. -/
def mFill : List Tok :=
  [.id ['i', 'n', 'p', 'u', 't', 's'], .sym '[']

/-- `].FillBytes(make([]byte, 32))`. /repo/aggregator_lib_circuit.go:109, 111, 185 and more. -/
def mFillEnd : List Tok :=
  [.sym ']', .sym '.', .id ['F', 'i', 'l', 'l', 'B', 'y', 't', 'e', 's'], .sym '(', .id ['m', 'a', 'k', 'e'], .sym '(',
   .sym '[', .sym ']', .id ['b', 'y', 't', 'e'], .sym ',', .num 32, .sym ')', .sym ')']

/-- `d := new(big.Int).Div(inputs[`. /repo/fr.go:67. -/
def mDiv : List Tok :=
  [.id ['d'], .sym ':', .sym '=', .id ['n', 'e', 'w'], .sym '(', .id ['b', 'i', 'g'], .sym '.', .id ['I', 'n', 't'],
   .sym ')', .sym '.', .id ['D', 'i', 'v'], .sym '(', .id ['i', 'n', 'p', 'u', 't', 's'], .sym '[']

/-- `r := new(big.Int).Mod(inputs[`. /repo/fr.go:68. -/
def mMod : List Tok :=
  [.id ['r'], .sym ':', .sym '=', .id ['n', 'e', 'w'], .sym '(', .id ['b', 'i', 'g'], .sym '.', .id ['I', 'n', 't'],
   .sym ')', .sym '.', .id ['M', 'o', 'd'], .sym '(', .id ['i', 'n', 'p', 'u', 't', 's'], .sym '[']

/-- `], MODULUS)`. /repo/fr.go:67, 68. -/
def mModulus : List Tok :=
  [.sym ']', .sym ',', .id ['M', 'O', 'D', 'U', 'L', 'U', 'S'], .sym ')']

/-- `] = d`. For the text of /repo/aggregator_lib_circuit.go:104-124, 179-212. -/
def mIsD : List Tok :=
  [.sym ']', .sym '=', .id ['d']]

/-- `] = r`. For the text of /repo/aggregator_lib_circuit.go:104-124, 179-212. -/
def mIsR : List Tok :=
  [.sym ']', .sym '=', .id ['r']]

/-- `(_ *big.Int, inputs []*big.Int, results []*big.Int) error {`. /repo/aggregator_lib_circuit.go:104, 179; /repo/fr.go:66. -/
def mParams : List Tok :=
  [.sym '(', .id ['_'], .sym '*', .id ['b', 'i', 'g'], .sym '.', .id ['I', 'n', 't'], .sym ',',
   .id ['i', 'n', 'p', 'u', 't', 's'], .sym '[', .sym ']', .sym '*', .id ['b', 'i', 'g'], .sym '.',
   .id ['I', 'n', 't'], .sym ',', .id ['r', 'e', 's', 'u', 'l', 't', 's'], .sym '[', .sym ']', .sym '*',
   .id ['b', 'i', 'g'], .sym '.', .id ['I', 'n', 't'], .sym ')', .id ['e', 'r', 'r', 'o', 'r'], .sym '{']

/-- One statement that declares no variable. For the text of /repo/aggregator_lib_circuit.go:104-124, 179-212. -/
def hintStmt (names : List (List Char)) (ts : List Tok) : Option (HintStmt × List Tok) :=
  match expect kIfErr ts with
  | some ts => some (.ifErr, ts)
  | none => match expect mArity ts with
  | some (.num n :: ts) => match expect mPanic ts with
    | some (.str _ :: .sym ')' :: .sym '}' :: ts) => some (.arity n, ts)
    | _ => none
  | some _ => none
  | none => match expect mExtract ts with
  | some (.id r :: ts) => do
    let ts ← expect mString ts
    let r ← names.idxOf? r
    return (.extract r, ts)
  | some _ => none
  | none => match expect mResults ts with
  | some (.num k :: ts) => do
    let ts ← expect mSet ts
    match ts with
    | .id s :: ts => do
      let ts ← expect mSetEnd ts
      if s = ['x', 'S', 't', 'r'] then return (.result k false, ts)
      if s = ['y', 'S', 't', 'r'] then return (.result k true, ts)
      none
    | _ => none
  | some _ => none
  | none => match ts with
  | .id u :: .sym ',' :: ts => do
    let ts ← expect [.id ['e', 'r', 'r']] ts
    let ts ← expect [.sym '='] ((expect [.sym ':'] ts).getD ts)
    if u ≠ ['_'] then none
    match ts with
    | .id p :: ts => do
      let ts ← expect mUnmarshal ts
      match ts with
      | .id b :: .sym ')' :: ts => do
        let p ← names.idxOf? p
        let b ← names.idxOf? b
        return (.unmarshal p b, ts)
      | _ => none
    | _ => none
  | .id r :: .sym '.' :: ts => do
    let ts ← expect mMul ts
    match ts with
    | .id p :: ts => do
      let (k, ts) ← between mInput [.sym ']', .sym ')'] ts
      let r ← names.idxOf? r
      let p ← names.idxOf? p
      return (.mul r p k, ts)
    | _ => none
  | .id b :: .sym '=' :: ts => match expect mAppend ts with
    | some (.id b' :: .sym ',' :: .id c :: ts) => do
      let ts ← expect mAppendEnd ts
      let i ← names.idxOf? b
      let c ← names.idxOf? c
      if b ≠ b' then none
      return (.append i c, ts)
    | some _ => none
    | none => match ts with
      | .id b' :: ts => do
        let ts ← expect mAdd ts
        match ts with
        | .id p :: .sym ',' :: .id q :: .sym ')' :: ts => do
          let r ← names.idxOf? b
          let p ← names.idxOf? p
          let q ← names.idxOf? q
          if b ≠ b' then none
          return (.add r p q, ts)
        | _ => none
      | _ => none
  | _ => none

/-- Statements up to the closing brace; the first argument bounds their number.
For the text of /repo/aggregator_lib_circuit.go:104-124, 179-212. -/
def hintBody : ℕ → List (List Char) → List Tok → Option (List HintStmt)
  | 0, _, _ => none
  | k + 1, names, ts =>
    match expect cRetNil ts with
    | some _ => some [.retNil]
    | none => match ts with
    | .id ['v', 'a', 'r'] :: .id v :: ts => do
      let ts ← expect mByte ts
      let l ← hintBody k (names ++ [v]) ts
      return .blob :: l
    | .id v :: .sym ':' :: .sym '=' :: ts => match expect mNew ts with
      | some ts => do
        let l ← hintBody k (names ++ [v]) ts
        return .newPoint :: l
      | none => do
        let (j, ts) ← between mFill mFillEnd ts
        let l ← hintBody k (names ++ [v]) ts
        return .fill j :: l
    | _ => do
      let (s, ts) ← hintStmt names ts
      let l ← hintBody k names ts
      return s :: l

/-- The hint function of the given name in a file. For the text of /repo/aggregator_lib_circuit.go:104-124, 179-212. -/
def hintFun (name : List Char) (s : List Char) : Option (List HintStmt) := do
  let ts ← after (.id ['f', 'u', 'n', 'c'] :: .id name :: mParams) (tokens s)
  hintBody 40 [] ts

/-- The function `modHint` in a file, whose statements are `d := new(big.Int).Div(inputs[a], MODULUS)`,
`r := new(big.Int).Mod(inputs[b], MODULUS)`, `results[c] = d`, `results[e] = r`, `return nil`: the four numbers.
For the text of /repo/aggregator_lib_circuit.go:104-124, 179-212. -/
def modHintFun (s : List Char) : Option (ℕ × ℕ × ℕ × ℕ) := do
  let ts ← after (.id ['f', 'u', 'n', 'c'] :: .id ['m', 'o', 'd', 'H', 'i', 'n', 't'] :: mParams) (tokens s)
  let (a, ts) ← between mDiv mModulus ts
  let (b, ts) ← between mMod mModulus ts
  let (c, ts) ← between mResults mIsD ts
  let (e, ts) ← between mResults mIsR ts
  let _ ← expect cRetNil ts
  return (a, b, c, e)

/-- The meaning of these statements, for two results. `Div` and `Mod` are Euclidean. /repo/fr.go:66-74. -/
def runModHint (p : ℕ × ℕ × ℕ × ℕ) (inputs : List ℤ) : HintRes :=
  match inputs[p.1]?, inputs[p.2.1]? with
  | some x, some y =>
    if p.2.2.1 < 2 ∧ p.2.2.2 < 2 then .ok ((([0, 0] : List ℤ).set p.2.2.1 (x / rMod)).set p.2.2.2 (y % rMod)) else .panic
  | _, _ => .panic

end Verif.Go
