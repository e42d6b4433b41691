/-
A reader and a meaning for the text of `Circuit.Define`, /repo/kyc.go:36-67, to check the hand-written definition of
Verif/Model/Kyc against the source (theorems in Verif/Props/SourceGadgets).
-/
import Verif.Model.GadgetText
import Verif.Model.Kyc

namespace Verif.Go

/-- Arguments: an entry of `circuit`, a variable of the function or of the loop, a constant. /repo/kyc.go:54-64. -/
inductive KArg where
  /-- `circuit.Kyc.Age` -/
  | age
  /-- `circuit.Kyc.Country` -/
  | country
  /-- `circuit.ConditionHash.Age[k]` -/
  | bound (k : ℕ)
  /-- `isInList` -/
  | isInList
  /-- `country`, the element the loop is at -/
  | elem
  /-- `match` -/
  | hit
  /-- `frontend.Variable(n)` -/
  | int (n : ℕ)
deriving DecidableEq

/-- Statements. /repo/kyc.go:37-66. -/
inductive KStmt where
  /-- `v, ok := big.NewInt(0).SetString("n", 10); if !ok { panic("invalid value") }` -/
  | const (n : ℕ)
  /-- `pubKey := ecdsa.PublicKey[…]{ X: emulated.ValueOf[…](v), Y: emulated.ValueOf[…](w), }` for the i-th and j-th constant -/
  | pubKey (i j : ℕ)
  /-- `pubKey.Verify(api, sw_emulated.GetCurveParams[…](), &circuit.KycHash, &circuit.Signature)` -/
  | verify
  /-- `err := VerifyRangeCheck(api, a, b, c)` -/
  | range (a b c : KArg)
  /-- `if err != nil { return err }` -/
  | ifErr
  /-- `isInList := a` -/
  | init (a : KArg)
  /-- `for _, country := range circuit.ConditionHash.Country { match := api.IsZero(api.Sub(a, b)); isInList = api.Or(c, d) }` -/
  | loop (a b c d : KArg)
  /-- `api.AssertIsEqual(a, b)` -/
  | assertEq (a b : KArg)
  /-- `return nil` -/
  | retNil
deriving DecidableEq

/-! ### Meaning -/

/-- The local variables; `nil` stands for a variable that is not in scope. /repo/kyc.go:37-63. -/
structure KState where
  consts : List ℕ
  pubKey : ℕ × ℕ
  err : GoErr
  isInList : Var
  elem : Var
  hit : Var

/-- The value of an argument. /repo/kyc.go:54-64. -/
def KArg.eval (c : KycCircuit) (st : KState) : KArg → Circ Var
  | .age => pure c.kyc.age
  | .country => pure c.kyc.country
  | .bound 0 => pure c.conditionHash.ageMin
  | .bound 1 => pure c.conditionHash.ageMax
  | .bound _ => Circ.panic "index out of range"
  | .isInList => pure st.isInList
  | .elem => pure st.elem
  | .hit => pure st.hit
  | .int n => pure (.int n)

/-- The loop over the remaining elements. /repo/kyc.go:60-63. -/
def kycLoop (c : KycCircuit) (a b d e : KArg) : List Var → KState → Circ KState
  | [], st => pure { st with elem := .nil, hit := .nil }
  | v :: vs, st => do
    let st := { st with elem := v }
    let x ← a.eval c st
    let y ← b.eval c st
    let z ← apiSub x y
    let m ← apiIsZero z
    let st := { st with hit := m }
    let x ← d.eval c st
    let y ← e.eval c st
    let r ← apiOr x y
    kycLoop c a b d e vs { st with isInList := r }

/-- The body of the function. Simplification: `SetString` gives the number written in the literal. /repo/kyc.go:37-66. -/
def runKyc (X : Ext) (c : KycCircuit) : List KStmt → KState → Circ GoErr
  | [], _ => Circ.panic "missing return"
  | .const n :: l, st => runKyc X c l { st with consts := st.consts ++ [n] }
  | .pubKey i j :: l, st => match st.consts[i]?, st.consts[j]? with
    | some x, some y => runKyc X c l { st with pubKey := (x, y) }
    | _, _ => Circ.panic "undefined"
  | .verify :: l, st => do
    gadget (X.ecdsa ⟨st.pubKey.1, st.pubKey.2, c.kycHash, c.sigR, c.sigS⟩)
    runKyc X c l st
  | .range a b d :: l, st => do
    let x ← a.eval c st
    let y ← b.eval c st
    let z ← d.eval c st
    let err ← VerifyRangeCheck x y z
    runKyc X c l { st with err := err }
  | .ifErr :: l, st => match st.err with
    | some m => pure (some m)
    | none => runKyc X c l st
  | .init a :: l, st => do
    let x ← a.eval c st
    runKyc X c l { st with isInList := x }
  | .loop a b d e :: l, st => do
    let st ← kycLoop c a b d e c.conditionHash.country st
    runKyc X c l st
  | .assertEq a b :: l, st => do
    let x ← a.eval c st
    let y ← b.eval c st
    apiAssertIsEqual x y
    runKyc X c l st
  | .retNil :: _, _ => pure none

/-! ### Reading -/

/-- `circuit.Kyc.Age`. /repo/kyc.go:54. -/
def yAge : List Tok :=
  [.id ['c', 'i', 'r', 'c', 'u', 'i', 't'], .sym '.', .id ['K', 'y', 'c'], .sym '.', .id ['A', 'g', 'e']]

/-- `circuit.Kyc.Country`. /repo/kyc.go:61. -/
def yCountry : List Tok :=
  [.id ['c', 'i', 'r', 'c', 'u', 'i', 't'], .sym '.', .id ['K', 'y', 'c'], .sym '.',
   .id ['C', 'o', 'u', 'n', 't', 'r', 'y']]

/-- `circuit.ConditionHash.Age[`. /repo/kyc.go:54. -/
def yBound : List Tok :=
  [.id ['c', 'i', 'r', 'c', 'u', 'i', 't'], .sym '.',
   .id ['C', 'o', 'n', 'd', 'i', 't', 'i', 'o', 'n', 'H', 'a', 's', 'h'], .sym '.', .id ['A', 'g', 'e'], .sym '[']

/-- `frontend.Variable(`. /repo/kyc.go:59, 64. -/
def yInt : List Tok :=
  [.id ['f', 'r', 'o', 'n', 't', 'e', 'n', 'd'], .sym '.', .id ['V', 'a', 'r', 'i', 'a', 'b', 'l', 'e'], .sym '(']

/-- `isInList`. /repo/kyc.go:59, 62, 64. -/
def yList : List Tok :=
  [.id ['i', 's', 'I', 'n', 'L', 'i', 's', 't']]

/-- `country`. /repo/kyc.go:60, 61. -/
def yElem : List Tok :=
  [.id ['c', 'o', 'u', 'n', 't', 'r', 'y']]

/-- `match`. For the text of /repo/kyc.go:37-66. -/
def yHit : List Tok :=
  [.id ['m', 'a', 't', 'c', 'h']]

/-- `pubKey := ecdsa.PublicKey[emulated.Secp256k1Fp, emulated.Secp256k1Fr]{ X: emulated.ValueOf[emulated.Secp256k1Fp](`.
/repo/kyc.go:47-48. -/
def yPubKey : List Tok :=
  [.id ['p', 'u', 'b', 'K', 'e', 'y'], .sym ':', .sym '=', .id ['e', 'c', 'd', 's', 'a'], .sym '.',
   .id ['P', 'u', 'b', 'l', 'i', 'c', 'K', 'e', 'y'], .sym '[', .id ['e', 'm', 'u', 'l', 'a', 't', 'e', 'd'], .sym '.',
   .id ['S', 'e', 'c', 'p', '2', '5', '6', 'k', '1', 'F', 'p'], .sym ',', .id ['e', 'm', 'u', 'l', 'a', 't', 'e', 'd'],
   .sym '.', .id ['S', 'e', 'c', 'p', '2', '5', '6', 'k', '1', 'F', 'r'], .sym ']', .sym '{', .id ['X'], .sym ':',
   .id ['e', 'm', 'u', 'l', 'a', 't', 'e', 'd'], .sym '.', .id ['V', 'a', 'l', 'u', 'e', 'O', 'f'], .sym '[',
   .id ['e', 'm', 'u', 'l', 'a', 't', 'e', 'd'], .sym '.', .id ['S', 'e', 'c', 'p', '2', '5', '6', 'k', '1', 'F', 'p'],
   .sym ']', .sym '(']

/-- `), Y: emulated.ValueOf[emulated.Secp256k1Fp](`. /repo/kyc.go:48-49. -/
def yPubKeyY : List Tok :=
  [.sym ')', .sym ',', .id ['Y'], .sym ':', .id ['e', 'm', 'u', 'l', 'a', 't', 'e', 'd'], .sym '.',
   .id ['V', 'a', 'l', 'u', 'e', 'O', 'f'], .sym '[', .id ['e', 'm', 'u', 'l', 'a', 't', 'e', 'd'], .sym '.',
   .id ['S', 'e', 'c', 'p', '2', '5', '6', 'k', '1', 'F', 'p'], .sym ']', .sym '(']

/-- `pubKey.Verify(api, sw_emulated.GetCurveParams[emulated.Secp256k1Fp](), &circuit.KycHash, &circuit.Signature)`.
/repo/kyc.go:52. -/
def yVerify : List Tok :=
  [.id ['p', 'u', 'b', 'K', 'e', 'y'], .sym '.', .id ['V', 'e', 'r', 'i', 'f', 'y'], .sym '(', .id ['a', 'p', 'i'],
   .sym ',', .id ['s', 'w', '_', 'e', 'm', 'u', 'l', 'a', 't', 'e', 'd'], .sym '.',
   .id ['G', 'e', 't', 'C', 'u', 'r', 'v', 'e', 'P', 'a', 'r', 'a', 'm', 's'], .sym '[',
   .id ['e', 'm', 'u', 'l', 'a', 't', 'e', 'd'], .sym '.', .id ['S', 'e', 'c', 'p', '2', '5', '6', 'k', '1', 'F', 'p'],
   .sym ']', .sym '(', .sym ')', .sym ',', .sym '&', .id ['c', 'i', 'r', 'c', 'u', 'i', 't'], .sym '.',
   .id ['K', 'y', 'c', 'H', 'a', 's', 'h'], .sym ',', .sym '&', .id ['c', 'i', 'r', 'c', 'u', 'i', 't'], .sym '.',
   .id ['S', 'i', 'g', 'n', 'a', 't', 'u', 'r', 'e'], .sym ')']

/-- `err := VerifyRangeCheck(api,`. /repo/kyc.go:54. -/
def yRange : List Tok :=
  [.id ['e', 'r', 'r'], .sym ':', .sym '=',
   .id ['V', 'e', 'r', 'i', 'f', 'y', 'R', 'a', 'n', 'g', 'e', 'C', 'h', 'e', 'c', 'k'], .sym '(', .id ['a', 'p', 'i'],
   .sym ',']

/-- `isInList :=`. /repo/kyc.go:59. -/
def yInit : List Tok :=
  [.id ['i', 's', 'I', 'n', 'L', 'i', 's', 't'], .sym ':', .sym '=']

/-- `for _, country := range circuit.ConditionHash.Country { match := api.IsZero(api.Sub(`. /repo/kyc.go:60-61. -/
def yLoop : List Tok :=
  [.id ['f', 'o', 'r'], .id ['_'], .sym ',', .id ['c', 'o', 'u', 'n', 't', 'r', 'y'], .sym ':', .sym '=',
   .id ['r', 'a', 'n', 'g', 'e'], .id ['c', 'i', 'r', 'c', 'u', 'i', 't'], .sym '.',
   .id ['C', 'o', 'n', 'd', 'i', 't', 'i', 'o', 'n', 'H', 'a', 's', 'h'], .sym '.',
   .id ['C', 'o', 'u', 'n', 't', 'r', 'y'], .sym '{', .id ['m', 'a', 't', 'c', 'h'], .sym ':', .sym '=',
   .id ['a', 'p', 'i'], .sym '.', .id ['I', 's', 'Z', 'e', 'r', 'o'], .sym '(', .id ['a', 'p', 'i'], .sym '.',
   .id ['S', 'u', 'b'], .sym '(']

/-- `)) isInList = api.Or(`. /repo/kyc.go:61-62. -/
def yOr : List Tok :=
  [.sym ')', .sym ')', .id ['i', 's', 'I', 'n', 'L', 'i', 's', 't'], .sym '=', .id ['a', 'p', 'i'], .sym '.',
   .id ['O', 'r'], .sym '(']

/-- `ok := big.NewInt(0).SetString(`. /repo/kyc.go:37, 42. -/
def yConst : List Tok :=
  [.id ['o', 'k'], .sym ':', .sym '=', .id ['b', 'i', 'g'], .sym '.', .id ['N', 'e', 'w', 'I', 'n', 't'], .sym '(',
   .num 0, .sym ')', .sym '.', .id ['S', 'e', 't', 'S', 't', 'r', 'i', 'n', 'g'], .sym '(']

/-- `, 10) if !ok { panic("invalid value") }`. /repo/kyc.go:37-40, 42-45. -/
def yConstEnd : List Tok :=
  [.sym ',', .num 10, .sym ')', .id ['i', 'f'], .sym '!', .id ['o', 'k'], .sym '{', .id ['p', 'a', 'n', 'i', 'c'],
   .sym '(', .str ['i', 'n', 'v', 'a', 'l', 'i', 'd', ' ', 'v', 'a', 'l', 'u', 'e'], .sym ')', .sym '}']

/-- `func (circuit *Circuit) Define(api frontend.API) error {`. /repo/kyc.go:36. -/
def yHead : List Tok :=
  [.id ['f', 'u', 'n', 'c'], .sym '(', .id ['c', 'i', 'r', 'c', 'u', 'i', 't'], .sym '*',
   .id ['C', 'i', 'r', 'c', 'u', 'i', 't'], .sym ')', .id ['D', 'e', 'f', 'i', 'n', 'e'], .sym '(',
   .id ['a', 'p', 'i'], .id ['f', 'r', 'o', 'n', 't', 'e', 'n', 'd'], .sym '.', .id ['A', 'P', 'I'], .sym ')',
   .id ['e', 'r', 'r', 'o', 'r'], .sym '{']

/-- An argument. For the text of /repo/kyc.go:37-66. -/
def kArg (ts : List Tok) : Option (KArg × List Tok) :=
  match expect yAge ts with
  | some ts => some (.age, ts)
  | none => match expect yCountry ts with
  | some ts => some (.country, ts)
  | none => match expect yBound ts with
  | some (.num k :: .sym ']' :: ts) => some (.bound k, ts)
  | some _ => none
  | none => match expect yInt ts with
  | some (.num n :: .sym ')' :: ts) => some (.int n, ts)
  | some _ => none
  | none => match expect yList ts with
  | some ts => some (.isInList, ts)
  | none => match expect yElem ts with
  | some ts => some (.elem, ts)
  | none => match expect yHit ts with
  | some ts => some (.hit, ts)
  | none => none

/-- Two arguments, with what stands after them. For the text of /repo/kyc.go:37-66. -/
def kArgs2 (e : List Tok) (ts : List Tok) : Option ((KArg × KArg) × List Tok) := do
  let (a, ts) ← kArg ts
  let ts ← expect [.sym ','] ts
  let (b, ts) ← kArg ts
  let ts ← expect e ts
  return ((a, b), ts)

/-- Statements up to the closing brace; the first argument bounds their number. For the text of /repo/kyc.go:37-66. -/
def kBody : ℕ → List (List Char) → List Tok → Option (List KStmt)
  | 0, _, _ => none
  | k + 1, names, ts =>
    match expect cRetNil ts with
    | some _ => some [.retNil]
    | none => match expect yPubKey ts with
    | some (.id x :: ts) => do
      let ts ← expect yPubKeyY ts
      match ts with
      | .id y :: ts => do
        let ts ← expect gPointEnd ts
        let i ← names.idxOf? x
        let j ← names.idxOf? y
        let l ← kBody k names ts
        return .pubKey i j :: l
      | _ => none
    | some _ => none
    | none => match expect yVerify ts with
    | some ts => do
      let l ← kBody k names ts
      return .verify :: l
    | none => match expect yRange ts with
    | some ts => do
      let ((a, b), ts) ← kArgs2 [.sym ','] ts
      let (d, ts) ← kArg ts
      let ts ← expect [.sym ')'] ts
      let l ← kBody k names ts
      return .range a b d :: l
    | none => match expect kIfErr ts with
    | some ts => do
      let l ← kBody k names ts
      return .ifErr :: l
    | none => match expect yInit ts with
    | some ts => do
      let (a, ts) ← kArg ts
      let l ← kBody k names ts
      return .init a :: l
    | none => match expect yLoop ts with
    | some ts => do
      let ((a, b), ts) ← kArgs2 yOr ts
      let ((d, e), ts) ← kArgs2 [.sym ')', .sym '}'] ts
      let l ← kBody k names ts
      return .loop a b d e :: l
    | none => match expect kAssert ts with
    | some ts => do
      let ((a, b), ts) ← kArgs2 [.sym ')'] ts
      let l ← kBody k names ts
      return .assertEq a b :: l
    | none => match ts with
    | .id v :: .sym ',' :: ts => do
      let ts ← expect yConst ts
      match ts with
      | .str s :: ts => do
        let ts ← expect yConstEnd ts
        let n ← decimal? s
        let l ← kBody k (names ++ [v]) ts
        return .const n :: l
      | _ => none
    | _ => none

/-- The method `Define` of `Circuit` in a file. For the text of /repo/kyc.go:37-66. -/
def kycDefine (s : List Char) : Option (List KStmt) := do
  let ts ← after yHead (tokens s)
  kBody 30 [] ts

/-- The statements of `Circuit.Define`, /repo/kyc.go:37-66. -/
def kycProg : List KStmt := [.const kycKeyX, .const kycKeyY, .pubKey 0 1, .verify, .range .age (.bound 0) (.bound 1), .ifErr,
  .init (.int 0), .loop .country .elem .isInList .hit, .assertEq .isInList (.int 1), .retNil]

end Verif.Go
