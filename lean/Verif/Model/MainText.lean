/-
A reader and a meaning for the declarations of the two circuits (/repo/circuit.go:14-19, /repo/kyc.go:12-31), for `init`
(/repo/aggregator_lib_circuit.go:29-33) and for `main` (/repo/main.go:151-248), to check the hand-written definitions of
Verif/Model/Public, Verif/Model/Hints and Verif/Model/Define, and the values of Verif/Lemmas/Shipped, against the source (theorems in
Verif/Props/SourceMain).
-/
import Verif.Model.RegexText
import Verif.Model.Public

namespace Verif.Go

/-! ### Struct declarations -/

/-- A type: a slice, an array, a name with its package (empty if there is none), or such a name with a parameter. /repo/circuit.go:15-18, /repo/kyc.go:13-30. -/
inductive GoType where
  | slice (t : GoType)
  | array (n : ℕ) (t : GoType)
  | name (pkg n : List Char)
  | app (pkg n : List Char) (arg : GoType)
deriving DecidableEq

/-- A field of a struct: its name, its type, and the visibility its tag gives to the inputs in it; the visibility without a tag is
secret. /repo/circuit.go:15-18, /repo/kyc.go:13-30. -/
structure GoField where
  name : List Char
  type : GoType
  vis : Visibility
deriving DecidableEq

/-- `solver.RegisterHint(`. /repo/aggregator_lib_circuit.go:30, 31, 32. -/
def mtRegister : List Tok :=
  [.id ['s', 'o', 'l', 'v', 'e', 'r'], .sym '.', .id ['R', 'e', 'g', 'i', 's', 't', 'e', 'r', 'H', 'i', 'n', 't'],
   .sym '(']

/-- `func init() {`. /repo/aggregator_lib_circuit.go:29. -/
def mtInit : List Tok :=
  [.id ['f', 'u', 'n', 'c'], .id ['i', 'n', 'i', 't'], .sym '(', .sym ')', .sym '{']

/-- `= []string{`.
For the text of /repo/circuit.go:14-19; /repo/kyc.go:12-31; /repo/aggregator_lib_circuit.go:29-33; /repo/main.go:151-248. -/
def mtStrings : List Tok :=
  [.sym '=', .sym '[', .sym ']', .id ['s', 't', 'r', 'i', 'n', 'g'], .sym '{']

/-- `len(`.
For the text of /repo/circuit.go:14-19; /repo/kyc.go:12-31; /repo/aggregator_lib_circuit.go:29-33; /repo/main.go:151-248. -/
def mtLen : List Tok :=
  [.id ['l', 'e', 'n'], .sym '(']

/-- `: make([]frontend.Variable,`. /repo/main.go:153, 154, 155 and more. -/
def mtMake : List Tok :=
  [.sym ':', .id ['m', 'a', 'k', 'e'], .sym '(', .sym '[', .sym ']', .id ['f', 'r', 'o', 'n', 't', 'e', 'n', 'd'],
   .sym '.', .id ['V', 'a', 'r', 'i', 'a', 'b', 'l', 'e'], .sym ',']

/-- `for i := 0; i < len(`. /repo/main.go:160, 164, 200, 206. -/
def mtFor : List Tok :=
  [.id ['f', 'o', 'r'], .id ['i'], .sym ':', .sym '=', .num 0, .sym ';', .id ['i'], .sym '<', .id ['l', 'e', 'n'],
   .sym '(']

/-- `); i++ {`. /repo/main.go:160, 164, 200, 206. -/
def mtForEnd : List Tok :=
  [.sym ')', .sym ';', .id ['i'], .sym '+', .sym '+', .sym '{']

/-- `i] = big.NewInt(0) }`. /repo/main.go:161-162, 165-166. -/
def mtZeroI : List Tok :=
  [.id ['i'], .sym ']', .sym '=', .id ['b', 'i', 'g'], .sym '.', .id ['N', 'e', 'w', 'I', 'n', 't'], .sym '(', .num 0,
   .sym ')', .sym '}']

/-- `, _ := big.NewInt(0).SetString(`. /repo/main.go:201, 204, 207 and more. -/
def mtParse : List Tok :=
  [.sym ',', .id ['_'], .sym ':', .sym '=', .id ['b', 'i', 'g'], .sym '.', .id ['N', 'e', 'w', 'I', 'n', 't'],
   .sym '(', .num 0, .sym ')', .sym '.', .id ['S', 'e', 't', 'S', 't', 'r', 'i', 'n', 'g'], .sym '(']

/-- `big.NewInt(0)`. /repo/main.go:161, 163, 165 and more. -/
def mtZero : List Tok :=
  [.id ['b', 'i', 'g'], .sym '.', .id ['N', 'e', 'w', 'I', 'n', 't'], .sym '(', .num 0, .sym ')']

/-- `r1cs, err := frontend.Compile(ecc.BN254.ScalarField(), scs.NewBuilder, &`. /repo/main.go:180. -/
def mtCompile : List Tok :=
  [.id ['r', '1', 'c', 's'], .sym ',', .id ['e', 'r', 'r'], .sym ':', .sym '=',
   .id ['f', 'r', 'o', 'n', 't', 'e', 'n', 'd'], .sym '.', .id ['C', 'o', 'm', 'p', 'i', 'l', 'e'], .sym '(',
   .id ['e', 'c', 'c'], .sym '.', .id ['B', 'N', '2', '5', '4'], .sym '.',
   .id ['S', 'c', 'a', 'l', 'a', 'r', 'F', 'i', 'e', 'l', 'd'], .sym '(', .sym ')', .sym ',', .id ['s', 'c', 's'],
   .sym '.', .id ['N', 'e', 'w', 'B', 'u', 'i', 'l', 'd', 'e', 'r'], .sym ',', .sym '&']

/-- `witness, err := frontend.NewWitness(&`. /repo/main.go:220. -/
def mtNewWitness : List Tok :=
  [.id ['w', 'i', 't', 'n', 'e', 's', 's'], .sym ',', .id ['e', 'r', 'r'], .sym ':', .sym '=',
   .id ['f', 'r', 'o', 'n', 't', 'e', 'n', 'd'], .sym '.', .id ['N', 'e', 'w', 'W', 'i', 't', 'n', 'e', 's', 's'],
   .sym '(', .sym '&']

/-- `, ecc.BN254.ScalarField())`. /repo/main.go:220. -/
def mtNewWitnessEnd : List Tok :=
  [.sym ',', .id ['e', 'c', 'c'], .sym '.', .id ['B', 'N', '2', '5', '4'], .sym '.',
   .id ['S', 'c', 'a', 'l', 'a', 'r', 'F', 'i', 'e', 'l', 'd'], .sym '(', .sym ')', .sym ')']

/-- `srs, srsLagrange, err := unsafekzg.NewSRS(r1cs)`. /repo/main.go:187. -/
def mtSrs : List Tok :=
  [.id ['s', 'r', 's'], .sym ',', .id ['s', 'r', 's', 'L', 'a', 'g', 'r', 'a', 'n', 'g', 'e'], .sym ',',
   .id ['e', 'r', 'r'], .sym ':', .sym '=', .id ['u', 'n', 's', 'a', 'f', 'e', 'k', 'z', 'g'], .sym '.',
   .id ['N', 'e', 'w', 'S', 'R', 'S'], .sym '(', .id ['r', '1', 'c', 's'], .sym ')']

/-- `pk, vk, err := plonk.Setup(r1cs, srs, srsLagrange)`. /repo/main.go:192. -/
def mtSetup : List Tok :=
  [.id ['p', 'k'], .sym ',', .id ['v', 'k'], .sym ',', .id ['e', 'r', 'r'], .sym ':', .sym '=',
   .id ['p', 'l', 'o', 'n', 'k'], .sym '.', .id ['S', 'e', 't', 'u', 'p'], .sym '(', .id ['r', '1', 'c', 's'],
   .sym ',', .id ['s', 'r', 's'], .sym ',', .id ['s', 'r', 's', 'L', 'a', 'g', 'r', 'a', 'n', 'g', 'e'], .sym ')']

/-- `proof, err := plonk.Prove(r1cs, pk, witness)`. /repo/main.go:228. -/
def mtProve : List Tok :=
  [.id ['p', 'r', 'o', 'o', 'f'], .sym ',', .id ['e', 'r', 'r'], .sym ':', .sym '=', .id ['p', 'l', 'o', 'n', 'k'],
   .sym '.', .id ['P', 'r', 'o', 'v', 'e'], .sym '(', .id ['r', '1', 'c', 's'], .sym ',', .id ['p', 'k'], .sym ',',
   .id ['w', 'i', 't', 'n', 'e', 's', 's'], .sym ')']

/-- `publicWitness, err := witness.Public()`. /repo/main.go:238. -/
def mtPublic : List Tok :=
  [.id ['p', 'u', 'b', 'l', 'i', 'c', 'W', 'i', 't', 'n', 'e', 's', 's'], .sym ',', .id ['e', 'r', 'r'], .sym ':',
   .sym '=', .id ['w', 'i', 't', 'n', 'e', 's', 's'], .sym '.', .id ['P', 'u', 'b', 'l', 'i', 'c'], .sym '(', .sym ')']

/-- `err = plonk.Verify(proof, vk, publicWitness)`. /repo/main.go:242. -/
def mtVerify : List Tok :=
  [.id ['e', 'r', 'r'], .sym '=', .id ['p', 'l', 'o', 'n', 'k'], .sym '.', .id ['V', 'e', 'r', 'i', 'f', 'y'],
   .sym '(', .id ['p', 'r', 'o', 'o', 'f'], .sym ',', .id ['v', 'k'], .sym ',',
   .id ['p', 'u', 'b', 'l', 'i', 'c', 'W', 'i', 't', 'n', 'e', 's', 's'], .sym ')']

/-- `if err != nil { panic(err) }`. /repo/main.go:181-183, 188-190, 193-195 and more. -/
def mtPanic : List Tok :=
  [.id ['i', 'f'], .id ['e', 'r', 'r'], .sym '!', .sym '=', .id ['n', 'i', 'l'], .sym '{',
   .id ['p', 'a', 'n', 'i', 'c'], .sym '(', .id ['e', 'r', 'r'], .sym ')', .sym '}']

/-- `log.Println(`. /repo/main.go:185, 197, 225 and more. -/
def mtLog : List Tok :=
  [.id ['l', 'o', 'g'], .sym '.', .id ['P', 'r', 'i', 'n', 't', 'l', 'n'], .sym '(']

/-- `= AggregatorCircuit{`. /repo/main.go:152, 173. -/
def mtAlloc : List Tok :=
  [.sym '=', .id ['A', 'g', 'g', 'r', 'e', 'g', 'a', 't', 'o', 'r', 'C', 'i', 'r', 'c', 'u', 'i', 't'], .sym '{']

/-- `func main() {`. /repo/main.go:151. -/
def mtMain : List Tok :=
  [.id ['f', 'u', 'n', 'c'], .id ['m', 'a', 'i', 'n'], .sym '(', .sym ')', .sym '{']

/-- The name `MsmHint`. /repo/aggregator_lib_circuit.go:30. -/
def mtMsm : List Char := ['M', 's', 'm', 'H', 'i', 'n', 't']

/-- The name `AddHint`. /repo/aggregator_lib_circuit.go:31. -/
def mtAdd : List Char := ['A', 'd', 'd', 'H', 'i', 'n', 't']

/-- The name `Keccak256Hint`. /repo/aggregator_lib_circuit.go:32. -/
def mtKec : List Char := ['K', 'e', 'c', 'c', 'a', 'k', '2', '5', '6', 'H', 'i', 'n', 't']

/-- The name `modHint`. /repo/fr.go:66. -/
def mtMod : List Char := ['m', 'o', 'd', 'H', 'i', 'n', 't']

/-- The name `toBytes`. /repo/hash.go:26. -/
def mtToBytes : List Char := ['t', 'o', 'B', 'y', 't', 'e', 's']

/-- The name `aggCircuit`. /repo/main.go:152, 161, 163 and more. -/
def mtAgg : List Char := ['a', 'g', 'g', 'C', 'i', 'r', 'c', 'u', 'i', 't']

/-- The name `witnessCircuit`. /repo/main.go:173, 202, 205 and more. -/
def mtWit : List Char := ['w', 'i', 't', 'n', 'e', 's', 's', 'C', 'i', 'r', 'c', 'u', 'i', 't']

/-- The name `Proof`. /repo/circuit.go:15; /repo/main.go:153, 161 and more. -/
def mtProof : List Char := ['P', 'r', 'o', 'o', 'f']

/-- The name `VerifyInst`. /repo/circuit.go:16; /repo/main.go:154, 163 and more. -/
def mtInst : List Char := ['V', 'e', 'r', 'i', 'f', 'y', 'I', 'n', 's', 't']

/-- The name `Aux`. /repo/circuit.go:17; /repo/main.go:155, 165 and more. -/
def mtAux : List Char := ['A', 'u', 'x']

/-- The name `TargetInst`. /repo/circuit.go:18; /repo/main.go:156, 167 and more. -/
def mtTarget : List Char := ['T', 'a', 'r', 'g', 'e', 't', 'I', 'n', 's', 't']

/-- The name `proofStr`. /repo/main.go:153, 160, 174 and more. -/
def mtProofStr : List Char := ['p', 'r', 'o', 'o', 'f', 'S', 't', 'r']

/-- The name `auxStr`. /repo/main.go:155, 164, 176 and more. -/
def mtAuxStr : List Char := ['a', 'u', 'x', 'S', 't', 'r']

/-- The tag `gnark:",public"`.
For the text of /repo/circuit.go:14-19; /repo/kyc.go:12-31; /repo/aggregator_lib_circuit.go:29-33; /repo/main.go:151-248. -/
def mtTag : List Char := ['g', 'n', 'a', 'r', 'k', ':', '"', ',', 'p', 'u', 'b', 'l', 'i', 'c', '"']

/-- A type, and the text after it; the first argument bounds its depth.
For the text of /repo/circuit.go:14-19; /repo/kyc.go:12-31; /repo/aggregator_lib_circuit.go:29-33; /repo/main.go:151-248. -/
def goType : ℕ → List Tok → Option (GoType × List Tok)
  | 0, _ => none
  | k + 1, .sym '[' :: .sym ']' :: ts => do
    let (t, ts) ← goType k ts
    return (.slice t, ts)
  | k + 1, .sym '[' :: .num n :: .sym ']' :: ts => do
    let (t, ts) ← goType k ts
    return (.array n t, ts)
  | k + 1, .id a :: ts => do
    let (pkg, n, ts) ← match ts with
      | .sym '.' :: .id n :: ts => some (a, n, ts)
      | _ => some ([], a, ts)
    match ts with
    | .sym '[' :: ts => do
      let (t, ts) ← goType k ts
      let ts ← expect [.sym ']'] ts
      return (.app pkg n t, ts)
    | _ => return (.name pkg n, ts)
  | _, _ => none

/-- The fields up to the closing brace; the first argument bounds their number. The only tag that is known is `gnark:",public"`.
For the text of /repo/circuit.go:14-19; /repo/kyc.go:12-31; /repo/aggregator_lib_circuit.go:29-33; /repo/main.go:151-248. -/
def goFields : ℕ → List Tok → Option (List GoField)
  | 0, _ => none
  | _ + 1, .sym '}' :: _ => some []
  | k + 1, .id n :: ts => do
    let (t, ts) ← goType 3 ts
    match ts with
    | .str tag :: ts => do
      if tag ≠ mtTag then none
      let l ← goFields k ts
      return ⟨n, t, .pub⟩ :: l
    | _ => do
      let l ← goFields k ts
      return ⟨n, t, .sec⟩ :: l
  | _, _ => none

/-- The fields of the struct with the given name in the text of a file.
For the text of /repo/circuit.go:14-19; /repo/kyc.go:12-31; /repo/aggregator_lib_circuit.go:29-33; /repo/main.go:151-248. -/
def structFun (name : List Char) (s : List Char) : Option (List GoField) := do
  let ts ← after [.id ['t', 'y', 'p', 'e'], .id name, .id ['s', 't', 'r', 'u', 'c', 't'], .sym '{'] (tokens s)
  goFields 20 ts

/-- The inputs in a field of `AggregatorCircuit`. /repo/circuit.go:14-19. -/
def aggField (c : AggregatorCircuit) (n : List Char) : List Var :=
  if n = ['P', 'r', 'o', 'o', 'f'] then c.Proof
  else if n = ['V', 'e', 'r', 'i', 'f', 'y', 'I', 'n', 's', 't'] then c.VerifyInst
  else if n = ['A', 'u', 'x'] then c.Aux
  else if n = ['T', 'a', 'r', 'g', 'e', 't', 'I', 'n', 's', 't'] then c.TargetInst
  else []

/-- The inputs in a field of `Conditions`. /repo/kyc.go:12-17. -/
def condField (d : Conditions) (n : List Char) : List Var :=
  if n = ['A', 'g', 'e'] then [d.ageMin, d.ageMax]
  else if n = ['C', 'o', 'u', 'n', 't', 'r', 'y'] then d.country
  else if n = ['L', 'e', 'v', 'e', 'l'] then d.level
  else if n = ['T', 'i', 'm', 'e'] then d.time
  else []

/-- The inputs in a field of `KycType`. /repo/kyc.go:19-24. -/
def kycTypeField (d : KycType) (n : List Char) : List Var :=
  if n = ['A', 'g', 'e'] then [d.age]
  else if n = ['C', 'o', 'u', 'n', 't', 'r', 'y'] then [d.country]
  else if n = ['L', 'e', 'v', 'e', 'l'] then [d.level]
  else if n = ['T', 'i', 'm', 'e'] then [d.time]
  else []

/-- The inputs in a field of the KYC circuit, given the fields of `KycType` and of `Conditions`; a `Signature` of gnark is the elements
R and S. /repo/kyc.go:26-31. -/
def kycField (kt cd : List GoField) (c : KycCircuit) (n : List Char) : List Var :=
  if n = ['S', 'i', 'g', 'n', 'a', 't', 'u', 'r', 'e'] then limbs c.sigR ++ limbs c.sigS
  else if n = ['K', 'y', 'c', 'H', 'a', 's', 'h'] then limbs c.kycHash
  else if n = ['K', 'y', 'c'] then kt.flatMap fun f => kycTypeField c.kyc f.name
  else if n = ['C', 'o', 'n', 'd', 'i', 't', 'i', 'o', 'n', 'H', 'a', 's', 'h'] then cd.flatMap fun f => condField c.conditionHash f.name
  else []

/-! ### init -/

/-- The hint function with a name. /repo/aggregator_lib_circuit.go:30-32. -/
def hintOf (n : List Char) : Option HintId :=
  [(mtMsm, HintId.msmHint), (mtAdd, .addHint), (mtKec, .keccakHint), (mtMod, .modHint), (mtToBytes, .toBytes)].lookup n

/-- The calls of `solver.RegisterHint` up to the closing brace. /repo/aggregator_lib_circuit.go:30-33. -/
def registers : ℕ → List Tok → Option (List HintId)
  | 0, _ => none
  | _ + 1, .sym '}' :: _ => some []
  | k + 1, ts => match expect mtRegister ts with
    | some (.id n :: .sym ')' :: ts) => do
      let h ← hintOf n
      let l ← registers k ts
      return h :: l
    | _ => none

/-- The hints that `init` registers, in the text of a file. /repo/aggregator_lib_circuit.go:29-33. -/
def initFun (s : List Char) : Option (List HintId) := do
  let ts ← after mtInit (tokens s)
  registers 20 ts

/-! ### main -/

/-- A length in a `make`: the length of one of the two slices of strings (0 for `proofStr`, 1 for `auxStr`) or a number.
/repo/main.go:153-156. -/
inductive Len where
  | strs (s : ℕ)
  | num (n : ℕ)
deriving DecidableEq

/-- The calls of gnark, each with `if err != nil { panic(err) }` after it; `c` is 0 for `aggCircuit` and 1 for `witnessCircuit`.
/repo/main.go:180-245. -/
inductive MainCall where
  | compile (c : ℕ)
  | srs
  | setup
  | newWitness (c : ℕ)
  | prove
  | pubWit
  | verify
deriving DecidableEq

/-- Statements of `main`. Circuits, fields (`Proof`, `VerifyInst`, `Aux`, `TargetInst`) and slices of strings are numbered.
/repo/main.go:152-247. -/
inductive MainStmt where
  /-- `var c = AggregatorCircuit{ Proof: make([]frontend.Variable, n), … }` -/
  | alloc (c : ℕ) (lens : List Len)
  /-- `for i := 0; i < len(s); i++ { c.F[i] = big.NewInt(0) }` -/
  | zeroLoop (s c f : ℕ)
  /-- `for i := 0; i < len(s); i++ { v, _ := big.NewInt(0).SetString(s[i], 10) c.F[i] = v }` -/
  | parseLoop (s c f : ℕ)
  /-- `c.F[k] = big.NewInt(0)` -/
  | zero (c f k : ℕ)
  /-- `v, _ := big.NewInt(0).SetString("n", 10)` -/
  | parse (v : List Char) (n : ℕ)
  /-- `c.F[k] = v` -/
  | assign (c f k : ℕ) (v : List Char)
  /-- a call of gnark -/
  | call (m : MainCall)
deriving DecidableEq

/-- The four slices of a circuit; an entry that has not been assigned is nil. /repo/main.go:152-157, 173-178. -/
abbrev MainCircuit := List (List (Option ℕ))

/-- The variables: the circuits and the integers. /repo/main.go:152-218. -/
structure MainState where
  circuits : List MainCircuit
  ints : List (List Char × ℕ)

/-- An assignment to an entry of a slice; `none` is a panic. /repo/main.go:161-170, 200-217. -/
def setEntry (st : MainState) (c f k n : ℕ) : Option MainState := do
  let l ← st.circuits[c]?
  let r ← l[f]?
  if k < r.length then return { st with circuits := st.circuits.set c (l.set f (r.set k (some n))) } else none

/-- Assignments to the entries from `k` on. /repo/main.go:160-162, 164-166, 199-202, 205-208. -/
def setEntries : List ℕ → MainState → ℕ → ℕ → ℕ → Option MainState
  | [], st, _, _, _ => some st
  | n :: l, st, c, f, k => do
    let st ← setEntry st c f k n
    setEntries l st c f (k + 1)

/-- What a call works with: the compiler and the witness take the circuit as it is at that time. /repo/main.go:180-245. -/
inductive MainEvent where
  | compile (c : MainCircuit)
  | srs
  | setup
  | newWitness (c : MainCircuit)
  | prove
  | pubWit
  | verify
deriving DecidableEq

/-- The event of a call. /repo/main.go:180-245. -/
def MainCall.event (st : MainState) : MainCall → Option MainEvent
  | .compile c => st.circuits[c]?.map .compile
  | .srs => some .srs
  | .setup => some .setup
  | .newWitness c => st.circuits[c]?.map .newWitness
  | .prove => some .prove
  | .pubWit => some .pubWit
  | .verify => some .verify

/-- The calls that `main` makes if none of them returns an error; `strs` are the values of the two slices of strings. `none` is a
panic that is not due to a call. /repo/main.go:151-248. -/
def runMain (strs : List (List ℕ)) : List MainStmt → MainState → Option (List MainEvent)
  | [], _ => some []
  | .alloc c lens :: l, st => do
    if c ≠ st.circuits.length then none
    let ns ← lens.mapM fun
      | .strs s => strs[s]?.map List.length
      | .num n => some n
    runMain strs l { st with circuits := st.circuits ++ [ns.map fun n => List.replicate n none] }
  | .zeroLoop s c f :: l, st => do
    let v ← strs[s]?
    let st ← setEntries (v.map fun _ => 0) st c f 0
    runMain strs l st
  | .parseLoop s c f :: l, st => do
    let v ← strs[s]?
    let st ← setEntries v st c f 0
    runMain strs l st
  | .zero c f k :: l, st => do
    let st ← setEntry st c f k 0
    runMain strs l st
  | .parse v n :: l, st => runMain strs l { st with ints := (v, n) :: st.ints }
  | .assign c f k v :: l, st => do
    let n ← st.ints.lookup v
    let st ← setEntry st c f k n
    runMain strs l st
  | .call m :: l, st => do
    let e ← m.event st
    let es ← runMain strs l st
    return e :: es

/-- `main` with the error (or nil) that each call returns: it panics at the first error. /repo/main.go:180-245. -/
def mainPanics (err : MainEvent → GoErr) : List MainEvent → Except Panic Unit
  | [] => .ok ()
  | e :: l => match err e with
    | some m => .error (.mk m)
    | none => mainPanics err l

/-- The decimal strings of `var name = []string{…}` up to the closing brace. /repo/main.go:20-149. -/
def strings : ℕ → List Tok → Option (List ℕ)
  | 0, _ => none
  | _ + 1, .sym '}' :: _ => some []
  | k + 1, .str s :: .sym ',' :: ts => do
    let n ← decimal? s
    let l ← strings k ts
    return n :: l
  | _, _ => none

/-- The slice of strings with the given name, in the text of a file. /repo/main.go:20, 127. -/
def stringsFun (name : List Char) (s : List Char) : Option (List ℕ) := do
  let ts ← after ([.id ['v', 'a', 'r'], .id name] ++ mtStrings) (tokens s)
  strings 200 ts

/-- `aggCircuit` or `witnessCircuit`. /repo/main.go:152, 161, 163 and more. -/
def circuitNo (n : List Char) : Option ℕ := [mtAgg, mtWit].idxOf? n
/-- A field of `AggregatorCircuit`.
For the text of /repo/circuit.go:14-19; /repo/kyc.go:12-31; /repo/aggregator_lib_circuit.go:29-33; /repo/main.go:151-248. -/
def fieldNo (n : List Char) : Option ℕ := [mtProof, mtInst, mtAux, mtTarget].idxOf? n
/-- `proofStr` or `auxStr`. /repo/main.go:153, 160, 174 and more. -/
def strsNo (n : List Char) : Option ℕ := [mtProofStr, mtAuxStr].idxOf? n

/-- `n)` or `len(s))`.
For the text of /repo/circuit.go:14-19; /repo/kyc.go:12-31; /repo/aggregator_lib_circuit.go:29-33; /repo/main.go:151-248. -/
def mainLen (ts : List Tok) : Option (Len × List Tok) :=
  match ts with
  | .num n :: .sym ')' :: ts => some (.num n, ts)
  | _ => match expect mtLen ts with
    | some (.id s :: .sym ')' :: .sym ')' :: ts) => do
      let s ← strsNo s
      return (.strs s, ts)
    | _ => none

/-- `F: make([]frontend.Variable, n),` for the fields in order, from field `f` on.
For the text of /repo/circuit.go:14-19; /repo/kyc.go:12-31; /repo/aggregator_lib_circuit.go:29-33; /repo/main.go:151-248. -/
def mainAlloc : ℕ → ℕ → List Tok → Option (List Len × List Tok)
  | 0, _, ts => do
    let ts ← expect [.sym '}'] ts
    return ([], ts)
  | k + 1, f, .id n :: ts => do
    if fieldNo n ≠ some f then none
    let ts ← expect mtMake ts
    let (a, ts) ← mainLen ts
    let ts ← expect [.sym ','] ts
    let (l, ts) ← mainAlloc k (f + 1) ts
    return (a :: l, ts)
  | _, _, _ => none

/-- `c.F[`.
For the text of /repo/circuit.go:14-19; /repo/kyc.go:12-31; /repo/aggregator_lib_circuit.go:29-33; /repo/main.go:151-248. -/
def mainTarget : List Tok → Option ((ℕ × ℕ) × List Tok)
  | .id c :: .sym '.' :: .id f :: .sym '[' :: ts => do
    let c ← circuitNo c
    let f ← fieldNo f
    return ((c, f), ts)
  | _ => none

/-- `for i := 0; i < len(s); i++ { … }`.
For the text of /repo/circuit.go:14-19; /repo/kyc.go:12-31; /repo/aggregator_lib_circuit.go:29-33; /repo/main.go:151-248. -/
def mainLoop (ts : List Tok) : Option (MainStmt × List Tok) :=
  match expect mtFor ts with
  | some (.id s :: ts) => do
    let n ← strsNo s
    let ts ← expect mtForEnd ts
    match mainTarget ts with
    | some ((c, f), ts) => do
      let ts ← expect mtZeroI ts
      return (.zeroLoop n c f, ts)
    | none => match ts with
      | .id v :: ts => do
        let ts ← expect (mtParse ++ [.id s, .sym '[', .id ['i'], .sym ']', .sym ',', .num 10, .sym ')']) ts
        let ((c, f), ts) ← mainTarget ts
        let ts ← expect [.id ['i'], .sym ']', .sym '=', .id v, .sym '}'] ts
        return (.parseLoop n c f, ts)
      | _ => none
  | _ => none

/-- `c.F[k] = v` or `c.F[k] = big.NewInt(0)`.
For the text of /repo/circuit.go:14-19; /repo/kyc.go:12-31; /repo/aggregator_lib_circuit.go:29-33; /repo/main.go:151-248. -/
def mainAssign (ts : List Tok) : Option (MainStmt × List Tok) :=
  match mainTarget ts with
  | some ((c, f), .num k :: .sym ']' :: .sym '=' :: ts) => match expect mtZero ts with
    | some ts => some (.zero c f k, ts)
    | none => match ts with
      | .id v :: ts => some (.assign c f k v, ts)
      | _ => none
  | _ => none

/-- A call of gnark.
For the text of /repo/circuit.go:14-19; /repo/kyc.go:12-31; /repo/aggregator_lib_circuit.go:29-33; /repo/main.go:151-248. -/
def mainCallOnly (ts : List Tok) : Option (MainCall × List Tok) :=
  match expect mtCompile ts with
  | some (.id c :: .sym ')' :: ts) => (circuitNo c).map fun c => (.compile c, ts)
  | some _ => none
  | none => match expect mtNewWitness ts with
  | some (.id c :: ts) => do
    let c ← circuitNo c
    let ts ← expect mtNewWitnessEnd ts
    return (.newWitness c, ts)
  | some _ => none
  | none => match expect mtSrs ts with
  | some ts => some (MainCall.srs, ts)
  | none => match expect mtSetup ts with
  | some ts => some (.setup, ts)
  | none => match expect mtProve ts with
  | some ts => some (.prove, ts)
  | none => match expect mtPublic ts with
  | some ts => some (.pubWit, ts)
  | none => match expect mtVerify ts with
  | some ts => some (.verify, ts)
  | none => none

/-- A call of gnark with `if err != nil { panic(err) }` after it.
For the text of /repo/circuit.go:14-19; /repo/kyc.go:12-31; /repo/aggregator_lib_circuit.go:29-33; /repo/main.go:151-248. -/
def mainCall (ts : List Tok) : Option (MainCall × List Tok) := do
  let (m, ts) ← mainCallOnly ts
  let ts ← expect mtPanic ts
  return (m, ts)

/-- `log.Println("…")`. /repo/main.go:185, 197, 225 and more. -/
def mainLog (ts : List Tok) : Option (List Tok) :=
  match expect mtLog ts with
  | some (.str _ :: .sym ')' :: ts) => some ts
  | _ => none

/-- Statements up to the closing brace of the function; the first argument bounds their number, the second is the number of open
blocks.
For the text of /repo/circuit.go:14-19; /repo/kyc.go:12-31; /repo/aggregator_lib_circuit.go:29-33; /repo/main.go:151-248. -/
def mainBody : ℕ → ℕ → List Tok → Option (List MainStmt)
  | 0, _, _ => none
  | _ + 1, 0, .sym '}' :: _ => some []
  | k + 1, d + 1, .sym '}' :: ts => mainBody k d ts
  | k + 1, d, .sym '{' :: ts => mainBody k (d + 1) ts
  | k + 1, d, .id ['v', 'a', 'r'] :: .id c :: ts => do
    let c ← circuitNo c
    let ts ← expect mtAlloc ts
    let (l, ts) ← mainAlloc 4 0 ts
    let r ← mainBody k d ts
    return .alloc c l :: r
  | k + 1, d, ts => match mainLog ts with
    | some ts => mainBody k d ts
    | none => match mainLoop ts with
    | some (s, ts) => do
      let r ← mainBody k d ts
      return s :: r
    | none => match mainAssign ts with
    | some (s, ts) => do
      let r ← mainBody k d ts
      return s :: r
    | none => match mainCall ts with
    | some (m, ts) => do
      let r ← mainBody k d ts
      return .call m :: r
    | none => match ts with
    | .id v :: ts => match expect mtParse ts with
      | some (.str s :: .sym ',' :: .num 10 :: .sym ')' :: ts) => do
        let n ← decimal? s
        let r ← mainBody k d ts
        return .parse v n :: r
      | _ => none
    | _ => none

/-- The body of `main` in the text of a file. /repo/main.go:151-248. -/
def mainFun (s : List Char) : Option (List MainStmt) := do
  let ts ← after mtMain (tokens s)
  mainBody 60 0 ts

end Verif.Go
