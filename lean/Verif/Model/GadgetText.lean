/-
A reader and a meaning for the two curve gadgets of /repo/msm.go, `VerifyBN254ScalarMul` and `VerifyBN254Add`, to check the
hand-written definitions of Verif/Model/Curve against the source (theorems in Verif/Props/SourceGadgets).
-/
import Verif.Model.CalcText

namespace Verif.Go

/-- An argument of the function: a parameter of type frontend.Variable, or an entry of a parameter of type
[2]frontend.Variable; parameters after `api` are numbered. /repo/msm.go:52-157. -/
inductive GArg where
  | var (i : ℕ)
  | at (i k : ℕ)
deriving DecidableEq

/-- Statements; local variables are numbered in the order of their declarations, leaving out `cr` and `err`. /repo/msm.go:52-157. -/
inductive GStmt where
  /-- `cr, err := sw_emulated.New[…](api, sw_emulated.GetCurveParams[…]()); if err != nil { return err }` -/
  | curve
  /-- `x, err := new(fp.Element).SetInterface(a); if err != nil { return err }` -/
  | conv (a : GArg)
  /-- `p := sw_emulated.AffinePoint[…]{ X: emulated.ValueOf[…](x), Y: emulated.ValueOf[…](y), }`, or its address -/
  | point (x y : ℕ)
  /-- `s := emulated.ValueOf[emparams.BN254Fr](*x)` -/
  | scalar (x : ℕ)
  /-- `res := cr.ScalarMul(p, &s)` -/
  | mul (p s : ℕ)
  /-- `res := cr.AddUnified(p, q)` -/
  | add (p q : ℕ)
  /-- `cr.AssertIsEqual(r, &e)` -/
  | assertEq (r e : ℕ)
  /-- `return nil` -/
  | retNil
deriving DecidableEq

/-! ### Meaning -/

/-- Values of parameters. /repo/msm.go:53, 106. -/
inductive GParam where
  | one (v : Var)
  | two (v : Var × Var)

/-- Values of local variables; a result of the gadget is `none` if its constraints have no solution. /repo/msm.go:52-157. -/
inductive GVal where
  | elem (x : Fp)
  | point (p : Aff)
  | scalar (k : Fr)
  | res (r : Option Aff)

/-- The value of an argument; the other cases are type errors in Go. /repo/msm.go:52-157. -/
def GArg.eval (ps : List GParam) : GArg → Option Var
  | .var i => match ps[i]? with
    | some (.one v) => some v
    | _ => none
  | .at i k => match ps[i]?, k with
    | some (.two v), 0 => some v.1
    | some (.two v), 1 => some v.2
    | _, _ => none

/-- The body of a function. Simplification: `sw_emulated.New` does not fail; `ValueOf` makes constants; the gadgets are those of
Verif/Model/Curve. /repo/msm.go:52-157. -/
def runGadget (X : Ext) (ps : List GParam) : List GStmt → List GVal → Circ GoErr
  | [], _ => Circ.panic "missing return"
  | .curve :: l, env => runGadget X ps l env
  | .conv a :: l, env => match a.eval ps with
    | none => Circ.panic "type error"
    | some v => match setInterface v with
      | none => pure errSetInterface
      | some x => runGadget X ps l (env ++ [.elem x])
  | .point x y :: l, env => match env[x]?, env[y]? with
    | some (.elem a), some (.elem b) => runGadget X ps l (env ++ [.point (a, b)])
    | _, _ => Circ.panic "type error"
  | .scalar x :: l, env => match env[x]? with
    | some (.elem a) => runGadget X ps l (env ++ [.scalar (a.val : Fr)])
    | _ => Circ.panic "type error"
  | .mul p s :: l, env => match env[p]?, env[s]? with
    | some (.point a), some (.scalar k) => do
      gadget (X.scalarMul a k).isSome
      runGadget X ps l (env ++ [.res (X.scalarMul a k)])
    | _, _ => Circ.panic "type error"
  | .add p q :: l, env => match env[p]?, env[q]? with
    | some (.point a), some (.point b) => do
      gadget (X.addUnified a b).isSome
      runGadget X ps l (env ++ [.res (X.addUnified a b)])
    | _, _ => Circ.panic "type error"
  | .assertEq r e :: l, env => match env[r]?, env[e]? with
    | some (.res a), some (.point b) => do
      gadget (a == some b)
      runGadget X ps l env
    | _, _ => Circ.panic "type error"
  | .retNil :: _, _ => pure none

/-! ### Reading -/

/-- `sw_emulated.AffinePoint[emulated.BN254Fp]{`. /repo/msm.go:67, 121, 134. -/
def gPoint1 : List Tok :=
  [.id ['s', 'w', '_', 'e', 'm', 'u', 'l', 'a', 't', 'e', 'd'], .sym '.',
   .id ['A', 'f', 'f', 'i', 'n', 'e', 'P', 'o', 'i', 'n', 't'], .sym '[', .id ['e', 'm', 'u', 'l', 'a', 't', 'e', 'd'],
   .sym '.', .id ['B', 'N', '2', '5', '4', 'F', 'p'], .sym ']', .sym '{']

/-- `sw_emulated.AffinePoint[emparams.BN254Fp]{`. /repo/msm.go:87, 149. -/
def gPoint2 : List Tok :=
  [.id ['s', 'w', '_', 'e', 'm', 'u', 'l', 'a', 't', 'e', 'd'], .sym '.',
   .id ['A', 'f', 'f', 'i', 'n', 'e', 'P', 'o', 'i', 'n', 't'], .sym '[', .id ['e', 'm', 'p', 'a', 'r', 'a', 'm', 's'],
   .sym '.', .id ['B', 'N', '2', '5', '4', 'F', 'p'], .sym ']', .sym '{']

/-- `X: emulated.ValueOf[emparams.BN254Fp](`. /repo/msm.go:68, 88, 122 and more. -/
def gX : List Tok :=
  [.id ['X'], .sym ':', .id ['e', 'm', 'u', 'l', 'a', 't', 'e', 'd'], .sym '.',
   .id ['V', 'a', 'l', 'u', 'e', 'O', 'f'], .sym '[', .id ['e', 'm', 'p', 'a', 'r', 'a', 'm', 's'], .sym '.',
   .id ['B', 'N', '2', '5', '4', 'F', 'p'], .sym ']', .sym '(']

/-- `), Y: emulated.ValueOf[emparams.BN254Fp](`. /repo/msm.go:68-69, 88-89, 122-123 and more. -/
def gY : List Tok :=
  [.sym ')', .sym ',', .id ['Y'], .sym ':', .id ['e', 'm', 'u', 'l', 'a', 't', 'e', 'd'], .sym '.',
   .id ['V', 'a', 'l', 'u', 'e', 'O', 'f'], .sym '[', .id ['e', 'm', 'p', 'a', 'r', 'a', 'm', 's'], .sym '.',
   .id ['B', 'N', '2', '5', '4', 'F', 'p'], .sym ']', .sym '(']

/-- `), }`. For the text of /repo/msm.go:52-157. -/
def gPointEnd : List Tok :=
  [.sym ')', .sym ',', .sym '}']

/-- `cr.ScalarMul(`. /repo/msm.go:77. -/
def gMul : List Tok :=
  [.id ['c', 'r'], .sym '.', .id ['S', 'c', 'a', 'l', 'a', 'r', 'M', 'u', 'l'], .sym '(']

/-- `cr.AddUnified(`. /repo/msm.go:139. -/
def gAdd : List Tok :=
  [.id ['c', 'r'], .sym '.', .id ['A', 'd', 'd', 'U', 'n', 'i', 'f', 'i', 'e', 'd'], .sym '(']

/-- `emulated.ValueOf[emparams.BN254Fr](*`. /repo/msm.go:76. -/
def gScalar : List Tok :=
  [.id ['e', 'm', 'u', 'l', 'a', 't', 'e', 'd'], .sym '.', .id ['V', 'a', 'l', 'u', 'e', 'O', 'f'], .sym '[',
   .id ['e', 'm', 'p', 'a', 'r', 'a', 'm', 's'], .sym '.', .id ['B', 'N', '2', '5', '4', 'F', 'r'], .sym ']', .sym '(',
   .sym '*']

/-- `cr, err := sw_emulated.New[emparams.BN254Fp, emparams.BN254Fr](api, sw_emulated.GetCurveParams[emparams.BN254Fp]()) if err != nil { return err }`.
/repo/msm.go:55-58, 108-111. -/
def gCurve : List Tok :=
  [.id ['c', 'r'], .sym ',', .id ['e', 'r', 'r'], .sym ':', .sym '=',
   .id ['s', 'w', '_', 'e', 'm', 'u', 'l', 'a', 't', 'e', 'd'], .sym '.', .id ['N', 'e', 'w'], .sym '[',
   .id ['e', 'm', 'p', 'a', 'r', 'a', 'm', 's'], .sym '.', .id ['B', 'N', '2', '5', '4', 'F', 'p'], .sym ',',
   .id ['e', 'm', 'p', 'a', 'r', 'a', 'm', 's'], .sym '.', .id ['B', 'N', '2', '5', '4', 'F', 'r'], .sym ']', .sym '(',
   .id ['a', 'p', 'i'], .sym ',', .id ['s', 'w', '_', 'e', 'm', 'u', 'l', 'a', 't', 'e', 'd'], .sym '.',
   .id ['G', 'e', 't', 'C', 'u', 'r', 'v', 'e', 'P', 'a', 'r', 'a', 'm', 's'], .sym '[',
   .id ['e', 'm', 'p', 'a', 'r', 'a', 'm', 's'], .sym '.', .id ['B', 'N', '2', '5', '4', 'F', 'p'], .sym ']', .sym '(',
   .sym ')', .sym ')', .id ['i', 'f'], .id ['e', 'r', 'r'], .sym '!', .sym '=', .id ['n', 'i', 'l'], .sym '{',
   .id ['r', 'e', 't', 'u', 'r', 'n'], .id ['e', 'r', 'r'], .sym '}']

/-- `cr.AssertIsEqual(`. /repo/msm.go:38, 91, 155. -/
def gAssert : List Tok :=
  [.id ['c', 'r'], .sym '.', .id ['A', 's', 's', 'e', 'r', 't', 'I', 's', 'E', 'q', 'u', 'a', 'l'], .sym '(']

/-- `err := new(fp.Element).SetInterface(`. /repo/msm.go:59, 63, 71 and more. -/
def gConv : List Tok :=
  [.id ['e', 'r', 'r'], .sym ':', .sym '=', .id ['n', 'e', 'w'], .sym '(', .id ['f', 'p'], .sym '.',
   .id ['E', 'l', 'e', 'm', 'e', 'n', 't'], .sym ')', .sym '.',
   .id ['S', 'e', 't', 'I', 'n', 't', 'e', 'r', 'f', 'a', 'c', 'e'], .sym '(']

/-- `, ) error {`. /repo/msm.go:53-54, 106-107. -/
def gParamEnd : List Tok :=
  [.sym ',', .sym ')', .id ['e', 'r', 'r', 'o', 'r'], .sym '{']

/-- `[2]frontend.Variable`. /repo/msm.go:43, 45, 53 and more. -/
def gArray : List Tok :=
  [.sym '[', .num 2, .sym ']', .id ['f', 'r', 'o', 'n', 't', 'e', 'n', 'd'], .sym '.',
   .id ['V', 'a', 'r', 'i', 'a', 'b', 'l', 'e']]

/-- An argument. For the text of /repo/msm.go:52-157. -/
def gArg (params : List (List Char)) : List Tok → Option (GArg × List Tok)
  | .id v :: .sym '[' :: .num n :: .sym ']' :: ts => (params.idxOf? v).map fun i => (.at i n, ts)
  | .id v :: ts => (params.idxOf? v).map fun i => (.var i, ts)
  | _ => none

/-- The type of an affine point: the base field is written `emulated.BN254Fp` or `emparams.BN254Fp`, the same type.
For the text of /repo/msm.go:52-157. -/
def gPointType (ts : List Tok) : Option (List Tok) := match expect gPoint1 ts with
  | some ts => some ts
  | none => expect gPoint2 ts

/-- The rest of a declaration `v := …`, without the new name. For the text of /repo/msm.go:52-157. -/
def gDecl (names : List (List Char)) (ts : List Tok) : Option (GStmt × List Tok) :=
  match expect gMul ts with
  | some (.id p :: .sym ',' :: .sym '&' :: .id s :: .sym ')' :: ts) => do
    let p ← names.idxOf? p
    let s ← names.idxOf? s
    return (.mul p s, ts)
  | some _ => none
  | none => match expect gAdd ts with
  | some (.id p :: .sym ',' :: .id q :: .sym ')' :: ts) => do
    let p ← names.idxOf? p
    let q ← names.idxOf? q
    return (.add p q, ts)
  | some _ => none
  | none => match expect gScalar ts with
  | some (.id x :: .sym ')' :: ts) => (names.idxOf? x).map fun x => (.scalar x, ts)
  | some _ => none
  | none => do
    let ts ← gPointType ((expect [.sym '&'] ts).getD ts)
    let ts ← expect gX ts
    match ts with
    | .id x :: ts => do
      let ts ← expect gY ts
      match ts with
      | .id y :: ts => do
        let ts ← expect gPointEnd ts
        let x ← names.idxOf? x
        let y ← names.idxOf? y
        return (.point x y, ts)
      | _ => none
    | _ => none

/-- Statements up to the closing brace; the first argument bounds their number. For the text of /repo/msm.go:52-157. -/
def gBody (params : List (List Char)) : ℕ → List (List Char) → List Tok → Option (List GStmt)
  | 0, _, _ => none
  | k + 1, names, ts =>
    match expect cRetNil ts with
    | some _ => some [.retNil]
    | none => match expect gCurve ts with
    | some ts => do
      let l ← gBody params k names ts
      return .curve :: l
    | none => match expect gAssert ts with
    | some (.id r :: .sym ',' :: .sym '&' :: .id e :: .sym ')' :: ts) => do
      let r ← names.idxOf? r
      let e ← names.idxOf? e
      let l ← gBody params k names ts
      return .assertEq r e :: l
    | some _ => none
    | none => match ts with
    | .id v :: .sym ',' :: ts => do
      let ts ← expect gConv ts
      let (a, ts) ← gArg params ts
      let ts ← expect (.sym ')' :: kIfErr) ts
      let l ← gBody params k (names ++ [v]) ts
      return .conv a :: l
    | .id v :: .sym ':' :: .sym '=' :: ts => do
      let (s, ts) ← gDecl names ts
      let l ← gBody params k (names ++ [v]) ts
      return s :: l
    | _ => none

/-- Parameters up to the opening brace, with `true` for type [2]frontend.Variable; the first argument bounds their number.
For the text of /repo/msm.go:52-157. -/
def gParams : ℕ → List Tok → Option (List (List Char × Bool) × List Tok)
  | 0, _ => none
  | k + 1, ts => match expect gParamEnd ts with
    | some ts => some ([], ts)
    | none => match ts with
    | .sym ',' :: .id v :: ts => match expect kVariable ts with
      | some ts => do
        let (l, ts) ← gParams k ts
        return ((v, false) :: l, ts)
      | none => do
        let ts ← expect gArray ts
        let (l, ts) ← gParams k ts
        return ((v, true) :: l, ts)
    | _ => none

/-- The kinds of the parameters after `api` and the body of the function of the given name in a file.
For the text of /repo/msm.go:52-157. -/
def gadgetFun (name : List Char) (s : List Char) : Option (List Bool × List GStmt) := do
  let ts ← after (.id ['f', 'u', 'n', 'c'] :: .id name :: kApi) (tokens s)
  let (params, ts) ← gParams 10 ts
  let l ← gBody (params.map (·.1)) 30 [] ts
  return (params.map (·.2), l)

end Verif.Go
