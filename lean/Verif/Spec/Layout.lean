/-
How lists of circuit variables are read as field elements, points, challenges and Lagrange values: the layout of the
proof, of the aux list and of the buffer handed from step to step. Models nothing of /repo.
-/
import Verif.Model.Engine
import Verif.Spec.Halo2

namespace Verif
open Halo2

/-- Field value at a position of a list of variables. -/
def frAt (l : List Var) (i : ℕ) : Fr := (l.getD i .nil).fr

/-- The two variables are the coordinates of P ((0,0) for infinity), as constants modulo p. -/
def PtAt (v w : Var) (P : G1) : Prop := ∃ x y : Fp, setInterface v = some x ∧ setInterface w = some y ∧ enc P = (x, y)

/-- Point of a pair of variables (0 if they are not a point). -/
noncomputable def ptVar (v w : Var) : G1 := dec ((setInterface v).getD 0, (setInterface w).getD 0)

/-- Point at positions i, i+1 of a list. -/
noncomputable def proofPoint (T : List Var) (i : ℕ) : G1 := ptVar (T.getD i .nil) (T.getD (i + 1) .nil)

/-- The challenges in buffer positions 2 … 9, in the order in which they are squeezed. -/
def challengesOf (buf : ℕ → Fr) : Challenges where
  θ := buf 2
  β := buf 3
  γ := buf 4
  y := buf 5
  x := buf 6
  y' := buf 7
  v := buf 8
  u := buf 9

/-- The Lagrange values claimed by the aux witness: l_0 in position 9, l_(-k) in position 16 - k. -/
def lagrangeOf (aux : ℕ → Fr) : LagrangeVals where
  zero := aux 9
  neg k := aux (16 - k)

end Verif
