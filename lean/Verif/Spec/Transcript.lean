/-
Specification of the Fiat–Shamir transcript: a chained hash over blocks of 32-byte words. Models nothing of /repo.
-/
import Verif.Spec.Bytes

namespace Verif

/-- The message hashed for a block: the previous digest, the words of the block, and one zero byte. -/
def fsMessage (prev : ℕ) (block : List ℕ) : List UInt8 := ((prev :: block).flatMap fun n => beBytes n 32) ++ [0]

/-- The digests of successive blocks; each digest (as an integer) is the first word of the next message. -/
def fsDigests (sha : List UInt8 → List UInt8) : ℕ → List (List ℕ) → List ℕ
  | _, [] => []
  | d, b :: bs => beNat (sha (fsMessage d b)) :: fsDigests sha (beNat (sha (fsMessage d b))) bs

/-- The messages hashed along the way. -/
def fsMessages (sha : List UInt8 → List UInt8) : ℕ → List (List ℕ) → List (List UInt8)
  | _, [] => []
  | d, b :: bs => fsMessage d b :: fsMessages sha (beNat (sha (fsMessage d b))) bs

/-- The verification-key constant that seeds the transcript. -/
def fsSeed : ℕ := 8025805240938309707562879759498205008153592202559235423490485577859843831056

/-- The blocks of the aggregation proof, for instance commitment (ix, iy) and proof elements t: before each of the
eight challenges theta, beta, gamma, y, x, y', v, u. -/
def fsBlocks (ix iy : ℕ) (t : List ℕ) : List (List ℕ) :=
  [ ix :: iy :: t.take 16,        -- instance commitment and 8 advice commitments
    (t.drop 16).take 8,           -- 4 permuted lookup columns
    [],
    (t.drop 24).take 14,          -- 4 permutation products, 2 lookup products, the random polynomial
    (t.drop 38).take 6,           -- 3 pieces of the quotient
    (t.drop 44).take 56,          -- 56 evaluations
    [],
    (t.drop 100).take 2 ]         -- the first opening proof element W

end Verif
