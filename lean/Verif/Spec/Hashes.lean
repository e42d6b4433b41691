/-
The hash functions SHA-256 (FIPS 180-4) and Keccak-256 (the pre-standard padding that Ethereum uses) on byte strings.
Specification-level; models nothing of /repo. Used to instantiate the external hash functions in concrete runs.
-/
import Verif.Spec.Bytes

namespace Verif

/-- `k n`, with `n` evaluated first by the kernel. -/
def forceN {α : Sort*} (n : ℕ) (k : ℕ → α) : α := match n with
  | 0 => k 0
  | m + 1 => k (m + 1)

/-- `k l`, with `l` evaluated first by the kernel. -/
def forceL {α : Sort*} : List ℕ → (List ℕ → α) → α
  | [], k => k []
  | x :: l, k => forceN x fun y => forceL l fun l' => k (y :: l')

/-- Consecutive blocks of `m` elements (fuel `f`). -/
def chunksOf {α : Type} (m : ℕ) : ℕ → List α → List (List α)
  | 0, _ => []
  | f + 1, l => match l with
    | [] => []
    | _ => l.take m :: chunksOf m f (l.drop m)

namespace Sha256

/-- Words are numbers below this bound. -/
def W : ℕ := 2 ^ 32

/-- Rotation to the right. -/
def rotr (x n : ℕ) : ℕ := (x >>> n ||| x <<< (32 - n)) % W

/-- The round constants: fractional parts of the cube roots of the first 64 primes. -/
def K : List ℕ :=
  [0x428a2f98, 0x71374491, 0xb5c0fbcf, 0xe9b5dba5, 0x3956c25b, 0x59f111f1, 0x923f82a4, 0xab1c5ed5,
   0xd807aa98, 0x12835b01, 0x243185be, 0x550c7dc3, 0x72be5d74, 0x80deb1fe, 0x9bdc06a7, 0xc19bf174,
   0xe49b69c1, 0xefbe4786, 0xfc19dc6, 0x240ca1cc, 0x2de92c6f, 0x4a7484aa, 0x5cb0a9dc, 0x76f988da,
   0x983e5152, 0xa831c66d, 0xb00327c8, 0xbf597fc7, 0xc6e00bf3, 0xd5a79147, 0x6ca6351, 0x14292967,
   0x27b70a85, 0x2e1b2138, 0x4d2c6dfc, 0x53380d13, 0x650a7354, 0x766a0abb, 0x81c2c92e, 0x92722c85,
   0xa2bfe8a1, 0xa81a664b, 0xc24b8b70, 0xc76c51a3, 0xd192e819, 0xd6990624, 0xf40e3585, 0x106aa070,
   0x19a4c116, 0x1e376c08, 0x2748774c, 0x34b0bcb5, 0x391c0cb3, 0x4ed8aa4a, 0x5b9cca4f, 0x682e6ff3,
   0x748f82ee, 0x78a5636f, 0x84c87814, 0x8cc70208, 0x90befffa, 0xa4506ceb, 0xbef9a3f7, 0xc67178f2]

/-- The initial state: fractional parts of the square roots of the first 8 primes. -/
def H0 : List ℕ :=
  [0x6a09e667, 0xbb67ae85, 0x3c6ef372, 0xa54ff53a, 0x510e527f, 0x9b05688c, 0x1f83d9ab, 0x5be0cd19]

/-- FIPS 180-4, σ0. -/
def s0 (x : ℕ) : ℕ := rotr x 7 ^^^ rotr x 18 ^^^ x >>> 3
/-- FIPS 180-4, σ1. -/
def s1 (x : ℕ) : ℕ := rotr x 17 ^^^ rotr x 19 ^^^ x >>> 10
/-- FIPS 180-4, Σ0. -/
def S0 (x : ℕ) : ℕ := rotr x 2 ^^^ rotr x 13 ^^^ rotr x 22
/-- FIPS 180-4, Σ1. -/
def S1 (x : ℕ) : ℕ := rotr x 6 ^^^ rotr x 11 ^^^ rotr x 25
/-- FIPS 180-4, Ch. -/
def ch (e f g : ℕ) : ℕ := (e &&& f) ^^^ ((W - 1 - e) &&& g)
/-- FIPS 180-4, Maj. -/
def maj (a b c : ℕ) : ℕ := (a &&& b) ^^^ (a &&& c) ^^^ (b &&& c)

/-- The rounds, for the remaining constants `ks`, the next 16 words `w` of the message schedule and the state `st`. -/
def rounds : List ℕ → List ℕ → List ℕ → List ℕ
  | [], _, st => st
  | k :: ks, w, st => match st with
    | [a, b, c, d, e, f, g, h] =>
      forceN ((h + S1 e + ch e f g + k + w.headD 0) % W) fun t1 =>
      forceN ((t1 + S0 a + maj a b c) % W) fun a' =>
      forceN ((d + t1) % W) fun e' =>
      forceN ((s1 (w.getD 14 0) + w.getD 9 0 + s0 (w.getD 1 0) + w.headD 0) % W) fun w' =>
      rounds ks (w.drop 1 ++ [w']) [a', a, b, c, e', e, f, g]
    | _ => []

/-- One block. -/
def compress (st : List ℕ) (block : List UInt8) : List ℕ :=
  forceL ((chunksOf 4 16 block).map beNat) fun w =>
  List.zipWith (fun a b => (a + b) % W) st (rounds K w st)

/-- One bit, zeros, and the length in bits as 8 bytes. -/
def pad (m : List UInt8) : List UInt8 :=
  m ++ [128] ++ List.replicate ((119 - m.length % 64) % 64) 0 ++ beBytes (8 * m.length) 8

/-- All blocks, in order. -/
def blocks : List (List UInt8) → List ℕ → List ℕ
  | [], st => st
  | b :: bs, st => forceL (compress st b) fun st' => blocks bs st'

/-- SHA-256. -/
def hash (m : List UInt8) : List UInt8 :=
  beBytes ((blocks (chunksOf 64 (m.length + 128) (pad m)) H0).foldl (fun acc x => acc * W + x) 0) 32

end Sha256

namespace Keccak

/-- Words are numbers below this bound. -/
def W : ℕ := 2 ^ 64

/-- Rotation to the left. -/
def rotl (x n : ℕ) : ℕ := (x <<< n ||| x >>> (64 - n)) % W

/-- The round constants. -/
def RC : List ℕ :=
  [0x1, 0x8082, 0x800000000000808a, 0x8000000080008000, 0x808b, 0x80000001,
   0x8000000080008081, 0x8000000000008009, 0x8a, 0x88, 0x80008009, 0x8000000a,
   0x8000808b, 0x800000000000008b, 0x8000000000008089, 0x8000000000008003, 0x8000000000008002, 0x8000000000000080,
   0x800a, 0x800000008000000a, 0x8000000080008081, 0x8000000000008080, 0x80000001, 0x8000000080008008]

/-- The permutation of the lanes (lane (x, y) at position x + 5y) and rotations: entry i is the source position and the
rotation of the new lane i. -/
def rhoPi : List (ℕ × ℕ) :=
  [(0, 0), (6, 44), (12, 43), (18, 21), (24, 14), (3, 28), (9, 20), (10, 3), (16, 45), (22, 61), (1, 1), (7, 6), (13, 25), (19, 8), (20, 18), (4, 27), (5, 36), (11, 10), (17, 15), (23, 56), (2, 62), (8, 55), (14, 39), (15, 41), (21, 2)]

/-- The parity of a column. -/
def column (A : List ℕ) (x : ℕ) : ℕ :=
  A.getD x 0 ^^^ A.getD (x + 5) 0 ^^^ A.getD (x + 10) 0 ^^^ A.getD (x + 15) 0 ^^^ A.getD (x + 20) 0

/-- One round with round constant `rc`. -/
def round (A : List ℕ) (rc : ℕ) : List ℕ :=
  forceL ((List.range 5).map (column A)) fun C =>
  forceL ((List.range 5).map fun x => C.getD ((x + 4) % 5) 0 ^^^ rotl (C.getD ((x + 1) % 5) 0) 1) fun D =>
  forceL ((List.range 25).map fun i => A.getD i 0 ^^^ D.getD (i % 5) 0) fun A =>
  forceL (rhoPi.map fun p => rotl (A.getD p.1 0) p.2) fun B =>
  (List.range 25).map fun i =>
    B.getD i 0 ^^^ ((W - 1 - B.getD (i / 5 * 5 + (i + 1) % 5) 0) &&& B.getD (i / 5 * 5 + (i + 2) % 5) 0) ^^^
      (if i = 0 then rc else 0)

/-- The rounds. -/
def rounds : List ℕ → List ℕ → List ℕ
  | [], A => A
  | rc :: rcs, A => forceL (round A rc) fun A' => rounds rcs A'

/-- The lanes of a block of 136 bytes, little-endian, followed by zeros. -/
def lanes (b : List UInt8) : List ℕ := ((chunksOf 8 17 b).map fun l => beNat l.reverse) ++ List.replicate 8 0

/-- All blocks, in order. -/
def blocks : List (List UInt8) → List ℕ → List ℕ
  | [], A => A
  | b :: bs, A => forceL (rounds RC (List.zipWith (· ^^^ ·) A (lanes b))) fun A' => blocks bs A'

/-- `0x01 0x00 … 0x80` up to a multiple of 136 bytes (`0x81` when one byte is missing). -/
def pad (m : List UInt8) : List UInt8 :=
  if m.length % 136 = 135 then m ++ [0x81] else m ++ [1] ++ List.replicate (134 - m.length % 136) 0 ++ [0x80]

/-- Keccak-256. -/
def hash (m : List UInt8) : List UInt8 :=
  (beBytes (((blocks (chunksOf 136 (m.length + 136) (pad m)) (List.replicate 25 0)).take 4).foldr (fun x acc => acc * W + x) 0)
    32).reverse

end Keccak

theorem Sha256.hash_length (m : List UInt8) : (Sha256.hash m).length = 32 := beBytes_length _ _

theorem Keccak.hash_length (m : List UInt8) : (Keccak.hash m).length = 32 := by
  rw [Keccak.hash, List.length_reverse, beBytes_length]

/-- Test vectors: the empty string, "abc", and a two-block message of the SHA-256 standard. -/
example : beNat (Sha256.hash []) = 0xe3b0c44298fc1c149afbf4c8996fb92427ae41e4649b934ca495991b7852b855 := by decide +kernel
example : beNat (Sha256.hash [97, 98, 99]) = 0xba7816bf8f01cfea414140de5dae2223b00361a396177a9cb410ff61f20015ad := by
  decide +kernel
example : beNat (Sha256.hash ("abcdbcdecdefdefgefghfghighijhijkijkljklmklmnlmnomnopnopq".toList.map fun c => UInt8.ofNat c.toNat)) =
    0x248d6a61d20638b8e5c026930c3e6039a33ce45964ff2167f6ecedd419db06c1 := by decide +kernel
example : beNat (Keccak.hash []) = 0xc5d2460186f7233c927e7db2dcc703c0e500b653ca82273b7bfad8045d85a470 := by decide +kernel
example : beNat (Keccak.hash [97, 98, 99]) = 0x4e03657aea45a94fc7d47ba826c8d667c0d1e6e33a64a036ec44f58fa12d6c45 := by
  decide +kernel

end Verif
