/- Big-endian byte strings (specification-level; models nothing of /repo). -/
import Mathlib.Data.List.Induction
import Mathlib.Tactic.Ring
import Mathlib.Algebra.Order.Ring.Nat

namespace Verif

/-- Big-endian value of a list of bytes (specification). -/
def beNat (l : List UInt8) : ℕ := l.foldl (fun acc b => acc * 256 + b.toNat) 0

/-- The last `k` big-endian bytes of a number (`beBytes n 32` is `FillBytes(make([]byte, 32))` for n < 2^256). -/
def beBytes (n : ℕ) : ℕ → List UInt8
  | 0 => []
  | k + 1 => beBytes (n / 256) k ++ [UInt8.ofNat (n % 256)]

theorem beNat_snoc (l : List UInt8) (b : UInt8) : beNat (l ++ [b]) = beNat l * 256 + b.toNat := by
  simp [beNat]

theorem beNat_lt (l : List UInt8) : beNat l < 256 ^ l.length := by
  induction l using List.reverseRecOn with
  | nil => simp [beNat]
  | append_singleton l b ih =>
    rw [beNat_snoc, List.length_append, List.length_singleton, pow_succ]
    have := b.toNat_lt
    omega

theorem beNat_inj : ∀ {l l' : List UInt8}, l.length = l'.length → beNat l = beNat l' → l = l' := by
  intro l
  induction l using List.reverseRecOn with
  | nil => intro l' h _; symm; simpa using h.symm
  | append_singleton l b ih =>
    intro l' hlen h
    rcases List.eq_nil_or_concat l' with rfl | ⟨l'', b', rfl⟩
    · simp at hlen
    · rw [List.concat_eq_append] at *
      rw [beNat_snoc, beNat_snoc] at h
      have h1 := b.toNat_lt
      have h2 := b'.toNat_lt
      have e1 : beNat l = beNat l'' := by omega
      have e2 : b.toNat = b'.toNat := by omega
      rw [ih (by simpa using hlen) e1, UInt8.toNat.inj e2]

theorem beBytes_length : ∀ (k n : ℕ), (beBytes n k).length = k
  | 0, _ => rfl
  | k + 1, n => by simp [beBytes, beBytes_length k]

theorem beNat_beBytes : ∀ (k n : ℕ), n < 256 ^ k → beNat (beBytes n k) = n
  | 0, n, h => by simp at h; subst h; rfl
  | k + 1, n, h => by
    rw [beBytes, beNat_snoc, beNat_beBytes k (n / 256) (by rw [pow_succ] at h; omega)]
    have : (UInt8.ofNat (n % 256)).toNat = n % 256 := by
      rw [UInt8.toNat_ofNat']; omega
    rw [this]; omega

theorem beBytes_inj {k n m : ℕ} (hn : n < 256 ^ k) (hm : m < 256 ^ k) (h : beBytes n k = beBytes m k) :
    n = m := by
  rw [← beNat_beBytes k n hn, h, beNat_beBytes k m hm]

theorem beBytes_beNat (l : List UInt8) : beBytes (beNat l) l.length = l :=
  beNat_inj (beBytes_length _ _) (beNat_beBytes _ _ (beNat_lt l))

end Verif
