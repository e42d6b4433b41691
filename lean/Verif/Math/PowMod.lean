/-
Modular exponentiation that the kernel evaluates quickly, and the Lucas primality criterion on top of it.
Pure mathematics; models nothing of /repo.
-/
import Mathlib.NumberTheory.LucasPrimality
import Mathlib.Data.ZMod.Basic
import Mathlib.Tactic.NormNum.Prime
import Mathlib.Tactic.Ring

namespace Verif

/-- `powModAux m fuel b e acc = acc * b ^ e % m` when `fuel` is at least the bit length of `e`. -/
def powModAux (m : Nat) : Nat → Nat → Nat → Nat → Nat
  | 0, _, _, acc => acc
  | f+1, b, e, acc => bif Nat.beq e 0 then acc else
     powModAux m f (b*b % m) (e/2) (bif Nat.beq (e % 2) 1 then acc*b % m else acc)

/-- `b ^ e mod m` for exponents below `2 ^ 512`. -/
def powMod (m b e : Nat) : Nat := powModAux m 512 b e 1

theorem powModAux_cast (m : Nat) : ∀ (f b e acc : Nat), e < 2 ^ f →
    ((powModAux m f b e acc : Nat) : ZMod m) = (acc : ZMod m) * (b : ZMod m) ^ e := by
  intro f
  induction f with
  | zero => intro b e acc h; obtain rfl : e = 0 := by simpa using h
            simp [powModAux]
  | succ f ih =>
    intro b e acc h
    rw [powModAux]
    by_cases h0 : e = 0
    · subst h0; simp
    · have hb : Nat.beq e 0 = false := by
        cases hh : Nat.beq e 0 with
        | false => rfl
        | true => exact absurd (Nat.eq_of_beq_eq_true hh) h0
      rw [hb, cond_false, ih _ _ _ (by rw [pow_succ] at h; omega)]
      have he : e = 2 * (e / 2) + e % 2 := by omega
      have hbb : ((b * b % m : Nat) : ZMod m) = (b : ZMod m) ^ 2 := by
        rw [ZMod.natCast_mod]; push_cast; ring
      rw [hbb, ← pow_mul]
      rcases Nat.mod_two_eq_zero_or_one e with h2 | h2
      · rw [h2] at he ⊢
        conv_rhs => rw [he]
        simp [show Nat.beq 0 1 = false from rfl]
      · rw [h2] at he ⊢
        conv_rhs => rw [he]
        simp [ZMod.natCast_mod]
        ring

theorem powMod_cast (m b e : Nat) (h : e < 2 ^ 512) :
    ((powMod m b e : Nat) : ZMod m) = (b : ZMod m) ^ e := by
  rw [powMod, powModAux_cast _ _ _ _ _ h]; simp

theorem lucas_of_factors (n a : Nat) (fs : List (Nat × Nat)) (hn : 1 < n)
    (hprod : n - 1 = (fs.map (fun f => f.1 ^ f.2)).prod ∧ n < 2 ^ 512)
    (hp : ∀ f ∈ fs, Nat.Prime f.1)
    (h1 : powMod n a (n - 1) = 1)
    (h2 : ∀ f ∈ fs, Nat.beq (powMod n a ((n - 1) / f.1) % n) 1 = false) : Nat.Prime n := by
  obtain ⟨hprod, hlt⟩ := hprod
  apply lucas_primality n (a : ZMod n)
  · rw [← powMod_cast n a _ (by omega), h1]; simp
  · intro q hq hd he
    rw [hprod] at hd
    rw [Prime.dvd_prod_iff hq.prime] at hd
    obtain ⟨x, hx, hqx⟩ := hd
    obtain ⟨f, hf, rfl⟩ := List.mem_map.1 hx
    have : q = f.1 := (Nat.prime_dvd_prime_iff_eq hq (hp f hf)).1 (hq.dvd_of_dvd_pow hqx)
    subst this
    have h3 := h2 f hf
    rw [← powMod_cast n a _ (lt_of_le_of_lt (Nat.div_le_self _ _) (by omega))] at he
    have h4 : powMod n a ((n - 1) / f.1) % n = 1 := by
      have := (ZMod.natCast_eq_natCast_iff' (powMod n a ((n - 1) / f.1)) 1 n).1 (by simpa using he)
      rwa [Nat.mod_eq_of_lt hn] at this
    rw [h4] at h3
    exact absurd h3 (by decide)

end Verif
