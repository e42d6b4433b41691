/-
Property C70: with the real pairing, the trapdoor in C55 and C61 is the discrete logarithm between the two G2 points of /repo/pairing_circuit.go:84-107.
So a prover that gets a false proof accepted either hits an exceptional challenge or holds a polynomial that has this logarithm among its few roots.
-/
import Verif.Props.AtePairing
import Verif.Props.RandomOracle

namespace Verif
open Halo2 Polynomial

variable {M : Finset (List UInt8)}

/-- z is the discrete logarithm of the first fixed G2 point to the standard generator of G2 (the opposite of the second fixed point). -/
def G2Log (z : Fr) : Prop := ∀ S G : twist.Point, IsTwistPoint g20 S → IsTwistPoint G2gen G → S = z.val • G

/-- C70: there is exactly one. -/
theorem C70_unique : ∃! z, G2Log z := by
  obtain ⟨τ, ⟨-, h⟩, -⟩ := C69_secret
  refine ⟨τ, h, fun σ hσ => ?_⟩
  obtain ⟨S, hS⟩ := twist_point (A := g20) ((isOnTwist_iff _).2 C41_g2.1) (by decide +kernel)
  obtain ⟨G, hG⟩ := twist_point (A := G2gen) (by decide +kernel) (by decide +kernel)
  obtain ⟨D, hD⟩ := twist_point (A := g21) ((isOnTwist_iff _).2 C41_g2.2) (by decide +kernel)
  have hG' : D = -G := by
    obtain ⟨x, y, hn, rfl, rfl, rfl⟩ := hD
    obtain ⟨x', y', hn', rfl, rfl, rfl⟩ := hG
    rw [WeierstrassCurve.Affine.Point.neg_some, WeierstrassCurve.Affine.Point.some.injEq, twist_negY]
    exact ⟨by rw [C41_generator], by rw [C41_generator]; rfl⟩
  have oG : addOrderOf G = rMod := by
    have := order_of_check (Q := g21N) (g21N_val ▸ hD) g21_orderCheck
    rwa [hG', addOrderOf_neg] at this
  have e := (hσ S G hS hG).symm.trans (h S G hS hG)
  rw [nsmul_eq_nsmul_iff_modEq, oG] at e
  refine ZMod.val_injective rMod ?_
  rwa [Nat.ModEq, Nat.mod_eq_of_lt (ZMod.val_lt _), Nat.mod_eq_of_lt (ZMod.val_lt _)] at e

/-- C70: with the real pairing the trapdoor is this logarithm. -/
theorem C70_trapdoor {X : Ext} (hX : X.pairing = Ate.check) (z : Fr) : X.Trapdoor z ↔ G2Log z := by
  obtain ⟨τ, ⟨h1, h2⟩, -⟩ := C69_secret
  have ht : X.Trapdoor τ := fun P Q _ _ => by rw [Ext.PairingEq, hX]; exact h1 P Q
  constructor
  · intro h
    rwa [(C69_trapdoor hX).unique h ht]
  · intro h
    rwa [C70_unique.unique h h2]

/-- C70: every accepted run, whatever the hints answered, has a satisfying witness behind it, or a Fiat–Shamir challenge is exceptional, or the
polynomials give a nonzero polynomial of degree ≤ d + 1 that has the logarithm as a root. -/
theorem C70_accepted {X : Ext} (hX : X.Strict) (hpair : X.pairing = Ate.check) {τ : Fr} (hτ : G2Log τ) {K : VkPolys} (hK : K.Opens τ) {d : ℕ}
    (hKd : K.Bounded d) {π : Equiv.Perm (Fin 7 × Fin (n - 6))} (hπ : EncodesPermutation K π) :
    ∃ B : Exceptions d, ∀ (c : AggregatorCircuit) (E : Engine) (s : St), E.mode = .test → (c.Define X).Accepted E s →
      ∃ bs : List UInt8, bs.length = 32 * (c.TargetInst ++ c.VerifyInst).length ∧ ∃ (k : Fr) (t : List ℤ),
        k = (beNat (X.keccak bs) : ℕ) ∧ SoundAt X c k t ∧
        ∀ (P : Columns) (h : ℕ → Fr[X]) (q w : Fr[X]), P.Bounded d → (∀ i, (h i).natDegree ≤ d) → q.natDegree ≤ d →
          w.natDegree ≤ d → Opens τ K k P h q w (.ofProof (instCommitment k) (proofPoint c.Proof)) →
          Satisfies K π k P.a ∨
          B.Hit k P h (.ofProof (frAt c.Proof)) q (challengesFor X.sha256 (instCommitment k) (t.map Int.natAbs)) ∨
          ∃ z ∈ (openingPoly (challengesFor X.sha256 (instCommitment k) (t.map Int.natAbs)) K k P h q w
            (.ofProof (frAt c.Proof)) (frAt c.Aux 16)).roots.toFinset, G2Log z := by
  obtain ⟨B, hB⟩ := C55_accepted hX ((C70_trapdoor hpair τ).2 hτ) hK hKd hπ
  refine ⟨B, fun c E s hE hacc => ?_⟩
  obtain ⟨bs, hb, k, t, hk, ht, h⟩ := hB c E s hE hacc
  refine ⟨bs, hb, k, t, hk, ht, fun P h' q w hP hh hq hw hC => ?_⟩
  rcases h P h' q w hP hh hq hw hC with h1 | h1 | ⟨h0, -, hr⟩
  · exact .inl h1
  · exact .inr (.inl h1)
  · exact .inr (.inr ⟨τ, by rw [Multiset.mem_toFinset, mem_roots h0]; exact hr, hτ⟩)

/-- The candidates for the logarithm that the prover's polynomials give: the roots of one polynomial. They do not depend on the logarithm. -/
noncomputable def OracleProver.candidates (R : OracleProver M) (rest : List UInt8 → List UInt8) (K : VkPolys) (d Q : ℕ) (H : M → Digest) (t : List ℤ) :
    Finset Fr :=
  let p := openingPoly (challengesFor (oracleHash M H rest) (instCommitment (R.final (R.answers H Q)).k) (t.map Int.natAbs)) K
      (R.final (R.answers H Q)).k (R.final (R.answers H Q)).P (R.final (R.answers H Q)).h (R.final (R.answers H Q)).q (R.w (R.answers H Q))
      (R.final (R.answers H Q)).e (frAt (R.circuit (R.answers H Q)).Aux 16)
  if p.natDegree ≤ d + 1 then p.roots.toFinset else ∅

/-- The prover can compute the logarithm from its polynomials: it is one of their few candidates. -/
def OracleProver.FindsLog (R : OracleProver M) (rest : List UInt8 → List UInt8) (K : VkPolys) (d Q : ℕ) (H : M → Digest) : Prop :=
  ∃ t : List ℤ, (R.circuit (R.answers H Q)).Proof.take 102 = t.map .big ∧ ∃ z ∈ R.candidates rest K d Q H t, G2Log z

/-- C70: there are at most d + 1 candidates. -/
theorem C70_candidates (R : OracleProver M) (rest : List UInt8 → List UInt8) (K : VkPolys) (d Q : ℕ) (H : M → Digest) (t : List ℤ) :
    (R.candidates rest K d Q H t).card ≤ d + 1 := by
  unfold OracleProver.candidates
  simp only []
  split_ifs with h
  · exact (Multiset.toFinset_card_le _).trans ((card_roots' _).trans h)
  · exact Nat.zero_le _

theorem OracleProver.Exposes.findsLog {R : OracleProver M} {rest : List UInt8 → List UInt8} {τ : Fr} (hτ : G2Log τ) {K : VkPolys} {d Q : ℕ} {H : M → Digest}
    (h : R.Exposes rest τ K d Q H) : R.FindsLog rest K d Q H := by
  obtain ⟨t, ht, h0, hd, hr⟩ := h
  refine ⟨t, ht, τ, ?_, hτ⟩
  unfold OracleProver.candidates
  simp only []
  rw [if_pos hd, Multiset.mem_toFinset, mem_roots h0]
  exact hr

/-- C70: for a prover that asks `Q` questions to a random hash function: for at most a fraction Q · (2 Q + 6 · v · `exceptionalValues d`) / 2^256 of
all hash functions the circuit accepts although the prover knows neither a satisfying witness nor the logarithm. -/
theorem C70_count {X : Ext} (hX : X.Strict) (hpair : X.pairing = Ate.check) {τ : Fr} (hτ : G2Log τ) {K : VkPolys} (hK : K.Opens τ) {d : ℕ}
    (hKd : K.Bounded d) {π : Equiv.Perm (Fin 7 × Fin (n - 6))} (hπ : EncodesPermutation K π) {rest : List UInt8 → List UInt8}
    (hr : ∀ m, (rest m).length = 32) {R : OracleProver M} {v : ℕ} (hR : R.Bounded d v) (Q : ℕ) :
    {H : M → Digest | R.Convinces X rest τ K Q H ∧ ¬ Satisfies K π (R.final (R.answers H Q)).k (R.final (R.answers H Q)).P.a ∧
      ¬ R.FindsLog rest K d Q H}.ncard * 2 ^ 256 ≤
        Q * (2 * Q + 6 * (v * exceptionalValues d)) * (2 ^ 256) ^ M.card := by
  refine le_trans (Nat.mul_le_mul_right _ (Set.ncard_le_ncard ?_ (Set.toFinite _)))
    (C61_count hX ((C70_trapdoor hpair τ).2 hτ) hK hKd hπ hr hR Q)
  exact fun H ⟨h1, h2, h3⟩ => ⟨h1, h2, fun h4 => h3 (h4.findsLog hτ)⟩

/-- C70: with at most 2^80 questions the probability is below 2^-94. -/
theorem C70_probability {X : Ext} (hX : X.Strict) (hpair : X.pairing = Ate.check) {τ : Fr} (hτ : G2Log τ) {K : VkPolys} (hK : K.Opens τ)
    (hKd : K.Bounded n) {π : Equiv.Perm (Fin 7 × Fin (n - 6))} (hπ : EncodesPermutation K π) {rest : List UInt8 → List UInt8}
    (hr : ∀ m, (rest m).length = 32) {R : OracleProver M} (hR : R.Bounded n 1) {Q : ℕ} (hQ : Q ≤ 2 ^ 80) :
    ({H : M → Digest | R.Convinces X rest τ K Q H ∧ ¬ Satisfies K π (R.final (R.answers H Q)).k (R.final (R.answers H Q)).P.a ∧
      ¬ R.FindsLog rest K n Q H}.ncard : ℚ) / Nat.card (M → Digest) < 1 / 2 ^ 94 :=
  cheating_lt _ hQ (C70_count hX hpair hτ hK hKd hπ hr hR Q) (by decide +kernel)

/-! ### Concrete cases -/

/-- The external functions of Props/ShippedReal meet the hypotheses on X, and the logarithm exists. -/
example : realExt.Strict ∧ realExt.pairing = Ate.check ∧ ∃ z, G2Log z := ⟨realExt_strict, realExt_pairing, C70_unique.exists⟩

/-- If the logarithm is not an element of the domain there is a verifying key that meets the hypotheses for every permutation. -/
example {τ : Fr} (h : τ ^ n ≠ 1) (π : Equiv.Perm (Fin 7 × Fin (n - 6))) :
    ∃ K : VkPolys, K.Opens τ ∧ K.Bounded n ∧ EncodesPermutation K π := exists_vkPolys h π

/-- The logarithm is not 0 or 1. -/
example {z : Fr} (h : G2Log z) : z ≠ 0 ∧ z ≠ 1 := by
  obtain ⟨S, hS⟩ := twist_point (A := g20) ((isOnTwist_iff _).2 C41_g2.1) (by decide +kernel)
  obtain ⟨G, hG⟩ := twist_point (A := G2gen) (by decide +kernel) (by decide +kernel)
  have e := h S G hS hG
  constructor
  · rintro rfl
    rw [ZMod.val_zero, zero_nsmul] at e
    obtain ⟨x, y, hn, rfl, -, -⟩ := hS
    exact WeierstrassCurve.Affine.Point.some_ne_zero _ e
  · rintro rfl
    rw [show (1 : Fr).val = 1 by decide +kernel, one_nsmul] at e
    obtain ⟨x, y, hn, rfl, rfl, rfl⟩ := hS
    obtain ⟨x', y', hn', rfl, rfl, rfl⟩ := hG
    rw [WeierstrassCurve.Affine.Point.some.injEq] at e
    have := toF_injective e.1
    revert this
    decide +kernel

end Verif
