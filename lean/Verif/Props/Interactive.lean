/- Property C57: with random challenges, the probability of cheating and the probability that an honest prover fails. -/
import Verif.Lemmas.Counting
import Verif.Spec.Interactive
import Verif.Props.Prover

namespace Verif
open Halo2 Polynomial

/-- The number of exceptional values of all challenges together, for polynomials of degree at most `d`. -/
def exceptionalValues (d : ℕ) : ℕ :=
  n + (7 * (n - 6) + (14 * (n - 6) + (22 + (4 * max d n + n + 1 + (29 + (4 + (d + 10)))))))

/-- C57: the challenges of a run are one of r^8 tuples. -/
theorem C57_total : Nat.card Challenges = rMod ^ 8 := by
  rw [← Nat.card_congr tupleEquiv, Nat.card_eq_fintype_card]
  exact card_pair (k := 7) (card_pair (k := 6) (card_pair (k := 5) (card_pair (k := 4) (card_pair (k := 3) (card_pair (k := 2)
    (card_pair (k := 1) (by rw [ZMod.card, pow_one])))))))

/-- C57: whatever the prover does, if its advice columns do not satisfy the statement, then the verifier's equations hold, without
the prover's polynomials exposing the trapdoor, for at most `exceptionalValues d` · r^7 of the r^8 tuples of challenges. -/
theorem C57_count {τ : Fr} {K : VkPolys} (hK : K.Opens τ) {d : ℕ} (hKd : K.Bounded d) {π : Equiv.Perm (Fin 7 × Fin (n - 6))}
    (hπ : EncodesPermutation K π) {S : Strategy} (hS : S.Bounded d) (hf : ¬ Satisfies K π S.k S.a) :
    {c : Challenges | ∃ hv, S.Passes τ K c hv ∧ ¬ Exposes τ d (S.openingPoly K c hv)}.ncard ≤ exceptionalValues d * rMod ^ 7 := by
  rw [ncard_challenges, exceptionalValues]
  have c1 : Fintype.card Fr = rMod ^ 1 := by rw [ZMod.card, pow_one]
  have c2 := card_pair c1
  have c3 := card_pair c2
  have c4 := card_pair c3
  have c5 := card_pair c4
  have c6 := card_pair c5
  have c7 := card_pair c6
  refine AllBut.ncard_step c7 (C55_rounds hK hKd hπ hf) fun θ h1 => ?_
  refine AllBut.ncard_step c6 (h1 (S.permA θ) (S.permS θ)) fun β h2 => ?_
  refine AllBut.ncard_step c5 h2 fun γ h3 => ?_
  refine AllBut.ncard_step c4 (h3 (S.z θ β γ) (S.Z θ β γ) (S.random θ β γ) (hS.columns θ β γ)) fun y h4 => ?_
  refine AllBut.ncard_step c3 (h4 (S.h θ β γ y) (hS.h θ β γ y)) fun x h5 => ?_
  refine AllBut.ncard_step c2 (h5 (S.e θ β γ y x)) fun y' h6 => ?_
  refine AllBut.ncard_step c1 h6 fun v h7 => ?_
  rw [pow_zero, mul_one]
  refine AllBut.ncard_last (h7 (S.q θ β γ y x y' v) (hS.q θ β γ y x y' v)) fun u h8 hmem => ?_
  obtain ⟨hv, ⟨C, L, hC, hL, hQ, ho⟩, hE⟩ := hmem
  exact hE (h8 _ (hS.w _) C hC L hL hv hQ ho)

/-- C57: with polynomials no longer than the rows of the table, a prover without a witness passes, without exposing the trapdoor,
with probability below 2^-225. -/
theorem C57_probability {τ : Fr} {K : VkPolys} (hK : K.Opens τ) (hKd : K.Bounded n) {π : Equiv.Perm (Fin 7 × Fin (n - 6))}
    (hπ : EncodesPermutation K π) {S : Strategy} (hS : S.Bounded n) (hf : ¬ Satisfies K π S.k S.a) :
    ({c : Challenges | ∃ hv, S.Passes τ K c hv ∧ ¬ Exposes τ n (S.openingPoly K c hv)}.ncard : ℚ) / Nat.card Challenges < 1 / 2 ^ 225 := by
  have h1 := C57_count hK hKd hπ hS hf
  have h2 : exceptionalValues n * 2 ^ 225 < rMod := by decide +kernel
  rw [C57_total]
  have hr : (0 : ℚ) < rMod := by exact_mod_cast (by decide +kernel : 0 < rMod)
  rw [div_lt_div_iff₀ (by exact_mod_cast pow_pos (by exact_mod_cast hr) 8) (by positivity), one_mul]
  generalize rMod = r at h1 h2 hr ⊢
  generalize Set.ncard _ = m at h1 ⊢
  generalize exceptionalValues n = N at h1 h2
  have h3 : m * 2 ^ 225 < r ^ 8 := by
    have hr' : 0 < r := by exact_mod_cast hr
    calc m * 2 ^ 225 ≤ N * r ^ 7 * 2 ^ 225 := Nat.mul_le_mul_right _ h1
      _ = N * 2 ^ 225 * r ^ 7 := by ring
      _ < r * r ^ 7 := Nat.mul_lt_mul_of_pos_right h2 (pow_pos hr' 7)
      _ = r ^ 8 := by ring
  exact_mod_cast h3

/-- A trapdoor outside the domain, a permutation and a verifying key for which the prover that sends zeros has no witness. -/
example {τ : Fr} (hτ : τ ^ n ≠ 1) (π : Equiv.Perm (Fin 7 × Fin (n - 6))) :
    ∃ (K : VkPolys) (S : Strategy), K.Opens τ ∧ K.Bounded n ∧ EncodesPermutation K π ∧ S.Bounded n ∧ ¬ Satisfies K π S.k S.a := by
  obtain ⟨K, h1, h2, h3, h4, -⟩ := exists_vkPolys_cells hτ π (fun _ _ => 0) fun _ => 0
  have e0 : Evals := trueEvals K 0 ⟨0, 0, 0, 0, 0, 0⟩ 0
  have hd : ∀ m, (0 : Fr[X]).natDegree ≤ m := fun m => by rw [natDegree_zero]; exact Nat.zero_le m
  refine ⟨K, ⟨0, fun _ => 0, fun _ _ => 0, fun _ _ => 0, fun _ _ _ _ => 0, fun _ _ _ _ => 0, fun _ _ _ => 0, fun _ _ _ _ _ => 0,
    fun _ _ _ _ _ => e0, fun _ _ _ _ _ _ _ => 0, fun _ => 0⟩, h1, h2, h3, ⟨fun θ β γ => ⟨fun _ => hd _, fun _ => hd _, fun _ => hd _, fun _ => hd _,
    fun _ => hd _, hd _⟩, fun _ _ _ _ _ => hd _, fun _ _ _ _ _ _ _ => hd _, fun _ => hd _⟩, fun hs => ?_⟩
  have nb := n_big
  obtain ⟨j, hj, h5, -⟩ := hs.lookup1 0 (by omega)
  rw [h4 10 j (by omega)] at h5
  exact absurd h5 (by decide +kernel)

theorem allBut_notMem (l : List Fr) {f : Fr → Fr} (h : ∀ {u}, f u = 0 → u ∈ l) : AllBut l.length fun u => f u ≠ 0 := by
  classical
  exact ⟨l.toFinset, l.toFinset_card_le, fun u hu h0 => hu (List.mem_toFinset.2 (h h0))⟩

/-- C57: the honest prover of C52 fails for at most (12 n) · r^7 of the r^8 tuples of challenges. -/
theorem C57_honest {K : VkPolys} (hK : K.Bounded n) {π : Equiv.Perm (Fin 7 × Fin (n - 6))} (hπ : EncodesPermutation K π) {k : Fr}
    {a : ℕ → Fr[X]} (ha : ∀ i, (a i).natDegree ≤ n) (hS : Satisfies K π k a) (random : Fr → Fr → Fr → Fr[X])
    (hr : ∀ θ β γ, (random θ β γ).natDegree ≤ n) :
    ∃ Q : Prover, Q.a = a ∧ Q.random = random ∧ ∀ τ, K.Opens τ →
      {c : Challenges | ∃ (C : Commitments) (e : Evals), Q.Sends τ K k c C e ∧
        opening c C e (quotientValue c e) ≠ τ • C.W'}.ncard ≤ 12 * n * rMod ^ 7 := by
  obtain ⟨Q, B, hQ, hQr, -, H⟩ := C52_prover hK hπ ha hS random hr
  refine ⟨Q, hQ, hQr, fun τ hτ => ?_⟩
  rw [ncard_challenges]
  have c1 : Fintype.card Fr = rMod ^ 1 := by rw [ZMod.card, pow_one]
  have c2 := card_pair c1
  have c3 := card_pair c2
  have c4 := card_pair c3
  have c5 := card_pair c4
  have c6 := card_pair c5
  have c7 := card_pair c6
  obtain ⟨m, hm⟩ : ∃ m, m = n := ⟨_, rfl⟩
  have hβ : ∀ θ, AllBut (2 * m) fun β => β ∉ B.β θ := fun θ =>
    (AllBut.finset (B.β θ)).mono ((B.β_card θ).trans (by omega)) fun _ h => h
  have hγ : ∀ θ β, AllBut (9 * (m - 6)) fun γ => γ ∉ B.γ θ β := fun θ β =>
    (AllBut.finset (B.γ θ β)).mono ((B.γ_card θ β).trans (by omega)) fun _ h => h
  have hx : AllBut (m + 1) fun x : Fr => (∀ i < n, x ≠ ω ^ i) ∧ x ≠ 0 := (domain_allBut.and (AllBut.ne 0)).mono (by omega) fun _ h => h
  have hN : 0 + (2 * m + (9 * (m - 6) + (0 + (m + 1 + (0 + (0 + 2)))))) ≤ 12 * m := by have := n_big; omega
  rw [← hm]
  refine le_trans ?_ (Nat.mul_le_mul_right _ hN)
  refine AllBut.ncard_step c7 (P := fun _ => True) (.of_forall fun _ => trivial) fun θ _ => ?_
  refine AllBut.ncard_step c6 (hβ θ) fun β h2 => ?_
  refine AllBut.ncard_step c5 (hγ θ β) fun γ h3 => ?_
  refine AllBut.ncard_step c4 (P := fun _ => True) (.of_forall fun _ => trivial) fun y _ => ?_
  refine AllBut.ncard_step c3 hx fun x h5 => ?_
  refine AllBut.ncard_step c2 (P := fun _ => True) (.of_forall fun _ => trivial) fun y' _ => ?_
  refine AllBut.ncard_step c1 (P := fun _ => True) (.of_forall fun _ => trivial) fun v _ => ?_
  rw [pow_zero, mul_one]
  refine AllBut.ncard_last (P := fun u => vanish (points x [2, -1]) u ≠ 0) ?_ fun u h8 hmem => ?_
  · exact allBut_notMem (points x [2, -1]) vanish_eq_zero.1
  · obtain ⟨C, e, hs, hne⟩ := hmem
    exact hne (H τ _ C e hτ hs h2 h3 h5.2 h5.1 h8)

/-- C57: the link to the circuit. If the test engine accepts, whatever the hints answered, and the proof consists of the messages of a
strategy for the proof's own challenges, then the strategy passes with those challenges and the quotient value in the aux values. -/
theorem C57_circuit {X : Ext} (hX : X.Strict) {τ : Fr} (hτ : X.Trapdoor τ) {K : VkPolys} {c : AggregatorCircuit} {E : Engine}
    (hE : E.mode = .test) {s : St} (hacc : (c.Define X).Accepted E s) :
    ∃ (k : Fr) (t : List ℤ), SoundAt X c k t ∧ ∀ (S : Strategy) (ch : Challenges), S.k = k →
      ch = challengesFor X.sha256 (instCommitment k) (t.map Int.natAbs) →
      Opens τ K k (S.columns ch.θ ch.β ch.γ) (S.h ch.θ ch.β ch.γ ch.y) (S.q ch.θ ch.β ch.γ ch.y ch.x ch.y' ch.v) (S.w ch)
        (.ofProof (instCommitment k) (proofPoint c.Proof)) →
      S.e ch.θ ch.β ch.γ ch.y ch.x = .ofProof (frAt c.Proof) → S.Passes τ K ch (frAt c.Aux 16) := by
  obtain ⟨bs, -, t, ht⟩ := C34_sound hX hE hacc
  generalize ((beNat (X.keccak bs) : ℕ) : Fr) = k at ht
  refine ⟨k, t, ht, fun S ch hk hch hO he => ?_⟩
  subst hch hk
  refine ⟨_, lagrangeOf (frAt c.Aux), hO, ht.accepts.lagrange, ?_, ?_⟩
  · rw [he]
    exact ht.accepts.quotient
  · rw [he]
    exact (hτ _ _ ht.witness_ne ht.accepts.opening_ne).1 ht.accepts.pairing

end Verif
