/- Property C52: the honest prover is accepted. -/
import Verif.Lemmas.Honest
import Verif.Props.Knowledge
import Verif.Spec.Honest

namespace Verif
open Halo2 Polynomial

/-- C52: for columns that satisfy the statement and any θ there are permuted columns such that for all but 2(n-6) values of β
and 9(n-6) of γ there are running products with which all constraint expressions vanish on all rows. The last rows
(n-6, …, n-1 of the permuted columns; n-5, …, n-1 of the products) can be filled at will. -/
theorem C52_rows {K : VkPolys} {π : Equiv.Perm (Fin 7 × Fin (n - 6))} (hπ : EncodesPermutation K π) {k : Fr} {a : ℕ → Fr[X]}
    (hS : Satisfies K π k a) (θ : Fr) (bA bS : ℕ → ℕ → Fr) :
    ∃ permA permS : ℕ → Fr[X], (∀ j, (permA j).natDegree ≤ n) ∧ (∀ j, (permS j).natDegree ≤ n) ∧
      (∀ j i, n - 6 ≤ i → i < n → cell (permA j) i = bA j i ∧ cell (permS j) i = bS j i) ∧
      AllBut (2 * (n - 6)) fun β => AllBut (9 * (n - 6)) fun γ => ∀ bz bZ : ℕ → ℕ → Fr, ∃ z Z : ℕ → Fr[X],
        (∀ j, (z j).natDegree ≤ n) ∧ (∀ j, (Z j).natDegree ≤ n) ∧
        (∀ j i, n - 6 < i → i < n → cell (z j) i = bz j i ∧ cell (Z j) i = bZ j i) ∧
        ∀ (random : Fr[X]), ∀ i < n, ∀ e ∈ constraints ⟨θ, β, γ, 0, ω ^ i, 0, 0, 0⟩ (.at (ω ^ i))
          (trueEvals K k ⟨a, permA, permS, z, Z, random⟩ (ω ^ i)), e = 0 := by
  obtain ⟨pA, pS, h1, h2, h3, h4⟩ := rows_complete hπ hS θ bA bS
  refine ⟨pA, pS, h1, h2, h3, h4.mono le_rfl fun β h5 => h5.mono le_rfl fun γ h6 bz bZ => ?_⟩
  obtain ⟨z, Z, g1, g2, g3, g4⟩ := h6 bz bZ
  exact ⟨z, Z, g1, g2, g3, fun random => g4 random ⟨θ, β, γ, 0, 0, 0, 0, 0⟩ rfl rfl rfl⟩

/-- C52: if all constraint expressions vanish on all rows then for every y there are three quotient pieces of degree at most
n with which the quotient identity holds at every x. -/
theorem C52_quotient {θ β γ : Fr} {K : VkPolys} {k : Fr} {P : Columns} (hK : K.Bounded n) (hP : P.Bounded n)
    (H : ∀ i < n, ∀ e ∈ constraints ⟨θ, β, γ, 0, ω ^ i, 0, 0, 0⟩ (.at (ω ^ i)) (trueEvals K k P (ω ^ i)), e = 0) (y : Fr) :
    ∃ h : ℕ → Fr[X], (∀ i, (h i).natDegree ≤ n) ∧ ∀ x y' v u : Fr,
      QuotientIdentity ⟨θ, β, γ, y, x, y', v, u⟩ (.at x) (trueEvals K k P x) (trueQuotient h x) := by
  obtain ⟨h, h1, h2⟩ := quotient_complete (c := ⟨θ, β, γ, 0, 0, 0, 0, 0⟩) hK hP H y
  exact ⟨h, h1, fun x y' v u => h2 x⟩

/-- C52: true evaluations can be opened: for all y' and v there is a first opening proof such that for every u with a
non-zero denominator there is a second one that makes the opening polynomial zero, hence the pairing equation true. -/
theorem C52_opening {K : VkPolys} {k : Fr} {P : Columns} {h : ℕ → Fr[X]} {d : ℕ} (hd : 3 ≤ d) (hK : K.Bounded d) (hP : P.Bounded d)
    (hh : ∀ i, (h i).natDegree ≤ d) {x : Fr} (hx : x ≠ 0) (θ β γ y y' v : Fr) :
    ∃ q : Fr[X], q.natDegree ≤ d ∧ ∀ u, vanish (points x [2, -1]) u ≠ 0 → ∃ w : Fr[X], w.natDegree ≤ d ∧
      openingPoly ⟨θ, β, γ, y, x, y', v, u⟩ K k P h q w (trueEvals K k P x) (trueQuotient h x) = 0 := by
  have hT := (allTrue_iff K k P h x (trueEvals K k P x) (trueQuotient h x)).2 ⟨by constructor <;> intros <;> rfl, rfl⟩
  obtain ⟨q, h1, h2⟩ := opening_complete hd hK hP hh hx hT y' v
  exact ⟨q, h1, fun u hu => h2 ⟨θ, β, γ, y, x, y', v, u⟩ rfl rfl rfl hu⟩

theorem polySets_congr {K : VkPolys} {k : Fr} {P : Columns} {h : ℕ → Fr[X]} {x : Fr} {e e' : Evals} (hs : e.Same e') (hv : Fr) :
    polySets K k P h x e hv = polySets K k P h x e' hv := by
  have hf : (List.range 13).map (fun i => (K.f i, [e.f i])) = (List.range 13).map (fun i => (K.f i, [e'.f i])) :=
    List.map_congr_left fun i hi => by rw [hs.f i (List.mem_range.1 hi)]
  have hσ : (List.range 7).map (fun i => (K.σ i, [e.σ i])) = (List.range 7).map (fun i => (K.σ i, [e'.σ i])) :=
    List.map_congr_left fun i hi => by rw [hs.σ i (List.mem_range.1 hi)]
  unfold polySets
  rw [hf, hσ, hs.inst, hs.a0, hs.a1, hs.a2, hs.a3, hs.a4, hs.a4ω, hs.a5, hs.a6, hs.a6ω, hs.a6ωω, hs.a7, hs.a7ω, hs.a7ωω, hs.random,
    hs.z 0 (by decide), hs.z 1 (by decide), hs.z 2 (by decide), hs.z 3 (by decide), hs.zω 0 (by decide), hs.zω 1 (by decide),
    hs.zω 2 (by decide), hs.zω 3 (by decide), hs.zlast 0 (by decide), hs.zlast 1 (by decide), hs.zlast 2 (by decide), hs.lookup0, hs.lookup1]

theorem openingPoly_congr {c : Challenges} {K : VkPolys} {k : Fr} {P : Columns} {h : ℕ → Fr[X]} {q w : Fr[X]} {e e' : Evals}
    (hs : e.Same e') (hv : Fr) : openingPoly c K k P h q w e hv = openingPoly c K k P h q w e' hv := by
  unfold openingPoly
  rw [polySets_congr hs]

/-- The rows see a column only through its values at the n-th roots of unity. -/
theorem rowsHold_congr {c : Challenges} {K : VkPolys} {k : Fr} {P P' : Columns} (hP : RowsHold c K k P) (adj : ∀ i < n, trueEvals K k P' (ω ^ i) = trueEvals K k P (ω ^ i)) :
    RowsHold c K k P' := by
  intro i hi e he
  rw [adj i hi] at he
  exact hP i hi e he

theorem trueEvals_congr {K : VkPolys} {k : Fr} {a : ℕ → Fr[X]} {pA pS z Z pA' pS' z' Z' : ℕ → Fr[X]} {r : Fr[X]}
    (h1 : ∀ j u, u ^ n = 1 → (pA' j).eval u = (pA j).eval u) (h2 : ∀ j u, u ^ n = 1 → (pS' j).eval u = (pS j).eval u)
    (h3 : ∀ j u, u ^ n = 1 → (z' j).eval u = (z j).eval u) (h4 : ∀ j u, u ^ n = 1 → (Z' j).eval u = (Z j).eval u) (i : ℕ) :
    trueEvals K k ⟨a, pA', pS', z', Z', r⟩ (ω ^ i) = trueEvals K k ⟨a, pA, pS, z, Z, r⟩ (ω ^ i) := by
  have hu : ∀ l : ℤ, (ω ^ l * ω ^ i) ^ n = 1 := fun l => by
    rw [mul_pow, ← zpow_natCast (ω ^ l), ← zpow_mul, mul_comm l, zpow_mul, zpow_natCast, ω_pow_n, one_zpow, ← pow_mul, mul_comm i, pow_mul, ω_pow_n,
      one_pow, one_mul]
  have g1 : ∀ j l, rotEval (pA' j) l (ω ^ i) = rotEval (pA j) l (ω ^ i) := fun j l => h1 j _ (hu l)
  have g2 : ∀ j l, rotEval (pS' j) l (ω ^ i) = rotEval (pS j) l (ω ^ i) := fun j l => h2 j _ (hu l)
  have g3 : ∀ j l, rotEval (z' j) l (ω ^ i) = rotEval (z j) l (ω ^ i) := fun j l => h3 j _ (hu l)
  have g4 : ∀ j l, rotEval (Z' j) l (ω ^ i) = rotEval (Z j) l (ω ^ i) := fun j l => h4 j _ (hu l)
  generalize ω ^ i = u at g1 g2 g3 g4 ⊢
  unfold trueEvals
  simp only [g1, g2, g3, g4]

/-- An honest prover for a satisfying witness. `adj` changes the columns outside the rows, `adjh` the way the quotient is split. -/
theorem exists_honest {K : VkPolys} (hK : K.Bounded n) {π : Equiv.Perm (Fin 7 × Fin (n - 6))} (hπ : EncodesPermutation K π) {k : Fr}
    {a : ℕ → Fr[X]} (ha : ∀ i, (a i).natDegree ≤ n) (hS : Satisfies K π k a) (random : Fr → Fr → Fr → Fr[X])
    (hr : ∀ θ β γ, (random θ β γ).natDegree ≤ n) {adj : Fr[X] → Fr[X]} (hadj : ∀ p, p.natDegree ≤ n → (adj p).natDegree ≤ n)
    (hadj' : ∀ p u, u ^ n = 1 → (adj p).eval u = p.eval u) {adjh : (ℕ → Fr[X]) → ℕ → Fr[X]}
    (hadjh : ∀ h, (∀ i, (h i).natDegree ≤ n) → ∀ i, (adjh h i).natDegree ≤ n) (hadjh' : ∀ h x, trueQuotient (adjh h) x = trueQuotient h x) :
    ∃ (Q : Prover) (B : ProductExceptions), Q.a = a ∧ Q.random = random ∧ Q.Honest K k B ∧ (∀ θ j, ∃ p, Q.permA θ j = adj p) ∧
      (∀ θ j, ∃ p, Q.permS θ j = adj p) ∧ (∀ θ β γ j, ∃ p, Q.z θ β γ j = adj p) ∧ (∀ θ β γ j, ∃ p, Q.Z θ β γ j = adj p) ∧
      ∀ θ β γ y, ∃ h, Q.h θ β γ y = adjh h := by
  choose pA pS d1 d2 _ h4 using fun θ => rows_complete hπ hS θ (fun _ _ => 0) (fun _ _ => 0)
  choose Bβ cβ h5 using h4
  have s2 : ∀ θ β, ∃ B : Finset Fr, B.card ≤ 9 * (n - 6) ∧ (β ∉ Bβ θ → ∀ γ, γ ∉ B → _) := fun θ β => AllBut.imp fun hf => h5 θ β hf
  choose Bγ cγ h6 using s2
  have s3 : ∀ θ β γ, ∃ z Z : ℕ → Fr[X], (∀ j, (z j).natDegree ≤ n) ∧ (∀ j, (Z j).natDegree ≤ n) ∧ (β ∉ Bβ θ → γ ∉ Bγ θ β →
      RowsHold ⟨θ, β, γ, 0, 0, 0, 0, 0⟩ K k ⟨a, pA θ, pS θ, z, Z, random θ β γ⟩) := by
    intro θ β γ
    by_cases hb : β ∉ Bβ θ ∧ γ ∉ Bγ θ β
    · obtain ⟨z, Z, g1, g2, -, g4⟩ := h6 θ β hb.1 γ hb.2 (fun _ _ => 0) (fun _ _ => 0)
      exact ⟨z, Z, g1, g2, fun _ _ => g4 _ _ rfl rfl rfl⟩
    · exact ⟨fun _ => 0, fun _ => 0, fun _ => by simp, fun _ => by simp, fun h1 h2 => absurd ⟨h1, h2⟩ hb⟩
  choose z Z z1 Z1 h7 using s3
  obtain ⟨P, hPe⟩ : ∃ P : Fr → Fr → Fr → Columns, ∀ θ β γ, P θ β γ = ⟨a, fun j => adj (pA θ j), fun j => adj (pS θ j), fun j => adj (z θ β γ j),
    fun j => adj (Z θ β γ j), random θ β γ⟩ := ⟨_, fun _ _ _ => rfl⟩
  have hP : ∀ θ β γ, (P θ β γ).Bounded n := fun θ β γ => by
    rw [hPe]
    exact ⟨ha, fun j => hadj _ (d1 θ j), fun j => hadj _ (d2 θ j), fun j => hadj _ (z1 θ β γ j), fun j => hadj _ (Z1 θ β γ j), hr θ β γ⟩
  have h7' : ∀ θ β γ, β ∉ Bβ θ → γ ∉ Bγ θ β → RowsHold ⟨θ, β, γ, 0, 0, 0, 0, 0⟩ K k (P θ β γ) := fun θ β γ hb hg => by
    refine rowsHold_congr (h7 θ β γ hb hg) fun i _ => ?_
    rw [hPe]
    exact trueEvals_congr (fun j => hadj' _) (fun j => hadj' _) (fun j => hadj' _) (fun j => hadj' _) i
  have s4 : ∀ θ β γ y, ∃ h : ℕ → Fr[X], (∀ i, (h i).natDegree ≤ n) ∧ (β ∉ Bβ θ → γ ∉ Bγ θ β → ∀ x y' v u : Fr,
      QuotientIdentity ⟨θ, β, γ, y, x, y', v, u⟩ (.at x) (trueEvals K k (P θ β γ) x) (trueQuotient h x)) := by
    intro θ β γ y
    by_cases hb : β ∉ Bβ θ ∧ γ ∉ Bγ θ β
    · obtain ⟨h, g1, g2⟩ := C52_quotient hK (hP θ β γ) (h7' θ β γ hb.1 hb.2) y
      exact ⟨h, g1, fun _ _ => g2⟩
    · exact ⟨fun _ => 0, fun _ => by simp, fun h1 h2 => absurd ⟨h1, h2⟩ hb⟩
  choose h hd hq using s4
  have nb := n_big
  have s5 : ∀ θ β γ y x y' v, ∃ q : Fr[X], x ≠ 0 → ∀ u, vanish (points x [2, -1]) u ≠ 0 → ∃ w : Fr[X],
      openingPoly ⟨θ, β, γ, y, x, y', v, u⟩ K k (P θ β γ) (adjh (h θ β γ y)) q w
        (trueEvals K k (P θ β γ) x) (trueQuotient (adjh (h θ β γ y)) x) = 0 := by
    intro θ β γ y x y' v
    by_cases hx : x = 0
    · exact ⟨0, fun h => absurd hx h⟩
    · obtain ⟨q, -, g⟩ := C52_opening (d := n) (by omega) hK (hP θ β γ) (hadjh _ (hd θ β γ y)) hx θ β γ y y' v
      exact ⟨q, fun _ u hu => by obtain ⟨w, -, hw⟩ := g u hu; exact ⟨w, hw⟩⟩
  choose q hq' using s5
  have s6 : ∀ c : Challenges, ∃ w : Fr[X], c.x ≠ 0 → vanish (points c.x [2, -1]) c.u ≠ 0 →
      openingPoly c K k (P c.θ c.β c.γ) (adjh (h c.θ c.β c.γ c.y)) (q c.θ c.β c.γ c.y c.x c.y' c.v) w
        (trueEvals K k (P c.θ c.β c.γ) c.x) (trueQuotient (adjh (h c.θ c.β c.γ c.y)) c.x) = 0 := by
    intro c
    by_cases hx : c.x ≠ 0 ∧ vanish (points c.x [2, -1]) c.u ≠ 0
    · obtain ⟨w, hw⟩ := hq' c.θ c.β c.γ c.y c.x c.y' c.v hx.1 c.u hx.2
      exact ⟨w, fun _ _ => hw⟩
    · exact ⟨0, fun h1 h2 => absurd ⟨h1, h2⟩ hx⟩
  choose w hw using s6
  refine ⟨⟨a, fun θ j => adj (pA θ j), fun θ j => adj (pS θ j), fun θ β γ j => adj (z θ β γ j), fun θ β γ j => adj (Z θ β γ j), random,
    fun θ β γ y => adjh (h θ β γ y), q, w⟩, ⟨Bβ, Bγ, cβ, cγ⟩, rfl, rfl, ⟨fun c hβ hγ => ?_, fun c hx hu => ?_⟩, fun _ _ => ⟨_, rfl⟩, fun _ _ => ⟨_, rfl⟩,
    fun _ _ _ _ => ⟨_, rfl⟩, fun _ _ _ _ => ⟨_, rfl⟩, fun _ _ _ _ => ⟨_, rfl⟩⟩
  · have h1 := hq c.θ c.β c.γ c.y hβ hγ c.x c.y' c.v c.u
    rw [hPe, ← hadjh' (h c.θ c.β c.γ c.y)] at h1
    exact h1
  · have h2 := hw c hx hu
    rw [hPe] at h2
    exact h2

/-- With an honest prover, outside the exceptions, and with x ≠ 0 outside the domain, the implied quotient value is the true one. -/
theorem Halo2.Prover.Honest.quotientValue_eq {Q : Prover} {K : VkPolys} {k : Fr} {B : ProductExceptions} (hQ : Q.Honest K k B) {c : Challenges} {e : Evals}
    (he : e.Same (trueEvals K k (Q.columns c.θ c.β c.γ) c.x)) (hβ : c.β ∉ B.β c.θ) (hγ : c.γ ∉ B.γ c.θ c.β) (hdom : ∀ i < n, c.x ≠ ω ^ i) :
    quotientValue c e = trueQuotient (Q.h c.θ c.β c.γ c.y) c.x := by
  have hne : c.x ^ n - 1 ≠ 0 := by
    rw [sub_ne_zero]
    intro h
    obtain ⟨i, hi, he⟩ := (domain_iff _).2 h
    exact hdom i hi he
  have h1 := hQ.quotient c hβ hγ
  rw [QuotientIdentity] at h1
  rw [quotientValue, div_eq_iff hne]
  rw [constraints_congr (c := c) (x := c.x) rfl (L := .at c.x) rfl (fun _ _ _ => rfl) he]
  exact h1.symm

/-- C52: an honest prover passes outside the exceptions if x ≠ 0 is outside the domain and the weights' denominator is non-zero. -/
theorem C52_honest {Q : Prover} {K : VkPolys} {k : Fr} {B : ProductExceptions} (hQ : Q.Honest K k B) {τ : Fr} {c : Challenges} {C : Commitments} {e : Evals}
    (hKτ : K.Opens τ) (hsend : Q.Sends τ K k c C e) (hβ : c.β ∉ B.β c.θ) (hγ : c.γ ∉ B.γ c.θ c.β) (hx : c.x ≠ 0) (hdom : ∀ i < n, c.x ≠ ω ^ i)
    (hden : vanish (points c.x [2, -1]) c.u ≠ 0) : opening c C e (quotientValue c e) = τ • C.W' := by
  rw [C53_equation hKτ hsend.opens, openingPoly_congr hsend.evals, hQ.quotientValue_eq hsend.evals hβ hγ hdom]
  exact (congrArg (eval τ) (hQ.opening c hx hden)).trans eval_zero

/-- The honest prover for a satisfying witness: outside the exceptions, and with x ≠ 0 outside the domain and the weights'
denominator non-zero, the quotient identity and the pairing equation hold. -/
theorem C52_prover {K : VkPolys} (hK : K.Bounded n) {π : Equiv.Perm (Fin 7 × Fin (n - 6))} (hπ : EncodesPermutation K π) {k : Fr}
    {a : ℕ → Fr[X]} (ha : ∀ i, (a i).natDegree ≤ n) (hS : Satisfies K π k a) (random : Fr → Fr → Fr → Fr[X])
    (hr : ∀ θ β γ, (random θ β γ).natDegree ≤ n) :
    ∃ (Q : Prover) (B : ProductExceptions), Q.a = a ∧ Q.random = random ∧ Q.Honest K k B ∧ ∀ (τ : Fr) (c : Challenges) (C : Commitments) (e : Evals),
      K.Opens τ → Q.Sends τ K k c C e → c.β ∉ B.β c.θ → c.γ ∉ B.γ c.θ c.β → c.x ≠ 0 → (∀ i < n, c.x ≠ ω ^ i) →
      vanish (points c.x [2, -1]) c.u ≠ 0 → opening c C e (quotientValue c e) = τ • C.W' := by
  obtain ⟨Q, B, h1, h2, h3, -⟩ := exists_honest hK hπ ha hS random hr (adj := id) (fun _ h => h) (fun _ _ _ => rfl) (adjh := id) (fun _ h => h) fun _ _ => rfl
  exact ⟨Q, B, h1, h2, h3, fun τ c C e hKτ hsend hβ hγ hx hdom hden => C52_honest h3 hKτ hsend hβ hγ hx hdom hden⟩

/-- C52: completeness of the circuit. For a satisfying witness there is a prover whose proofs the circuit accepts, with the hints
of this repository and the aux values of the specification, unless β or γ is exceptional or a degenerate value occurs. -/
theorem C52_accepted {K : VkPolys} (hK : K.Bounded n) {π : Equiv.Perm (Fin 7 × Fin (n - 6))} (hπ : EncodesPermutation K π) {k : Fr}
    {a : ℕ → Fr[X]} (ha : ∀ i, (a i).natDegree ≤ n) (hS : Satisfies K π k a) (random : Fr → Fr → Fr → Fr[X])
    (hr : ∀ θ β γ, (random θ β γ).natDegree ≤ n) :
    ∃ (Q : Prover) (B : ProductExceptions), Q.a = a ∧ Q.random = random ∧ ∀ (X : Ext) (τ : Fr), X.Lawful → X.Trapdoor τ → K.Opens τ →
      ∀ (t : List ℕ) (ti vi : List Var) (s : St), CanonicalProof t → (ti ++ vi).length ≤ 43 → (∀ v ∈ ti ++ vi, v.Good) →
        s.sat = true → instHash X ti vi = k → GeneralPosition X t ti vi →
        Q.Sends τ K k (chalOf X t ti vi) (commitmentsOf X t ti vi) (evalsOf t) →
        (chalOf X t ti vi).β ∉ B.β (chalOf X t ti vi).θ → (chalOf X t ti vi).γ ∉ B.γ (chalOf X t ti vi).θ (chalOf X t ti vi).β →
        ((circuitFor t (auxOf X t ti vi) vi ti).Define X).Accepted (honestTest X true) s := by
  obtain ⟨Q, B, h1, h1', -, h2⟩ := C52_prover hK hπ ha hS random hr
  refine ⟨Q, B, h1, h1', ?_⟩
  intro X τ hX hτ hKτ t ti vi s ht hlen hv hs hk hG hsend hβ hγ
  refine C35_complete hX ht hlen hv hG ?_ hs
  have h3 := h2 τ _ _ _ hKτ hsend hβ hγ hG.x_ne hG.x_outside hG.denom_ne
  refine (hτ _ _ hG.witness.1 ?_).2 h3
  have h4 := hG.terms.sums _ (by rw [openingTerms, termList]; exact Nat.succ_le_succ (Nat.zero_le _)) le_rfl
  rw [partialSum_all] at h4
  have h5 := h4.1
  rw [commitmentsOf, sum_openingTerms] at h5
  · exact h5
  · exact hG.denom_ne

/-! ### Every prover has a run -/

theorem ptWords_length (l : List G1) : (ptWords l).length = 2 * l.length := by
  induction l with
  | nil => rfl
  | cons P l ih => rw [ptWords, List.flatMap_cons, List.length_append, List.length_cons, ← ptWords, ih]; simp; omega

theorem ptWords_lt {l : List G1} {m : ℕ} (hm : m ∈ ptWords l) : m < pMod := by
  obtain ⟨P, -, hm⟩ := List.mem_flatMap.1 hm
  simp only [List.mem_cons, List.not_mem_nil, or_false] at hm
  rcases hm with rfl | rfl <;> exact ZMod.val_lt _

theorem ptWords_getD (l : List G1) (i : ℕ) : (ptWords l).getD (2 * i) 0 = (enc (l.getD i 0)).1.val ∧
    (ptWords l).getD (2 * i + 1) 0 = (enc (l.getD i 0)).2.val := by
  induction l generalizing i with
  | nil => simp [ptWords]
  | cons P l ih =>
    cases i with
    | zero => exact ⟨rfl, rfl⟩
    | succ i => exact ih i

theorem block_getD {pre b post : List ℕ} {i : ℕ} (hi : i < b.length) : (pre ++ b ++ post).getD (pre.length + i) 0 = b.getD i 0 := by
  rw [List.getD_append _ _ _ _ (by rw [List.length_append]; omega), List.getD_append_right _ _ _ _ (by omega), Nat.add_sub_cancel_left]

theorem pointOf_block {pre post : List ℕ} {l : List G1} {i : ℕ} (hi : i < l.length) {T : List ℕ} (hT : T = pre ++ ptWords l ++ post) {s : ℕ}
    (hs : s = pre.length + 2 * i) : T.getD s 0 = (enc (l.getD i 0)).1.val ∧ T.getD (s + 1) 0 = (enc (l.getD i 0)).2.val := by
  subst hT hs
  have hl := ptWords_length l
  rw [Nat.add_assoc, block_getD (by omega), block_getD (by omega)]
  exact ptWords_getD l i

theorem pointOf_of {T : List ℕ} {s : ℕ} {P : G1} (h : T.getD s 0 = (enc P).1.val ∧ T.getD (s + 1) 0 = (enc P).2.val) : pointOf T s = P := by
  rw [pointOf, h.1, h.2, ZMod.natCast_zmod_val, ZMod.natCast_zmod_val, dec_enc]

theorem evalList_length (e : Evals) : (evalList e).length = 56 := rfl

theorem evalList_same (e : Evals) {f : ℕ → Fr} (h : ∀ i < 56, f (44 + i) = (evalList e).getD i 0) : (Evals.ofProof f).Same e := by
  have g : ∀ i, 44 ≤ i → i < 100 → f i = (evalList e).getD (i - 44) 0 := fun i h1 h2 => by
    have := h (i - 44) (by omega)
    rwa [Nat.add_sub_cancel' h1] at this
  constructor
  case lookup0 =>
    show LookupEvals.mk (f 90) (f 91) (f 92) (f 93) (f 94) = e.lookup0
    rw [g 90 (by decide) (by decide), g 91 (by decide) (by decide), g 92 (by decide) (by decide), g 93 (by decide) (by decide),
      g 94 (by decide) (by decide)]
    rfl
  case lookup1 =>
    show LookupEvals.mk (f 95) (f 96) (f 97) (f 98) (f 99) = e.lookup1
    rw [g 95 (by decide) (by decide), g 96 (by decide) (by decide), g 97 (by decide) (by decide), g 98 (by decide) (by decide),
      g 99 (by decide) (by decide)]
    rfl
  case f => intro i hi; interval_cases i <;> exact g _ (by decide) (by decide)
  case σ => intro i hi; interval_cases i <;> exact g _ (by decide) (by decide)
  case z => intro i hi; interval_cases i <;> exact g _ (by decide) (by decide)
  case zω => intro i hi; interval_cases i <;> exact g _ (by decide) (by decide)
  case zlast => intro i hi; interval_cases i <;> exact g _ (by decide) (by decide)
  all_goals exact g _ (by decide) (by decide)

theorem fsBlocks_append (ix iy : ℕ) {t0 t1 t2 t3 t4 t5 : List ℕ} (h0 : t0.length = 16) (h1 : t1.length = 8) (h2 : t2.length = 14)
    (h3 : t3.length = 6) (h4 : t4.length = 56) (h5 : t5.length = 2) :
    fsBlocks ix iy (t0 ++ t1 ++ t2 ++ t3 ++ t4 ++ t5) = [ix :: iy :: t0, t1, [], t2, t3, t4, [], t5] := by
  have key : ∀ (pre b post : List ℕ) (s m : ℕ), pre.length = s → b.length = m → ((pre ++ b ++ post).drop s).take m = b := by
    intro pre b post s m hs hm
    subst hs hm
    rw [List.append_assoc, List.drop_left, List.take_left]
  have k0 := key [] t0 (t1 ++ t2 ++ t3 ++ t4 ++ t5) 0 16 rfl h0
  have k1 := key t0 t1 (t2 ++ t3 ++ t4 ++ t5) 16 8 h0 h1
  have k2 := key (t0 ++ t1) t2 (t3 ++ t4 ++ t5) 24 14 (by rw [List.length_append]; omega) h2
  have k3 := key (t0 ++ t1 ++ t2) t3 (t4 ++ t5) 38 6 (by simp only [List.length_append]; omega) h3
  have k4 := key (t0 ++ t1 ++ t2 ++ t3) t4 t5 44 56 (by simp only [List.length_append]; omega) h4
  have k5 := key (t0 ++ t1 ++ t2 ++ t3 ++ t4) t5 [] 100 2 (by simp only [List.length_append]; omega) h5
  simp only [List.append_assoc, List.nil_append, List.append_nil, List.drop_zero] at k0 k1 k2 k3 k4 k5
  unfold fsBlocks
  simp only [List.append_assoc]
  rw [k0, k1, k2, k3, k4, k5]

/-- C52: every prover has a run: the words it writes down with SHA-256 as the transcript hash are 104 words below 2^256 that consist of
the prover's commitments and true evaluations under the Fiat–Shamir challenges of the sequence itself, which are the challenges the
prover has drawn. It is a canonical proof unless
a commitment is the point at infinity. -/
theorem C52_run (Q : Prover) {τ : Fr} {K : VkPolys} (hK : K.Opens τ) (X : Ext) (ti vi : List Var) :
    ∃ t : List ℕ, t = Q.proof τ K (instHash X ti vi) X.sha256 ∧ t.length = 104 ∧ (∀ m ∈ t, m < 2 ^ 256) ∧
      chalOf X t ti vi = .ofDigests (Q.digests τ K (instHash X ti vi) X.sha256 8) ∧
      Q.Sends τ K (instHash X ti vi) (chalOf X t ti vi) (commitmentsOf X t ti vi) (evalsOf t) ∧
      ((∀ i, IsPointPosition i → pointOf t i ≠ 0) → CanonicalProof t) := by
  obtain ⟨k, hk⟩ : ∃ k, k = instHash X ti vi := ⟨_, rfl⟩
  obtain ⟨I, hI⟩ : ∃ I, I = instCommitment k := ⟨_, rfl⟩
  obtain ⟨D, hD⟩ : ∃ D : ℕ → List ℕ → ℕ, D = fun d b => beNat (X.sha256 (fsMessage d b)) := ⟨_, rfl⟩
  obtain ⟨l0, e0⟩ : ∃ l, l = (List.range 8).map fun i => com τ (Q.a i) := ⟨_, rfl⟩
  obtain ⟨dθ, eθ⟩ : ∃ d, d = D fsSeed ((enc I).1.val :: (enc I).2.val :: ptWords l0) := ⟨_, rfl⟩
  obtain ⟨l1, e1⟩ : ∃ l, l = [com τ (Q.permA dθ 0), com τ (Q.permS dθ 0), com τ (Q.permA dθ 1), com τ (Q.permS dθ 1)] := ⟨_, rfl⟩
  obtain ⟨dβ, eβ⟩ : ∃ d, d = D dθ (ptWords l1) := ⟨_, rfl⟩
  obtain ⟨dγ, eγ⟩ : ∃ d, d = D dβ [] := ⟨_, rfl⟩
  obtain ⟨P, hP⟩ : ∃ P, P = Q.columns dθ dβ dγ := ⟨_, rfl⟩
  obtain ⟨l2, e2⟩ : ∃ l, l = [com τ (P.z 0), com τ (P.z 1), com τ (P.z 2), com τ (P.z 3), com τ (P.Z 0), com τ (P.Z 1), com τ P.random] :=
    ⟨_, rfl⟩
  obtain ⟨dy, ey⟩ : ∃ d, d = D dγ (ptWords l2) := ⟨_, rfl⟩
  obtain ⟨l3, e3⟩ : ∃ l, l = (List.range 3).map fun i => com τ (Q.h dθ dβ dγ dy i) := ⟨_, rfl⟩
  obtain ⟨dx, ex⟩ : ∃ d, d = D dy (ptWords l3) := ⟨_, rfl⟩
  obtain ⟨e, he⟩ : ∃ e, e = trueEvals K k P dx := ⟨_, rfl⟩
  obtain ⟨t4, e4⟩ : ∃ l : List ℕ, l = (evalList e).map ZMod.val := ⟨_, rfl⟩
  obtain ⟨dy', ey'⟩ : ∃ d, d = D dx t4 := ⟨_, rfl⟩
  obtain ⟨dv, ev⟩ : ∃ d, d = D dy' [] := ⟨_, rfl⟩
  obtain ⟨l5, e5⟩ : ∃ l, l = [com τ (Q.q dθ dβ dγ dy dx dy' dv)] := ⟨_, rfl⟩
  obtain ⟨du, eu⟩ : ∃ d, d = D dv (ptWords l5) := ⟨_, rfl⟩
  obtain ⟨c, hc⟩ : ∃ c : Challenges, c = ⟨dθ, dβ, dγ, dy, dx, dy', dv, du⟩ := ⟨_, rfl⟩
  obtain ⟨l6, e6⟩ : ∃ l, l = [com τ (Q.w c)] := ⟨_, rfl⟩
  have n0 : (ptWords l0).length = 16 := by rw [ptWords_length, e0]; rfl
  have n1 : (ptWords l1).length = 8 := by rw [ptWords_length, e1]; rfl
  have n2 : (ptWords l2).length = 14 := by rw [ptWords_length, e2]; rfl
  have n3 : (ptWords l3).length = 6 := by rw [ptWords_length, e3]; rfl
  have n4 : t4.length = 56 := by rw [e4, List.length_map]; rfl
  have n5 : (ptWords l5).length = 2 := by rw [ptWords_length, e5]; rfl
  have n6 : (ptWords l6).length = 2 := by rw [ptWords_length, e6]; rfl
  obtain ⟨t, ht⟩ : ∃ t, t = ptWords l0 ++ ptWords l1 ++ ptWords l2 ++ ptWords l3 ++ t4 ++ ptWords l5 ++ ptWords l6 := ⟨_, rfl⟩
  have hchal : chalOf X t ti vi = c := by
    have h1 : t.take 102 = ptWords l0 ++ ptWords l1 ++ ptWords l2 ++ ptWords l3 ++ t4 ++ ptWords l5 := by
      rw [ht, List.take_append_of_le_length (by simp only [List.length_append]; omega)]
      exact List.take_of_length_le (by simp only [List.length_append]; omega)
    have hd : ∀ d b, beNat (X.sha256 (fsMessage d b)) = D d b := fun d b => by rw [hD]
    rw [chalOf, challengesFor, h1, fsBlocks_append _ _ n0 n1 n2 n3 n4 n5, ← hk, ← hI]
    simp only [fsDigests, hd]
    rw [← eθ, ← eβ, ← eγ, ← ey, ← ex, ← ey', ← ev, ← eu, hc]
    rfl
  -- points
  have b0 : ∀ i < 8, t.getD (2 * i) 0 = (enc (l0.getD i 0)).1.val ∧ t.getD (2 * i + 1) 0 = (enc (l0.getD i 0)).2.val := fun i hi =>
    pointOf_block (pre := []) (post := ptWords l1 ++ ptWords l2 ++ ptWords l3 ++ t4 ++ ptWords l5 ++ ptWords l6) (l := l0)
      (by rw [ptWords_length] at n0; omega) (by rw [ht]; simp only [List.append_assoc, List.nil_append]) (by rw [List.length_nil]; omega)
  have b1 : ∀ i < 4, t.getD (16 + 2 * i) 0 = (enc (l1.getD i 0)).1.val ∧ t.getD (16 + 2 * i + 1) 0 = (enc (l1.getD i 0)).2.val := fun i hi =>
    pointOf_block (pre := ptWords l0) (post := ptWords l2 ++ ptWords l3 ++ t4 ++ ptWords l5 ++ ptWords l6) (l := l1)
      (by rw [ptWords_length] at n1; omega) (by rw [ht]; simp only [List.append_assoc]) (by rw [n0])
  have b2 : ∀ i < 7, t.getD (24 + 2 * i) 0 = (enc (l2.getD i 0)).1.val ∧ t.getD (24 + 2 * i + 1) 0 = (enc (l2.getD i 0)).2.val := fun i hi =>
    pointOf_block (pre := ptWords l0 ++ ptWords l1) (post := ptWords l3 ++ t4 ++ ptWords l5 ++ ptWords l6) (l := l2)
      (by rw [ptWords_length] at n2; omega) (by rw [ht]; simp only [List.append_assoc]) (by rw [List.length_append, n0, n1])
  have b3 : ∀ i < 3, t.getD (38 + 2 * i) 0 = (enc (l3.getD i 0)).1.val ∧ t.getD (38 + 2 * i + 1) 0 = (enc (l3.getD i 0)).2.val := fun i hi =>
    pointOf_block (pre := ptWords l0 ++ ptWords l1 ++ ptWords l2) (post := t4 ++ ptWords l5 ++ ptWords l6) (l := l3)
      (by rw [ptWords_length] at n3; omega) (by rw [ht]; simp only [List.append_assoc]) (by rw [List.length_append, List.length_append, n0, n1, n2])
  have b5 := pointOf_block (T := t) (s := 100) (i := 0) (pre := ptWords l0 ++ ptWords l1 ++ ptWords l2 ++ ptWords l3 ++ t4) (post := ptWords l6) (l := l5)
    (by rw [ptWords_length] at n5; omega) (by rw [ht]) (by simp only [List.length_append]; omega)
  have b6 := pointOf_block (T := t) (s := 102) (i := 0) (pre := ptWords l0 ++ ptWords l1 ++ ptWords l2 ++ ptWords l3 ++ t4 ++ ptWords l5) (post := []) (l := l6)
    (by rw [ptWords_length] at n6; omega) (by rw [ht, List.append_nil]) (by simp only [List.length_append]; omega)
  have b4 : ∀ i < 56, ((t.getD (44 + i) 0 : ℕ) : Fr) = (evalList e).getD i 0 := by
    intro i hi
    have h1 := block_getD (pre := ptWords l0 ++ ptWords l1 ++ ptWords l2 ++ ptWords l3) (b := t4) (post := ptWords l5 ++ ptWords l6) (i := i) (by omega)
    have h2 : (ptWords l0 ++ ptWords l1 ++ ptWords l2 ++ ptWords l3).length = 44 := by simp only [List.length_append]; omega
    rw [h2] at h1
    rw [ht, List.append_assoc, h1, e4]
    have hl : i < (evalList e).length := hi
    rw [List.getD_eq_getElem _ _ (by rw [List.length_map]; exact hl), List.getD_eq_getElem _ _ hl, List.getElem_map, ZMod.natCast_zmod_val]
  have hword : ∀ m ∈ t, m < 2 ^ 256 := by
    intro m hm
    have hp : pMod < 2 ^ 256 := by decide
    have hr : rMod < 2 ^ 256 := by decide
    rw [ht] at hm
    simp only [List.mem_append] at hm
    rcases hm with (((((hm | hm) | hm) | hm) | hm) | hm) | hm
    case inl.inl.inr =>
      rw [e4] at hm
      obtain ⟨v, -, rfl⟩ := List.mem_map.1 hm
      exact (ZMod.val_lt v).trans hr
    all_goals exact (ptWords_lt hm).trans hp
  have hlen : t.length = 104 := by rw [ht]; simp only [List.length_append]; omega
  have hd : ∀ d b, beNat (X.sha256 (fsMessage d b)) = D d b := fun d b => by rw [hD]
  have hproof : t = Q.proof τ K (instHash X ti vi) X.sha256 ∧ c = .ofDigests (Q.digests τ K (instHash X ti vi) X.sha256 8) := by
    rw [← hk]
    have m0 : Q.block τ K k [] = (enc I).1.val :: (enc I).2.val :: ptWords l0 := by rw [e0, hI]; rfl
    have m1 : Q.block τ K k [dθ] = ptWords l1 := by rw [e1]; rfl
    have m2 : Q.block τ K k [dθ, dβ] = [] := rfl
    have m3 : Q.block τ K k [dθ, dβ, dγ] = ptWords l2 := by rw [e2, hP]; rfl
    have m4 : Q.block τ K k [dθ, dβ, dγ, dy] = ptWords l3 := by rw [e3]; rfl
    have m5 : Q.block τ K k [dθ, dβ, dγ, dy, dx] = t4 := by rw [e4, he, hP]; rfl
    have m6 : Q.block τ K k [dθ, dβ, dγ, dy, dx, dy'] = [] := rfl
    have m7 : Q.block τ K k [dθ, dβ, dγ, dy, dx, dy', dv] = ptWords l5 := by rw [e5]; rfl
    have m8 : Q.block τ K k [dθ, dβ, dγ, dy, dx, dy', dv, du] = ptWords l6 := by rw [e6, hc]; rfl
    have g0 : Q.digests τ K k X.sha256 0 = [] := rfl
    have g1 : Q.digests τ K k X.sha256 1 = [dθ] := by
      rw [Prover.digests, g0, Prover.question, hd, m0]; exact congrArg (fun d => [d]) eθ.symm
    have g2 : Q.digests τ K k X.sha256 2 = [dθ, dβ] := by
      rw [Prover.digests, g1, Prover.question, hd, m1]; exact congrArg (fun d => [dθ, d]) eβ.symm
    have g3 : Q.digests τ K k X.sha256 3 = [dθ, dβ, dγ] := by
      rw [Prover.digests, g2, Prover.question, hd, m2]; exact congrArg (fun d => [dθ, dβ, d]) eγ.symm
    have g4 : Q.digests τ K k X.sha256 4 = [dθ, dβ, dγ, dy] := by
      rw [Prover.digests, g3, Prover.question, hd, m3]; exact congrArg (fun d => [dθ, dβ, dγ, d]) ey.symm
    have g5 : Q.digests τ K k X.sha256 5 = [dθ, dβ, dγ, dy, dx] := by
      rw [Prover.digests, g4, Prover.question, hd, m4]; exact congrArg (fun d => [dθ, dβ, dγ, dy, d]) ex.symm
    have g6 : Q.digests τ K k X.sha256 6 = [dθ, dβ, dγ, dy, dx, dy'] := by
      rw [Prover.digests, g5, Prover.question, hd, m5]; exact congrArg (fun d => [dθ, dβ, dγ, dy, dx, d]) ey'.symm
    have g7 : Q.digests τ K k X.sha256 7 = [dθ, dβ, dγ, dy, dx, dy', dv] := by
      rw [Prover.digests, g6, Prover.question, hd, m6]; exact congrArg (fun d => [dθ, dβ, dγ, dy, dx, dy', d]) ev.symm
    have g8 : Q.digests τ K k X.sha256 8 = [dθ, dβ, dγ, dy, dx, dy', dv, du] := by
      rw [Prover.digests, g7, Prover.question, hd, m7]; exact congrArg (fun d => [dθ, dβ, dγ, dy, dx, dy', dv, d]) eu.symm
    refine ⟨?_, by rw [hc, g8]; rfl⟩
    rw [Prover.proof, show List.range 9 = [0, 1, 2, 3, 4, 5, 6, 7, 8] from rfl]
    simp only [List.flatMap_cons, List.flatMap_nil]
    rw [g0, g1, g2, g3, g4, g5, g6, g7, g8, m0, m1, m2, m3, m4, m5, m6, m7, m8, ht]
    simp only [List.append_assoc, List.cons_append, List.drop_succ_cons, List.drop_zero, List.nil_append, List.append_nil]
  refine ⟨t, hproof.1, hlen, hword, hchal.trans hproof.2, ⟨?_, ?_⟩, ?_⟩
  · rw [hchal, hc]
    refine ⟨?_, fun i hi => ?_, fun i hi => ?_, fun i hi => ?_, fun i hi => ?_, fun i hi => ?_, ?_, fun i hi => ?_, ?_, ?_⟩
    · show instCommitment (instHash X ti vi) = _
      rw [← hk, instCommitment, hK.inst, com, com, Polynomial.eval_mul, eval_C, mul_smul]
    · show pointOf t (2 * i) = _
      rw [pointOf_of (b0 i hi), e0]
      interval_cases i <;> rfl
    · show pointOf t (16 + 4 * i) = _
      interval_cases i
      · rw [pointOf_of (b1 0 (by decide)), e1]; rfl
      · rw [pointOf_of (b1 2 (by decide)), e1]; rfl
    · show pointOf t (18 + 4 * i) = _
      interval_cases i
      · rw [pointOf_of (b1 1 (by decide)), e1]; rfl
      · rw [pointOf_of (b1 3 (by decide)), e1]; rfl
    · show pointOf t (24 + 2 * i) = _
      rw [pointOf_of (b2 i (by omega)), e2, hP]
      interval_cases i <;> rfl
    · show pointOf t (32 + 2 * i) = _
      interval_cases i
      · rw [pointOf_of (b2 4 (by decide)), e2, hP]; rfl
      · rw [pointOf_of (b2 5 (by decide)), e2, hP]; rfl
    · show pointOf t 36 = _
      rw [pointOf_of (b2 6 (by decide)), e2, hP]; rfl
    · show pointOf t (38 + 2 * i) = _
      rw [pointOf_of (b3 i hi), e3]
      interval_cases i <;> rfl
    · show pointOf t 100 = _
      rw [pointOf_of b5, e5]; rfl
    · show pointOf t 102 = _
      rw [pointOf_of b6, e6, hc]; rfl
  · rw [hchal, hc]
    have h1 := evalList_same e (f := fun i => ((t.getD i 0 : ℕ) : Fr)) b4
    rw [he, hP, hk] at h1
    exact h1
  · intro hne
    refine ⟨hlen, hword, fun i hi => ?_⟩
    · have key : ∃ R : G1, t.getD i 0 = (enc R).1.val ∧ t.getD (i + 1) 0 = (enc R).2.val := by
        rcases hi with ⟨h2, hi⟩ | rfl | rfl
        · by_cases g0 : i < 16
          · exact ⟨_, by have := b0 (i / 2) (by omega); rwa [show 2 * (i / 2) = i by omega] at this⟩
          by_cases g1 : i < 24
          · exact ⟨_, by have := b1 (i / 2 - 8) (by omega); rwa [show 16 + 2 * (i / 2 - 8) = i by omega] at this⟩
          by_cases g2 : i < 38
          · exact ⟨_, by have := b2 (i / 2 - 12) (by omega); rwa [show 24 + 2 * (i / 2 - 12) = i by omega] at this⟩
          · exact ⟨_, by have := b3 (i / 2 - 19) (by omega); rwa [show 38 + 2 * (i / 2 - 19) = i by omega] at this⟩
        · exact ⟨_, b5⟩
        · exact ⟨_, b6⟩
      obtain ⟨R, hR⟩ := key
      have hR0 := hne i hi
      rw [pointOf_of hR] at hR0
      refine ⟨by rw [hR.1]; exact ZMod.val_lt _, by rw [hR.2]; exact ZMod.val_lt _, ?_⟩
      rw [hR.1, hR.2, ZMod.natCast_zmod_val, ZMod.natCast_zmod_val]
      rcases validEnc_enc R with h | h
      · exact h
      · exact absurd (enc_injective (h.trans enc_zero.symm)) hR0

/-- A verifying key and a witness that meet the hypotheses of C52, for any permutation, any non-zero instance value and any
trapdoor outside the domain: all advice cells are 5, the gate is a0·a1 - 25, the one-limb decomposition is selected, and the
table consists of the pairs (18, i). -/
theorem exists_satisfied {τ : Fr} (hτ : τ ^ n ≠ 1) (π : Equiv.Perm (Fin 7 × Fin (n - 6))) {k : Fr} (hk : k ≠ 0) :
    ∃ K : VkPolys, K.Opens τ ∧ K.Bounded n ∧ EncodesPermutation K π ∧ 0 < (K.f 11).natDegree ∧ Satisfies K π k fun _ => C 5 := by
  have nb : 11 < n := by decide
  obtain ⟨K, h1, h2, h3, h4, h5⟩ := exists_vkPolys_cells hτ π (fun j i => if j = 0 then -25 else if j = 7 then 1 else
    if j = 9 ∨ j = 10 then 18 else if j = 11 then i else if j = 12 then 1 else 0) fun _ => 5 / k
  have hdeg : 0 < (K.f 11).natDegree := by
    rw [Nat.pos_iff_ne_zero]
    intro h0
    have e0 := h4 11 0 (by omega)
    have e1 := h4 11 1 (by omega)
    rw [eq_C_of_natDegree_eq_zero h0, cell, eval_C] at e0 e1
    have := e0.symm.trans e1
    norm_num at this
  refine ⟨K, h1, h2, h3, hdeg, ?_⟩
  have hc : ∀ i, cell (C 5) i = 5 := fun i => by rw [cell, eval_C]
  have hcopy : ∀ j, ∀ i < n, cell (copyColumn K k (fun _ => C 5) j) i = 5 := by
    intro j i hi
    unfold copyColumn
    split
    · exact hc i
    · rw [cell, Polynomial.eval_mul, eval_C, show eval (ω ^ i) K.inst = cell K.inst i from rfl, h5 i hi, mul_div_cancel₀ _ hk]
  refine ⟨fun i hi => ?_, fun i hi _ _ _ => rfl, fun i hi _ g _ => absurd (h4 12 i hi) g, fun i hi _ g _ => absurd (h4 12 i hi) g,
    fun c => ?_, fun i hi => ⟨5, by omega, ?_, ?_⟩, fun i hi => ⟨5, by omega, ?_, ?_⟩⟩
  · rw [hc, hc, h4 0 i hi, h4 1 i hi, h4 2 i hi, h4 3 i hi, h4 4 i hi, h4 5 i hi, h4 6 i hi, h4 7 i hi, h4 8 i hi]
    norm_num
  · rw [hcopy _ _ (by omega), hcopy _ _ (by omega)]
  · rw [h4 9 i (by omega), h4 10 5 (by omega)]; rfl
  · rw [hc, h4 11 5 (by omega)]; norm_num
  · rw [h4 10 5 (by omega)]; norm_num
  · rw [hc, h4 11 5 (by omega)]; norm_num

example {τ : Fr} (hτ : τ ^ n ≠ 1) (π : Equiv.Perm (Fin 7 × Fin (n - 6))) {k : Fr} (hk : k ≠ 0) :
    ∃ (K : VkPolys) (a : ℕ → Fr[X]), K.Opens τ ∧ K.Bounded n ∧ EncodesPermutation K π ∧ (∀ i, (a i).natDegree ≤ n) ∧
      Satisfies K π k a := by
  obtain ⟨K, h1, h2, h3, -, h4⟩ := exists_satisfied hτ π hk
  exact ⟨K, _, h1, h2, h3, fun i => by rw [natDegree_C]; exact Nat.zero_le n, h4⟩

end Verif
