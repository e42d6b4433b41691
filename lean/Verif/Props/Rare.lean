/- Property C63: degenerate values are rare for an honest prover. -/
import Verif.Lemmas.RareProver
import Verif.Props.Interactive

namespace Verif
open Halo2 Polynomial

theorem openingTerms_congr {τ : Fr} {K : VkPolys} (hK : K.Opens τ) {k : Fr} {P : Columns} {h : ℕ → Fr[X]} {q w : Fr[X]} {C : Commitments}
    (hC : Opens τ K k P h q w C) {c : Challenges} {e e' : Evals} (hs : e.Same e') (hv : Fr) :
    openingTerms c C e hv = openingTerms c C e' hv := by
  have h1 : rotSets c C e hv = rotSets c C e' hv := by rw [rotSets_eq hK hC, rotSets_eq hK hC, polySets_congr hs]
  have e1 : (inputSet C e).weight c = (inputSet C e').weight c := rfl
  have e2 : (singleSet c C e hv).weight c = (singleSet c C e' hv).weight c := rfl
  have e3 : (nextSet C e).weight c = (nextSet C e').weight c := rfl
  have e4 : (nextNextSet C e).weight c = (nextNextSet C e').weight c := rfl
  unfold openingTerms
  rw [h1, e1, e2, e3, e4]

/-- The number of multiples of the generator whose coordinates may not be below r. -/
def unrepresentable : ℕ := 5 * (pMod - rMod) + 1

/-- The number of exceptional values of all challenges together. -/
def degenerateValues : ℕ :=
  2 * (n - 6) + (9 * (n - 6) + (3 * n + 6 + (1306 + (172 * unrepresentable + 181 + (394 * unrepresentable + 3)))))

/-- C63: a point of the curve with a coordinate between r and p is a rare multiple of the generator. -/
theorem C63_representable : {b : Fr | ¬ Representable (b • G1gen)}.ncard ≤ unrepresentable := by
  obtain ⟨B, hB, h⟩ := exists_bad
  refine (Set.ncard_le_ncard (t := (B : Set Fr)) (fun b hb => ?_) (Finset.finite_toSet B)).trans ?_
  · by_contra hn
    exact hb (h b hn)
  · rwa [Set.ncard_coe_finset]

/-- Exceptional values of each challenge, determined by the challenges drawn before it. -/
structure DegenerateExceptions where
  β : (θ : Fr) → Finset Fr
  γ : (θ β : Fr) → Finset Fr
  x : Finset Fr
  y' : (θ β γ y x : Fr) → Finset Fr
  v : (θ β γ y x y' : Fr) → Finset Fr
  u : (θ β γ y x y' v : Fr) → Finset Fr
  β_card : ∀ θ, (β θ).card ≤ 2 * (n - 6)
  γ_card : ∀ θ β, (γ θ β).card ≤ 9 * (n - 6)
  x_card : x.card ≤ 3 * n + 6
  y'_card : ∀ θ β γ y x, (y' θ β γ y x).card ≤ 1306
  v_card : ∀ θ β γ y x y', (v θ β γ y x y').card ≤ 172 * unrepresentable + 181
  u_card : ∀ θ β γ y x y' w, (u θ β γ y x y' w).card ≤ 394 * unrepresentable + 3

/-- One of the challenges is exceptional. -/
def DegenerateExceptions.Hit (E : DegenerateExceptions) (c : Challenges) : Prop :=
  c.β ∈ E.β c.θ ∨ c.γ ∈ E.γ c.θ c.β ∨ c.x ∈ E.x ∨ c.y' ∈ E.y' c.θ c.β c.γ c.y c.x ∨ c.v ∈ E.v c.θ c.β c.γ c.y c.x c.y' ∨
    c.u ∈ E.u c.θ c.β c.γ c.y c.x c.y' c.v

/-- Choose the exceptions of three nested quantifiers. -/
theorem choose_allBut {ι : Type} {C : ι → Prop} {a b d : ℕ} {P : ι → Fr → Fr → Fr → Prop}
    (h : ∀ i, C i → AllBut a fun y => AllBut b fun v => AllBut d fun u => P i y v u) :
    ∃ (S : ι → Finset Fr) (T : ι → Fr → Finset Fr) (U : ι → Fr → Fr → Finset Fr), (∀ i, (S i).card ≤ a) ∧ (∀ i y, (T i y).card ≤ b) ∧
      (∀ i y v, (U i y v).card ≤ d) ∧ ∀ i, C i → ∀ y ∉ S i, ∀ v ∉ T i y, ∀ u ∉ U i y v, P i y v u := by
  have h1 : ∀ i, ∃ S : Finset Fr, S.card ≤ a ∧ (C i → ∀ y ∉ S, AllBut b fun v => AllBut d fun u => P i y v u) := fun i => by
    by_cases hc : C i
    · obtain ⟨S, h2, h3⟩ := h i hc
      exact ⟨S, h2, fun _ => h3⟩
    · exact ⟨∅, Nat.zero_le _, fun h => absurd h hc⟩
  choose S c1 h1 using h1
  have h2 : ∀ i y, ∃ T : Finset Fr, T.card ≤ b ∧ (C i → y ∉ S i → ∀ v ∉ T, AllBut d fun u => P i y v u) := fun i y => by
    by_cases hc : C i ∧ y ∉ S i
    · obtain ⟨S, h2, h3⟩ := h1 i hc.1 y hc.2
      exact ⟨S, h2, fun _ _ => h3⟩
    · exact ⟨∅, Nat.zero_le _, fun h h' => absurd ⟨h, h'⟩ hc⟩
  choose T c2 h2 using h2
  have h3 : ∀ i y v, ∃ U : Finset Fr, U.card ≤ d ∧ (C i → y ∉ S i → v ∉ T i y → ∀ u ∉ U, P i y v u) := fun i y v => by
    by_cases hc : C i ∧ y ∉ S i ∧ v ∉ T i y
    · obtain ⟨S, h2, h3⟩ := h2 i y hc.1 hc.2.1 v hc.2.2
      exact ⟨S, h2, fun _ _ _ => h3⟩
    · exact ⟨∅, Nat.zero_le _, fun h h' h'' => absurd ⟨h, h', h''⟩ hc⟩
  choose U c3 h3 using h3
  exact ⟨S, T, U, c1, c2, c3, fun i hc y hy v hv u hu => h3 i y v hc hy hv u hu⟩

/-- C63: an honest prover with finite commitments fails only if a challenge is exceptional given the challenges before it. -/
theorem C63_exceptions {Q : Prover} {K : VkPolys} {k : Fr} {B : ProductExceptions} (hQ : Q.Honest K k B) (hKd : K.Bounded n) {i : ℕ} (hi : i < 13)
    (hf : 0 < (K.f i).natDegree) {τ : Fr} (hτ : τ ≠ 0) (hK : K.Opens τ) :
    ∃ E : DegenerateExceptions, ∀ c ∈ Q.failures τ K k, E.Hit c := by
  obtain ⟨D, hDc, hD⟩ := exists_bad
  obtain ⟨Bx, cx, hx⟩ := goodX hτ hK hKd hf
  have rot0 : ∀ (p : Fr[X]) x, rotEval p 0 x = p.eval x := fun p x => by rw [rotEval, zpow_zero, one_mul]
  have key : ∀ c : Challenges, FiniteCommitments τ K k (Q.columns c.θ c.β c.γ) (Q.h c.θ c.β c.γ c.y) ∧ GoodX τ K i c.x →
      AllBut 1306 fun y' => AllBut (172 * D.card + 181) fun v => AllBut (394 * D.card + 3) fun u => vanish (points c.x [2, -1]) u ≠ 0 ∧
        ∀ (c' : Challenges) (I : G1) (p : ℕ → G1) (w : Fr[X]), c'.x = c.x → c'.y' = y' → c'.v = v → c'.u = u →
          Opens τ K k (Q.columns c.θ c.β c.γ) (Q.h c.θ c.β c.γ c.y) (Q.q c.θ c.β c.γ c.y c.x y' v) w (.ofProof I p) →
          opening c' (.ofProof I p) (trueEvals K k (Q.columns c.θ c.β c.γ) c.x) (trueQuotient (Q.h c.θ c.β c.γ c.y) c.x) = τ • (Commitments.ofProof I p).W' →
          GoodTerms (openingTerms c' (.ofProof I p) (trueEvals K k (Q.columns c.θ c.β c.γ) c.x) (trueQuotient (Q.h c.θ c.β c.γ c.y) c.x)) ∧
            Representable (Commitments.ofProof I p).W' := by
    rintro ⟨θ, β, γ, y, x, _, _, _⟩ ⟨hfin, hx⟩
    dsimp only at hfin hx
    have hq : ∀ y' v, openingAt (polySets K k (Q.columns θ β γ) (Q.h θ β γ y) x (trueEvals K k (Q.columns θ β γ) x) (trueQuotient (Q.h θ β γ y) x)) x y' v
        (Q.q θ β γ y x y' v) τ = 0 := by
      intro y' v
      have h1 := hx.trap
      rw [vanish_allRots] at h1
      have h2 := right_ne_zero_of_mul h1
      have h3 := openingPoly_at_u ⟨θ, β, γ, y, x, y', v, τ⟩ K k (Q.columns θ β γ) (Q.h θ β γ y) (Q.q θ β γ y x y' v) (Q.w ⟨θ, β, γ, y, x, y', v, τ⟩)
        (trueEvals K k (Q.columns θ β γ) x) (trueQuotient (Q.h θ β γ y) x) h2
      refine h3.symm.trans ?_
      have h4 := hQ.opening ⟨θ, β, γ, y, x, y', v, τ⟩ hx.ne h2
      dsimp only at h4
      rw [h4, eval_zero, zero_mul]
    exact rare_terms hτ hK hfin hi hx (e := trueEvals K k (Q.columns θ β γ) x) (rot0 _ _) (rot0 _ _) _ hq hD
  obtain ⟨Sy, Sv, Su, cy, cv, cu, hu⟩ := choose_allBut key
  refine ⟨⟨B.β, B.γ, Bx, fun θ β γ y x => Sy ⟨θ, β, γ, y, x, 0, 0, 0⟩, fun θ β γ y x => Sv ⟨θ, β, γ, y, x, 0, 0, 0⟩,
    fun θ β γ y x => Su ⟨θ, β, γ, y, x, 0, 0, 0⟩, B.β_card, B.γ_card, cx, fun θ β γ y x => cy _, fun θ β γ y x y' => (cv _ y').trans ?_,
    fun θ β γ y x y' v => (cu _ y' v).trans ?_⟩, fun c hc => ?_⟩
  · rw [unrepresentable]
    generalize pMod - rMod = g at hDc ⊢
    omega
  · rw [unrepresentable]
    generalize pMod - rMod = g at hDc ⊢
    omega
  by_contra hn
  rw [DegenerateExceptions.Hit] at hn
  simp only [not_or] at hn
  obtain ⟨nβ, nγ, nx, ny, nv, nu⟩ := hn
  obtain ⟨hfin, I, p, e, hs, hne⟩ := hc
  have hx := hx _ nx
  have h8 := hu ⟨c.θ, c.β, c.γ, c.y, c.x, 0, 0, 0⟩ ⟨hfin, hx⟩ _ ny _ nv _ nu
  have ho := C52_honest hQ hK hs nβ nγ hx.ne hx.dom h8.1
  have hqv := hQ.quotientValue_eq hs.evals nβ nγ hx.dom
  have ho' : opening c (.ofProof I p) (trueEvals K k (Q.columns c.θ c.β c.γ) c.x) (trueQuotient (Q.h c.θ c.β c.γ c.y) c.x) =
      τ • (Commitments.ofProof I p).W' := by
    rw [C53_equation hK hs.opens]
    exact (congrArg (eval τ) (hQ.opening c hx.ne h8.1)).trans eval_zero
  obtain ⟨h9, h10⟩ := h8.2 c I p _ rfl rfl rfl rfl hs.opens ho'
  refine hne ⟨⟨hx.ne, hx.dom, h8.1, h10, ?_⟩, ho⟩
  rw [hqv, openingTerms_congr hK hs.opens hs.evals]
  exact h9

/-- C63: an honest prover fails for few challenges. Of the r^8 tuples of challenges, at most `degenerateValues` · r^7 are such that the
prover has no infinite commitment and yet the verification of its proof meets a degenerate value or fails. -/
theorem C63_count {Q : Prover} {K : VkPolys} {k : Fr} {B : ProductExceptions} (hQ : Q.Honest K k B) (hKd : K.Bounded n) {i : ℕ} (hi : i < 13)
    (hf : 0 < (K.f i).natDegree) {τ : Fr} (hτ : τ ≠ 0) (hK : K.Opens τ) :
    (Q.failures τ K k).ncard ≤ degenerateValues * rMod ^ 7 := by
  obtain ⟨E, hE⟩ := C63_exceptions hQ hKd hi hf hτ hK
  refine (Set.ncard_le_ncard (t := {c | E.Hit c}) hE (((Set.toFinite (tupleEquiv ⁻¹' _)).image tupleEquiv).subset (Set.image_preimage_eq _ tupleEquiv.surjective).ge)).trans ?_
  rw [ncard_challenges]
  have c1 : Fintype.card Fr = rMod ^ 1 := by rw [ZMod.card, pow_one]
  have c2 := card_pair c1
  have c3 := card_pair c2
  have c4 := card_pair c3
  have c5 := card_pair c4
  have c6 := card_pair c5
  have c7 := card_pair c6
  have fin : ∀ {S : Finset Fr} {m : ℕ}, S.card ≤ m → AllBut m fun a => a ∉ S := fun {S m} h => (AllBut.finset S).mono h fun _ h => h
  have hN : 0 + (2 * (n - 6) + (9 * (n - 6) + (0 + (3 * n + 6 + (1306 + (172 * unrepresentable + 181 + (394 * unrepresentable + 3))))))) = degenerateValues := by
    rw [degenerateValues, Nat.zero_add, Nat.zero_add]
  rw [← hN]
  refine AllBut.ncard_step c7 (P := fun _ => True) (.of_forall fun _ => trivial) fun θ _ => ?_
  refine AllBut.ncard_step c6 (fin (E.β_card θ)) fun β h2 => ?_
  refine AllBut.ncard_step c5 (fin (E.γ_card θ β)) fun γ h3 => ?_
  refine AllBut.ncard_step c4 (P := fun _ => True) (.of_forall fun _ => trivial) fun y _ => ?_
  refine AllBut.ncard_step c3 (fin E.x_card) fun x h5 => ?_
  refine AllBut.ncard_step c2 (fin (E.y'_card θ β γ y x)) fun y' h6 => ?_
  refine AllBut.ncard_step c1 (fin (E.v_card θ β γ y x y')) fun v h7 => ?_
  rw [pow_zero, mul_one]
  refine AllBut.ncard_last (fin (E.u_card θ β γ y x y' v)) fun u h8 hmem => ?_
  rcases hmem with h | h | h | h | h | h
  · exact h2 h
  · exact h3 h
  · exact h5 h
  · exact h6 h
  · exact h7 h
  · exact h8 h

/-- C63: with random challenges an honest prover with finite commitments fails with probability below 2^-115. -/
theorem C63_probability {Q : Prover} {K : VkPolys} {k : Fr} {B : ProductExceptions} (hQ : Q.Honest K k B) (hKd : K.Bounded n) {i : ℕ} (hi : i < 13)
    (hf : 0 < (K.f i).natDegree) {τ : Fr} (hτ : τ ≠ 0) (hK : K.Opens τ) :
    ((Q.failures τ K k).ncard : ℚ) / Nat.card Challenges < 1 / 2 ^ 115 := by
  have h1 := C63_count hQ hKd hi hf hτ hK
  have h2 : degenerateValues * 2 ^ 115 < rMod := by decide +kernel
  rw [C57_total]
  have hr : (0 : ℚ) < rMod := by exact_mod_cast (by decide +kernel : 0 < rMod)
  rw [div_lt_div_iff₀ (by exact_mod_cast pow_pos (by exact_mod_cast hr) 8) (by positivity), one_mul]
  generalize rMod = r at h1 h2 hr ⊢
  generalize Set.ncard _ = m at h1 ⊢
  generalize degenerateValues = N at h1 h2
  have h3 : m * 2 ^ 115 < r ^ 8 := by
    have hr' : 0 < r := by exact_mod_cast hr
    calc m * 2 ^ 115 ≤ N * r ^ 7 * 2 ^ 115 := Nat.mul_le_mul_right _ h1
      _ = N * 2 ^ 115 * r ^ 7 := by ring
      _ < r * r ^ 7 := Nat.mul_lt_mul_of_pos_right h2 (pow_pos hr' 7)
      _ = r ^ 8 := by ring
  exact_mod_cast h3

theorem finite_of_sends {Q : Prover} {τ : Fr} {K : VkPolys} {X : Ext} {t : List ℕ} {ti vi : List Var} {c : Challenges} {e : Evals}
    (hi : instCommitment (instHash X ti vi) ≠ 0) (hs : Q.Sends τ K (instHash X ti vi) c (commitmentsOf X t ti vi) e)
    (hp : ∀ i, IsPointPosition i → i < 44 → pointOf t i ≠ 0) :
    FiniteCommitments τ K (instHash X ti vi) (Q.columns c.θ c.β c.γ) (Q.h c.θ c.β c.γ c.y) := by
  obtain ⟨ho, -⟩ := hs
  have pt : ∀ i, i % 2 = 0 → i < 44 → pointOf t i ≠ 0 := fun i h1 h2 => hp i (.inl ⟨h1, h2⟩) h2
  refine ⟨?_, fun i h => ?_, fun i h => ?_, fun i h => ?_, fun i h => ?_, fun i h => ?_, ?_, fun i h => ?_⟩
  · rw [← ho.inst]; exact hi
  · rw [← ho.a i h]; exact pt _ (by omega) (by omega)
  · rw [← ho.permA i h]; exact pt _ (by omega) (by omega)
  · rw [← ho.permS i h]; exact pt _ (by omega) (by omega)
  · rw [← ho.z i h]; exact pt _ (by omega) (by omega)
  · rw [← ho.Z i h]; exact pt _ (by omega) (by omega)
  · rw [← ho.random]; exact pt _ (by decide) (by decide)
  · rw [← ho.h i h]; exact pt _ (by omega) (by omega)

theorem accepted_of_regular {X : Ext} {τ : Fr} (hX : X.Lawful) (hXτ : X.Trapdoor τ) {t : List ℕ} (ht : CanonicalProof t) {ti vi : List Var}
    (hlen : (ti ++ vi).length ≤ 43) (hv : ∀ v ∈ ti ++ vi, v.Good) {s : St} (hs : s.sat = true) (hi : Representable (instCommitment (instHash X ti vi)))
    (hR : Regular (chalOf X t ti vi) (commitmentsOf X t ti vi) (evalsOf t))
    (ho : openingOf X t ti vi (quotientOf X t ti vi) = τ • pointOf t 102) :
    ((circuitFor t (auxOf X t ti vi) vi ti).Define X).Accepted (honestTest X true) s := by
  have hG : GeneralPosition X t ti vi := by
    refine ⟨fun h0 => hi.1 ?_, hi, hR.x_ne, hR.x_outside, hR.denom_ne, hR.witness, hR.terms⟩
    rw [h0, instCommitment]; exact zero_smul Fr vkInstance
  refine C35_complete hX ht hlen hv hG ?_ hs
  refine (hXτ _ _ hG.witness.1 ?_).2 ho
  have h4 := hG.terms.sums _ (by rw [openingTerms, termList]; exact Nat.succ_le_succ (Nat.zero_le _)) le_rfl
  rw [partialSum_all] at h4
  have h5 := h4.1
  rw [commitmentsOf, sum_openingTerms] at h5
  · exact h5
  · exact hG.denom_ne

/-- C63: the circuit accepts an honest prover's proof, with the hints of this repository and the aux values of the specification, unless
the proof's own challenges are among the failures, which C63_count bounds. -/
theorem C63_accepted {Q : Prover} {X : Ext} {τ : Fr} {K : VkPolys} {t : List ℕ} {ti vi : List Var} {s : St} (hX : X.Lawful) (hXτ : X.Trapdoor τ)
    (ht : CanonicalProof t) (hlen : (ti ++ vi).length ≤ 43) (hv : ∀ v ∈ ti ++ vi, v.Good) (hs : s.sat = true)
    (hi : Representable (instCommitment (instHash X ti vi)))
    (hQ : Q.Sends τ K (instHash X ti vi) (chalOf X t ti vi) (commitmentsOf X t ti vi) (evalsOf t))
    (hc : chalOf X t ti vi ∉ Q.failures τ K (instHash X ti vi)) :
    ((circuitFor t (auxOf X t ti vi) vi ti).Define X).Accepted (honestTest X true) s := by
  have hf := finite_of_sends hi.1 hQ fun i h1 _ => dec_ne (ht.point i h1).2.2
  have hR : Regular (chalOf X t ti vi) (commitmentsOf X t ti vi) (evalsOf t) ∧ openingOf X t ti vi (quotientOf X t ti vi) = τ • pointOf t 102 := by
    by_contra hn
    exact hc ⟨hf, _, _, _, hQ, hn⟩
  exact accepted_of_regular hX hXτ ht hlen hv hs hi hR.1 hR.2

theorem exists_two (a b : Fr) : ∃ c : Fr, c ≠ a ∧ c ≠ b := by
  classical
  have h : ({a, b} : Finset Fr).card < (Finset.univ : Finset Fr).card := by
    rw [Finset.card_univ, ZMod.card]
    exact Finset.card_le_two.trans_lt (by decide +kernel)
  obtain ⟨c, -, hc⟩ := Finset.exists_mem_notMem_of_card_lt_card h
  simp only [Finset.mem_insert, Finset.mem_singleton, not_or] at hc
  exact ⟨c, hc⟩

/-- Another split of the quotient; `m` stands for X^n. -/
noncomputable def resplit (m : Fr[X]) (a b : Fr) (h : ℕ → Fr[X]) : ℕ → Fr[X]
  | 0 => h 0 + C a * m
  | 1 => h 1 - C a + C b * m
  | 2 => h 2 - C b
  | _ => 0

theorem resplit_natDegree {m : Fr[X]} {d : ℕ} (hm : m.natDegree ≤ d) (a b : Fr) {h : ℕ → Fr[X]} (hh : ∀ i, (h i).natDegree ≤ d) (i : ℕ) :
    (resplit m a b h i).natDegree ≤ d := by
  have dCX : ∀ c : Fr, (C c * m).natDegree ≤ d := fun c => (natDegree_C_mul_le _ _).trans hm
  have dC : ∀ c : Fr, (C c : Fr[X]).natDegree ≤ d := fun c => by rw [natDegree_C]; exact Nat.zero_le d
  match i with
  | 0 => exact (natDegree_add_le _ _).trans (max_le (hh 0) (dCX _))
  | 1 => exact (natDegree_add_le _ _).trans (max_le ((natDegree_sub_le _ _).trans (max_le (hh 1) (dC _))) (dCX _))
  | 2 => exact (natDegree_sub_le _ _).trans (max_le (hh 2) (dC _))
  | _ + 3 => exact le_of_eq_of_le natDegree_zero (Nat.zero_le d)

theorem resplit_eval {m : Fr[X]} {a b u : Fr} {h : ℕ → Fr[X]} (h0 : (h 0).eval u + a * m.eval u ≠ 0) (h1 : (h 1).eval u - a + b * m.eval u ≠ 0)
    (h2 : (h 2).eval u - b ≠ 0) : ∀ i < 3, (resplit m a b h i).eval u ≠ 0 := by
  intro i hi
  match i with
  | 0 => rw [resplit, eval_add, Polynomial.eval_mul, eval_C]; exact h0
  | 1 => rw [resplit, eval_add, eval_sub, Polynomial.eval_mul, eval_C, eval_C]; exact h1
  | 2 => rw [resplit, eval_sub, eval_C]; exact h2
  | _ + 3 => exact absurd hi (by omega)

theorem trueQuotient_resplit (h : ℕ → Fr[X]) (a b x : Fr) {m : Fr[X]} (hm : m = X ^ n) : trueQuotient (resplit m a b h) x = trueQuotient h x := by
  have rot0 : ∀ p : Fr[X], rotEval p 0 x = p.eval x := fun p => by rw [rotEval, zpow_zero, one_mul]
  have he : m.eval x = x ^ n := by rw [hm, eval_pow, eval_X]
  unfold trueQuotient
  rw [rot0, rot0, rot0, rot0, rot0, rot0, resplit, resplit, resplit, ← he, eval_add, eval_sub, eval_add, eval_sub, Polynomial.eval_mul, Polynomial.eval_mul,
    eval_C, eval_C]
  ring

/-- C63: for a satisfying witness there is an honest prover without infinite commitments, whatever the challenges, for every trapdoor outside the
domain, unless a commitment to an advice column or to the random polynomial is infinite. -/
theorem C63_honest {K : VkPolys} (hK : K.Bounded n) {π : Equiv.Perm (Fin 7 × Fin (n - 6))} (hπ : EncodesPermutation K π) {k : Fr}
    {a : ℕ → Fr[X]} (ha : ∀ i, (a i).natDegree ≤ n) (hS : Satisfies K π k a) {random : Fr → Fr → Fr → Fr[X]}
    (hr : ∀ θ β γ, (random θ β γ).natDegree ≤ n) {τ : Fr} (hτ : τ ≠ 0) (hτn : τ ^ n ≠ 1) (hi : com τ (C k * K.inst) ≠ 0) (ha0 : ∀ i < 8, com τ (a i) ≠ 0)
    (hr0 : ∀ θ β γ, com τ (random θ β γ) ≠ 0) :
    ∃ (Q : Prover) (B : ProductExceptions), Q.a = a ∧ Q.random = random ∧ Q.Honest K k B ∧
      ∀ θ β γ y, FiniteCommitments τ K k (Q.columns θ β γ) (Q.h θ β γ y) := by
  classical
  obtain ⟨m, hm⟩ : ∃ m : Fr[X], m = X ^ n := ⟨_, rfl⟩
  have hmτ : m.eval τ = τ ^ n := by rw [hm, eval_pow, eval_X]
  have dm : m.natDegree ≤ n := by rw [hm]; exact natDegree_X_pow_le n
  have hm1 : m.eval τ ≠ 1 := by rw [hmτ]; exact hτn
  have hc : ∀ h : ℕ → Fr[X], ∃ a b : Fr, (h 0).eval τ + a * m.eval τ ≠ 0 ∧ (h 1).eval τ - a + b * m.eval τ ≠ 0 ∧ (h 2).eval τ - b ≠ 0 := by
    intro h
    have ht : m.eval τ ≠ 0 := by rw [hmτ]; exact pow_ne_zero n hτ
    generalize m.eval τ = m at ht
    obtain ⟨a, h1, -⟩ := exists_two (-(h 0).eval τ / m) 0
    obtain ⟨b, h2, h3⟩ := exists_two ((a - (h 1).eval τ) / m) ((h 2).eval τ)
    refine ⟨a, b, fun e => h1 ?_, fun e => h2 ?_, fun e => h3 (sub_eq_zero.1 e).symm⟩
    · rw [eq_div_iff ht]; linear_combination e
    · rw [eq_div_iff ht]; linear_combination e
  choose a' b' h0 h1 h2 using hc
  obtain ⟨adj, hadj⟩ : ∃ adj : Fr[X] → Fr[X], ∀ p, adj p = if p.eval τ = 0 then p + (m - 1) else p := ⟨_, fun _ => rfl⟩
  obtain ⟨Q, B, q1, q2, q3, q4, q5, q6, q7, q8⟩ := exists_honest hK hπ ha hS random hr (adj := adj) (adjh := fun h => resplit m (a' h) (b' h) h)
    (fun p hp => by
      rw [hadj]
      split
      · exact (natDegree_add_le _ _).trans (max_le hp ((natDegree_sub_le _ _).trans (max_le dm (by rw [natDegree_one]; exact Nat.zero_le n))))
      · exact hp)
    (fun p u hu => by
      rw [hadj]
      split
      · rw [eval_add, eval_sub, hm, eval_pow, eval_X, eval_one, hu, sub_self, add_zero]
      · rfl)
    (fun h hh => resplit_natDegree dm _ _ hh) (fun h x => trueQuotient_resplit h _ _ x hm)
  have key : ∀ p, com τ (adj p) ≠ 0 := by
    intro p
    rw [com_ne_zero, hadj]
    split
    · rename_i hp
      rw [eval_add, hp, zero_add, eval_sub, eval_one, sub_ne_zero]
      exact hm1
    · assumption
  have keyh : ∀ h, ∀ i < 3, com τ (resplit m (a' h) (b' h) h i) ≠ 0 := fun h i hi =>
    com_ne_zero.2 (resplit_eval (h0 h) (h1 h) (h2 h) i hi)
  refine ⟨Q, B, q1, q2, q3, fun θ β γ y => ⟨hi, ?_, fun i _ => ?_, fun i _ => ?_, fun i _ => ?_, fun i _ => ?_, ?_, fun i h => ?_⟩⟩
  · show ∀ i < 8, com τ (Q.a i) ≠ 0
    rw [q1]; exact ha0
  · show com τ (Q.permA θ i) ≠ 0
    obtain ⟨p, hp⟩ := q4 θ i
    rw [hp]; exact key p
  · show com τ (Q.permS θ i) ≠ 0
    obtain ⟨p, hp⟩ := q5 θ i
    rw [hp]; exact key p
  · show com τ (Q.z θ β γ i) ≠ 0
    obtain ⟨p, hp⟩ := q6 θ β γ i
    rw [hp]; exact key p
  · show com τ (Q.Z θ β γ i) ≠ 0
    obtain ⟨p, hp⟩ := q7 θ β γ i
    rw [hp]; exact key p
  · show com τ (Q.random θ β γ) ≠ 0
    rw [q2]; exact hr0 θ β γ
  · obtain ⟨p, hp⟩ := q8 θ β γ y
    rw [hp]; exact keyh p i h

theorem mem_termList_W (y v wi ws wn ww R cW u xn : Fr) (C : Commitments) : (cW, C.W) ∈ termList y v wi ws wn ww R cW u xn C :=
  List.mem_of_getElem? (i := 22) rfl

theorem mem_openingTerms_W (c : Challenges) (C : Commitments) (e : Evals) (hv : Fr) : ∃ s, (s, C.W) ∈ openingTerms c C e hv :=
  ⟨_, mem_termList_W _ _ _ _ _ _ _ _ _ _ _⟩

/-- C63: completeness. For a prover without infinite commitments and every instance whose hash gives a representable commitment, the proof the
prover writes down consists of its commitments and true evaluations under the proof's own challenges, which are those the prover has drawn,
and the circuit accepts it unless these challenges are among the failures. -/
theorem C63_run {Q : Prover} {X : Ext} {τ : Fr} {K : VkPolys} (hK : K.Opens τ) {ti vi : List Var} {s : St} (hX : X.Lawful) (hXτ : X.Trapdoor τ)
    (hlen : (ti ++ vi).length ≤ 43) (hv : ∀ v ∈ ti ++ vi, v.Good) (hs : s.sat = true) (hi : Representable (instCommitment (instHash X ti vi)))
    (hf : ∀ θ β γ y, FiniteCommitments τ K (instHash X ti vi) (Q.columns θ β γ) (Q.h θ β γ y)) :
    ∀ t, t = Q.proof τ K (instHash X ti vi) X.sha256 → chalOf X t ti vi = .ofDigests (Q.digests τ K (instHash X ti vi) X.sha256 8) ∧
      Q.Sends τ K (instHash X ti vi) (chalOf X t ti vi) (commitmentsOf X t ti vi) (evalsOf t) ∧ (chalOf X t ti vi ∉ Q.failures τ K (instHash X ti vi) → CanonicalProof t ∧
        ((circuitFor t (auxOf X t ti vi) vi ti).Define X).Accepted (honestTest X true) s) := by
  obtain ⟨t, ht, -, -, h0, h1, h2⟩ := C52_run Q hK X ti vi
  rw [← ht]
  intro t' ht'
  replace ht' := ht'.symm
  subst ht'
  refine ⟨h0, h1, fun hc => ?_⟩
  have hR : Regular (chalOf X t ti vi) (commitmentsOf X t ti vi) (evalsOf t) ∧ openingOf X t ti vi (quotientOf X t ti vi) = τ • pointOf t 102 := by
    by_contra hn
    exact hc ⟨hf _ _ _ _, _, _, _, h1, hn⟩
  have ho := h1.opens
  have F := hf (chalOf X t ti vi).θ (chalOf X t ti vi).β (chalOf X t ti vi).γ (chalOf X t ti vi).y
  have pt : ∀ i, i % 2 = 0 → i < 44 → pointOf t i ≠ 0 := by
    intro i h3 h4
    by_cases g0 : i < 16
    · have := ho.a (i / 2) (by omega)
      change pointOf t (2 * (i / 2)) = _ at this
      rw [show 2 * (i / 2) = i by omega] at this
      rw [this]; exact F.a _ (by omega)
    by_cases g1 : i < 24
    · by_cases g : i % 4 = 0
      · have := ho.permA ((i - 16) / 4) (by omega)
        change pointOf t (16 + 4 * ((i - 16) / 4)) = _ at this
        rw [show 16 + 4 * ((i - 16) / 4) = i by omega] at this
        rw [this]; exact F.permA _ (by omega)
      · have := ho.permS ((i - 18) / 4) (by omega)
        change pointOf t (18 + 4 * ((i - 18) / 4)) = _ at this
        rw [show 18 + 4 * ((i - 18) / 4) = i by omega] at this
        rw [this]; exact F.permS _ (by omega)
    by_cases g2 : i < 32
    · have := ho.z ((i - 24) / 2) (by omega)
      change pointOf t (24 + 2 * ((i - 24) / 2)) = _ at this
      rw [show 24 + 2 * ((i - 24) / 2) = i by omega] at this
      rw [this]; exact F.z _ (by omega)
    by_cases g3 : i < 36
    · have := ho.Z ((i - 32) / 2) (by omega)
      change pointOf t (32 + 2 * ((i - 32) / 2)) = _ at this
      rw [show 32 + 2 * ((i - 32) / 2) = i by omega] at this
      rw [this]; exact F.Z _ (by omega)
    by_cases g4 : i = 36
    · have := ho.random
      change pointOf t 36 = _ at this
      rw [g4, this]; exact F.random
    · have := ho.h ((i - 38) / 2) (by omega)
      change pointOf t (38 + 2 * ((i - 38) / 2)) = _ at this
      rw [show 38 + 2 * ((i - 38) / 2) = i by omega] at this
      rw [this]; exact F.h _ (by omega)
  have ht : CanonicalProof t := by
    refine h2 fun i h3 => ?_
    rcases h3 with ⟨h3, h4⟩ | rfl | rfl
    · exact pt i h3 h4
    · obtain ⟨s, hm⟩ := mem_openingTerms_W (chalOf X t ti vi) (commitmentsOf X t ti vi) (evalsOf t) (quotientOf X t ti vi)
      exact hR.1.terms.point _ hm
    · exact hR.1.witness.1
  exact ⟨ht, accepted_of_regular hX hXτ ht hlen hv hs hi hR.1 hR.2⟩

/-- The hypotheses of C63 are met: for every trapdoor other than zero and outside the domain, every permutation and every instance whose
commitment is finite, by the verifying key and the witness of the example of C52. -/
example {τ : Fr} (hτ : τ ≠ 0) (hτn : τ ^ n ≠ 1) (π : Equiv.Perm (Fin 7 × Fin (n - 6))) {k : Fr} (hk : instCommitment k ≠ 0) :
    ∃ (K : VkPolys) (Q : Prover) (B : ProductExceptions), K.Opens τ ∧ K.Bounded n ∧ 0 < (K.f 11).natDegree ∧ Q.Honest K k B ∧
      ∀ θ β γ y, FiniteCommitments τ K k (Q.columns θ β γ) (Q.h θ β γ y) := by
  have hk0 : k ≠ 0 := by
    rintro rfl
    exact hk (zero_smul Fr vkInstance)
  obtain ⟨K, h1, h2, h3, h4, h5⟩ := exists_satisfied hτn π hk0
  have h0 : (5 : Fr) ≠ 0 := by decide +kernel
  have hc : com τ (C 5) ≠ 0 := com_ne_zero.2 (by rw [eval_C]; exact h0)
  have hd : (C 5 : Fr[X]).natDegree ≤ n := by rw [natDegree_C]; exact Nat.zero_le n
  have hi : com τ (C k * K.inst) ≠ 0 := by
    rw [com, Polynomial.eval_mul, eval_C, mul_smul]
    have : vkInstance = K.inst.eval τ • G1gen := h1.inst
    rw [← this]
    exact hk
  obtain ⟨Q, B, -, -, h6, h7⟩ := C63_honest h2 h3 (fun _ => hd) h5 (random := fun _ _ _ => C 5) (fun _ _ _ => hd) hτ hτn hi (fun _ _ => hc) fun _ _ _ => hc
  exact ⟨K, Q, B, h1, h2, h4, h6, h7⟩

end Verif
