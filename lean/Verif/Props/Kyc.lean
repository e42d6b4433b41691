/-
Properties C41 (pairing inputs), C42 and C43 (KYC circuit).
-/
import Verif.Model.Kyc
import Verif.Props.Curve2

namespace Verif

/-! ### C41 -/

/-- (9 + u)·b' = 3: the twist of y² = x³ + 3 by ξ = 9 + u. -/
theorem C41_twist : Fp2.mul (9, 1) twistB = (3, 0) := by decide +kernel

/-- Y² = X³ + b' over Fp2, spelled out by components (u² = −1). -/
def OnTwist (P : Aff2) : Prop :=
  let (x, x') := P.1
  let (y, y') := P.2
  y * y - y' * y' = x * (x * x - x' * x') - x' * (2 * x * x') + twistB.1 ∧
  2 * y * y' = x * (2 * x * x') + x' * (x * x - x' * x') + twistB.2

theorem isOnTwist_iff (P : Aff2) : isOnTwist P = true ↔ OnTwist P := by
  obtain ⟨⟨x, x'⟩, ⟨y, y'⟩⟩ := P
  simp only [isOnTwist, Fp2.mul, Fp2.add, decide_eq_true_eq, Prod.mk.injEq, OnTwist]
  constructor
  · rintro ⟨h1, h2⟩
    exact ⟨by linear_combination h1, by linear_combination h2⟩
  · rintro ⟨h1, h2⟩
    exact ⟨by linear_combination h1, by linear_combination h2⟩

/-- C41: both built-in G2 points satisfy the twist equation. -/
theorem C41_g2 : OnTwist g20 ∧ OnTwist g21 :=
  ⟨(isOnTwist_iff _).1 (by decide +kernel), (isOnTwist_iff _).1 (by decide +kernel)⟩

/-- The standard generator of G2 of BN254 (EIP-197). -/
def G2gen : Aff2 :=
  (((10857046999023057135944570762232829481370756359578518086990519993285655852781 : ℕ),
    (11559732032986387107991004021392285783925812861821192530917403151452391805634 : ℕ)),
   ((8495653923123431417604973247489272438418190587263600148770280649306958101930 : ℕ),
    (4082367875863433681332203403145435568316851327593401208105741076214120093531 : ℕ)))

/-- C41: the second built-in point is the negated standard generator. -/
theorem C41_generator : g21 = (G2gen.1, -G2gen.2) := by decide +kernel

/-- C41: `FillVerifyCircuitsG2` never panics and stores exactly the two points. -/
theorem C41_fillG2 (c : BN256PairingCircuit) (E : Engine) (s : St) :
    FillVerifyCircuitsG2 c E s = .ok ({ c with g2Points := [g20, g21] }, s) := by
  have h0 : isOnTwist g20 = true := (isOnTwist_iff _).2 C41_g2.1
  have h1 : isOnTwist g21 = true := (isOnTwist_iff _).2 C41_g2.2
  simp only [FillVerifyCircuitsG2, GetVerifyCircuitsG2Jac, Circ.bind_run, h0, h1]
  rfl

/-- The variables are integer constants with the given residues mod p. -/
def ConstPair (x y : Var) (a : Aff) : Prop :=
  ∃ m n : ℤ, (x = .big m ∨ x = .int m) ∧ (y = .big n ∨ y = .int n) ∧ a = ((m : Fp), (n : Fp))

theorem setInterface_iff {x : Var} {a : Fp} : setInterface x = some a ↔ ∃ m : ℤ, (x = .big m ∨ x = .int m) ∧ a = (m : Fp) := by
  constructor
  · intro h
    cases x with
    | nil => cases h
    | wire => cases h
    | int n => cases h; exact ⟨n, .inr rfl, rfl⟩
    | big n => cases h; exact ⟨n, .inl rfl, rfl⟩
  · rintro ⟨m, rfl | rfl, rfl⟩ <;> rfl

theorem constPair_iff {x y : Var} {a : Aff} :
    ConstPair x y a ↔ setInterface x = some a.1 ∧ setInterface y = some a.2 := by
  rw [setInterface_iff, setInterface_iff]
  constructor
  · rintro ⟨m, n, h1, h2, rfl⟩; exact ⟨⟨m, h1, rfl⟩, ⟨n, h2, rfl⟩⟩
  · rintro ⟨⟨m, h1, e1⟩, ⟨n, h2, e2⟩⟩; exact ⟨m, n, h1, h2, by rw [← e1, ← e2]⟩

/-- C41: `FillVerifyCircuitsG1` returns iff both pairs are constants that are on the curve or (0,0); it then stores
exactly the residues of its arguments. -/
theorem C41_fillG1 (c c' : BN256PairingCircuit) (x1 y1 x2 y2 : Var) (E : Engine) (s s' : St) :
    FillVerifyCircuitsG1 c x1 y1 x2 y2 E s = .ok (c', s') ↔
      s' = s ∧ ∃ a b : Aff, ConstPair x1 y1 a ∧ ConstPair x2 y2 b ∧ ValidEnc a ∧ ValidEnc b ∧
        c' = { c with g1Points := [a, b] } := by
  simp only [constPair_iff]
  constructor
  · intro h
    unfold FillVerifyCircuitsG1 at h
    cases h1 : setInterface x1 with
    | none => rw [h1] at h; cases h
    | some a1 =>
    cases h2 : setInterface y1 with
    | none => rw [h1, h2] at h; cases h
    | some b1 =>
    rw [h1, h2] at h
    simp only [] at h
    by_cases h3 : isOnCurve a1 b1 = true
    · rw [if_pos h3] at h
      cases h4 : setInterface x2 with
      | none => rw [h4] at h; cases h
      | some a2 =>
      cases h5 : setInterface y2 with
      | none => rw [h4, h5] at h; cases h
      | some b2 =>
      rw [h4, h5] at h
      simp only [] at h
      by_cases h6 : isOnCurve a2 b2 = true
      · rw [if_pos h6] at h
        cases h
        exact ⟨rfl, (a1, b1), (a2, b2), ⟨rfl, rfl⟩, ⟨rfl, rfl⟩, (isOnCurve_iff _ _).1 h3, (isOnCurve_iff _ _).1 h6, rfl⟩
      · rw [if_neg h6] at h; cases h
    · rw [if_neg h3] at h; cases h
  · rintro ⟨rfl, ⟨a1, b1⟩, ⟨a2, b2⟩, ⟨h1, h2⟩, ⟨h4, h5⟩, h3, h6, rfl⟩
    unfold FillVerifyCircuitsG1
    rw [h1, h2]
    simp only []
    rw [if_pos ((isOnCurve_iff _ _).2 h3), h4, h5]
    simp only []
    rw [if_pos ((isOnCurve_iff _ _).2 h6)]
    rfl

/-- C41: otherwise it panics. -/
theorem C41_fillG1_panic (c : BN256PairingCircuit) (x1 y1 x2 y2 : Var) (E : Engine) (s : St)
    (h : ¬ ∃ a b : Aff, ConstPair x1 y1 a ∧ ConstPair x2 y2 b ∧ ValidEnc a ∧ ValidEnc b) :
    ∃ p, FillVerifyCircuitsG1 c x1 y1 x2 y2 E s = .error p := by
  cases hr : FillVerifyCircuitsG1 c x1 y1 x2 y2 E s with
  | error p => exact ⟨p, rfl⟩
  | ok r =>
    obtain ⟨c', s'⟩ := r
    obtain ⟨-, a, b, h1, h2, h3, h4, -⟩ := (C41_fillG1 c c' x1 y1 x2 y2 E s s').1 hr
    exact absurd ⟨a, b, h1, h2, h3, h4⟩ h

/-- C41: with a circuit variable as coordinate it always panics. -/
theorem C41_wire (c : BN256PairingCircuit) (v : Fr) (y1 x2 y2 : Var) (E : Engine) (s : St) :
    ∃ p, FillVerifyCircuitsG1 c (.wire v) y1 x2 y2 E s = .error p :=
  C41_fillG1_panic _ _ _ _ _ _ _ (by
    rintro ⟨a, b, ⟨m, n, h1 | h1, -⟩, -⟩ <;> cases h1)

/-- C41, lists of any length: `VerifyBN256Pairing` is accepted iff there are as many G1 points as G2 points, at least one, and the
pairing check of the gadget holds for them. -/
theorem C41_check (X : Ext) (g1 : List Aff) (g2 : List Aff2) (E : Engine) {s : St} (hs : s.sat = true) :
    (VerifyBN256Pairing X g1 g2).Accepted E s ↔ g1 ≠ [] ∧ g1.length = g2.length ∧ X.pairing g1 g2 = true := by
  unfold VerifyBN256Pairing
  by_cases h : g1.length = 0 ∨ g1.length ≠ g2.length
  · rw [if_pos h]
    constructor
    · rintro ⟨s', h1, -⟩; cases h1
    · rintro ⟨h1, h2, -⟩
      rcases h with h | h
      · exact absurd (List.length_eq_zero_iff.1 h) h1
      · exact absurd h2 h
  · rw [if_neg h]
    obtain ⟨h1, h2⟩ := not_or.1 h
    have h3 : g1 ≠ [] := fun e => h1 (by rw [e]; rfl)
    constructor
    · rintro ⟨s', h4, h5⟩
      refine ⟨h3, not_not.1 h2, ?_⟩
      obtain ⟨u, s1, h6, h7⟩ := Circ.bind_ok.1 h4
      cases h7
      exact ((gadget_ok h6).2.1 h5).2
    · rintro ⟨-, -, h4⟩
      refine ⟨s, ?_, hs⟩
      simp only [Circ.bind_run, h4, gadget_true, Circ.pure_run]

/-- C41: with no points, or different numbers of them, it returns an error, in every engine, and adds no constraint. -/
theorem C41_sizes (X : Ext) {g1 : List Aff} {g2 : List Aff2} (h : g1 = [] ∨ g1.length ≠ g2.length) (E : Engine) (s : St) :
    ∃ m, VerifyBN256Pairing X g1 g2 E s = .ok (some m, s) := by
  unfold VerifyBN256Pairing
  rw [if_pos (h.imp_left fun e => by rw [e]; rfl)]
  exact ⟨_, rfl⟩

-- one point against two; no points
example (E : Engine) (s : St) : (∃ m, VerifyBN256Pairing exX [(1, 2)] [g20, g21] E s = .ok (some m, s)) ∧
    ∃ m, VerifyBN256Pairing exX [] [] E s = .ok (some m, s) :=
  ⟨C41_sizes _ (.inr (by decide)) E s, C41_sizes _ (.inl rfl) E s⟩

/-- C41: the pairing circuit is accepted iff the pairing check of the gadget holds, for two points on each side. -/
theorem C41_pairing (X : Ext) (a b : Aff) (c d : Aff2) (E : Engine) {s : St} (hs : s.sat = true) :
    (BN256PairingCircuit.Define X ⟨[a, b], [c, d]⟩).Accepted E s ↔ X.pairing [a, b] [c, d] = true := by
  simp only [BN256PairingCircuit.Define, VerifyBN256Pairing]
  rw [if_neg (by simp)]
  constructor
  · rintro ⟨s', h, h2⟩
    simp only [Circ.bind_ok] at h
    obtain ⟨u, s1, h1, h3⟩ := h
    cases h3
    exact ((gadget_ok h1).2.1 h2).2
  · intro h
    refine ⟨s, ?_, hs⟩
    simp only [Circ.bind_run, h, gadget_true, Circ.pure_run]

example : ∃ c', FillVerifyCircuitsG1 ⟨[], []⟩ (.big 1) (.big 2) (.int 0) (.int 0) exComp .init = .ok (c', .init) :=
  ⟨_, (C41_fillG1 _ _ _ _ _ _ _ _ _).2 ⟨rfl, ((1 : ℤ), (2 : ℤ)), ((0 : ℤ), (0 : ℤ)), ⟨1, 2, .inl rfl, .inl rfl, rfl⟩,
    ⟨0, 0, .inr rfl, .inr rfl, rfl⟩, by decide +kernel, by decide +kernel, rfl⟩⟩

/-! ### C42 -/

theorem countryLoop_run {E : Engine} {c : Var} (hc : c.IsVal) : ∀ {l : List Var} {acc : Var} {P : Prop} [Decidable P],
    (∀ v ∈ l, v.IsVal) → acc.Good → acc.fr = (if P then 1 else 0) → ∀ s, ∃ v,
    countryLoop c l acc E s = .ok (v, s) ∧ v.Good ∧ (v.fr = 1 ↔ P ∨ ∃ w ∈ l, c.fr = w.fr)
  | [], acc, P, _, _, hg, ha, s => ⟨acc, rfl, hg, by
      rw [ha]
      by_cases hP : P <;> simp [hP]⟩
  | w :: l, acc, P, _, hl, hg, ha, s => by
    obtain ⟨x, hx⟩ := toBig_some (E := E) hc
    obtain ⟨y, hy⟩ := toBig_some (E := E) (hl w (by simp))
    have hd := resVar_good E (c.isWire || w.isWire) (x - y)
    have hz := apiIsZero_run (toBig_good' (E := E) hd) s
    have e0 : ((((resVar E (c.isWire || w.isWire) (x - y)).fr.val : ℤ) = 0) ↔ c.fr = w.fr) := by
      rw [resVar_fr, Int.natCast_eq_zero, ZMod.val_eq_zero]
      push_cast
      rw [toBig_fr hx, toBig_fr hy, sub_eq_zero]
    generalize (resVar E (c.isWire || w.isWire) (x - y)).isWire = b at hz
    simp only [e0] at hz
    have hm := resVar_good E b (if c.fr = w.fr then 1 else 0)
    have hmf : (resVar E b (if c.fr = w.fr then 1 else 0)).fr = if c.fr = w.fr then 1 else 0 := by
      rw [resVar_fr]; split <;> simp
    have v01 : ∀ {v : Var} {Q : Prop} [Decidable Q], v.Good → v.fr = (if Q then 1 else 0) →
        toBig E v = some (if Q then 1 else 0) := by
      intro v Q _ hv hf
      rw [toBig_good' hv, hf]
      have h1 : (1 : Fr).val = 1 := by decide +kernel
      split <;> simp [h1]
    have ho : apiOr acc (resVar E b (if c.fr = w.fr then 1 else 0)) E s =
        .ok (resVar E (acc.isWire || (resVar E b (if c.fr = w.fr then 1 else 0)).isWire)
          (if P ∨ c.fr = w.fr then 1 else 0), s) := by
      have b1 := v01 hg ha
      have b2 := v01 hm hmf
      simp only [apiOr, apiAssertIsBoolean, Circ.bind_run, readBig_run b1, readBig_run b2, mkRes_run]
      by_cases hP : P <;> by_cases hQ : c.fr = w.fr <;> simp [hP, hQ, emit_true]
    obtain ⟨v, h1, h2, h3⟩ := countryLoop_run (E := E) hc (l := l)
      (acc := resVar E (acc.isWire || (resVar E b (if c.fr = w.fr then 1 else 0)).isWire) (if P ∨ c.fr = w.fr then 1 else 0))
      (P := P ∨ c.fr = w.fr) (fun v hv => hl v (List.mem_cons_of_mem _ hv)) (resVar_good _ _ _)
      (by rw [resVar_fr]; split <;> simp) s
    refine ⟨v, ?_, h2, ?_⟩
    · simp only [countryLoop, Circ.bind_run, apiSub_run hx hy, hz, ho, h1]
    · rw [h3]; simp [or_assoc]

/-- The inputs of the KYC circuit are canonical values or wires. -/
structure KycCircuit.Inputs (c : KycCircuit) : Prop where
  age : c.kyc.age.Good
  ageMin : c.conditionHash.ageMin.Good
  ageMax : c.conditionHash.ageMax.Good
  country : c.kyc.country.IsVal
  countries : ∀ v ∈ c.conditionHash.country, v.IsVal

/-- The specification of the KYC circuit. -/
def KycSpec (X : Ext) (c : KycCircuit) : Prop :=
  X.ecdsa ⟨85997066971194522473057012223499312995837068047270353161199320975157154592866,
    40070151623224504185408656535330873345235311800089295101492157067180406840001, c.kycHash, c.sigR, c.sigS⟩ = true ∧
  c.conditionHash.ageMin.fr.val ≤ c.kyc.age.fr.val ∧ c.kyc.age.fr.val ≤ c.conditionHash.ageMax.fr.val ∧
  ∃ w ∈ c.conditionHash.country, c.kyc.country.fr = w.fr

/-- C42: in every engine and for every circuit input (constants or wires), the KYC circuit is satisfied iff the fixed
key's signature on the hash is valid, the age is in range and the country is in the list. -/
theorem C42_exact (X : Ext) {c : KycCircuit} (hc : c.Inputs) {E : Engine} {s : St} (hs : s.sat = true) :
    (c.Define X).Accepted E s ↔ KycSpec X c := by
  have hr := fun s hs => C22_range (E := E) hc.age hc.ageMin hc.ageMax (s := s) hs
  have hl := fun s => countryLoop_run (E := E) hc.country (acc := .int 0) (P := False) hc.countries trivial
    (by simp [Var.fr]) s
  have h11 : (Var.int 1).fr = 1 := by simp [Var.fr]
  constructor
  · rintro ⟨s', h, h2⟩
    simp only [KycCircuit.Define, Circ.bind_ok] at h
    obtain ⟨u, s1, h1, e, s2, h3, h4⟩ := h
    cases e with
    | some m => cases h4
    | none =>
      simp only [Circ.bind_ok] at h4
      obtain ⟨v, s3, h5, u', s4, h6, h7⟩ := h4
      cases h7
      obtain ⟨v', q1, q2, q3⟩ := hl s2
      rw [q1] at h5
      cases h5
      obtain ⟨-, -, -, hsat⟩ := assertEq_ok h6
      obtain ⟨g1, g2⟩ := hsat h2
      have hs1 : s1.sat = true := by
        simp only [VerifyRangeCheck, Circ.bind_ok] at h3
        obtain ⟨_, _, a1, _, _, a2, a3⟩ := h3
        cases a3
        rw [lessEq_run hc.ageMin hc.age] at a1
        rw [lessEq_run hc.age hc.ageMax] at a2
        exact ((emit_ok a1).2.1 ((emit_ok a2).2.1 g1).1).1
      have hrange := (hr s1 hs1).1 ⟨s2, h3, g1⟩
      refine ⟨((gadget_ok h1).2.1 hs1).2, hrange.1, hrange.2, ?_⟩
      simpa using q3.1 (by rw [g2, h11])
  · rintro ⟨h1, h2, h3, h4⟩
    obtain ⟨s2, a1, a2⟩ := (hr s hs).2 ⟨h2, h3⟩
    obtain ⟨v, q1, q2, q3⟩ := hl s2
    have hv := q3.2 (.inr h4)
    refine ⟨s2, ?_, a2⟩
    have hk : X.ecdsa ⟨kycKeyX, kycKeyY, c.kycHash, c.sigR, c.sigS⟩ = true := h1
    simp only [KycCircuit.Define, Circ.bind_run, hk, gadget_true, a1, q1]
    rw [assertEq_pass (b := .int 1) q2 trivial (by rw [hv, h11])]
    rfl

/-- C42: an empty country list accepts nothing. -/
theorem C42_empty (X : Ext) {c : KycCircuit} (hc : c.Inputs) (h0 : c.conditionHash.country = []) {E : Engine} {s : St}
    (hs : s.sat = true) : ¬ (c.Define X).Accepted E s := by
  rw [C42_exact X hc hs]
  rintro ⟨-, -, -, w, hw, -⟩
  rw [h0] at hw
  simp at hw

/-- A KYC witness: age 30 in [18, 65], country 2 in [1, 2, 3]. -/
def exKyc : KycCircuit :=
  ⟨3, 1, 10, ⟨.wire 30, .wire 2, .wire 0, .wire 0⟩, ⟨.wire 18, .wire 65, [.wire 1, .wire 2, .wire 3], [], []⟩⟩

theorem exKyc_inputs : exKyc.Inputs := ⟨trivial, trivial, trivial, trivial, by
  intro v hv
  simp only [exKyc, List.mem_cons, List.not_mem_nil, or_false] at hv
  rcases hv with rfl | rfl | rfl <;> trivial⟩

theorem exKyc_accepted : (exKyc.Define exX).Accepted exComp .init :=
  (C42_exact exX exKyc_inputs rfl).2 ⟨by simp [exX, idealExt, exKyc],
    by decide +kernel, by decide +kernel, .wire 2, by simp [exKyc], rfl⟩

example : ¬ (({ exKyc with kyc := { exKyc.kyc with age := .wire 17 } } : KycCircuit).Define exX).Accepted exComp .init := by
  have hi : ({ exKyc with kyc := { exKyc.kyc with age := .wire 17 } } : KycCircuit).Inputs :=
    ⟨trivial, trivial, trivial, trivial, exKyc_inputs.countries⟩
  rw [C42_exact exX hi rfl]
  rintro ⟨-, h, -⟩
  revert h
  decide +kernel

theorem countryLoop_ok {E : Engine} {c : Var} : ∀ {l : List Var} {acc v : Var} {s s' : St},
    countryLoop c l acc E s = .ok (v, s') → ∀ w ∈ l, w.IsVal ∧ c.IsVal
  | [], _, _, _, _, _ => by simp
  | w :: l, acc, v, s, s', h => by
    simp only [countryLoop] at h
    rw [Circ.bind_ok] at h
    obtain ⟨d, s1, h1, h⟩ := h
    rw [Circ.bind_ok] at h
    obtain ⟨m, s2, -, h⟩ := h
    rw [Circ.bind_ok] at h
    obtain ⟨o, s3, -, h⟩ := h
    obtain ⟨-, -, -, hc, hw, -⟩ := apiSub_ok h1
    intro x hx
    rcases List.mem_cons.1 hx with rfl | hx
    · exact ⟨hw, hc⟩
    · exact countryLoop_ok h x hx

theorem range_mono {E : Engine} {v a b : Var} {s s' : St} {e : GoErr} (h : VerifyRangeCheck v a b E s = .ok (e, s')) :
    e = none ∧ (s'.sat = true → s.sat = true) ∧ v.IsVal ∧ a.IsVal ∧ b.IsVal := by
  simp only [VerifyRangeCheck] at h
  rw [Circ.bind_ok] at h
  obtain ⟨_, s1, h1, h⟩ := h
  rw [Circ.bind_ok] at h
  obtain ⟨_, s2, h2, h3⟩ := h
  cases h3
  have key : ∀ {x y : Var} {s s' : St} {u : Unit}, apiAssertIsLessOrEqual x y E s = .ok (u, s') →
      (s'.sat = true → s.sat = true) ∧ x.IsVal ∧ y.IsVal := by
    intro x y s s' u h
    simp only [apiAssertIsLessOrEqual] at h
    rw [Circ.bind_ok] at h
    obtain ⟨n, t, h1, h⟩ := h
    obtain ⟨h1', rfl⟩ := readBig_ok.1 h1
    by_cases hn : n < 0
    · rw [if_pos hn] at h
      cases h
    · rw [if_neg hn] at h
      obtain ⟨m, t2, h3, h4⟩ := Circ.bind_ok.1 h
      obtain ⟨h5, rfl⟩ := readBig_ok.1 h3
      exact ⟨fun e => ((emit_ok h4).2.1 e).1, toBig_isVal h5, toBig_isVal h1'⟩
  obtain ⟨a1, a2, a3⟩ := key h1
  obtain ⟨b1, b2, b3⟩ := key h2
  exact ⟨rfl, a1 ∘ b1, b2, a2, b3⟩

/-- C42, every assignment, whatever the kinds of its values: no value that is read may be nil; the ages are compared as the integers
the engine reads (`toBig`: big integers as they are in a test engine that does not reduce them, otherwise residues modulo r), and the
countries modulo r. -/
theorem C42_all (X : Ext) (c : KycCircuit) {E : Engine} {s : St} (hs : s.sat = true) :
    (c.Define X).Accepted E s ↔
      X.ecdsa ⟨85997066971194522473057012223499312995837068047270353161199320975157154592866,
        40070151623224504185408656535330873345235311800089295101492157067180406840001, c.kycHash, c.sigR, c.sigS⟩ = true ∧
      (∃ n a b : ℤ, toBig E c.kyc.age = some n ∧ toBig E c.conditionHash.ageMin = some a ∧
        toBig E c.conditionHash.ageMax = some b ∧ 0 ≤ n ∧ a ≤ n ∧ n ≤ b) ∧
      c.kyc.country ≠ .nil ∧ (∀ w ∈ c.conditionHash.country, w ≠ .nil) ∧
      ∃ w ∈ c.conditionHash.country, c.kyc.country.fr = w.fr := by
  have h11 : (Var.int 1).fr = 1 := by simp [Var.fr]
  have nn : ∀ {v : Var}, v.IsVal → v ≠ .nil := by rintro v h rfl; exact h
  have nv : ∀ {v : Var}, v ≠ .nil → v.IsVal := by
    intro v h
    cases v with
    | nil => exact (h rfl).elim
    | _ => trivial
  constructor
  · rintro ⟨s', h, h2⟩
    simp only [KycCircuit.Define, Circ.bind_ok] at h
    obtain ⟨u, s1, h1, e, s2, h3, h4⟩ := h
    obtain ⟨rfl, hm, hv, ha, hb⟩ := range_mono h3
    simp only [Circ.bind_ok] at h4
    obtain ⟨v, s3, h5, u', s4, h6, h7⟩ := h4
    cases h7
    have hl := countryLoop_ok h5
    have hin : ∃ w ∈ c.conditionHash.country, c.kyc.country.fr = w.fr ∧ s2 = s3 := by
      obtain ⟨-, -, -, hsat⟩ := assertEq_ok h6
      obtain ⟨g1, g2⟩ := hsat h2
      by_cases hne : c.conditionHash.country = []
      · rw [hne] at h5
        cases h5
        rw [h11] at g2
        simp [Var.fr] at g2
      · obtain ⟨w, hw⟩ := List.exists_mem_of_ne_nil _ hne
        obtain ⟨v', q1, q2, q3⟩ := countryLoop_run (E := E) (hl w hw).2 (acc := .int 0) (P := False) (fun w hw => (hl w hw).1)
          trivial (by simp [Var.fr]) s2
        rw [q1] at h5
        cases h5
        obtain ⟨w, hw, e⟩ := (q3.1 (by rw [g2, h11])).resolve_left id
        exact ⟨w, hw, e, rfl⟩
    obtain ⟨w, hw, e, rfl⟩ := hin
    obtain ⟨-, -, -, hsat⟩ := assertEq_ok h6
    obtain ⟨g1, -⟩ := hsat h2
    obtain ⟨n, hn⟩ := toBig_some (E := E) hv
    obtain ⟨x, hx⟩ := toBig_some (E := E) ha
    obtain ⟨y, hy⟩ := toBig_some (E := E) hb
    refine ⟨((gadget_ok h1).2.1 (hm g1)).2, ⟨n, x, y, hn, hx, hy, (C22_range_int hn hx hy (hm g1)).1 ⟨s2, h3, g1⟩⟩,
      nn (hl w hw).2, fun w hw => nn (hl w hw).1, w, hw, e⟩
  · rintro ⟨h1, ⟨n, a, b, hn, ha, hb, hr⟩, hc, hl, hin⟩
    obtain ⟨s2, a1, a2⟩ := (C22_range_int hn ha hb hs).2 hr
    obtain ⟨v, q1, q2, q3⟩ := countryLoop_run (E := E) (nv hc) (acc := .int 0) (P := False) (fun w hw => nv (hl w hw))
          trivial (by simp [Var.fr]) s2
    have hv := q3.2 (.inr hin)
    refine ⟨s2, ?_, a2⟩
    have hk : X.ecdsa ⟨kycKeyX, kycKeyY, c.kycHash, c.sigR, c.sigS⟩ = true := h1
    simp only [KycCircuit.Define, Circ.bind_run, hk, gadget_true, a1, q1]
    rw [assertEq_pass (b := .int 1) q2 trivial (by rw [hv, h11])]
    rfl

/-- C42 is FALSE of ages outside the field in a test engine that does not reduce them: with the age 30 + r, whose value is 30, the
witness of the example is rejected, although its signature, age and country are fine; 30 itself is accepted. -/
theorem C42_noncanonical_false {E : Engine} (hE : E.mode = .test) (hr : E.raw = true) {s : St} (hs : s.sat = true) :
    ¬ (({ exKyc with kyc := { exKyc.kyc with age := .big (rMod + 30) } } : KycCircuit).Define exX).Accepted E s ∧
    KycSpec exX { exKyc with kyc := { exKyc.kyc with age := .big (rMod + 30) } } := by
  constructor
  · rw [C42_all exX _ hs]
    rintro ⟨-, ⟨n, a, b, hn, ha, hb, -, -, h⟩, -⟩
    simp only [toBig, hE, hr, and_self, if_true, Option.some.injEq] at hn
    simp only [toBig, exKyc, Option.some.injEq] at hb
    rw [← hn, ← hb] at h
    exact absurd h (by decide +kernel)
  · have h := (C42_exact exX exKyc_inputs rfl).1 exKyc_accepted
    have e : (Var.big (rMod + 30)).fr = (Var.wire 30).fr := by decide +kernel
    refine ⟨h.1, ?_, ?_, h.2.2.2⟩
    · show _ ≤ (Var.big (rMod + 30)).fr.val
      rw [e]; exact h.2.1
    · show (Var.big (rMod + 30)).fr.val ≤ _
      rw [e]; exact h.2.2.1

-- a nil age limit, or a nil entry in the country list: rejected, whatever the rest is
example (c : KycCircuit) (E : Engine) :
    ¬ (({ c with conditionHash := { c.conditionHash with ageMax := .nil } } : KycCircuit).Define exX).Accepted E .init ∧
    ¬ (({ c with conditionHash := { c.conditionHash with country := [.wire 1, .nil] } } : KycCircuit).Define exX).Accepted E .init := by
  rw [C42_all exX _ rfl, C42_all exX _ rfl]
  refine ⟨?_, ?_⟩
  · rintro ⟨-, ⟨n, a, b, -, -, hb, -⟩, -⟩
    cases hb
  · rintro ⟨-, -, -, h, -⟩
    exact h .nil (by simp) rfl

/-! ### C43 -/

/-- C43 is false: from any satisfying witness, changing the attributes to any values that meet the public conditions,
with the same signature and hash (and any level and time, and any level and time conditions) gives a satisfying
witness. -/
theorem C43_false (X : Ext) {c : KycCircuit} (hc : c.Inputs) {E : Engine} {s : St} (hs : s.sat = true)
    (h : (c.Define X).Accepted E s) {age country : Var} (level time : Var) (levels times : List Var) (hage : age.Good)
    (hcountry : country.IsVal) (hmin : c.conditionHash.ageMin.fr.val ≤ age.fr.val)
    (hmax : age.fr.val ≤ c.conditionHash.ageMax.fr.val) (hin : ∃ w ∈ c.conditionHash.country, country.fr = w.fr) :
    (({ c with kyc := ⟨age, country, level, time⟩,
               conditionHash := { c.conditionHash with level := levels, time := times } } : KycCircuit).Define X).Accepted
      E s := by
  have h1 := (C42_exact X hc hs).1 h
  have hi : KycCircuit.Inputs { c with
      kyc := ⟨age, country, level, time⟩
      conditionHash := { c.conditionHash with level := levels, time := times } } :=
    ⟨hage, hc.ageMin, hc.ageMax, hcountry, hc.countries⟩
  exact (C42_exact X hi hs).2 ⟨h1.1, hmin, hmax, hin⟩

/-- C43, any values: for every accepted witness, whatever the kinds of its values, the attributes can be replaced by any others that
meet the public conditions as the engine reads them. -/
theorem C43_all (X : Ext) {c : KycCircuit} {E : Engine} {s : St} (hs : s.sat = true) (h : (c.Define X).Accepted E s)
    {age country : Var} (level time : Var) (levels times : List Var) {n a b : ℤ} (hage : toBig E age = some n)
    (hmin : toBig E c.conditionHash.ageMin = some a) (hmax : toBig E c.conditionHash.ageMax = some b) (h0 : 0 ≤ n) (h1 : a ≤ n)
    (h2 : n ≤ b) (hcountry : country ≠ .nil) (hin : ∃ w ∈ c.conditionHash.country, country.fr = w.fr) :
    (({ c with kyc := ⟨age, country, level, time⟩,
               conditionHash := { c.conditionHash with level := levels, time := times } } : KycCircuit).Define X).Accepted
      E s := by
  obtain ⟨g1, -, -, g2, -⟩ := (C42_all X c hs).1 h
  exact (C42_all X _ hs).2 ⟨g1, ⟨n, a, b, hage, hmin, hmax, h0, h1, h2⟩, hcountry, g2, hin⟩

/-- C43, level and time: their values and the conditions on them never change the outcome, accepted or not. -/
theorem C43_unread (X : Ext) (c : KycCircuit) (level time : Var) (levels times : List Var) (E : Engine) (s : St) :
    ({ c with kyc := { c.kyc with level := level, time := time },
              conditionHash := { c.conditionHash with level := levels, time := times } } : KycCircuit).Define X E s =
      c.Define X E s := rfl

/-- C43, concretely: two different people (age 30 in country 2, age 64 in country 3) with the same signature. -/
theorem C43_example : ∃ c' : KycCircuit, c'.sigR = exKyc.sigR ∧ c'.sigS = exKyc.sigS ∧ c'.kycHash = exKyc.kycHash ∧
    c'.conditionHash = exKyc.conditionHash ∧ c'.kyc.age.fr ≠ exKyc.kyc.age.fr ∧ c'.kyc.country.fr ≠ exKyc.kyc.country.fr ∧
    (exKyc.Define exX).Accepted exComp .init ∧ (c'.Define exX).Accepted exComp .init := by
  refine ⟨{ exKyc with kyc := ⟨.wire 64, .wire 3, .wire 0, .wire 0⟩ }, rfl, rfl, rfl, rfl, by decide +kernel,
    by decide +kernel, exKyc_accepted, ?_⟩
  exact C43_false exX exKyc_inputs rfl exKyc_accepted (age := .wire 64) (country := .wire 3) (.wire 0) (.wire 0) [] [] trivial
    trivial (by decide +kernel) (by decide +kernel) ⟨.wire 3, by simp [exKyc], rfl⟩

end Verif
