/- Property C48, completed: also when the last two proof words are Go machine integers. -/
import Verif.Lemmas.SameRun
import Verif.Props.Shipped

namespace Verif
open Halo2

/-- The same number, as a big integer if it is a machine integer. -/
def Var.boxed : Var → Var
  | .int z => .big z
  | v => v

/-- The circuit with machine integers at the last two positions of the proof replaced by big integers. -/
def AggregatorCircuit.boxed (c : AggregatorCircuit) : AggregatorCircuit :=
  { c with Proof := c.Proof.mapIdx fun i v => if i = 102 ∨ i = 103 then v.boxed else v }

/-- The machine integers at the last two positions of the proof fit Go's 64-bit `int`. -/
def AggregatorCircuit.Fits (c : AggregatorCircuit) : Prop :=
  ∀ i, i = 102 ∨ i = 103 → ∀ z : ℤ, c.Proof[i]? = some (.int z) → -2 ^ 63 ≤ z ∧ z < 2 ^ 63

theorem boxed_get (c : AggregatorCircuit) (i : ℕ) :
    c.boxed.Proof[i]? = (c.Proof[i]?).map fun v => if i = 102 ∨ i = 103 then v.boxed else v := by
  rw [AggregatorCircuit.boxed, List.getElem?_mapIdx]

theorem same_boxed {E : Engine} {v : Var} (h : ∀ z, v = .int z → 0 ≤ z ∧ z < rMod) : Same E v v.boxed := by
  cases v with
  | int z =>
    obtain ⟨h1, h2⟩ := h z rfl
    refine ⟨?_, rfl, rfl⟩
    show some (z % rMod) = some (if _ then z else z % rMod)
    rw [Int.emod_eq_of_lt h1 h2, ite_self]
  | _ => exact .refl _

/-- A run on machine integers between 0 and r is the run on the big integers. -/
theorem define_boxed {X : Ext} {E : Engine} {c : AggregatorCircuit}
    (h : ∀ i, i = 102 ∨ i = 103 → ∀ z : ℤ, c.Proof[i]? = some (.int z) → 0 ≤ z ∧ z < rMod) {s : St} :
    (c.Define X).Accepted E s ↔ (c.boxed.Define X).Accepted E s := by
  have hT : List.Forall₂ (Same E) c.Proof c.boxed.Proof := by
    refine List.forall₂_iff_get.2 ⟨by rw [AggregatorCircuit.boxed, List.length_mapIdx], fun i h1 h2 => ?_⟩
    have e : c.boxed.Proof.get ⟨i, h2⟩ = if i = 102 ∨ i = 103 then (c.Proof.get ⟨i, h1⟩).boxed else c.Proof.get ⟨i, h1⟩ := by
      simp [AggregatorCircuit.boxed]
    rw [e]
    split_ifs with hi
    · refine same_boxed fun z hz => h i hi z ?_
      rw [← hz]
      exact List.getElem?_eq_getElem h1
    · exact .refl _
  have hrun := sr_define (E := E) X (c := c) (c' := c.boxed) rfl rfl rfl hT fun i hi => by
    rw [boxed_get]
    cases c.Proof[i]? with
    | none => rfl
    | some v => rw [Option.map_some, if_neg (by omega)]
  exact ⟨fun ⟨t, h1, h2⟩ => ⟨t, hrun.ok.1 h1, h2⟩, fun ⟨t, h1, h2⟩ => ⟨t, hrun.ok.2 h1, h2⟩⟩

theorem int_fits {z : ℤ} (h1 : -2 ^ 63 ≤ z) (h2 : z < 2 ^ 63) (h : (z : Fp) = ((z % rMod : ℤ) : Fp)) : 0 ≤ z := by
  by_contra h0
  have hk : (2 : ℤ) ^ 63 < rMod ∧ ¬ (pMod : ℤ) ∣ rMod := by decide +kernel
  have e : z % rMod = z + rMod := by rw [← Int.add_emod_right, Int.emod_eq_of_lt (by omega) (by omega)]
  rw [e, Int.cast_add, left_eq_add] at h
  exact hk.2 ((ZMod.intCast_zmod_eq_zero_iff_dvd _ pMod).1 h)

/-- In an accepted run the machine integers at the last two positions are not negative. -/
theorem accepted_ints {X : Ext} (hX : X.Strict) {E : Engine} (hE : HonestRaw E) {c : AggregatorCircuit} (hf : c.Fits) {s : St}
    (h : (c.Define X).Accepted E s) : ∀ i, i = 102 ∨ i = 103 → ∀ z : ℤ, c.Proof[i]? = some (.int z) → 0 ≤ z ∧ z < rMod := by
  obtain ⟨s', h, hs'⟩ := h
  obtain ⟨r⟩ := define_ok h
  obtain ⟨-, hB0, h6, t', hS, -⟩ := sound_run hX hE.test r hs'
  obtain ⟨h7, -⟩ := finalCheck_ok r.final hs'
  obtain ⟨v, w, res, t, u, hv, hw, hm, hu⟩ := steps_msm hE.test (run3 r.step1 r.step2 r.step3) h7
  obtain ⟨x, y, p1, p2, p3⟩ := PtAt.of_pair ((pointAt_iff _ 102).1 (hS.points 102 (.inr (.inr rfl))))
  rw [getD_some hv] at p1
  rw [getD_some hw] at p2
  have hr : (2 : ℤ) ^ 63 < rMod := by decide +kernel
  have rpos : (0 : ℤ) < rMod := by exact_mod_cast rMod_pos
  have hread : ∀ {v : Var} {x : Fp}, setInterface v = some x → ∃ a, toBig E v = some a := by
    intro v x h
    cases v with
    | nil => cases h
    | _ => exact ⟨_, rfl⟩
  obtain ⟨a, ha⟩ := hread p1
  obtain ⟨b, hb⟩ := hread p2
  obtain ⟨e1, e2⟩ := calcMsm_one hX hE ha hb p1 p2 p3 hm hu
  have key : ∀ {v : Var} {x : Fp} {a z : ℤ}, v = .int z → setInterface v = some x → toBig E v = some a →
      x = (((a.natAbs : ℕ) : ℤ) % rMod : ℤ) → (z : Fp) = ((z % rMod : ℤ) : Fp) := by
    rintro v x a z rfl h1 h2 h3
    rw [setInterface, Option.some.injEq] at h1
    rw [toBig, Option.some.injEq] at h2
    rw [h1, h3, ← h2, Int.natAbs_of_nonneg (Int.emod_nonneg _ rpos.ne'), Int.emod_emod]
  rintro i (rfl | rfl) z hz
  · obtain ⟨l1, l2⟩ := hf 102 (.inl rfl) z hz
    rw [hv, Option.some.injEq] at hz
    exact ⟨int_fits l1 l2 (key hz p1 ha e1), l2.trans hr⟩
  · obtain ⟨l1, l2⟩ := hf 103 (.inr rfl) z hz
    rw [hw, Option.some.injEq] at hz
    exact ⟨int_fits l1 l2 (key hz p2 hb e2), l2.trans hr⟩

/-- C48, for every circuit assignment of any length and any Go values: with the repo's hints it is accepted exactly when
the conditions hold, the last two words of the proof being read as numbers. -/
theorem C48_every {X : Ext} (hX : X.Strict) {c : AggregatorCircuit} (hf : c.Fits) {s : St} (hs : s.sat = true) :
    (c.Define X).Accepted (honestTest X true) s ↔ Acceptable X c.boxed := by
  have hbox : ∀ i, i = 102 ∨ i = 103 → ∀ z : ℤ, c.boxed.Proof[i]? ≠ some (.int z) := by
    intro i hi z
    rw [boxed_get]
    cases c.Proof[i]? with
    | none => exact nofun
    | some v =>
      rw [Option.map_some, if_pos hi]
      cases v <;> exact nofun
  refine ⟨fun h => ?_, fun h => ?_⟩
  · exact (C48_circuit hX hbox hs).1 ((define_boxed (accepted_ints hX (honest_raw X) hf h)).1 h)
  · refine (define_boxed fun i hi z hz => ?_).2 ((C48_circuit hX hbox hs).2 h)
    have hr : (2 : ℤ) ^ 63 < rMod := by decide +kernel
    refine ⟨?_, (hf i hi z hz).2.trans hr⟩
    obtain ⟨x, y, e1, e2, -⟩ := h.words.point 102 (.inr (.inr rfl))
    rcases hi with rfl | rfl
    · rw [boxed_get, hz, Option.map_some, if_pos (.inl rfl), Option.some.injEq, Var.boxed, Var.big.injEq] at e1
      omega
    · rw [boxed_get, hz, Option.map_some, if_pos (.inr rfl), Option.some.injEq, Var.boxed, Var.big.injEq] at e2
      omega

/-! ### A concrete case: the shipped proof with the machine integers 1 and 2, a point of the curve, as last two words -/

/-- The shipped proof with the second opening proof replaced by the generator (1, 2). -/
def intProof : List ℕ := (shippedProof.set 102 1).set 103 2

/-- Its combination of the openings. -/
def intOpening : ℕ × ℕ := (1112766714835495000941999172129190326812453670953662667411304108387455180337,
  19435807582700872546773295804623056973197678703137486280912395771512646797807)

theorem int_run : EvalRun Sha256.hash Keccak.hash intProof shippedVerifyInst shippedAux shippedTargetInst shippedStart
    shippedHash intOpening where
  canonical := by
    refine ⟨by decide +kernel, by decide +kernel, fun i hi => ?_⟩
    have h : ∀ i < 103, (i % 2 = 0 ∧ i < 44 ∨ i = 100 ∨ i = 102) → intProof.getD i 0 < pMod ∧ intProof.getD (i + 1) 0 < pMod ∧
        Nat.beq (intProof.getD (i + 1) 0 * intProof.getD (i + 1) 0 % pMod)
          ((intProof.getD i 0 * intProof.getD i 0 % pMod * intProof.getD i 0 + 3) % pMod) = true := by decide +kernel
    obtain ⟨h1, h2, h3⟩ := h i (by rcases hi with ⟨-, h⟩ | h | h <;> omega) hi
    exact ⟨h1, h2, curve_of_chk h3⟩
  inst_lt := shipped_run.inst_lt
  inst_len := shipped_run.inst_len
  aux_lt := shipped_run.aux_lt
  st_len := shipped_run.st_len
  keccak := shipped_run.keccak
  commitment := shipped_run.commitment
  challenges := shipped_run.challenges
  steps := by decide +kernel
  F_lt := by decide +kernel
  F_curve := curve_of_chk (by decide +kernel)

/-- The circuit with `int` values 1 and 2 as last two words. -/
def intCircuit : AggregatorCircuit :=
  { shippedCircuit with Proof := (shippedCircuit.Proof.set 102 (.int 1)).set 103 (.int 2) }

theorem intCircuit_boxed : intCircuit.boxed = bigCircuit intProof shippedVerifyInst shippedAux shippedTargetInst := by
  have hl : shippedProof.length = 104 := shipped_canonical.len
  have key : intCircuit.boxed.Proof = bigs intProof := by
    refine List.ext_getElem? fun i => ?_
    have e : intCircuit.Proof = ((bigs shippedProof).set 102 (.int 1)).set 103 (.int 2) := rfl
    rw [boxed_get, e, intProof, bigs, bigs, List.getElem?_map]
    by_cases h3 : i = 103
    · subst h3
      rw [List.getElem?_set_self (by rw [List.length_set, List.length_map, hl]; norm_num),
        List.getElem?_set_self (by rw [List.length_set, hl]; norm_num)]
      rfl
    · rw [List.getElem?_set_ne (Ne.symm h3), List.getElem?_set_ne (Ne.symm h3)]
      by_cases h2 : i = 102
      · subst h2
        rw [List.getElem?_set_self (by rw [List.length_map, hl]; norm_num), List.getElem?_set_self (by rw [hl]; norm_num)]
        rfl
      · rw [List.getElem?_set_ne (Ne.symm h2), List.getElem?_set_ne (Ne.symm h2), List.getElem?_map]
        cases shippedProof[i]? with
        | none => rfl
        | some n => rw [Option.map_some, Option.map_some, if_neg (by omega)]
  have e : ∀ c : AggregatorCircuit, c.boxed = ⟨c.boxed.Proof, c.VerifyInst, c.Aux, c.TargetInst⟩ := fun _ => rfl
  rw [e, key]
  simp only [intCircuit, shippedCircuit, bigCircuit]

/-- C48_every: a circuit with machine integers as last two words that meets the hypothesis, and is accepted with the real
hash functions and a suitable pairing. -/
example : intCircuit.Fits ∧ intCircuit.Proof[102]? = some (.int 1) ∧ intCircuit.Proof[103]? = some (.int 2) ∧
    ∃ t : Fr, (intCircuit.Define (stdExt t)).Accepted (honestTest (stdExt t) true) .init ∧ Acceptable (stdExt t) intCircuit.boxed := by
  have hf : intCircuit.Fits := by
    rintro i (rfl | rfl) z hz
    · have h : intCircuit.Proof[102]? = some (.int 1) := rfl
      rw [h] at hz
      cases hz
      decide
    · have h : intCircuit.Proof[103]? = some (.int 2) := rfl
      rw [h] at hz
      cases hz
      decide
  refine ⟨hf, rfl, rfl, ?_⟩
  obtain ⟨a, ha⟩ := exists_smul_gen (pointOf intProof 102)
  obtain ⟨b, hb⟩ := exists_smul_gen (dec ((intOpening.1 : Fp), (intOpening.2 : Fp)))
  have ha0 : a ≠ 0 := by
    rintro rfl
    exact int_run.W_ne (ha.trans ((fr_smul_eq_zero).2 (.inl rfl)))
  have h := (int_run.accepted_iff (stdExt_strict (b / a)).toLawful (stdExt_sha _) (stdExt_keccak _) (s := .init) rfl).2 (by
    rw [stdExt_pairing, ha, hb, ← mul_smul, div_mul_cancel₀ _ ha0])
  rw [← intCircuit_boxed] at h
  have hacc : (intCircuit.Define (stdExt (b / a))).Accepted (honestTest (stdExt (b / a)) true) .init := by
    refine (define_boxed fun i hi z hz => ?_).2 h
    have hr : (2 : ℤ) < rMod := by decide +kernel
    rcases hi with rfl | rfl
    · have e : intCircuit.Proof[102]? = some (.int 1) := rfl
      rw [e] at hz
      cases hz
      omega
    · have e : intCircuit.Proof[103]? = some (.int 2) := rfl
      rw [e] at hz
      cases hz
      omega
  exact ⟨b / a, hacc, (C48_every (stdExt_strict _) hf rfl).1 hacc⟩

end Verif
