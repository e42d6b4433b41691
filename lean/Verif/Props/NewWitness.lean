/-
Property C73: the witness handed to the prover carries exactly the assignment.
-/
import Verif.Props.Public

namespace Verif

theorem secretWitness_append (l m : List (Visibility × Var)) : secretWitness (l ++ m) = secretWitness l ++ secretWitness m := by
  simp only [secretWitness, List.filter_append, List.map_append]

theorem secretWitness_pub (l : List Var) : secretWitness (l.map (Prod.mk .pub)) = [] := by
  induction l with
  | nil => rfl
  | cons v l ih => simp [secretWitness]

theorem secretWitness_sec (l : List Var) : secretWitness (l.map (Prod.mk .sec)) = l.map Var.fr := by
  induction l with
  | nil => rfl
  | cons v l ih => simpa [secretWitness] using ih

theorem newWitness_some {l : List (Visibility × Var)} {w : List Fr} :
    newWitness l = some w ↔ (∀ p ∈ l, p.2.IsVal) ∧ w = publicWitness l ++ secretWitness l := by
  unfold newWitness
  have h : (l.all fun p => p.2.assigned) = true ↔ ∀ p ∈ l, p.2.IsVal := by
    rw [List.all_eq_true]
    refine forall₂_congr fun p _ => ?_
    obtain ⟨q, v⟩ := p
    cases v <;> simp [Var.IsVal, Var.assigned]
  by_cases hc : (l.all fun p => p.2.assigned) = true
  · rw [if_pos hc, Option.some.injEq]
    exact ⟨fun e => ⟨h.1 hc, e.symm⟩, fun e => e.2.symm⟩
  · rw [if_neg hc]
    exact ⟨fun e => (nomatch e), fun e => absurd (h.2 e.1) hc⟩

/-- C73: the witness of the aggregation circuit exists exactly if every input has a value, and consists of the values modulo r:
the target instances, then the proof, the verifier instance and the aux values. -/
theorem C73_aggregator (c : AggregatorCircuit) (w : List Fr) :
    newWitness c.leaves = some w ↔ (∀ v ∈ c.TargetInst ++ c.Proof ++ c.VerifyInst ++ c.Aux, v.IsVal) ∧
      w = (c.TargetInst ++ c.Proof ++ c.VerifyInst ++ c.Aux).map Var.fr := by
  rw [newWitness_some, publicWitness_aggregator]
  refine and_congr ?_ ?_
  · simp only [AggregatorCircuit.leaves, List.forall_mem_append, List.forall_mem_map]
    tauto
  · simp only [AggregatorCircuit.leaves, secretWitness_append, secretWitness_sec, secretWitness_pub, List.append_nil, List.map_append,
      List.append_assoc]

/-- C73: the part of the witness that the verifier gets is its beginning. -/
theorem C73_public {l : List (Visibility × Var)} {w : List Fr} (h : newWitness l = some w) :
    publicWitness l = w.take (l.countP fun p => p.1 = .pub) ∧ w.length = l.length := by
  obtain ⟨-, rfl⟩ := newWitness_some.1 h
  have e : (publicWitness l).length = l.countP fun p => p.1 = .pub := by
    rw [publicWitness, List.length_map, List.countP_eq_length_filter]
  have e' : (secretWitness l).length = l.countP fun p => p.1 = .sec := by
    rw [secretWitness, List.length_map, List.countP_eq_length_filter]
  refine ⟨by rw [← e, List.take_left], ?_⟩
  rw [List.length_append, e, e', List.length_eq_countP_add_countP (fun p : Visibility × Var => decide (p.1 = .pub))]
  congr 1
  refine List.countP_congr fun p _ => ?_
  obtain ⟨q, v⟩ := p
  cases q <;> simp

/-- C73: the four limbs of a number below 2^256 are numbers below 2^64 that give back the number. -/
theorem C73_limbs {n : ℕ} (hn : n < 2 ^ 256) : ∃ a b c d : ℕ, a < 2 ^ 64 ∧ b < 2 ^ 64 ∧ c < 2 ^ 64 ∧ d < 2 ^ 64 ∧
    limbs n = [.big a, .big b, .big c, .big d] ∧ n = a + b * 2 ^ 64 + c * 2 ^ 128 + d * 2 ^ 192 := by
  refine ⟨n % 2 ^ 64, n / 2 ^ 64 % 2 ^ 64, n / 2 ^ 128 % 2 ^ 64, n / 2 ^ 192 % 2 ^ 64, ?_, ?_, ?_, ?_, ?_, ?_⟩
  · exact Nat.mod_lt _ (by norm_num)
  · exact Nat.mod_lt _ (by norm_num)
  · exact Nat.mod_lt _ (by norm_num)
  · exact Nat.mod_lt _ (by norm_num)
  · simp [limbs, List.range_succ]
  · have h1 := Nat.div_add_mod n (2 ^ 64)
    have h2 := Nat.div_add_mod (n / 2 ^ 64) (2 ^ 64)
    have h3 := Nat.div_add_mod (n / 2 ^ 128) (2 ^ 64)
    have e2 : n / 2 ^ 64 / 2 ^ 64 = n / 2 ^ 128 := by rw [Nat.div_div_eq_div_mul, ← pow_add]
    have e3 : n / 2 ^ 128 / 2 ^ 64 = n / 2 ^ 192 := by rw [Nat.div_div_eq_div_mul, ← pow_add]
    have h4 : n / 2 ^ 192 % 2 ^ 64 = n / 2 ^ 192 := Nat.mod_eq_of_lt (Nat.div_lt_of_lt_mul (by rw [← pow_add]; exact hn))
    rw [e2] at h2
    rw [e3] at h3
    rw [h4]
    generalize n / 2 ^ 192 = d at *
    generalize n / 2 ^ 128 = c at *
    generalize n / 2 ^ 64 = b at *
    rw [show (2 : ℕ) ^ 128 = 2 ^ 64 * 2 ^ 64 by rw [← pow_add], show (2 : ℕ) ^ 192 = 2 ^ 64 * (2 ^ 64 * 2 ^ 64) by rw [← pow_add, ← pow_add]]
    generalize (2 : ℕ) ^ 64 = q at *
    calc n = q * b + n % q := h1.symm
      _ = _ := by
        generalize n % q = a at *
        nth_rewrite 1 [← h2]
        generalize b % q = a' at *
        nth_rewrite 1 [← h3]
        ring

/-- Every input replaced by a wire with its value modulo r. -/
def KycCircuit.wired (c : KycCircuit) : KycCircuit where
  sigR := c.sigR
  sigS := c.sigS
  kycHash := c.kycHash
  kyc := ⟨.wire c.kyc.age.fr, .wire c.kyc.country.fr, .wire c.kyc.level.fr, .wire c.kyc.time.fr⟩
  conditionHash := ⟨.wire c.conditionHash.ageMin.fr, .wire c.conditionHash.ageMax.fr, c.conditionHash.country.map fun v => .wire v.fr,
    c.conditionHash.level.map fun v => .wire v.fr, c.conditionHash.time.map fun v => .wire v.fr⟩

theorem rMod_gt : 2 ^ 64 < rMod := by decide +kernel

theorem ofLimbs_append {a b : List Fr} {n : ℕ} (hn : n < 2 ^ 256) : ofLimbs (a ++ (limbs n).map Var.fr ++ b) a.length = n := by
  obtain ⟨x, y, z, u, hx, hy, hz, hu, e, hs⟩ := C73_limbs hn
  have hv : ∀ m : ℕ, m < 2 ^ 64 → ((m : Fr)).val = m := fun m hm => ZMod.val_natCast_of_lt (hm.trans rMod_gt)
  have hg : ∀ (i : ℕ) (m : ℕ), [x, y, z, u][i]? = some m → m < 2 ^ 64 → ((a ++ (limbs n).map Var.fr ++ b).getD (a.length + i) 0).val = m := by
    intro i m hi hm
    have hi4 : i < 4 := by
      have := (List.getElem?_eq_some_iff.1 hi).1
      simpa using this
    rw [List.getD_eq_getElem?_getD, List.append_assoc, List.getElem?_append_right (by omega), Nat.add_sub_cancel_left,
      List.getElem?_append_left (by rw [e]; simpa using hi4), e]
    have : ([Var.big x, .big y, .big z, .big u].map Var.fr)[i]? = some ((m : ℕ) : Fr) := by
      have : [Var.big x, .big y, .big z, .big u].map Var.fr = [x, y, z, u].map fun m : ℕ => (m : Fr) := by simp [Var.fr]
      rw [this, List.getElem?_map, hi]; rfl
    rw [this, Option.getD_some, hv m hm]
  have h4 : ∀ f : ℕ → ℕ, ((List.range 4).map f).sum = f 0 + f 1 + f 2 + f 3 := fun f => by
    rw [show List.range 4 = [0, 1, 2, 3] from rfl]
    simp only [List.map_cons, List.map_nil, List.sum_cons, List.sum_nil]
    ring
  rw [ofLimbs, h4, hg 0 x rfl hx, hg 1 y rfl hy, hg 2 z rfl hz, hg 3 u rfl hu, hs, Nat.mul_zero, pow_zero, mul_one]

theorem range_append {l pre mid post : List Fr} {k n : ℕ} (h : l = pre ++ mid ++ post) (hk : k = pre.length) (hn : n = mid.length) :
    ((List.range n).map fun i => Var.wire (l.getD (k + i) 0)) = mid.map .wire := by
  subst h hk hn
  refine List.ext_getElem? fun i => ?_
  rw [List.getElem?_map, List.getElem?_map]
  by_cases hi : i < mid.length
  · rw [List.getElem?_range hi, Option.map_some, List.getElem?_eq_getElem hi, Option.map_some, List.getD_eq_getElem?_getD, List.append_assoc,
      List.getElem?_append_right (by omega), Nat.add_sub_cancel_left, List.getElem?_append_left hi, List.getElem?_eq_getElem hi, Option.getD_some]
  · rw [List.getElem?_eq_none (by rw [List.length_range]; omega), List.getElem?_eq_none (by omega)]; rfl

theorem getD_append {l pre post : List Fr} {k : ℕ} {x : Fr} (h : l = pre ++ x :: post) (hk : k = pre.length) : Var.wire (l.getD k 0) = .wire x := by
  subst h hk
  rw [List.getD_eq_getElem?_getD, List.getElem?_append_right le_rfl, Nat.sub_self]; rfl

theorem ofLimbs_eq {l pre post : List Fr} {k n : ℕ} (h : l = pre ++ (limbs n).map Var.fr ++ post) (hk : k = pre.length) (hn : n < 2 ^ 256) :
    ofLimbs l k = n := by
  subst h hk
  exact ofLimbs_append hn

theorem limbs_length (n : ℕ) : (limbs n).length = 4 := by simp [limbs]

theorem newWitness_kyc {c : KycCircuit} {w : List Fr} (h : newWitness c.leaves = some w) : w = c.conditionHash.fields.map Var.fr ++
    ((limbs c.sigR).map Var.fr ++ (limbs c.sigS).map Var.fr ++ (limbs c.kycHash).map Var.fr ++
      [c.kyc.age.fr, c.kyc.country.fr, c.kyc.level.fr, c.kyc.time.fr]) := by
  obtain ⟨-, rfl⟩ := newWitness_some.1 h
  rw [publicWitness_kyc, KycCircuit.leaves, secretWitness_append, secretWitness_sec, secretWitness_pub, List.append_nil]
  simp only [List.map_append, List.map_cons, List.map_nil]

/-- C73: what the prover solves is the KYC circuit with every input a wire carrying the assigned value modulo r, and the assigned
signature and hash. -/
theorem C73_kyc {c : KycCircuit} {w : List Fr} (h : newWitness c.leaves = some w) (h1 : c.sigR < 2 ^ 256) (h2 : c.sigS < 2 ^ 256)
    (h3 : c.kycHash < 2 ^ 256) :
    KycCircuit.ofWitness c.conditionHash.country.length c.conditionHash.level.length c.conditionHash.time.length w = c.wired := by
  have hw := newWitness_kyc h
  have hA : ∀ f : Var → Fr, (c.conditionHash.fields.map f).length = 2 + (c.conditionHash.country.length + c.conditionHash.level.length +
      c.conditionHash.time.length) := fun f => by
    simp only [Conditions.fields, List.length_map, List.length_cons, List.length_append]; omega
  have hB : w = c.conditionHash.ageMin.fr :: c.conditionHash.ageMax.fr :: (c.conditionHash.country.map Var.fr ++
      (c.conditionHash.level.map Var.fr ++ (c.conditionHash.time.map Var.fr ++ ((limbs c.sigR).map Var.fr ++ (limbs c.sigS).map Var.fr ++
      (limbs c.kycHash).map Var.fr ++ [c.kyc.age.fr, c.kyc.country.fr, c.kyc.level.fr, c.kyc.time.fr])))) := by
    rw [hw]
    simp only [Conditions.fields, List.map_append, List.map_cons, List.append_assoc, List.cons_append]
  have lim : ∀ n, ((limbs n).map Var.fr).length = 4 := fun n => by rw [List.length_map, limbs_length]
  unfold KycCircuit.ofWitness KycCircuit.wired
  have e1 := ofLimbs_eq (l := w) (k := 2 + (c.conditionHash.country.length + c.conditionHash.level.length + c.conditionHash.time.length))
    (n := c.sigR) (pre := c.conditionHash.fields.map Var.fr) (post := (limbs c.sigS).map Var.fr ++ (limbs c.kycHash).map Var.fr ++ [c.kyc.age.fr, c.kyc.country.fr, c.kyc.level.fr, c.kyc.time.fr])
    (by rw [hw]; simp only [List.append_assoc]) (by rw [hA]) h1
  have e2 := ofLimbs_eq (l := w) (k := 2 + (c.conditionHash.country.length + c.conditionHash.level.length + c.conditionHash.time.length) + 4)
    (n := c.sigS) (pre := c.conditionHash.fields.map Var.fr ++ (limbs c.sigR).map Var.fr) (post := (limbs c.kycHash).map Var.fr ++ [c.kyc.age.fr, c.kyc.country.fr, c.kyc.level.fr, c.kyc.time.fr])
    (by rw [hw]; simp only [List.append_assoc]) (by rw [List.length_append, hA, lim]) h2
  have e3 := ofLimbs_eq (l := w) (k := 2 + (c.conditionHash.country.length + c.conditionHash.level.length + c.conditionHash.time.length) + 8)
    (n := c.kycHash) (pre := c.conditionHash.fields.map Var.fr ++ (limbs c.sigR).map Var.fr ++ (limbs c.sigS).map Var.fr)
    (post := [c.kyc.age.fr, c.kyc.country.fr, c.kyc.level.fr, c.kyc.time.fr])
    (by rw [hw]; simp only [List.append_assoc]) (by rw [List.length_append, List.length_append, hA, lim, lim]) h3
  have hK : w = (c.conditionHash.fields.map Var.fr ++ (limbs c.sigR).map Var.fr ++ (limbs c.sigS).map Var.fr ++ (limbs c.kycHash).map Var.fr) ++
      [c.kyc.age.fr, c.kyc.country.fr, c.kyc.level.fr, c.kyc.time.fr] := by rw [hw]; simp only [List.append_assoc]
  have lK : (c.conditionHash.fields.map Var.fr ++ (limbs c.sigR).map Var.fr ++ (limbs c.sigS).map Var.fr ++ (limbs c.kycHash).map Var.fr).length =
      2 + (c.conditionHash.country.length + c.conditionHash.level.length + c.conditionHash.time.length) + 12 := by
    rw [List.length_append, List.length_append, List.length_append, hA, lim, lim, lim]
  have k1 := getD_append hK lK.symm
  have k2 := getD_append (l := w) (k := 2 + (c.conditionHash.country.length + c.conditionHash.level.length + c.conditionHash.time.length) + 13)
    (pre := _ ++ [c.kyc.age.fr]) (x := c.kyc.country.fr) (hK.trans (List.append_assoc _ [_] _).symm) (by rw [List.length_append, lK]; rfl)
  have k3 := getD_append (l := w) (k := 2 + (c.conditionHash.country.length + c.conditionHash.level.length + c.conditionHash.time.length) + 14)
    (pre := _ ++ [c.kyc.age.fr, c.kyc.country.fr]) (x := c.kyc.level.fr) (hK.trans (List.append_assoc _ [_, _] _).symm)
    (by rw [List.length_append, lK]; rfl)
  have k4 := getD_append (l := w) (k := 2 + (c.conditionHash.country.length + c.conditionHash.level.length + c.conditionHash.time.length) + 15)
    (pre := _ ++ [c.kyc.age.fr, c.kyc.country.fr, c.kyc.level.fr]) (x := c.kyc.time.fr) (hK.trans (List.append_assoc _ [_, _, _] _).symm)
    (by rw [List.length_append, lK]; rfl)
  have c1 := range_append (l := w) (k := 2) (n := c.conditionHash.country.length) (pre := [c.conditionHash.ageMin.fr, c.conditionHash.ageMax.fr])
    (mid := c.conditionHash.country.map Var.fr) (hB.trans (List.append_assoc [_, _] _ _).symm) rfl (by rw [List.length_map])
  have c2 := range_append (l := w) (k := 2 + c.conditionHash.country.length) (n := c.conditionHash.level.length)
    (pre := [c.conditionHash.ageMin.fr, c.conditionHash.ageMax.fr] ++ c.conditionHash.country.map Var.fr)
    (mid := c.conditionHash.level.map Var.fr) (hB.trans (by simp only [List.append_assoc, List.cons_append, List.nil_append]; rfl))
    (by rw [List.length_append, List.length_map]; rfl) (by rw [List.length_map])
  have c3 := range_append (l := w) (k := 2 + c.conditionHash.country.length + c.conditionHash.level.length) (n := c.conditionHash.time.length)
    (pre := [c.conditionHash.ageMin.fr, c.conditionHash.ageMax.fr] ++ c.conditionHash.country.map Var.fr ++ c.conditionHash.level.map Var.fr)
    (mid := c.conditionHash.time.map Var.fr) (hB.trans (by simp only [List.append_assoc, List.cons_append, List.nil_append]; rfl))
    (by rw [List.length_append, List.length_append, List.length_map, List.length_map]; rfl) (by rw [List.length_map])
  have a1 := getD_append (l := w) (k := 0) (pre := []) hB rfl
  have a2 := getD_append (l := w) (k := 1) (pre := [c.conditionHash.ageMin.fr]) hB rfl
  dsimp only
  rw [e1, e2, e3, k1, k2, k3, k4, c1, c2, c3, a1, a2]
  simp only [List.map_map]
  rfl

theorem KycCircuit.wired_inputs (c : KycCircuit) : c.wired.Inputs := ⟨trivial, trivial, trivial, trivial, fun v hv => by
  obtain ⟨u, -, rfl⟩ := List.mem_map.1 hv
  trivial⟩

theorem newWitness_wired {c : KycCircuit} {w : List Fr} (h : newWitness c.leaves = some w) : newWitness c.wired.leaves = some w := by
  have hw := newWitness_kyc h
  have hm : ∀ l : List Var, (l.map fun v => Var.wire v.fr).map Var.fr = l.map Var.fr := fun l => by rw [List.map_map]; rfl
  rw [newWitness_some, publicWitness_kyc, KycCircuit.leaves, secretWitness_append, secretWitness_sec, secretWitness_pub, List.append_nil]
  have hl : ∀ n, ∀ v ∈ limbs n, v.IsVal := fun n v hv => by
    obtain ⟨i, -, rfl⟩ := List.mem_map.1 hv
    trivial
  refine ⟨?_, ?_⟩
  · simp only [List.forall_mem_append, List.forall_mem_map, Conditions.fields, List.forall_mem_cons]
    exact ⟨⟨⟨⟨hl _, hl _⟩, hl _⟩, trivial, trivial, trivial, trivial, by simp⟩, trivial, trivial, ⟨by
      intro v hv; obtain ⟨u, -, rfl⟩ := List.mem_map.1 hv; trivial, by
      intro v hv; obtain ⟨u, -, rfl⟩ := List.mem_map.1 hv; trivial⟩, by
      intro v hv; obtain ⟨u, -, rfl⟩ := List.mem_map.1 hv; trivial⟩
  · rw [hw]
    simp only [Conditions.fields, KycCircuit.wired, List.map_append, List.map_cons, List.map_nil, hm]
    rfl

/-- C73: so proving the assignment succeeds, in every engine, exactly if the signature is valid and the
assigned values meet the conditions modulo r. -/
theorem C73_kyc_run (X : Ext) {c : KycCircuit} {w : List Fr} (h : newWitness c.leaves = some w) (h1 : c.sigR < 2 ^ 256) (h2 : c.sigS < 2 ^ 256)
    (h3 : c.kycHash < 2 ^ 256) {E : Engine} {s : St} (hs : s.sat = true) :
    ((KycCircuit.ofWitness c.conditionHash.country.length c.conditionHash.level.length c.conditionHash.time.length w).Define X).Accepted E s ↔
      KycSpec X c := by
  rw [C73_kyc h h1 h2 h3, C42_exact X c.wired_inputs hs]
  refine and_congr Iff.rfl (and_congr Iff.rfl (and_congr Iff.rfl ?_))
  constructor
  · rintro ⟨v, hv, e⟩
    obtain ⟨u, hu, rfl⟩ := List.mem_map.1 hv
    exact ⟨u, hu, e⟩
  · rintro ⟨u, hu, e⟩
    exact ⟨_, List.mem_map.2 ⟨u, hu, rfl⟩, e⟩

/-- C73: two assignments of the same shape have the same witness exactly if they agree: the signature and hash as numbers, every
other input modulo r. -/
theorem C73_kyc_binding {c c' : KycCircuit} {w w' : List Fr} (h : newWitness c.leaves = some w) (h' : newWitness c'.leaves = some w')
    (h1 : c.sigR < 2 ^ 256) (h2 : c.sigS < 2 ^ 256) (h3 : c.kycHash < 2 ^ 256) (h1' : c'.sigR < 2 ^ 256) (h2' : c'.sigS < 2 ^ 256)
    (h3' : c'.kycHash < 2 ^ 256) (l1 : c.conditionHash.country.length = c'.conditionHash.country.length)
    (l2 : c.conditionHash.level.length = c'.conditionHash.level.length) (l3 : c.conditionHash.time.length = c'.conditionHash.time.length) :
    w = w' ↔ c.wired = c'.wired := by
  constructor
  · rintro rfl
    rw [← C73_kyc h h1 h2 h3, ← C73_kyc h' h1' h2' h3', l1, l2, l3]
  · intro e
    have := newWitness_wired h
    rw [e, newWitness_wired h'] at this
    exact (Option.some.inj this).symm

/-- The witness of the test of the KYC circuit, /repo/kyc_test.go:44-78, and its solution. -/
example : ∃ w, newWitness testKyc.leaves = some w ∧ w.length = 25 ∧ (∀ E : Engine, ∀ X : Ext,
    ((KycCircuit.ofWitness 5 1 1 w).Define X).Accepted E .init ↔ KycSpec X testKyc) := by
  have h : newWitness testKyc.leaves = some (publicWitness testKyc.leaves ++ secretWitness testKyc.leaves) := by
    refine newWitness_some.2 ⟨?_, rfl⟩
    intro p hp
    have : p.2.assigned = true := (List.all_eq_true.1 (show (testKyc.leaves.all fun p => p.2.assigned) = true by decide +kernel)) p hp
    revert this
    obtain ⟨q, v⟩ := p
    cases v <;> simp [Var.assigned, Var.IsVal]
  refine ⟨_, h, by decide +kernel, fun E X => ?_⟩
  exact C73_kyc_run X h (by decide +kernel) (by decide +kernel) (by decide +kernel) rfl

/-- An input without a value: no witness. -/
example (w : List Fr) : newWitness (AggregatorCircuit.leaves ⟨[.nil], [], [], []⟩) ≠ some w := fun h => by
  obtain ⟨h, -⟩ := (C73_aggregator _ _).1 h
  exact h .nil (by simp)

/-- The witness of `main`: 4 public values, then 126 secret ones. -/
example : ∃ w, newWitness shippedCircuit.leaves = some w ∧ w.length = 130 ∧
    w.take 4 = [7059793422771910484, 2556686405730241944, 2133554817341762742, 8974371243071329347] := by
  refine ⟨_, (C73_aggregator _ _).2 ⟨?_, rfl⟩, by decide +kernel, by decide +kernel⟩
  intro v hv
  have : v.assigned = true := (List.all_eq_true.1 (show ((shippedCircuit.TargetInst ++ shippedCircuit.Proof ++ shippedCircuit.VerifyInst ++
    shippedCircuit.Aux).all Var.assigned) = true by decide +kernel)) v hv
  revert this
  cases v <;> simp [Var.assigned, Var.IsVal]

end Verif
