/-
Properties C58, C59 and C60: what the signature of the KYC circuit is worth, with ECDSA on secp256k1 spelled out.
-/
import Verif.Spec.Ecdsa
import Verif.Props.Kyc

namespace Verif

open Secp (Fn gen nMod)

/-- The point of the public key fixed in /repo/kyc.go:37-46. -/
def kycKey : Secp.G1 := Secp.mkPt
  ((85997066971194522473057012223499312995837068047270353161199320975157154592866 : ℕ) : Secp.Fp)
  ((40070151623224504185408656535330873345235311800089295101492157067180406840001 : ℕ) : Secp.Fp) (by decide +kernel)

/-- The ECDSA instance of a KYC witness. -/
def KycCircuit.inst (c : KycCircuit) : EcdsaInst :=
  ⟨85997066971194522473057012223499312995837068047270353161199320975157154592866,
    40070151623224504185408656535330873345235311800089295101492157067180406840001, c.kycHash, c.sigR, c.sigS⟩

/-- The public conditions on the attributes. -/
def KycCircuit.Conditions (c : KycCircuit) : Prop :=
  c.conditionHash.ageMin.fr.val ≤ c.kyc.age.fr.val ∧ c.kyc.age.fr.val ≤ c.conditionHash.ageMax.fr.val ∧
  ∃ w ∈ c.conditionHash.country, c.kyc.country.fr = w.fr

theorem inst_valid (c : KycCircuit) : c.inst.Valid ↔ 0 < c.sigR ∧ c.sigR < nMod ∧ 0 < c.sigS ∧ c.sigS < nMod ∧
    sigPoint kycKey c.kycHash c.sigR c.sigS ≠ 0 ∧
    (Secp.enc (sigPoint kycKey c.kycHash c.sigR c.sigS)).1.val % nMod = c.sigR := by
  constructor
  · rintro ⟨h1, h2, h3, h4, -, -, hc, h5, h6⟩
    exact ⟨h1, h2, h3, h4, h5, h6⟩
  · rintro ⟨h1, h2, h3, h4, h5, h6⟩
    exact ⟨h1, h2, h3, h4, by unfold KycCircuit.inst; dsimp only; decide +kernel,
      by unfold KycCircuit.inst; dsimp only; decide +kernel, by unfold KycCircuit.inst; dsimp only; decide +kernel, h5, h6⟩

theorem inst_exact (c : KycCircuit) : c.inst.Exact ↔ 0 < c.sigR ∧ c.sigR < nMod ∧ 0 < c.sigS ∧ c.sigS < nMod ∧
    sigPoint kycKey c.kycHash c.sigR c.sigS ≠ 0 ∧
    (Secp.enc (sigPoint kycKey c.kycHash c.sigR c.sigS)).1.val = c.sigR := by
  constructor
  · rintro ⟨h1, h2, h3, h4, -, -, hc, h5, h6⟩
    exact ⟨h1, h2, h3, h4, h5, h6⟩
  · rintro ⟨h1, h2, h3, h4, h5, h6⟩
    exact ⟨h1, h2, h3, h4, by unfold KycCircuit.inst; dsimp only; decide +kernel,
      by unfold KycCircuit.inst; dsimp only; decide +kernel, by unfold KycCircuit.inst; dsimp only; decide +kernel, h5, h6⟩

/-! ### C58: the signature check is ECDSA verification under the fixed key -/

/-- C58: an accepted witness carries an ECDSA signature of its hash, valid under the fixed key, and meets the
conditions. -/
theorem C58_sound {X : Ext} (hX : X.EcdsaLaw) {c : KycCircuit} (hc : c.Inputs) {E : Engine} {s : St} (hs : s.sat = true)
    (h : (c.Define X).Accepted E s) : c.inst.Valid ∧ c.Conditions := by
  obtain ⟨h1, h2⟩ := (C42_exact X hc hs).1 h
  exact ⟨hX.sound _ h1, h2⟩

/-- C58, any values: whatever the kinds of the other values, an accepted witness carries an (r, s) valid for its hash. -/
theorem C58_any {X : Ext} (hX : X.EcdsaLaw) {c : KycCircuit} {E : Engine} {s : St} (hs : s.sat = true)
    (h : (c.Define X).Accepted E s) : c.inst.Valid := hX.sound _ ((C42_all X c hs).1 h).1

/-- C58: a witness with a valid signature (whose r is the coordinate itself) that meets the conditions is accepted. -/
theorem C58_complete {X : Ext} (hX : X.EcdsaLaw) {c : KycCircuit} (hc : c.Inputs) {E : Engine} {s : St}
    (hs : s.sat = true) (h : c.inst.Exact) (hcond : c.Conditions) : (c.Define X).Accepted E s :=
  (C42_exact X hc hs).2 ⟨hX.complete _ h, hcond⟩

theorem fn_val_cast (x : ℕ) (h : x < nMod) : ((x : Fn)).val = x := ZMod.val_natCast_of_lt h

theorem fn_ne_zero {x : ℕ} (h0 : 0 < x) (h : x < nMod) : (x : Fn) ≠ 0 := by
  intro e
  have := fn_val_cast x h
  rw [e, ZMod.val_zero] at this
  omega

theorem sigPoint_eq (Q : Secp.G1) (msg r s : ℕ) :
    sigPoint Q msg r s = ((msg : Fn) / (s : Fn)) • gen + ((r : Fn) / (s : Fn)) • Q := by
  rw [Secp.fn_smul_eq, Secp.fn_smul_eq, sigPoint]

theorem exact_of_point {c : KycCircuit} {x y : Secp.Fp} (hxy : Secp.OnCurve x y) (hx : x.val < nMod)
    (hr : c.sigR = x.val) (hs0 : 0 < c.sigS) (hs : c.sigS < nMod)
    (h : sigPoint kycKey c.kycHash c.sigR c.sigS = Secp.mkPt x y hxy) : c.inst.Exact := by
  rw [inst_exact, h]
  refine ⟨?_, hr ▸ hx, hs0, hs, Secp.mkPt_ne_zero _ _ _, hr.symm⟩
  rw [hr]
  exact Nat.pos_of_ne_zero fun e => hxy.x_ne ((ZMod.val_eq_zero x).1 e)

/-- C58: the private key exists: the fixed key is a multiple of the base point. -/
theorem C58_key : ∃ d : Fn, kycKey = d.val • gen := by
  obtain ⟨d, h⟩ := Secp.exists_smul_gen kycKey
  exact ⟨d, by rw [h, Secp.fn_smul_eq]⟩

/-- C58: the holder of the private key d can get every hash accepted: with nonce k, r the first coordinate of k·G and
s = (hash + r·d)/k (for the nonces where r < n and s ≠ 0, as ECDSA requires). -/
theorem C58_sign {X : Ext} (hX : X.EcdsaLaw) {d : Fn} (hd : kycKey = d.val • gen) {k : Fn} (hk : k ≠ 0) {x y : Secp.Fp}
    (hxy : Secp.OnCurve x y) (hR : k.val • gen = Secp.mkPt x y hxy) (hx : x.val < nMod) {c : KycCircuit}
    (hr : c.sigR = x.val) (hs : c.sigS = (((c.kycHash : Fn) + (x.val : Fn) * d) / k).val) (hs0 : c.sigS ≠ 0)
    (hc : c.Inputs) (hcond : c.Conditions) {E : Engine} {s : St} (hsat : s.sat = true) : (c.Define X).Accepted E s := by
  refine C58_complete hX hc hsat (exact_of_point hxy hx hr (Nat.pos_of_ne_zero hs0) (hs ▸ ZMod.val_lt _) ?_) hcond
  have hS : (c.sigS : Fn) = ((c.kycHash : Fn) + (x.val : Fn) * d) / k := by rw [hs, ZMod.natCast_zmod_val]
  have hn : (c.kycHash : Fn) + (x.val : Fn) * d ≠ 0 := by
    intro e
    rw [e, zero_div] at hS
    exact fn_ne_zero (Nat.pos_of_ne_zero hs0) (hs ▸ ZMod.val_lt _) hS
  rw [sigPoint_eq, hd, ← hR, ← Secp.fn_smul_eq, ← Secp.fn_smul_eq, smul_smul, ← add_smul, hS, hr]
  congr 1
  field_simp

theorem smul_gen_inj {a b : Fn} (h : a • gen = b • gen) : a = b := by
  have h1 : (a - b) • gen = 0 := by rw [sub_smul, h, sub_self]
  rcases Secp.fn_smul_eq_zero.1 h1 with h2 | h2
  · exact sub_eq_zero.1 h2
  · exact absurd h2 Secp.gen_ne_zero

/-- C58: a signature is bound to its hash: no (r, s) is valid for more than four hashes modulo n. -/
theorem C58_binding (r s : ℕ) (H : Finset Fn)
    (h : ∀ m ∈ H, ∀ c : KycCircuit, c.kycHash = m.val → c.sigR = r → c.sigS = s → c.inst.Valid) : H.card ≤ 4 := by
  have hv : ∀ m ∈ H, 0 < s ∧ s < nMod ∧ sigPoint kycKey m.val r s ≠ 0 ∧
      (Secp.enc (sigPoint kycKey m.val r s)).1.val % nMod = r := by
    intro m hm
    have := (inst_valid ⟨r, s, m.val, ⟨.nil, .nil, .nil, .nil⟩, ⟨.nil, .nil, [], [], []⟩⟩).1 (h m hm _ rfl rfl rfl)
    exact ⟨this.2.2.1, this.2.2.2.1, this.2.2.2.2.1, this.2.2.2.2.2⟩
  have key : ∀ m ∈ H, ∀ m' ∈ H,
      (decide ((Secp.enc (sigPoint kycKey m.val r s)).1.val < nMod),
        decide ((Secp.enc (sigPoint kycKey m.val r s)).2.val % 2 = 0)) =
      (decide ((Secp.enc (sigPoint kycKey m'.val r s)).1.val < nMod),
        decide ((Secp.enc (sigPoint kycKey m'.val r s)).2.val % 2 = 0)) → m = m' := by
    intro m hm m' hm' e
    obtain ⟨a1, a2, a3, a4⟩ := hv m hm
    obtain ⟨-, -, b3, b4⟩ := hv m' hm'
    obtain ⟨e1, e2⟩ := Prod.mk.inj e
    have e1 := decide_eq_decide.1 e1
    have l1 := Secp.fp_val_lt (Secp.enc (sigPoint kycKey m.val r s)).1
    have l2 := Secp.fp_val_lt (Secp.enc (sigPoint kycKey m'.val r s)).1
    have l3 : Secp.pMod < 2 * nMod := by decide +kernel
    have hxv : (Secp.enc (sigPoint kycKey m.val r s)).1.val = (Secp.enc (sigPoint kycKey m'.val r s)).1.val := by
      revert a4 b4 e1 l1 l2
      generalize (Secp.enc (sigPoint kycKey m.val r s)).1.val = u
      generalize (Secp.enc (sigPoint kycKey m'.val r s)).1.val = v
      intro a4 b4 e1 l1 l2
      by_cases hu : u < nMod
      · rw [Nat.mod_eq_of_lt hu] at a4
        rw [Nat.mod_eq_of_lt (e1.1 hu)] at b4
        omega
      · have hv' : ¬ v < nMod := fun hh => hu (e1.2 hh)
        rw [Nat.mod_eq_sub_mod (by omega), Nat.mod_eq_of_lt (by omega)] at a4 b4
        omega
    have hpt : sigPoint kycKey m.val r s = sigPoint kycKey m'.val r s := by
      apply Secp.ptKey_injective
      rw [Secp.ptKey, Secp.ptKey, if_neg a3, if_neg b3, ZMod.val_injective _ hxv, e2]
    rw [sigPoint_eq, sigPoint_eq, add_left_inj, ZMod.natCast_zmod_val, ZMod.natCast_zmod_val] at hpt
    have := smul_gen_inj hpt
    have hs0 := fn_ne_zero a1 a2
    field_simp at this
    exact this
  have := Finset.card_le_card_of_injOn
    (fun m : Fn => (decide ((Secp.enc (sigPoint kycKey m.val r s)).1.val < nMod),
        decide ((Secp.enc (sigPoint kycKey m.val r s)).2.val % 2 = 0))) (t := (Finset.univ : Finset (Bool × Bool)))
    (fun m _ => by simp) (fun m hm m' hm' e => key m hm m' hm' e)
  simpa using this

/-! ### C59: the issuer took part -/

/-- C59 is false: the hash is a private input that nothing ties down, so no private key is needed. For all a and b ≠ 0
whose point a·G + b·Q has first coordinate x < n, r = x, s = x/b and hash = a·x/b are accepted with any attributes that
meet the conditions. -/
theorem C59_false {X : Ext} (hX : X.EcdsaLaw) (a : Fn) {b : Fn} (hb : b ≠ 0) {x y : Secp.Fp} (hxy : Secp.OnCurve x y)
    (hR : a.val • gen + b.val • kycKey = Secp.mkPt x y hxy) (hx : x.val < nMod) {c : KycCircuit}
    (hr : c.sigR = x.val) (hs : c.sigS = ((x.val : Fn) / b).val) (hh : c.kycHash = (a * (x.val : Fn) / b).val)
    (hc : c.Inputs) (hcond : c.Conditions) {E : Engine} {s : St} (hsat : s.sat = true) : (c.Define X).Accepted E s := by
  have hx0 : 0 < x.val := Nat.pos_of_ne_zero fun e => hxy.x_ne ((ZMod.val_eq_zero x).1 e)
  have hxn := fn_ne_zero hx0 hx
  have hS : (c.sigS : Fn) = (x.val : Fn) / b := by rw [hs, ZMod.natCast_zmod_val]
  have hH : (c.kycHash : Fn) = a * (x.val : Fn) / b := by rw [hh, ZMod.natCast_zmod_val]
  have hs0 : 0 < c.sigS := Nat.pos_of_ne_zero fun e => by
    rw [e, Nat.cast_zero] at hS
    exact div_ne_zero hxn hb hS.symm
  refine C58_complete hX hc hsat (exact_of_point hxy hx hr hs0 (hs ▸ ZMod.val_lt _) ?_) hcond
  rw [sigPoint_eq, ← hR, ← Secp.fn_smul_eq, ← Secp.fn_smul_eq, hS, hH, hr]
  congr 2 <;> field_simp

/-- The first coordinate of G + Q. -/
def forgedSig : ℕ := 50388075040568104090849593929932481415579556026783468719355080797348931680365

theorem forged_point : gen + kycKey = Secp.mkPt ((forgedSig : ℕ) : Secp.Fp)
    ((29521039123611873598367122573042314771602200726123081872898835104746395031030 : ℕ) : Secp.Fp) (by decide +kernel) := by
  apply Secp.encN_injective
  rw [← Secp.addN_encN]
  decide +kernel

/-- C59, concretely: r = s = hash = the first coordinate of G + Q is accepted with every choice of attributes that meets
the conditions. -/
theorem C59_anyone {X : Ext} (hX : X.EcdsaLaw) {c : KycCircuit}
    (hr : c.sigR = 50388075040568104090849593929932481415579556026783468719355080797348931680365)
    (hs : c.sigS = 50388075040568104090849593929932481415579556026783468719355080797348931680365)
    (hh : c.kycHash = 50388075040568104090849593929932481415579556026783468719355080797348931680365)
    (hc : c.Inputs) (hcond : c.Conditions) {E : Engine} {s : St} (hsat : s.sat = true) : (c.Define X).Accepted E s := by
  have hv : ((forgedSig : ℕ) : Secp.Fp).val = forgedSig := ZMod.val_natCast_of_lt (by decide +kernel)
  have hl : forgedSig < nMod := by decide +kernel
  have h1 : (1 : Fn).val = 1 := ZMod.val_one _
  refine C59_false hX 1 (b := 1) one_ne_zero _ (by rw [h1, one_smul, one_smul]; exact forged_point) (by rw [hv]; exact hl)
    (hr.trans hv.symm) ?_ ?_ hc hcond hsat
  · rw [hv, div_one, fn_val_cast _ hl]; exact hs
  · rw [hv, div_one, one_mul, fn_val_cast _ hl]; exact hh

/-! ### C60: one signature, one witness -/

theorem enc_neg_fst (P : Secp.G1) : (Secp.enc (-P)).1 = (Secp.enc P).1 := by
  rcases Secp.G1.cases P with rfl | ⟨x, y, h, rfl⟩
  · rw [neg_zero]
  · rw [Secp.enc_neg_mkPt]; rfl

/-- C60 is false: s and n − s are interchangeable in every witness whose signature is valid. -/
theorem C60_false {X : Ext} (hX : X.EcdsaLaw) {c : KycCircuit} (hc : c.Inputs) (hcond : c.Conditions) (h : c.inst.Exact)
    {E : Engine} {s : St} (hsat : s.sat = true) :
    (c.Define X).Accepted E s ∧ (({ c with sigS := nMod - c.sigS } : KycCircuit).Define X).Accepted E s ∧
      nMod - c.sigS ≠ c.sigS := by
  refine ⟨C58_complete hX hc hsat h hcond, 
    C58_complete (c := { c with sigS := nMod - c.sigS }) hX ⟨hc.1, hc.2, hc.3, hc.4, hc.5⟩ hsat ?_ hcond, ?_⟩
  · obtain ⟨h1, h2, h3, h4, h5, h6⟩ := (inst_exact c).1 h
    have e : sigPoint kycKey c.kycHash c.sigR (nMod - c.sigS) = - sigPoint kycKey c.kycHash c.sigR c.sigS := by
      rw [sigPoint_eq, sigPoint_eq, Nat.cast_sub h4.le, ZMod.natCast_self, zero_sub, div_neg, div_neg, neg_smul, neg_smul,
        neg_add]
    refine (inst_exact { c with sigS := nMod - c.sigS }).2 ⟨h1, h2, ?_, ?_, ?_, ?_⟩
    · show 0 < nMod - c.sigS
      omega
    · show nMod - c.sigS < nMod
      omega
    · show sigPoint kycKey c.kycHash c.sigR (nMod - c.sigS) ≠ 0
      rw [e]; exact neg_ne_zero.2 h5
    · show (Secp.enc (sigPoint kycKey c.kycHash c.sigR (nMod - c.sigS))).1.val = c.sigR
      rw [e, enc_neg_fst]; exact h6
  · have h0 : nMod % 2 = 1 := by decide +kernel
    obtain ⟨-, -, h3, h4, -⟩ := (inst_exact c).1 h
    omega

/-! ### The repository's test -/

/-- The witness of `TestKyc`, /repo/kyc_test.go:29-71. -/
def testKyc : KycCircuit where
  sigR := 45536044045135930417610581277973574046122438970391757925449844580498097416238
  sigS := 77405625560525123464152303145240770328705524946250305291099118722847750339975
  kycHash := 65836751601596300032969389553597263219621359970931417026813124302429596772205
  kyc := ⟨.wire 35, .wire 300, .wire 3, .wire 200⟩
  conditionHash := ⟨.wire 18, .wire 50, [.wire 100, .wire 200, .wire 300, .wire 400, .wire 500], [.wire 3], [.wire 300]⟩

theorem testKyc_inputs : testKyc.Inputs := ⟨trivial, trivial, trivial, trivial, by
  intro v hv
  simp only [testKyc, List.mem_cons, List.not_mem_nil, or_false] at hv
  rcases hv with rfl | rfl | rfl | rfl | rfl <;> trivial⟩

theorem testKyc_conditions : testKyc.Conditions :=
  ⟨by decide +kernel, by decide +kernel, .wire 300, by simp [testKyc], rfl⟩

theorem fn_div_eq {a b q : ℕ} (hb : (b : Fn) ≠ 0) (h : q * b % nMod = a % nMod) : (a : Fn) / (b : Fn) = (q : Fn) := by
  rw [div_eq_iff hb, ← Nat.cast_mul]
  exact ((ZMod.natCast_eq_natCast_iff' _ _ _).2 h).symm

theorem sigPoint_eval {h r s u v : ℕ} {A B : ℕ × ℕ} (hs0 : 0 < s) (hs : s < nMod) (hu : u * s % nMod = h % nMod)
    (hv : v * s % nMod = r % nMod) (hul : u < nMod) (hvl : v < nMod) (hu0 : 0 < u) (hv0 : 0 < v)
    (hA : Secp.jmul u (Secp.encN gen) = some A) (hB : Secp.jmul v (Secp.encN kycKey) = some B) :
    Secp.encN (sigPoint kycKey h r s) = Secp.addN A B := by
  rw [sigPoint, fn_div_eq (fn_ne_zero hs0 hs) hu, fn_div_eq (fn_ne_zero hs0 hs) hv, fn_val_cast _ hul, fn_val_cast _ hvl,
    ← Secp.addN_encN, (Secp.jmul_encN hu0 Secp.gen_ne_zero hA).1, (Secp.jmul_encN (P := kycKey) hv0 (Secp.mkPt_ne_zero _ _ _) hB).1]

theorem testKyc_point : sigPoint kycKey testKyc.kycHash testKyc.sigR testKyc.sigS = Secp.mkPt
    ((45536044045135930417610581277973574046122438970391757925449844580498097416238 : ℕ) : Secp.Fp)
    ((1024141422863646202565775820037859074970567978856512850590434542706247449211 : ℕ) : Secp.Fp)
    (by decide +kernel) := by
  apply Secp.encN_injective
  rw [sigPoint_eval (u := 91887713759759450656542211088791973883165611707244390339225448847025594269452)
    (v := 29270202460181227611708937193904244033376356023324247583476624558932080747457)
    (A := (37011416624340759746010589498877857361345327122775466211728320807763962522969,
      67083279286998140798047300863790554111669665887251416703623345286251019321176))
    (B := (16965858080999515110704718615737054167892637707308958819458013505945593169244,
      1600076036929202890007791009112661130017993863197192722196175209402164625996))
    (by decide +kernel) (by decide +kernel) (by decide +kernel) (by decide +kernel) (by decide +kernel) (by decide +kernel)
    (by decide +kernel) (by decide +kernel) (by decide +kernel) (by decide +kernel)]
  decide +kernel

/-- The signature recorded in the repository's test is a valid ECDSA signature under the fixed key. -/
theorem testKyc_exact : testKyc.inst.Exact := by
  have hv : ((45536044045135930417610581277973574046122438970391757925449844580498097416238 : ℕ) : Secp.Fp).val =
      45536044045135930417610581277973574046122438970391757925449844580498097416238 := ZMod.val_natCast_of_lt (by decide +kernel)
  exact exact_of_point _ (by rw [hv]; decide +kernel) (by rw [hv]; rfl) (by decide +kernel) (by decide +kernel) testKyc_point

/-- C58: the witness of the repository's test is accepted in every engine; with the hash that the test has commented out
(/repo/kyc_test.go:40) it is rejected. -/
theorem C58_shipped {X : Ext} (hX : X.EcdsaLaw) (E : Engine) {s : St} (hsat : s.sat = true) :
    (testKyc.Define X).Accepted E s ∧
    ¬ (({ testKyc with
          kycHash := 55836751601596300032969389553597263219621359970931417026813124302429596772205 } : KycCircuit).Define X).Accepted
      E s := by
  refine ⟨C58_complete hX testKyc_inputs hsat testKyc_exact testKyc_conditions, fun h => ?_⟩
  have h1 := ((inst_valid _).1 (C58_sound (c := { testKyc with
      kycHash := 55836751601596300032969389553597263219621359970931417026813124302429596772205 }) hX
    ⟨testKyc_inputs.1, testKyc_inputs.2, testKyc_inputs.3, testKyc_inputs.4, testKyc_inputs.5⟩ hsat h).1).2.2.2.2.2
  have h2 := sigPoint_eval (h := 55836751601596300032969389553597263219621359970931417026813124302429596772205)
    (r := testKyc.sigR) (s := testKyc.sigS)
    (u := 68503459266495860596105717987941855543821682732133987916952434390752609365965)
    (v := 29270202460181227611708937193904244033376356023324247583476624558932080747457)
    (A := (28166890109849389542541900595172695727698094888984723587776109705468016951442,
      20880063570696828028084780480677416990190064161819122619777266314032369752377))
    (B := (16965858080999515110704718615737054167892637707308958819458013505945593169244,
      1600076036929202890007791009112661130017993863197192722196175209402164625996))
    (by decide +kernel) (by decide +kernel) (by decide +kernel) (by decide +kernel) (by decide +kernel) (by decide +kernel)
    (by decide +kernel) (by decide +kernel) (by decide +kernel) (by decide +kernel)
  have h3 : (Secp.enc (sigPoint kycKey 55836751601596300032969389553597263219621359970931417026813124302429596772205
      testKyc.sigR testKyc.sigS)).1.val % nMod = testKyc.sigR := h1
  rw [show (Secp.enc (sigPoint kycKey 55836751601596300032969389553597263219621359970931417026813124302429596772205
      testKyc.sigR testKyc.sigS)).1.val = _ from congrArg Prod.fst h2] at h3
  exact absurd h3 (by decide +kernel)

/-- An environment whose signature gadget is ECDSA. -/
noncomputable def ecdsaExt : Ext where
  sha256 := exX.sha256
  keccak := exX.keccak
  scalarMul := exX.scalarMul
  addUnified := exX.addUnified
  msm := exX.msm
  pairing := exX.pairing
  ecdsa i := @decide i.Exact (Classical.propDecidable _)

theorem ecdsaExt_law : ecdsaExt.EcdsaLaw where
  sound i h := (@of_decide_eq_true i.Exact (Classical.propDecidable _) h).valid
  complete i h := @decide_eq_true i.Exact (Classical.propDecidable _) h

example : (testKyc.Define ecdsaExt).Accepted exComp .init := (C58_shipped ecdsaExt_law exComp rfl).1

/-- C60 at the test's witness: the other signature is accepted too. -/
example : (({ testKyc with sigS := nMod - testKyc.sigS } : KycCircuit).Define ecdsaExt).Accepted exComp .init :=
  (C60_false ecdsaExt_law testKyc_inputs testKyc_conditions testKyc_exact rfl).2.1

/-- C59 at the test's attributes: accepted without the issuer. -/
example : (({ testKyc with sigR := forgedSig, sigS := forgedSig, kycHash := forgedSig } : KycCircuit).Define ecdsaExt).Accepted
    exComp .init :=
  C59_anyone (c := { testKyc with sigR := forgedSig, sigS := forgedSig, kycHash := forgedSig }) ecdsaExt_law rfl rfl rfl
    ⟨testKyc_inputs.1, testKyc_inputs.2, testKyc_inputs.3, testKyc_inputs.4, testKyc_inputs.5⟩ testKyc_conditions rfl

/-- The test's signature is one that the holder of the private key makes: it meets the hypotheses of `C58_sign`. -/
example : ∃ (d k : Fn) (x y : Secp.Fp) (hxy : Secp.OnCurve x y), kycKey = d.val • gen ∧ k ≠ 0 ∧
    k.val • gen = Secp.mkPt x y hxy ∧ x.val < nMod ∧ testKyc.sigR = x.val ∧
    testKyc.sigS = (((testKyc.kycHash : Fn) + (x.val : Fn) * d) / k).val ∧ testKyc.sigS ≠ 0 := by
  obtain ⟨d, hd⟩ := C58_key
  have hp := testKyc_point
  obtain ⟨x, ex⟩ : ∃ x : Secp.Fp, x =
    ((45536044045135930417610581277973574046122438970391757925449844580498097416238 : ℕ) : Secp.Fp) := ⟨_, rfl⟩
  have hv : x.val = testKyc.sigR := ex ▸ ZMod.val_natCast_of_lt (by decide +kernel)
  have hs : ((testKyc.sigS : ℕ) : Fn) ≠ 0 := fn_ne_zero (by decide +kernel) (by decide +kernel)
  have hl : testKyc.sigS < nMod := by decide +kernel
  have hk := hp
  rw [sigPoint_eq, hd, ← Secp.fn_smul_eq, smul_smul, ← add_smul] at hk
  obtain ⟨k, ek⟩ : ∃ k : Fn, k = (testKyc.kycHash : Fn) / (testKyc.sigS : Fn) +
    (testKyc.sigR : Fn) / (testKyc.sigS : Fn) * d := ⟨_, rfl⟩
  rw [← ek] at hk
  have hk0 : k ≠ 0 := by
    rintro rfl
    rw [zero_smul] at hk
    exact Secp.mkPt_ne_zero _ _ _ hk.symm
  refine ⟨d, k, _, _, _, hd, hk0, by rw [← Secp.fn_smul_eq]; exact hk, ?_, ?_, ?_, by decide +kernel⟩
  · rw [← ex, hv]; decide +kernel
  · rw [← ex, hv]
  · rw [← ex, hv]
    have e : ((testKyc.kycHash : Fn) + (testKyc.sigR : Fn) * d) / k = (testKyc.sigS : Fn) := by
      rw [div_eq_iff hk0, ek]
      field_simp
    rw [e, fn_val_cast _ hl]

/-- A signature valid for one hash: the hypothesis of `C58_binding` for the test's signature. -/
example : ∀ m ∈ ({(testKyc.kycHash : Fn)} : Finset Fn), ∀ c : KycCircuit, c.kycHash = m.val → c.sigR = testKyc.sigR →
    c.sigS = testKyc.sigS → c.inst.Valid := by
  intro m hm c h1 h2 h3
  rw [Finset.mem_singleton] at hm
  rw [hm, fn_val_cast _ (by decide +kernel)] at h1
  have : c.inst = testKyc.inst := by rw [KycCircuit.inst, KycCircuit.inst, h1, h2, h3]
  rw [this]
  exact testKyc_exact.valid

end Verif
