/-
Properties C23–C29: hash gadgets, instance hash, Fiat–Shamir transcript.
-/
import Verif.Lemmas.Challenges
import Verif.Props.Curve
import Verif.Props.Field

namespace Verif

/-! ### C23 -/

/-- What "`V` accepts exactly the digest `h`" means for a verification function on byte variables. -/
structure DigestCheck (h : List UInt8 → List UInt8) (V : List Var → List Var → Circ GoErr) : Prop where
  /-- fewer than 32 claimed bytes: panic -/
  short : ∀ {ins : List Var} {bs : List UInt8} {claimed : List Var} (E : Engine) (s : St), List.Forall₂ IsByte ins bs →
    claimed.length < 32 → ∃ p, V ins claimed E s = .error p
  /-- accepted iff the first 32 claimed values are the bytes of the digest -/
  exact : ∀ {ins : List Var} {bs : List UInt8} {claimed : List Var} (E : Engine) (s : St), List.Forall₂ IsByte ins bs →
    32 ≤ claimed.length → (∀ v ∈ claimed, v.Good) → s.sat = true →
    ((V ins claimed).Accepted E s ↔ (claimed.take 32).map Var.fr = (h bs).map fun b => (b.toNat : Fr))
  /-- values beyond the 32nd are ignored -/
  surplus : ∀ {ins : List Var} {bs : List UInt8} {claimed extra : List Var} (E : Engine) (s : St),
    List.Forall₂ IsByte ins bs → claimed.length = 32 → V ins (claimed ++ extra) E s = V ins claimed E s
  /-- inputs that are not bytes are never accepted -/
  nonbyte : ∀ {ins claimed : List Var} (E : Engine) (s : St), (∀ v ∈ ins, v.Good) → (∃ v ∈ ins, 256 ≤ v.fr.val) →
    ¬ (V ins claimed).Accepted E s

theorem byteAssertLoop_append (hv extra : List Var) : ∀ (rs : List Var) (i : ℕ), i + rs.length ≤ hv.length →
    ∀ (E : Engine) (s : St), byteAssertLoop (hv ++ extra) rs i E s = byteAssertLoop hv rs i E s
  | [], _, _, _, _ => rfl
  | r :: rs, i, h, E, s => by
    simp only [List.length_cons] at h
    have e : (hv ++ extra)[i]? = hv[i]? := List.getElem?_append_left (by omega)
    simp only [byteAssertLoop, Circ.bind_run, idx, e]
    cases hv[i]? with
    | none => rfl
    | some v =>
      simp only [Circ.pure_run]
      cases apiAssertIsEqual v r E s with
      | error p => rfl
      | ok x => exact byteAssertLoop_append hv extra rs (i + 1) (by omega) E x.2

theorem digestCheck_of {h : List UInt8 → List UInt8} (hl : ∀ m, (h m).length = 32)
    {V : List Var → List Var → Circ GoErr}
    (hV : ∀ i c, V i c = (do let res ← hashGadget h i; byteAssertLoop c res 0; pure none)) : DigestCheck h V where
  short {ins bs claimed} E s hb hc := by
    rw [hV]
    simp only [Circ.bind_run, hashGadget_bytes h hb]
    cases hr : byteAssertLoop claimed ((h bs).map fun b => resVar E true b.toNat) 0 E s with
    | error p => exact ⟨p, rfl⟩
    | ok r =>
      exfalso
      have := (byteAssertLoop_ok hr).2.1 (by
        intro h0; have := congrArg List.length h0; simp [hl] at this)
      simp [hl] at this
      omega
  exact {ins bs claimed} E s hb hc hg hs := by
    rw [hV]
    have key : ((claimed.take 32).map Var.fr = (h bs).map fun b => (b.toNat : Fr)) ↔
        ∀ j, (hj : j < ((h bs).map fun b => resVar E true b.toNat).length) → ∀ v, claimed[0 + j]? = some v →
          v.fr = ((h bs).map fun b => resVar E true b.toNat)[j].fr := by
      constructor
      · intro he j hj v hv
        have hj' : j < 32 := by simpa [hl] using hj
        have e := congrArg (fun l => l[j]?) he
        simp only [List.getElem?_map, List.getElem?_take, hj', if_true] at e
        rw [zero_add] at hv
        rw [hv, List.getElem?_eq_getElem (by rw [hl]; exact hj'), Option.map_some, Option.map_some,
          Option.some.injEq] at e
        rw [e, List.getElem_map, (isByte_res E true _).2]
      · intro he
        refine List.ext_getElem (by simp [hl]; omega) fun j h1 h2 => ?_
        have hj' : j < 32 := by simpa [hl] using h2
        have := he j (by simpa using h2) claimed[j] (by rw [zero_add]; exact List.getElem?_eq_getElem (by omega))
        rw [List.getElem_map, (isByte_res E true _).2] at this
        simpa using this
    rw [key]
    constructor
    · rintro ⟨s', h1, h2⟩
      simp only [Circ.bind_ok, hashGadget_bytes h hb] at h1
      obtain ⟨_, _, h0, u, s2, h1, h3⟩ := h1
      cases h0; cases h3
      exact ((byteAssertLoop_ok h1).2.2 h2).2
    · intro he
      refine ⟨s, ?_, hs⟩
      simp only [Circ.bind_run, hashGadget_bytes h hb]
      rw [byteAssertLoop_run (by simp [hl]; omega) hg (by
        intro v hv; obtain ⟨b, -, rfl⟩ := List.mem_map.1 hv; exact (isByte_res E true b).1) he]
      rfl
  surplus {ins bs claimed extra} E s hb hc := by
    rw [hV, hV]
    simp only [Circ.bind_run, hashGadget_bytes h hb]
    rw [byteAssertLoop_append _ _ _ _ (by simp [hl]; omega)]
  nonbyte {ins claimed} E s hg hex := by
    rw [hV]
    rintro ⟨s', h1, h2⟩
    simp only [Circ.bind_ok] at h1
    obtain ⟨outs, s1, h1, u, s2, h3, h4⟩ := h1
    cases h4
    obtain ⟨-, xs, hx, -, hsat⟩ := hashGadget_ok h1
    obtain ⟨-, hall⟩ := hsat ((byteAssertLoop_ok h3).2.2 h2).1
    obtain ⟨v, hv, hv2⟩ := hex
    obtain ⟨i, hi, rfl⟩ := List.getElem_of_mem hv
    have hi' : i < xs.length := hx.length_eq ▸ hi
    have e := hx.get hi hi'
    simp only [List.get_eq_getElem] at e
    rw [toBig_good' (hg _ hv), Option.some.injEq] at e
    have := hall xs[i] (List.getElem_mem hi')
    omega

/-- C23 for Keccak-256, on every list of byte variables (constants or wires), in every engine. -/
theorem C23_keccak {X : Ext} (hX : X.Lawful) : DigestCheck X.keccak (VerifyKeccak256 X) :=
  digestCheck_of hX.keccak_len (fun _ _ => rfl)

/-- C23 for SHA-256. -/
theorem C23_sha {X : Ext} (hX : X.Lawful) : DigestCheck X.sha256 (VerifySha256 X) :=
  digestCheck_of hX.sha_len (fun _ _ => rfl)

/-- C23 for the two circuits. -/
theorem C23_circuits {X : Ext} (hX : X.Lawful) :
    DigestCheck X.keccak (fun i c => Keccak256Circuit.Define X ⟨i, c⟩) ∧
    DigestCheck X.sha256 (fun i c => Sha256Circuit.Define X ⟨i, c⟩) := ⟨C23_keccak hX, C23_sha hX⟩

-- "the digest" of [7, 9] in the example environment is 7, 9, 0, 0, ...
example : (VerifySha256 exX [.wire 7, .big 9] ([.wire 7, .big 9] ++ List.replicate 30 (.int 0))).Accepted exComp .init := by
  refine ((C23_sha exX_strict.toLawful).exact (bs := [7, 9]) exComp .init ?_ (by simp) ?_ rfl).2 ?_
  · exact .cons ⟨trivial, rfl⟩ (.cons (isByte_big 9) .nil)
  · intro v hv
    simp only [List.cons_append, List.nil_append, List.mem_cons, List.mem_replicate] at hv
    rcases hv with rfl | rfl | ⟨-, rfl⟩
    · trivial
    · exact (isByte_big 9).1
    · trivial
  · simp [exX, idealExt, Var.fr, List.rightpad]

/-! ### C24, C25 -/

theorem hintOuts_full (E : Engine) (os : List ℤ) : hintOuts E os.length os = os.map (hintVar E) := by
  rw [hintOuts_eq]
  refine List.ext_getElem (by simp) fun i h1 h2 => ?_
  have : i < os.length := by simpa using h2
  simp [List.getD_eq_getElem?_getD, List.getElem?_eq_getElem this]

theorem isByte_map_hint (E : Engine) (bs : List UInt8) :
    List.Forall₂ IsByte ((bs.map fun b => (b.toNat : ℤ)).map (hintVar E)) bs := by
  induction bs with
  | nil => exact .nil
  | cons b bs ih => exact .cons (isByte_hint E b) ih

theorem pack_isByte {l : List Var} {bs : List UInt8} (h : List.Forall₂ IsByte l bs) (h2 : 2 ≤ bs.length) (E : Engine)
    (s : St) : ∃ v, PackUInt8Variables l E s = .ok (v, s) ∧ v.fr = (beNat bs : Fr) ∧ v.Good ∧ (E.mode = .test → v.Canon) := by
  cases h with
  | nil => simp at h2
  | @cons v b l bs hb h =>
    have hval : ∀ w ∈ l, w.IsVal := by
      intro w hw
      clear h2
      induction h with
      | nil => simp at hw
      | cons h _ ih =>
        rcases List.mem_cons.1 hw with rfl | hw
        · exact h.1.isVal
        · exact ih hw
    obtain ⟨w, h1, h3, h5, h4⟩ := packLoop_run (E := E) l v hb.1.isVal hval s
    refine ⟨w, h1, ?_, h5 (.inl hb.1), fun hE => h4 hE (by
      rintro rfl
      cases h
      simp at h2)⟩
    rw [h3]
    unfold beNat
    simp only [List.foldl_cons, zero_mul, zero_add]
    rw [hb.2]
    clear h1 h3 h4 h5 h2 hval hb
    generalize b.toNat = n
    induction h generalizing n with
    | nil => rfl
    | cons h _ ih => simp only [List.foldl_cons]; rw [← ih, h.2]; push_cast; rfl

/-- What `VerifyInstanceHash` does when the hint answers with a digest and its preimage. -/
theorem vih_run {X : Ext} (hl : ∀ m, (X.keccak m).length = 32) {E : Engine} {vs : List Var} {xs : List ℤ} {s : St}
    {a : ℤ} {bs : List UInt8} (hx : List.Forall₂ (fun v x => toBig E v = some x) vs xs)
    (hs : E.strat .keccakHint s.hints.length (1 + 32 * (vs.length + 1)) xs =
      .ok (a :: ((X.keccak bs).map fun b => (b.toNat : ℤ)) ++ (bs.map fun b => (b.toNat : ℤ))))
    (hb : bs.length = 32 * vs.length) :
    ∃ v, VerifyInstanceHash X vs E s = .ok ((v, none), { s with hints := s.hints ++ [.keccakHint] }) ∧
      v.fr = (beNat (X.keccak bs) : Fr) ∧ v.Good ∧ (E.mode = .test → v.Canon) := by
  have hlen : (a :: ((X.keccak bs).map fun b => (b.toNat : ℤ)) ++ (bs.map fun b => (b.toNat : ℤ))).length =
      1 + 32 * (vs.length + 1) := by simp [hl, hb]; omega
  have hr := newHint_run hx hs
  rw [← hlen, hintOuts_full] at hr
  obtain ⟨v, h1, h2, h4, h3⟩ := pack_isByte (isByte_map_hint E (X.keccak bs)) (by rw [hl]; norm_num) E
    { s with hints := s.hints ++ [.keccakHint] }
  refine ⟨v, ?_, h2, h4, h3⟩
  unfold VerifyInstanceHash
  rw [hlen] at hr
  simp only [Circ.bind_run, hr]
  have e1 : (((a :: ((X.keccak bs).map fun b => (b.toNat : ℤ)) ++ (bs.map fun b => (b.toNat : ℤ))).map
      (hintVar E)).drop 1).take 32 = (((X.keccak bs).map fun b => (b.toNat : ℤ)).map (hintVar E)) := by
    rw [List.cons_append, List.map_cons, List.drop_one, List.tail_cons, List.map_append,
      List.take_append_of_le_length (by simp [hl]), List.take_of_length_le (by simp [hl])]
  have e2 : (((a :: ((X.keccak bs).map fun b => (b.toNat : ℤ)) ++ (bs.map fun b => (b.toNat : ℤ))).map
      (hintVar E)).drop 33).take (32 * (vs.length + 1) + 1 - 33) = ((bs.map fun b => (b.toNat : ℤ)).map (hintVar E)) := by
    rw [List.cons_append, List.map_cons, List.drop_succ_cons, List.map_append,
      List.drop_append_of_le_length (by simp [hl]), List.drop_of_length_le (by simp [hl]), List.nil_append,
      List.take_of_length_le (by simp [hb]; omega)]
  rw [e1, e2]
  simp only [mapM_byteValueOf_run (isByte_map_hint E _)]
  have hk : VerifyKeccak256 X ((bs.map fun b => (b.toNat : ℤ)).map (hintVar E))
      (((X.keccak bs).map fun b => (b.toNat : ℤ)).map (hintVar E)) E { s with hints := s.hints ++ [.keccakHint] } =
      .ok (none, { s with hints := s.hints ++ [.keccakHint] }) := by
    simp only [VerifyKeccak256, Circ.bind_run, hashGadget_bytes _ (isByte_map_hint E bs)]
    rw [byteAssertLoop_run (by simp)]
    · rfl
    · intro v hv
      simp only [List.map_map, List.mem_map] at hv
      obtain ⟨b, -, rfl⟩ := hv
      exact hintVar_good _ _
    · intro v hv; obtain ⟨b, -, rfl⟩ := List.mem_map.1 hv; exact (isByte_res E true b).1
    · intro j hj v hv
      simp only [List.length_map] at hj
      simp only [zero_add, List.getElem?_map, List.getElem?_eq_getElem hj, Option.map_some, Option.some.injEq] at hv
      subst hv
      rw [List.getElem_map, (isByte_res E true _).2, (isByte_hint E _).2]
  simp only [hk, h1]
  rfl

/-- C24 for values of every kind: with the repo's hint, in every engine, `VerifyInstanceHash` is accepted as soon as no value
is a nil interface, and hashes the 32-byte encodings of the residues modulo p (not r) of the integers that the engine
hands to the hint. -/
theorem C24_residues {X : Ext} (hX : X.Lawful) {E : Engine}
    (hk : ∀ k n ins, E.strat .keccakHint k n ins = Keccak256Hint X n ins) {vs : List Var} {xs : List ℤ}
    (hx : List.Forall₂ (fun v x => toBig E v = some x) vs xs) {s : St} (hs : s.sat = true) :
    ∃ v, (VerifyInstanceHash X vs).Accepts E s (v, none) ∧
      v.fr = (beNat (X.keccak (xs.flatMap fun x : ℤ => beBytes (x : Fp).val 32)) : Fr) ∧ v.Good ∧
      (E.mode = .test → v = .big ((beNat (X.keccak (xs.flatMap fun x : ℤ => beBytes (x : Fp).val 32)) : ℤ) % rMod)) := by
  have hlen : (xs.flatMap fun x : ℤ => beBytes (x : Fp).val 32).length = 32 * vs.length := by
    clear hk
    induction hx with
    | nil => rfl
    | cons _ _ ih => rw [List.flatMap_cons, List.length_append, ih, beBytes_length, List.length_cons]; ring
  have hb : xs.flatMap fpBytes = xs.flatMap fun x : ℤ => beBytes (x : Fp).val 32 := rfl
  obtain ⟨v, h1, h2, h6, h3⟩ := vih_run (a := (beNat (X.keccak (xs.flatMap fun x : ℤ => beBytes (x : Fp).val 32)) : ℤ)) (s := s)
    hX.keccak_len hx (by
      rw [hk]
      simp only [Keccak256Hint, hb]
      rw [if_neg (by simp [hlen, hX.keccak_len]; omega)]) hlen
  refine ⟨v, ⟨_, h1, hs⟩, h2, h6, fun hE => ?_⟩
  · obtain ⟨n, rfl, h4, h5⟩ := h3 hE
    congr 1
    refine canon_ext h4 h5 (emod_nonneg' _) (emod_lt' _) ?_
    rw [intCast_emod]
    simpa [Var.fr] using h2

/-- C24: a nil interface among the values makes it panic. -/
theorem C24_nil {X : Ext} {vs : List Var} (hv : ∃ v ∈ vs, ¬ v.IsVal) (E : Engine) (s : St) : ∃ m, VerifyInstanceHash X vs E s = .error m := by
  have h : ∀ s, ∃ m, readBigs vs E s = .error m := by
    induction vs with
    | nil => simp at hv
    | cons v vs ih =>
      intro s
      unfold readBigs
      cases v with
      | nil => exact ⟨_, rfl⟩
      | int n =>
        obtain ⟨m, hm⟩ := ih (by simpa [Var.IsVal] using hv) s
        exact ⟨m, by simp only [Circ.bind_run, readBig, toBig, hm]⟩
      | big n =>
        obtain ⟨m, hm⟩ := ih (by simpa [Var.IsVal] using hv) s
        exact ⟨m, by simp only [Circ.bind_run, readBig, toBig, hm]⟩
      | wire n =>
        obtain ⟨m, hm⟩ := ih (by simpa [Var.IsVal] using hv) s
        exact ⟨m, by simp only [Circ.bind_run, readBig, toBig, hm]⟩
  obtain ⟨m, hm⟩ := h s
  exact ⟨m, by simp [VerifyInstanceHash, newHint, Circ.bind_run, hm]⟩

/-- C24: with the repo's hint, for every list of canonical values (constants or wires) and in every engine,
`VerifyInstanceHash` is accepted and returns keccak256(be32(v₁) ‖ … ‖ be32(vₙ)) modulo r. -/
theorem C24_hash {X : Ext} (hX : X.Lawful) {E : Engine}
    (hk : ∀ k n ins, E.strat .keccakHint k n ins = Keccak256Hint X n ins) {vs : List Var} (hv : ∀ v ∈ vs, v.Good)
    {s : St} (hs : s.sat = true) :
    ∃ v, (VerifyInstanceHash X vs).Accepts E s (v, none) ∧
      v.fr = (beNat (X.keccak (vs.flatMap fun v => beBytes v.fr.val 32)) : Fr) ∧ v.Good ∧
      (E.mode = .test → v = .big ((beNat (X.keccak (vs.flatMap fun v => beBytes v.fr.val 32)) : ℤ) % rMod)) := by
  have hx : List.Forall₂ (fun v x => toBig E v = some x) vs (vs.map fun v => (v.fr.val : ℤ)) := by
    clear hk
    induction vs with
    | nil => exact .nil
    | cons v vs ih => exact .cons (toBig_good' (hv v (by simp))) (ih fun w hw => hv w (List.mem_cons_of_mem _ hw))
  have hb : ((vs.map fun v => (v.fr.val : ℤ)).flatMap fun x : ℤ => beBytes (x : Fp).val 32) = vs.flatMap fun v => beBytes v.fr.val 32 := by
    rw [List.flatMap_map]
    refine congrArg List.flatten (List.map_congr_left fun v _ => ?_)
    rw [Int.cast_natCast, ZMod.val_natCast_of_lt ((ZMod.val_lt _).trans rMod_lt_pMod)]
  have h := C24_residues hX hk hx hs
  rw [hb] at h
  exact h

/-- C24, in the engine that hands `*big.Int` values to hints as they are: an instance value n and n + p have the same
instance hash, although they differ in the scalar field (p is not 0 modulo r). -/
theorem C24_residue_collision {X : Ext} (hX : X.Lawful) {n : ℤ} {s : St} (hs : s.sat = true) :
    ∃ v, (VerifyInstanceHash X [.big n]).Accepts (honestTest X true) s (v, none) ∧
      (VerifyInstanceHash X [.big (n + pMod)]).Accepts (honestTest X true) s (v, none) ∧
      (Var.big n).fr ≠ (Var.big (n + pMod)).fr := by
  obtain ⟨v, h1, -, -, h2⟩ := C24_residues hX (E := honestTest X true) (fun _ _ _ => rfl) (vs := [.big n]) (xs := [n])
    (.cons (by simp [toBig, honestTest]) .nil) hs
  obtain ⟨w, g1, -, -, g2⟩ := C24_residues hX (E := honestTest X true) (fun _ _ _ => rfl) (vs := [.big (n + pMod)]) (xs := [n + pMod])
    (.cons (by simp [toBig, honestTest]) .nil) hs
  have e : v = w := by
    rw [h2 rfl, g2 rfl]
    simp only [List.flatMap_cons, List.flatMap_nil, Int.cast_add, Int.cast_natCast, ZMod.natCast_self, add_zero]
  rw [← e] at g1
  refine ⟨v, h1, g1, fun h => ?_⟩
  simp only [Var.fr, Int.cast_add, Int.cast_natCast, left_eq_add] at h
  rw [ZMod.natCast_eq_zero_iff] at h
  exact absurd h (by decide +kernel)

-- C24_residue_collision: n = 1
example : ∃ v, (VerifyInstanceHash exX [.big 1]).Accepts (honestTest exX true) .init (v, none) ∧
    (VerifyInstanceHash exX [.big (1 + pMod)]).Accepts (honestTest exX true) .init (v, none) := by
  obtain ⟨v, h1, h2, -⟩ := C24_residue_collision exX_strict.toLawful (n := 1) (s := .init) rfl
  exact ⟨v, h1, h2⟩

-- two instances 1 and 2, test engine with the repo's hints: the hash of 64 bytes, here (stand-in hash) its first 32
example : ∃ v, (VerifyInstanceHash exX [.big 1, .big 2]).Accepts (honestTest exX false) .init (v, none) ∧ v.fr = 1 := by
  obtain ⟨v, h1, h2, -⟩ := C24_hash exX_strict.toLawful (E := honestTest exX false) (fun _ _ _ => rfl)
    (vs := [.big 1, .big 2]) (by simp [Var.Good]; decide +kernel) (s := .init) rfl
  refine ⟨v, h1, h2.trans ?_⟩
  have : ([Var.big 1, Var.big 2].flatMap fun v => beBytes v.fr.val 32) = beBytes 1 32 ++ beBytes 2 32 := by
    have h1 : (Var.big 1).fr.val = 1 := by decide +kernel
    have h2 : (Var.big 2).fr.val = 2 := by decide +kernel
    simp only [List.flatMap_cons, List.flatMap_nil, List.append_nil, h1, h2]
  rw [this]
  have e : beNat (exX.keccak (beBytes 1 32 ++ beBytes 2 32)) = 1 := by decide +kernel
  rw [e]; norm_num

/-- The strategy that answers the Keccak hint with the digest and the bytes of a string of the prover's choice. -/
def cheatHash (X : Ext) (bs : List UInt8) : HintId → ℕ → ℕ → List ℤ → HintRes := fun f _ _ _ => match f with
  | .keccakHint => .ok (0 :: ((X.keccak bs).map fun b => (b.toNat : ℤ)) ++ (bs.map fun b => (b.toNat : ℤ)))
  | _ => .err

/-- C25 is false: whatever the instance values, a prover can make `VerifyInstanceHash` return the hash of any byte
string of length 32·n, in every engine, with all constraints satisfied. -/
theorem C25_false {X : Ext} (hX : X.Lawful) (m : Mode) (raw : Bool) {vs : List Var} (hv : ∀ v ∈ vs, v.IsVal)
    {bs : List UInt8} (hb : bs.length = 32 * vs.length) {s : St} (hs : s.sat = true) :
    ∃ v, (VerifyInstanceHash X vs).Accepts ⟨m, raw, cheatHash X bs⟩ s (v, none) ∧
      v.fr = (beNat (X.keccak bs) : Fr) := by
  have hx : ∃ xs, List.Forall₂ (fun v x => toBig ⟨m, raw, cheatHash X bs⟩ v = some x) vs xs := by
    clear hb
    induction vs with
    | nil => exact ⟨[], .nil⟩
    | cons v vs ih =>
      obtain ⟨x, hx⟩ := toBig_some (E := ⟨m, raw, cheatHash X bs⟩) (hv v (by simp))
      obtain ⟨xs, h⟩ := ih fun w hw => hv w (List.mem_cons_of_mem _ hw)
      exact ⟨x :: xs, .cons hx h⟩
  obtain ⟨xs, hx⟩ := hx
  obtain ⟨v, h1, h2, -⟩ := vih_run (a := 0) (s := s) hX.keccak_len hx rfl hb
  exact ⟨v, ⟨_, h1, hs⟩, h2⟩

/-- C25, concretely: for the instance [1], the same circuit inputs give (at least) two different instance hashes,
whenever the hash distinguishes two 32-byte strings modulo r. -/
theorem C25_two_hashes {X : Ext} (hX : X.Lawful) {bs bs' : List UInt8} (hb : bs.length = 32) (hb' : bs'.length = 32)
    (hne : (beNat (X.keccak bs) : Fr) ≠ (beNat (X.keccak bs') : Fr)) :
    ∃ (σ σ' : HintId → ℕ → ℕ → List ℤ → HintRes) (v v' : Var),
      (VerifyInstanceHash X [.wire 1]).Accepts ⟨.compile, false, σ⟩ .init (v, none) ∧
      (VerifyInstanceHash X [.wire 1]).Accepts ⟨.compile, false, σ'⟩ .init (v', none) ∧ v.fr ≠ v'.fr := by
  have hv : ∀ v ∈ [Var.wire 1], v.IsVal := by simp [Var.IsVal]
  obtain ⟨v, h1, h2⟩ := C25_false hX .compile false hv (bs := bs) (by simpa using hb) (s := .init) rfl
  obtain ⟨v', h1', h2'⟩ := C25_false hX .compile false hv (bs := bs') (by simpa using hb') (s := .init) rfl
  exact ⟨_, _, v, v', h1, h1', by rw [h2, h2']; exact hne⟩

-- the hypotheses of C25_false and C25_two_hashes: two strings of 32 bytes with different hashes
example : (beBytes 1 32).length = 32 ∧ (beBytes 2 32).length = 32 ∧
    (beNat (exX.keccak (beBytes 1 32)) : Fr) ≠ (beNat (exX.keccak (beBytes 2 32)) : Fr) := by
  have h : ∀ m, exX.keccak m = (m.take 32).rightpad 32 0 := fun m => by simp [exX, idealExt]
  rw [h, h]
  exact ⟨by decide +kernel, by decide +kernel, by decide +kernel⟩

theorem isByte_unique_digest {l : List Var} {d : List UInt8} (hg : ∀ v ∈ l, v.Good)
    (h : l.map Var.fr = d.map fun b => (b.toNat : Fr)) : List.Forall₂ IsByte l d := by
  induction l generalizing d with
  | nil => cases d with
    | nil => exact .nil
    | cons => simp at h
  | cons v l ih => cases d with
    | nil => simp at h
    | cons b d =>
      simp only [List.map_cons, List.cons.injEq] at h
      exact .cons ⟨hg v (by simp), h.1⟩ (ih (fun w hw => hg w (List.mem_cons_of_mem _ hw)) h.2)

/-- An accepted Keccak check was reached with satisfied constraints, on byte variables. -/
theorem bytesOf {X : Ext} {I H : List Var} {E : Engine} {err : GoErr} {s3 s4 : St}
    (h4 : VerifyKeccak256 X I H E s3 = .ok (err, s4)) (hs : s4.sat = true) {P : Prop} (_ : s3.sat = true → P)
    (hb : s3.sat = true → (∀ v ∈ I, v.Good) → ∃ bs, List.Forall₂ IsByte I bs) (hg : ∀ v ∈ I, v.Good) :
    (∃ bs, List.Forall₂ IsByte I bs) ∧ s3.sat = true := by
  simp only [VerifyKeccak256, Circ.bind_ok] at h4
  obtain ⟨outs, s1, h1, u, s2, h2, h3⟩ := h4
  cases h3
  have h3 : s3.sat = true := ((hashGadget_ok h1).2.choose_spec.2.2 ((byteAssertLoop_ok h2).2.2 hs).1).1
  exact ⟨hb h3 hg, h3⟩

/-- C25, what holds for every prover strategy and engine: the returned value is the hash of some byte string of
length 32·n. -/
theorem C25_some {X : Ext} (hX : X.Lawful) {E : Engine} {vs : List Var} {s : St} {v : Var} {e : GoErr}
    (h : (VerifyInstanceHash X vs).Accepts E s (v, e)) :
    ∃ bs : List UInt8, bs.length = 32 * vs.length ∧ v.fr = (beNat (X.keccak bs) : Fr) := by
  obtain ⟨s', h, hsat⟩ := h
  simp only [VerifyInstanceHash, Circ.bind_ok] at h
  obtain ⟨res, s1, h1, hu, s2, h2, iu, s3, h3, err, s4, h4, w, s5, h5, h6⟩ := h
  rw [Circ.pure_run, Except.ok.injEq, Prod.mk.injEq, Prod.mk.injEq] at h6
  obtain ⟨⟨rfl, rfl⟩, rfl⟩ := h6
  obtain ⟨-, -, -, os, rfl, -⟩ := newHint_ok h1
  have hg : ∀ v ∈ hintOuts E (1 + 32 * (vs.length + 1)) os, v.Good := by
    intro v hv
    rw [hintOuts_eq] at hv
    obtain ⟨n, -, rfl⟩ := List.mem_map.1 hv
    exact hintVar_good _ _
  have hl : (hintOuts E (1 + 32 * (vs.length + 1)) os).length = 1 + 32 * (vs.length + 1) := by
    rw [hintOuts_eq]; simp
  generalize hintOuts E (1 + 32 * (vs.length + 1)) os = res at *
  obtain ⟨rfl, -, sat2, -⟩ := mapM_byteValueOf_ok h2
  obtain ⟨rfl, -, sat3, bytes⟩ := mapM_byteValueOf_ok h3
  have gH : ∀ v ∈ (res.drop 1).take 32, v.Good := fun v hv => hg v (List.mem_of_mem_drop (List.mem_of_mem_take hv))
  have gI : ∀ v ∈ (res.drop 33).take (32 * (vs.length + 1) + 1 - 33), v.Good := fun v hv =>
    hg v (List.mem_of_mem_drop (List.mem_of_mem_take hv))
  have lH : ((res.drop 1).take 32).length = 32 := by simp; omega
  have lI : ((res.drop 33).take (32 * (vs.length + 1) + 1 - 33)).length = 32 * vs.length := by simp; omega
  -- satisfaction propagates backwards
  have sat5 : s4.sat = true := by
    obtain ⟨x, xs, hxs⟩ : ∃ x xs, (res.drop 1).take 32 = x :: xs := List.exists_cons_of_length_eq_add_one lH
    rw [hxs, PackUInt8Variables] at h5
    obtain ⟨w', q1, -⟩ := packLoop_run (E := E) xs x (gH x (by rw [hxs]; simp)).isVal
      (fun v hv => (gH v (by rw [hxs]; exact List.mem_cons_of_mem _ hv)).isVal) s4
    rw [q1] at h5; cases h5; exact hsat
  obtain ⟨hvb, hvh⟩ := bytesOf h4 sat5 sat3 bytes gI
  obtain ⟨bs, hbs⟩ := hvb
  have he : err = none := by
    simp only [VerifyKeccak256, Circ.bind_ok] at h4
    obtain ⟨_, _, _, _, _, _, q⟩ := h4
    cases q; rfl
  subst he
  have := ((C23_keccak hX).exact E s3 hbs (by rw [lH]) gH hvh).1 ⟨s4, h4, sat5⟩
  rw [List.take_of_length_le (by rw [lH])] at this
  have hd := isByte_unique_digest gH this
  obtain ⟨w', q1, q2, -⟩ := pack_isByte hd (by rw [hX.keccak_len]; norm_num) E s4
  rw [q1] at h5
  cases h5
  exact ⟨bs, by rw [← hbs.length_eq, lI], q2⟩


/-! ### C26 -/

/-- The SHA-256 digest (as an integer) of the words l, 32 bytes each, followed by a zero byte. -/
def squeezeDigest (X : Ext) (l : List ℤ) : ℕ := beNat (X.sha256 ((l.flatMap fun x => beBytes x.natAbs 32) ++ [0]))

/-- C26: on constants below 2^256 in absolute value, `SqueezeChallenge(absorbing, n)` returns the digest modulo r, sets
absorbing[0] to the full digest and absorbing[n] to 0, and changes nothing else (state, constraints, other slots). -/
theorem C26_value (X : Ext) {A : List Var} {l : List ℤ} (hn : l.length < A.length)
    (hA : ∀ i (hi : i < l.length), A[i]? = some (.big l[i])) (hb : ∀ x ∈ l, x.natAbs < 2 ^ 256) (E : Engine) (s : St) :
    ∃ A', SqueezeChallenge X A l.length E s = .ok (((.big ((squeezeDigest X l : ℤ) % rMod), none), A'), s) ∧
      A'[0]? = some (.big (squeezeDigest X l)) ∧ (l ≠ [] → A'[l.length]? = some (.big 0)) ∧ A'.length = A.length ∧
      ∀ i, i ≠ 0 → i ≠ l.length → A'[i]? = A[i]? := by
  have hA' : A.take l.length = l.map .big := by
    refine List.ext_getElem? fun i => ?_
    by_cases hi : i < l.length
    · rw [List.getElem?_take, if_pos hi, hA i hi, List.getElem?_map, List.getElem?_eq_getElem hi]; rfl
    · rw [List.getElem?_take, if_neg hi, List.getElem?_eq_none (by simp; omega)]
  refine ⟨_, squeeze_run X hn hA' hb E s, ?_, ?_, by simp, ?_⟩
  · rw [List.getElem?_set]
    rw [if_pos rfl, if_pos (by simp; omega)]
    rfl
  · intro h0
    have : l.length ≠ 0 := by simpa using h0
    rw [List.getElem?_set, if_neg (by omega), List.getElem?_set, if_pos rfl, if_pos hn]
  · intro i h0 h1
    rw [List.getElem?_set, if_neg (by omega), List.getElem?_set, if_neg (by omega)]

/-- C26: it panics exactly when n is not an index of the buffer, or one of the first n slots is not a constant big
integer, or is too large. It never returns an error. -/
theorem C26_panics (X : Ext) (A : List Var) (n : ℕ) (E : Engine) (s : St) :
    (∃ p, SqueezeChallenge X A n E s = .error p) ↔
      (A.length ≤ n ∨ ∃ i < n, ¬ ∃ x : ℤ, A[i]? = some (.big x) ∧ x.natAbs < 2 ^ 256) := by
  constructor
  · rintro ⟨p, hp⟩
    by_contra hc
    push Not at hc
    obtain ⟨h1, h2⟩ := hc
    choose! f hf1 hf2 using h2
    have := C26_value X (A := A) (l := (List.range n).map f) (by simpa using h1) (by
      intro i hi
      simp only [List.length_map, List.length_range] at hi
      simpa using hf1 i hi) (by
      intro x hx
      simp only [List.mem_map, List.mem_range] at hx
      obtain ⟨i, hi, rfl⟩ := hx
      exact hf2 i hi) E s
    obtain ⟨A', h, -⟩ := this
    rw [List.length_map, List.length_range, hp] at h
    cases h
  · intro h
    cases hr : SqueezeChallenge X A n E s with
    | error p => exact ⟨p, rfl⟩
    | ok r =>
      exfalso
      obtain ⟨⟨⟨c, e⟩, A'⟩, s'⟩ := r
      obtain ⟨-, -, h1, l, h2, h3, h4, -⟩ := squeeze_ok hr
      rcases h with h | ⟨i, hi, h⟩
      · omega
      · refine h ⟨l[i], ?_, h4 _ (List.getElem_mem _)⟩
        have := congrArg (fun l => l[i]?) h3
        simp only [List.getElem?_take, if_pos hi, List.getElem?_map] at this
        rw [this, List.getElem?_eq_getElem (by omega)]; rfl

example : ∃ A', SqueezeChallenge exX [.big 3, .big (-4), .nil, .wire 2] 2 exComp .init =
    .ok (((.big ((squeezeDigest exX [3, -4] : ℤ) % rMod), none), A'), .init) ∧ A'[3]? = some (.wire 2) := by
  obtain ⟨A', h, -, -, -, h2⟩ := C26_value exX (A := [.big 3, .big (-4), .nil, .wire 2]) (l := [3, -4]) (by simp) (by
    intro i hi
    match i, hi with
    | 0, _ => rfl
    | 1, _ => rfl) (by simp) exComp .init
  exact ⟨A', h, h2 3 (by simp) (by simp)⟩

example : ∃ p, SqueezeChallenge exX [.big 3, .wire 4, .nil] 2 exComp .init = .error p :=
  (C26_panics _ _ _ _ _).2 (.inr ⟨1, by norm_num, by simp⟩)

/-! ### C27 -/

theorem writeChallenges_get {buf : List Var} (hb : 10 ≤ buf.length) (ds : List ℕ) (hd : ds.length = 8) :
    (∀ i (hi : i < 8), (writeChallenges buf ds)[2 + i]? = some (.big ((ds[i] : ℤ) % rMod))) ∧
    (∀ j, j < 2 ∨ 10 ≤ j → (writeChallenges buf ds)[j]? = buf[j]?) ∧ (writeChallenges buf ds).length = buf.length := by
  obtain ⟨d0, d1, d2, d3, d4, d5, d6, d7, rfl⟩ : ∃ d0 d1 d2 d3 d4 d5 d6 d7, ds = [d0, d1, d2, d3, d4, d5, d6, d7] := by
    match ds, hd with
    | [d0, d1, d2, d3, d4, d5, d6, d7], _ => exact ⟨d0, d1, d2, d3, d4, d5, d6, d7, rfl⟩
  refine ⟨?_, ?_, by simp [writeChallenges]⟩
  · intro i hi
    interval_cases i <;> simp [writeChallenges, List.getElem?_set] <;> omega
  · intro j hj
    simp only [writeChallenges]
    repeat rw [List.getElem?_set, if_neg (by omega)]

theorem fsDigests_length (sha : List UInt8 → List UInt8) (d : ℕ) (B : List (List ℕ)) :
    (fsDigests sha d B).length = B.length := by
  induction B generalizing d with
  | nil => rfl
  | cons b B ih => simp [fsDigests, ih]

/-- The eight digests of the Fiat–Shamir schedule for an instance commitment and a proof. -/
def fsChallenges (sha : List UInt8 → List UInt8) (ix iy : ℕ) (t : List ℕ) : List ℕ := fsDigests sha fsSeed (fsBlocks ix iy t)

theorem fsChallenges_length (sha : List UInt8 → List UInt8) (ix iy : ℕ) (t : List ℕ) :
    (fsChallenges sha ix iy t).length = 8 := by rw [fsChallenges, fsDigests_length]; rfl

/-- C27: on success the instance commitment and the first 102 proof elements are constants (with these absolute
values), buf[2..9] are the eight challenges of the schedule modulo r, and all other slots are unchanged; no constraint
and no hint is added. -/
theorem C27_schedule {X : Ext} {buf T buf' : List Var} {E : Engine} {s s' : St}
    (h : GetChallengesShPlonkCircuit X buf T E s = .ok ((none, buf'), s')) :
    s' = s ∧ ∃ (ix iy : ℤ) (t : List ℤ), buf[0]? = some (.big ix) ∧ buf[1]? = some (.big iy) ∧ t.length = 102 ∧
      T.take 102 = t.map .big ∧
      (∀ i (hi : i < 8), buf'[2 + i]? = some (.big ((
        (fsChallenges X.sha256 ix.natAbs iy.natAbs (t.map Int.natAbs))[i]'(by rw [fsChallenges_length]; exact hi) : ℤ) %
          rMod))) ∧
      (∀ j, j < 2 ∨ 10 ≤ j → buf'[j]? = buf[j]?) ∧ buf'.length = buf.length := by
  obtain ⟨h1, -, hB, -, ix, iy, t, h2, h3, h4, h5, -, -, -, rfl⟩ := getChallenges_ok h
  obtain ⟨g1, g2, g3⟩ := writeChallenges_get hB _ (fsChallenges_length X.sha256 ix.natAbs iy.natAbs (t.map Int.natAbs))
  exact ⟨h1, ix, iy, t, h2, h3, h4, h5, g1, g2, g3⟩

/-! ### C29 -/

/-- The position of a point of the proof: 22 pairs at 0..43 and the two opening proofs. -/
def IsPointPosition (i : ℕ) : Prop := i % 2 = 0 ∧ i < 44 ∨ i = 100 ∨ i = 102

theorem isPointPosition_iff (i : ℕ) : IsPointPosition i ↔ i ∈ pointPositions := by
  constructor
  · rintro (⟨h1, h2⟩ | rfl | rfl)
    · interval_cases i <;> first | (exfalso; omega) | decide
    · decide
    · decide
  · have : ∀ i ∈ pointPositions, i % 2 = 0 ∧ i < 44 ∨ i = 100 ∨ i = 102 := by decide
    exact this i

/-- Elements i, i+1 of T are integers whose residues mod p satisfy y² = x³ + 3, or are both zero. -/
def PointAt (T : List Var) (i : ℕ) : Prop := ∃ x y : ℤ,
  (T[i]? = some (.big x) ∨ T[i]? = some (.int x)) ∧ (T[i + 1]? = some (.big y) ∨ T[i + 1]? = some (.int y)) ∧
  ((y : Fp) ^ 2 = (x : Fp) ^ 3 + 3 ∨ ((x : Fp) = 0 ∧ (y : Fp) = 0))

theorem setInterface_some {v : Var} {a : Fp} (h : setInterface v = some a) :
    ∃ x : ℤ, (v = .big x ∨ v = .int x) ∧ a = (x : Fp) := by
  cases v with
  | nil => cases h
  | wire => cases h
  | int n => cases h; exact ⟨n, .inr rfl, rfl⟩
  | big n => cases h; exact ⟨n, .inl rfl, rfl⟩

theorem pointAt_iff (T : List Var) (i : ℕ) : PointAt T i ↔ PairAt T i := by
  constructor
  · rintro ⟨x, y, hx, hy, h⟩
    have hv : ValidEnc ((x : Fp), (y : Fp)) := by
      rcases h with h | ⟨h1, h2⟩
      · exact .inl h
      · exact .inr (by rw [h1, h2])
    rcases hx with hx | hx <;> rcases hy with hy | hy <;> exact ⟨_, _, hx, hy, x, y, rfl, rfl, hv⟩
  · rintro ⟨v, w, hv, hw, a, b, ha, hb, h⟩
    obtain ⟨x, hx, rfl⟩ := setInterface_some ha
    obtain ⟨y, hy, rfl⟩ := setInterface_some hb
    refine ⟨x, y, ?_, ?_, ?_⟩
    · rcases hx with rfl | rfl
      · exact .inl hv
      · exact .inr hv
    · rcases hy with rfl | rfl
      · exact .inl hw
      · exact .inr hw
    · rcases h with h | h
      · exact .inl h
      · rw [Prod.mk.injEq] at h
        exact .inr h

/-- C29: if challenge derivation succeeds, each of the 24 pairs of the proof is on the curve or is (0,0). -/
theorem C29_points {X : Ext} {buf T buf' : List Var} {E : Engine} {s s' : St}
    (h : GetChallengesShPlonkCircuit X buf T E s = .ok ((none, buf'), s')) (i : ℕ) (hi : IsPointPosition i) :
    PointAt T i :=
  (pointAt_iff T i).2 ((getChallenges_ok h).2.2.2.1 i ((isPointPosition_iff i).1 hi))

/-- C29: for 104 integer elements below 2^256 it never panics, and succeeds iff all 24 pairs are points; if one is not,
it returns an error. -/
theorem C29_iff {X : Ext} (hX : X.Lawful) {buf T : List Var} {ix iy : ℤ}
    (hB : 10 ≤ buf.length) (h0 : buf[0]? = some (.big ix)) (h1 : buf[1]? = some (.big iy)) (hix : ix.natAbs < 2 ^ 256)
    (hiy : iy.natAbs < 2 ^ 256) (hT : 104 ≤ T.length) (hc : ∀ v ∈ T.take 104, ∃ x : ℤ, v = .big x ∧ x.natAbs < 2 ^ 256)
    (E : Engine) (s : St) :
    ((∀ i, IsPointPosition i → PointAt T i) → ∃ buf', GetChallengesShPlonkCircuit X buf T E s = .ok ((none, buf'), s)) ∧
    ((∃ i, IsPointPosition i ∧ ¬ PointAt T i) →
      ∃ m buf', GetChallengesShPlonkCircuit X buf T E s = .ok ((some m, buf'), s)) := by
  obtain ⟨e, buf', h, he⟩ := getChallenges_total hX.sha_len hB h0 h1 hix hiy hT (fun v hv => hc v (by
    rw [show 102 = min 102 104 from rfl, ← List.take_take] at hv
    exact List.mem_of_mem_take hv)) (fun v hv => by
    obtain ⟨x, hx, -⟩ := hc v hv
    exact ⟨x, hx⟩) E s
  constructor
  · intro hall
    have := he fun i hi => (pointAt_iff T i).1 (hall i ((isPointPosition_iff i).2 hi))
    subst this
    exact ⟨buf', h⟩
  · rintro ⟨i, hi, hn⟩
    cases e with
    | some m => exact ⟨m, buf', h⟩
    | none => exact absurd (C29_points h i hi) hn

/-- A proof made of the point (1, 2) everywhere and evaluations 1, 2. -/
def exProof : List Var := (List.replicate 52 [Var.big 1, Var.big 2]).flatten

theorem exProof_ok (E : Engine) (s : St) : ∃ buf',
    GetChallengesShPlonkCircuit exX ([.big 1, .big 2] ++ List.replicate 41 (.big 0)) exProof E s =
      .ok ((none, buf'), s) := by
  refine (C29_iff exX_strict.toLawful (ix := 1) (iy := 2) (by simp) rfl rfl (by norm_num) (by norm_num) (by decide) ?_
    E s).1 ?_
  · intro v hv
    have : v ∈ exProof := List.mem_of_mem_take hv
    simp only [exProof, List.mem_flatten, List.mem_replicate] at this
    obtain ⟨l, ⟨-, rfl⟩, h⟩ := this
    simp only [List.mem_cons, List.not_mem_nil, or_false] at h
    rcases h with rfl | rfl
    · exact ⟨1, rfl, by norm_num⟩
    · exact ⟨2, rfl, by norm_num⟩
  · intro i hi
    rw [isPointPosition_iff] at hi
    have : ∀ i ∈ pointPositions, exProof[i]? = some (.big 1) ∧ exProof[i + 1]? = some (.big 2) := by decide
    exact ⟨1, 2, .inl (this i hi).1, .inl (this i hi).2, .inl (by norm_num)⟩

-- C27 is about reachable runs: this one succeeds, and buf[2] is the digest of the first block.
example : ∃ buf', GetChallengesShPlonkCircuit exX ([.big 1, .big 2] ++ List.replicate 41 (.big 0)) exProof exComp .init =
    .ok ((none, buf'), .init) ∧ buf'[42]? = some (.big 0) := by
  obtain ⟨buf', h⟩ := exProof_ok exComp .init
  obtain ⟨-, _, _, _, _, _, _, _, -, h2, -⟩ := C27_schedule h
  exact ⟨buf', h, by rw [h2 42 (by norm_num)]; decide⟩

-- the error case: the last point replaced by (1, 3)
example : ∃ m buf', GetChallengesShPlonkCircuit exX ([.big 1, .big 2] ++ List.replicate 41 (.big 0)) (exProof.set 103 (.big 3))
    exComp .init = .ok ((some m, buf'), .init) := by
  refine (C29_iff exX_strict.toLawful (ix := 1) (iy := 2) (by simp) rfl rfl (by norm_num) (by norm_num) (by decide) ?_
    exComp .init).2 ⟨102, by simp [IsPointPosition], ?_⟩
  · intro v hv
    rcases List.mem_or_eq_of_mem_set (List.mem_of_mem_take hv) with this | rfl
    · simp only [exProof, List.mem_flatten, List.mem_replicate] at this
      obtain ⟨l, ⟨-, rfl⟩, h⟩ := this
      simp only [List.mem_cons, List.not_mem_nil, or_false] at h
      rcases h with rfl | rfl
      · exact ⟨1, rfl, by norm_num⟩
      · exact ⟨2, rfl, by norm_num⟩
    · exact ⟨3, rfl, by norm_num⟩
  · rintro ⟨x, y, hx, hy, h⟩
    have e1 : (exProof.set 103 (.big 3))[102]? = some (.big 1) := by decide
    have e2 : (exProof.set 103 (.big 3))[102 + 1]? = some (.big 3) := by decide
    rw [e1] at hx; rw [e2] at hy
    simp only [Option.some.injEq, Var.big.injEq, reduceCtorEq, or_false] at hx hy
    subst hx hy
    revert h
    decide +kernel

/-! ### C28 -/

theorem flatMap_words_inj {l l' : List ℕ} (hl : l.length = l'.length) (h1 : ∀ x ∈ l, x < 256 ^ 32)
    (h2 : ∀ x ∈ l', x < 256 ^ 32) (h : (l.flatMap fun n => beBytes n 32) = (l'.flatMap fun n => beBytes n 32)) : l = l' := by
  induction l generalizing l' with
  | nil => cases l' with
    | nil => rfl
    | cons => simp at hl
  | cons a l ih => cases l' with
    | nil => simp at hl
    | cons b l' =>
      rw [List.flatMap_cons, List.flatMap_cons] at h
      obtain ⟨e1, e2⟩ := List.append_inj h (by rw [beBytes_length, beBytes_length])
      rw [beBytes_inj (h1 a (List.mem_cons_self ..)) (h2 b (List.mem_cons_self ..)) e1,
        ih (by simpa using hl) (fun x hx => h1 x (List.mem_cons_of_mem _ hx))
          (fun x hx => h2 x (List.mem_cons_of_mem _ hx)) e2]

theorem word_bound : (2 : ℕ) ^ 256 = 256 ^ 32 := by norm_num

/-- C28: the encoding of a block is injective: distinct blocks (or distinct chaining digests) of the same size give
distinct hash inputs. -/
theorem C28_encoding {d d' : ℕ} {b b' : List ℕ} (hl : b.length = b'.length) (hd : d < 2 ^ 256) (hd' : d' < 2 ^ 256)
    (hb : ∀ x ∈ b, x < 2 ^ 256) (hb' : ∀ x ∈ b', x < 2 ^ 256) (h : fsMessage d b = fsMessage d' b') : d = d' ∧ b = b' := by
  rw [word_bound] at *
  have := flatMap_words_inj (l := d :: b) (l' := d' :: b') (by simp [hl])
    (by intro x hx; rcases List.mem_cons.1 hx with rfl | hx; exacts [hd, hb x hx])
    (by intro x hx; rcases List.mem_cons.1 hx with rfl | hx; exacts [hd', hb' x hx]) (List.append_cancel_right h)
  simpa using this

theorem fs_chain {sha : List UInt8 → List UInt8} (hsha : ∀ m, (sha m).length = 32) : ∀ (k : ℕ) {B B' : List (List ℕ)} {d d' : ℕ},
    d < 2 ^ 256 → d' < 2 ^ 256 → List.Forall₂ (fun b b' => b.length = b'.length ∧ (∀ x ∈ b, x < 2 ^ 256) ∧
      ∀ x ∈ b', x < 2 ^ 256) B B' →
    (hk : k < B.length) → (hk' : k < B'.length) →
    ((fsDigests sha d B)[k]'(by rw [fsDigests_length]; exact hk) % rMod =
      (fsDigests sha d' B')[k]'(by rw [fsDigests_length]; exact hk') % rMod) →
    (∀ i ≤ k, ∀ m m', (fsMessages sha d B)[i]? = some m → (fsMessages sha d' B')[i]? = some m' →
      beNat (sha m) % rMod = beNat (sha m') % rMod → m = m') →
    d = d' ∧ B.take (k + 1) = B'.take (k + 1)
  | 0, b :: B, b' :: B', d, d', hd, hd', hf, hk, hk', he, hcol => by
    cases hf with
    | cons h hf =>
      have := hcol 0 (le_refl _) _ _ rfl rfl he
      obtain ⟨rfl, rfl⟩ := C28_encoding h.1 hd hd' h.2.1 h.2.2 this
      exact ⟨rfl, rfl⟩
  | k + 1, b :: B, b' :: B', d, d', hd, hd', hf, hk, hk', he, hcol => by
    cases hf with
    | cons h hf =>
      have hlt : ∀ m, beNat (sha m) < 2 ^ 256 := by
        intro m
        have := beNat_lt (sha m)
        rwa [hsha, show (256 : ℕ) ^ 32 = 2 ^ 256 by norm_num] at this
      obtain ⟨e1, e2⟩ := fs_chain hsha k (hlt (fsMessage d b)) (hlt (fsMessage d' b')) hf (by simpa using hk)
        (by simpa using hk') he (fun i hi m m' hm hm' => hcol (i + 1) (by omega) m m' hm hm')
      have := hcol 0 (Nat.zero_le _) _ _ rfl rfl (by rw [e1])
      obtain ⟨rfl, rfl⟩ := C28_encoding h.1 hd hd' h.2.1 h.2.2 this
      exact ⟨rfl, by rw [List.take_succ_cons, e2, List.take_succ_cons]⟩

/-- C28: two successful runs over non-negative data. If the k-th challenges agree, and SHA-256 reduced mod r has no
collision between corresponding messages hashed up to then, the two runs absorbed the same instance commitment and the
same proof elements in the blocks before challenge k. -/
theorem C28_binding {X : Ext} (hX : X.Lawful) {buf T out buf' T' out' : List Var} {E E' : Engine} {s s1 s' s1' : St}
    (h : GetChallengesShPlonkCircuit X buf T E s = .ok ((none, out), s1))
    (h' : GetChallengesShPlonkCircuit X buf' T' E' s' = .ok ((none, out'), s1'))
    {ix iy ix' iy' : ℕ} {t t' : List ℕ} (hi : buf.take 2 = [.big ix, .big iy]) (hi' : buf'.take 2 = [.big ix', .big iy'])
    (ht : T.take 102 = t.map fun n : ℕ => .big n) (ht' : T'.take 102 = t'.map fun n : ℕ => .big n) {k : ℕ} (hk : k < 8)
    (hch : out[2 + k]? = out'[2 + k]?)
    (hcol : ∀ i ≤ k, ∀ m m', (fsMessages X.sha256 fsSeed (fsBlocks ix iy t))[i]? = some m →
      (fsMessages X.sha256 fsSeed (fsBlocks ix' iy' t'))[i]? = some m' →
      beNat (X.sha256 m) % rMod = beNat (X.sha256 m') % rMod → m = m') :
    (fsBlocks ix iy t).take (k + 1) = (fsBlocks ix' iy' t').take (k + 1) := by
  have conv : ∀ {buf T out : List Var} {E : Engine} {s s1 : St} {ix iy : ℕ} {t : List ℕ},
      GetChallengesShPlonkCircuit X buf T E s = .ok ((none, out), s1) → buf.take 2 = [.big ix, .big iy] →
      (T.take 102 = t.map fun n : ℕ => Var.big n) → t.length = 102 ∧ ix < 2 ^ 256 ∧ iy < 2 ^ 256 ∧ (∀ x ∈ t, x < 2 ^ 256) ∧
      ∀ i (hi : i < 8), out[2 + i]? = some (.big (((fsChallenges X.sha256 ix iy t)[i]'(by
        rw [fsChallenges_length]; exact hi) : ℤ) % rMod)) := by
    intro buf T out E s s1 ix iy t h hi ht
    obtain ⟨-, -, hB, -, jx, jy, u, h2, h3, h4, h5, h6, h7, h8, rfl⟩ := getChallenges_ok h
    obtain ⟨g1, -⟩ := writeChallenges_get hB _ (fsChallenges_length X.sha256 jx.natAbs jy.natAbs (u.map Int.natAbs))
    have e0 : jx = ix ∧ jy = iy := by
      have a0 := congrArg (fun l => l[0]?) hi
      have a1 := congrArg (fun l => l[1]?) hi
      simp only [List.getElem?_take, if_pos (show 0 < 2 by norm_num), if_pos (show 1 < 2 by norm_num), h2, h3,
        List.getElem?_cons_zero, List.getElem?_cons_succ, Option.some.injEq, Var.big.injEq] at a0 a1
      exact ⟨a0, a1⟩
    obtain ⟨rfl, rfl⟩ := e0
    have e1 : u = t.map fun n : ℕ => (n : ℤ) := by
      rw [← map_toInt_big u, ← h5, ht, List.map_map]
      rfl
    subst e1
    have e2 : (t.map fun n : ℕ => (n : ℤ)).map Int.natAbs = t := by
      rw [List.map_map]; exact List.map_id _
    rw [e2, Int.natAbs_natCast, Int.natAbs_natCast] at g1
    rw [Int.natAbs_natCast] at h6 h7
    refine ⟨by simpa using h4, h6, h7, fun x hx => ?_, fun i hi => ?_⟩
    · have := h8 x (List.mem_map.2 ⟨x, hx, rfl⟩)
      rwa [Int.natAbs_natCast] at this
    · rw [Int.natAbs_natCast, Int.natAbs_natCast, e2]
      exact g1 i hi
  obtain ⟨l1, bx, byy, bt, c⟩ := conv h hi ht
  obtain ⟨l1', bx', byy', bt', c'⟩ := conv h' hi' ht'
  rw [c k hk, c' k hk, Option.some.injEq, Var.big.injEq] at hch
  have hseed : fsSeed < 2 ^ 256 := by decide +kernel
  refine (fs_chain hX.sha_len k (B := fsBlocks ix iy t) (B' := fsBlocks ix' iy' t') hseed hseed ?_ hk hk (by exact_mod_cast hch) hcol).2
  have sl : ∀ i j, ((t.drop i).take j).length = ((t'.drop i).take j).length ∧ (∀ x ∈ (t.drop i).take j, x < 2 ^ 256) ∧
      ∀ x ∈ (t'.drop i).take j, x < 2 ^ 256 := fun i j =>
    ⟨by simp [l1, l1'], fun x hx => bt x (List.mem_of_mem_drop (List.mem_of_mem_take hx)),
      fun x hx => bt' x (List.mem_of_mem_drop (List.mem_of_mem_take hx))⟩
  refine .cons ⟨by simp [l1, l1'], ?_, ?_⟩ (.cons (sl 16 8) (.cons (by simp) (.cons (sl 24 14) (.cons (sl 38 6)
    (.cons (sl 44 56) (.cons (by simp) (.cons (sl 100 2) .nil)))))))
  · intro x hx
    simp only [List.mem_cons] at hx
    rcases hx with rfl | rfl | hx
    exacts [bx, byy, bt x (List.mem_of_mem_take hx)]
  · intro x hx
    simp only [List.mem_cons] at hx
    rcases hx with rfl | rfl | hx
    exacts [bx', byy', bt' x (List.mem_of_mem_take hx)]

/-- C28 for the last challenge: the whole instance commitment and all proof elements 0..101 are the same. -/
theorem C28_all {X : Ext} (hX : X.Lawful) {buf T out buf' T' out' : List Var} {E E' : Engine} {s s1 s' s1' : St}
    (h : GetChallengesShPlonkCircuit X buf T E s = .ok ((none, out), s1))
    (h' : GetChallengesShPlonkCircuit X buf' T' E' s' = .ok ((none, out'), s1'))
    {ix iy ix' iy' : ℕ} {t t' : List ℕ} (hi : buf.take 2 = [.big ix, .big iy]) (hi' : buf'.take 2 = [.big ix', .big iy'])
    (ht : T.take 102 = t.map fun n : ℕ => .big n) (ht' : T'.take 102 = t'.map fun n : ℕ => .big n)
    (hch : out[9]? = out'[9]?)
    (hcol : ∀ i < 8, ∀ m m', (fsMessages X.sha256 fsSeed (fsBlocks ix iy t))[i]? = some m →
      (fsMessages X.sha256 fsSeed (fsBlocks ix' iy' t'))[i]? = some m' →
      beNat (X.sha256 m) % rMod = beNat (X.sha256 m') % rMod → m = m') :
    ix = ix' ∧ iy = iy' ∧ t = t' := by
  have key := C28_binding hX h h' hi hi' ht ht' (k := 7) (by norm_num) hch (fun i hi => hcol i (by omega))
  have lt : t.length = 102 := by
    have := (getChallenges_ok h).2.1
    have := congrArg List.length ht
    simp at this; omega
  have lt' : t'.length = 102 := by
    have := (getChallenges_ok h').2.1
    have := congrArg List.length ht'
    simp at this; omega
  simp only [fsBlocks, List.take_succ_cons, List.take_zero, List.cons.injEq, and_true, true_and] at key
  obtain ⟨⟨e1, e2, k0⟩, k1, k2, k3, k4, k5⟩ := key
  refine ⟨e1, e2, ?_⟩
  have split : ∀ u : List ℕ, u.length = 102 → u = u.take 16 ++ (u.drop 16).take 8 ++ (u.drop 24).take 14 ++
      (u.drop 38).take 6 ++ (u.drop 44).take 56 ++ (u.drop 100).take 2 := by
    intro u hu
    rw [← List.take_add, ← List.take_add, ← List.take_add, ← List.take_add, ← List.take_add,
      List.take_of_length_le (by omega)]
  rw [split t lt, split t' lt', k0, k1, k2, k3, k4, k5]

-- the hypotheses of C28 are met by a run compared with itself in another engine
example : ∃ out out', GetChallengesShPlonkCircuit exX ([.big 1, .big 2] ++ List.replicate 41 (.big 0)) exProof exComp .init =
      .ok ((none, out), .init) ∧
    GetChallengesShPlonkCircuit exX ([.big 1, .big 2] ++ List.replicate 41 (.big 0)) exProof (honestTest exX true) .init =
      .ok ((none, out'), .init) ∧ out[9]? = out'[9]? := by
  obtain ⟨out, h⟩ := exProof_ok exComp .init
  obtain ⟨out', h'⟩ := exProof_ok (honestTest exX true) .init
  refine ⟨out, out', h, h', ?_⟩
  obtain ⟨-, ix, iy, t, a1, a2, a3, a4, a5, -⟩ := C27_schedule h
  obtain ⟨-, ix', iy', t', b1, b2, b3, b4, b5, -⟩ := C27_schedule h'
  rw [a1] at b1; rw [a2] at b2; cases b1; cases b2
  have : t = t' := by rw [← map_toInt_big t, ← map_toInt_big t', ← a4, ← b4]
  subst this
  rw [a5 7 (by norm_num), b5 7 (by norm_num)]

end Verif
