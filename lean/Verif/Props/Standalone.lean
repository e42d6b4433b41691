/-
Properties C50 (the alternative gadgets CalcVerifyBN256Msm1 and CalcVerifyBN256Add1, exported but not called by the
verifier) and C51 (the small stand-alone circuits).
-/
import Verif.Props.Curve2

namespace Verif

/-- The pair of coordinates of a point, each reduced modulo r. -/
noncomputable def residues (P : G1) : Var × Var := (.big ((enc P).1.val % rMod : ℕ), .big ((enc P).2.val % rMod : ℕ))

theorem affPt_some {x y : Fp} {P : G1} (h : affPt x y = some P) : enc P = (x, y) := by
  unfold affPt at h
  split at h
  · cases h; rfl
  · split at h
    · next h0 => cases h; rw [enc_zero, h0.1, h0.2]
    · cases h

theorem affPt_enc (P : G1) : affPt (enc P).1 (enc P).2 = some P := by
  have h : ∀ Q, affPt (enc P).1 (enc P).2 = some Q → enc Q = enc P := fun Q h => affPt_some h
  cases hp : affPt (enc P).1 (enc P).2 with
  | some Q => rw [enc_injective (h Q hp)]
  | none =>
    unfold affPt at hp
    rcases validEnc_enc P with h1 | h1
    · rw [dif_pos h1] at hp; cases hp
    · have h0 : (enc P).1 = 0 ∧ (enc P).2 = 0 := by rw [h1]; exact ⟨rfl, rfl⟩
      split at hp
      · cases hp
      · cases hp

theorem setInterfaceOrPanic_ok {v : Var} {x : Fp} {E : Engine} {s s' : St} :
    setInterfaceOrPanic v E s = .ok (x, s') ↔ setInterface v = some x ∧ s' = s := by
  unfold setInterfaceOrPanic
  cases setInterface v with
  | none =>
    constructor
    · intro h; cases h
    · intro h; cases h.1
  | some y => exact ⟨fun h => by cases h; exact ⟨rfl, rfl⟩, fun h => by obtain ⟨h, rfl⟩ := h; cases h; rfl⟩

theorem residue_of_mod {o : ℤ} {x : Fp} (h : x.val % rMod = (((o % rMod : ℤ) : Fp)).val % rMod) :
    (((o % rMod : ℤ) : Fp)).val = x.val % rMod := by
  have h0 : 0 ≤ o % rMod := Int.emod_nonneg _ (by exact_mod_cast rMod_pos.ne')
  have h1 : o % rMod < rMod := Int.emod_lt_of_pos _ (by exact_mod_cast rMod_pos)
  obtain ⟨m, hm⟩ := Int.eq_ofNat_of_zero_le h0
  rw [hm] at h h1 ⊢
  have h2 : m < rMod := by exact_mod_cast h1
  have h3 := C46_embed m h2
  rw [h3] at h ⊢
  rw [h, Nat.mod_eq_of_lt h2]

/-- C50, scalar multiplication, test engine, any prover: when `CalcVerifyBN256Msm1` returns without error, the inputs
are a point of the curve and a `*big.Int` k, and the returned pair is forced: the coordinates of k·P modulo r. -/
theorem C50_msm1 {E : Engine} (hE : E.mode = .test) {vx vy vk : Var} {s s' : St} {res : Var × Var}
    (h : CalcVerifyBN256Msm1 vx vy vk E s = .ok ((res, none), s')) :
    ∃ (P : G1) (k : ℤ), vk = .big k ∧ setInterface vx = some (enc P).1 ∧ setInterface vy = some (enc P).2 ∧
      res = residues (k • P) := by
  simp only [CalcVerifyBN256Msm1] at h
  obtain ⟨result, s1, h1, h⟩ := Circ.bind_ok.1 h
  obtain ⟨-, -, -, os, rfl, -⟩ := newHint_ok h1
  obtain ⟨gx, s2, h2, h⟩ := Circ.bind_ok.1 h
  obtain ⟨gy, s3, h3, h⟩ := Circ.bind_ok.1 h
  rw [setInterfaceOrPanic_ok] at h2 h3
  cases hp : affPt gx gy with
  | none => rw [hp] at h; cases h
  | some P =>
    rw [hp] at h
    simp only [] at h
    obtain ⟨r0, s4, h4, h⟩ := Circ.bind_ok.1 h
    obtain ⟨rx, s5, h5, h⟩ := Circ.bind_ok.1 h
    obtain ⟨r1, s6, h6, h⟩ := Circ.bind_ok.1 h
    obtain ⟨ry, s7, h7, h⟩ := Circ.bind_ok.1 h
    obtain ⟨k, s8, h8, h⟩ := Circ.bind_ok.1 h
    obtain ⟨⟨err, g⟩, s9, h9, h⟩ := Circ.bind_ok.1 h
    rw [Circ.pure_run, Except.ok.injEq, Prod.mk.injEq, Prod.mk.injEq] at h
    obtain ⟨⟨rfl, -⟩, -⟩ := h
    have e4 := (idx_ok.1 h4).1
    have e6 := (idx_ok.1 h6).1
    simp only [hintOuts, hE, List.range_succ, List.range_zero, List.nil_append, List.map_cons, List.map_nil,
      List.cons_append, List.getElem?_cons_zero, List.getElem?_cons_succ, Option.some.injEq] at e4 e6
    subst e4 e6
    rw [setInterfaceOrPanic_ok] at h5 h7
    have hk : vk = .big k := by
      cases vk <;> simp only [asBigInt] at h8
      all_goals first | cases h8; rfl | cases h8
    have e := affPt_some hp
    refine ⟨P, k, hk, by rw [e]; exact h2.1, by rw [e]; exact h3.1, ?_⟩
    have e5 := (Option.some.inj h5.1).symm
    have e7 := (Option.some.inj h7.1).symm
    have hc : EqModR (enc (k • P)) (rx, ry) := by
      by_contra hc
      obtain ⟨p, hp⟩ := (C21_msm P k (rx, ry) E s8).2 hc
      rw [hp] at h9; cases h9
    subst e5 e7
    rw [residues, residue_of_mod hc.1, residue_of_mod hc.2]

/-- C50 for the addition. -/
theorem C50_add1 {E : Engine} (hE : E.mode = .test) {v1 v2 v3 v4 : Var} {s s' : St} {res : Var × Var}
    (h : CalcVerifyBN256Add1 v1 v2 v3 v4 E s = .ok ((res, none), s')) :
    ∃ P Q : G1, setInterface v1 = some (enc P).1 ∧ setInterface v2 = some (enc P).2 ∧
      setInterface v3 = some (enc Q).1 ∧ setInterface v4 = some (enc Q).2 ∧ res = residues (P + Q) := by
  simp only [CalcVerifyBN256Add1] at h
  obtain ⟨result, s1, h1, h⟩ := Circ.bind_ok.1 h
  obtain ⟨-, -, -, os, rfl, -⟩ := newHint_ok h1
  obtain ⟨gx, s2, h2, h⟩ := Circ.bind_ok.1 h
  obtain ⟨gy, s3, h3, h⟩ := Circ.bind_ok.1 h
  rw [setInterfaceOrPanic_ok] at h2 h3
  cases hp : affPt gx gy with
  | none => rw [hp] at h; cases h
  | some P =>
    rw [hp] at h
    simp only [] at h
    obtain ⟨hx, s2', h2', h⟩ := Circ.bind_ok.1 h
    obtain ⟨hy, s3', h3', h⟩ := Circ.bind_ok.1 h
    rw [setInterfaceOrPanic_ok] at h2' h3'
    cases hq : affPt hx hy with
    | none => rw [hq] at h; cases h
    | some Q =>
      rw [hq] at h
      simp only [] at h
      obtain ⟨r0, s4, h4, h⟩ := Circ.bind_ok.1 h
      obtain ⟨rx, s5, h5, h⟩ := Circ.bind_ok.1 h
      obtain ⟨r1, s6, h6, h⟩ := Circ.bind_ok.1 h
      obtain ⟨ry, s7, h7, h⟩ := Circ.bind_ok.1 h
      obtain ⟨⟨err, g⟩, s9, h9, h⟩ := Circ.bind_ok.1 h
      rw [Circ.pure_run, Except.ok.injEq, Prod.mk.injEq, Prod.mk.injEq] at h
      obtain ⟨⟨rfl, -⟩, -⟩ := h
      have e4 := (idx_ok.1 h4).1
      have e6 := (idx_ok.1 h6).1
      simp only [hintOuts, hE, List.range_succ, List.range_zero, List.nil_append, List.map_cons,
        List.map_nil, List.cons_append, List.getElem?_cons_zero, List.getElem?_cons_succ, Option.some.injEq] at e4 e6
      subst e4 e6
      rw [setInterfaceOrPanic_ok] at h5 h7
      have e := affPt_some hp
      have e' := affPt_some hq
      refine ⟨P, Q, by rw [e]; exact h2.1, by rw [e]; exact h3.1, by rw [e']; exact h2'.1, by rw [e']; exact h3'.1, ?_⟩
      have e5 := (Option.some.inj h5.1).symm
      have e7 := (Option.some.inj h7.1).symm
      have hc : EqModR (enc (P + Q)) (rx, ry) := by
        by_contra hc
        obtain ⟨p, hp⟩ := (C21_add P Q (rx, ry) E s7).2 hc
        rw [hp] at h9; cases h9
      subst e5 e7
      rw [residues, residue_of_mod hc.1, residue_of_mod hc.2]

/-- C50, what holds: if both coordinates of k·P are below r, the returned pair is the point k·P. -/
theorem C50_msm1_partial {E : Engine} (hE : E.mode = .test) {vx vy : Var} {k : ℤ} {P : G1} {s s' : St} {res : Var × Var}
    (hx : setInterface vx = some (enc P).1) (hy : setInterface vy = some (enc P).2)
    (h1 : (enc (k • P)).1.val < rMod) (h2 : (enc (k • P)).2.val < rMod)
    (h : CalcVerifyBN256Msm1 vx vy (.big k) E s = .ok ((res, none), s')) :
    res = (.big (enc (k • P)).1.val, .big (enc (k • P)).2.val) := by
  obtain ⟨Q, k', e1, e2, e3, e4⟩ := C50_msm1 hE h
  cases e1
  rw [hx] at e2
  rw [hy] at e3
  have hPQ : P = Q := enc_injective (Prod.ext (Option.some.inj e2) (Option.some.inj e3))
  subst hPQ
  rw [e4, residues, Nat.mod_eq_of_lt h1, Nat.mod_eq_of_lt h2]

theorem C50_add1_partial {E : Engine} (hE : E.mode = .test) {v1 v2 v3 v4 : Var} {P Q : G1} {s s' : St} {res : Var × Var}
    (g1 : setInterface v1 = some (enc P).1) (g2 : setInterface v2 = some (enc P).2)
    (g3 : setInterface v3 = some (enc Q).1) (g4 : setInterface v4 = some (enc Q).2)
    (h1 : (enc (P + Q)).1.val < rMod) (h2 : (enc (P + Q)).2.val < rMod)
    (h : CalcVerifyBN256Add1 v1 v2 v3 v4 E s = .ok ((res, none), s')) :
    res = (.big (enc (P + Q)).1.val, .big (enc (P + Q)).2.val) := by
  obtain ⟨P', Q', e1, e2, e3, e4, e5⟩ := C50_add1 hE h
  rw [g1] at e1; rw [g2] at e2; rw [g3] at e3; rw [g4] at e4
  obtain rfl : P = P' := enc_injective (Prod.ext (Option.some.inj e1) (Option.some.inj e2))
  obtain rfl : Q = Q' := enc_injective (Prod.ext (Option.some.inj e3) (Option.some.inj e4))
  rw [e5, residues, Nat.mod_eq_of_lt h1, Nat.mod_eq_of_lt h2]

/-- With the hints of the repo `CalcVerifyBN256Msm1` accepts every non-zero multiple and returns its residues. -/
theorem C50_msm1_honest {E : Engine} (hE : E.mode = .test) (hc : HonestMsm E) {P : G1} {k : ℤ} (hne : k • P ≠ 0)
    (hx : E.Reads (enc P).1.val) (hy : E.Reads (enc P).2.val) (hk : E.Reads k) (s : St) :
    ∃ s', CalcVerifyBN256Msm1 (.big (enc P).1.val) (.big (enc P).2.val) (.big k) E s = .ok ((residues (k • P), none), s') ∧
      s'.sat = s.sat := by
  have h1 := newHint_run (n := 2) (s := s) (.cons hx (.cons hy (.cons hk .nil)))
    ((hc _ 2 _).trans (MsmHint_eq (P := P) (k := k) (Int.natAbs_natCast _) (Int.natAbs_natCast _)))
  rw [bn256Affine_ne hne] at h1
  have hm : ∀ x : Fp, ((((x.val : ℤ) % rMod : ℤ) : Fp)).val = x.val % rMod := by
    intro x
    rw [show ((x.val : ℤ) % rMod : ℤ) = ((x.val % rMod : ℕ) : ℤ) by push_cast; rfl]
    exact C46_embed _ (Nat.mod_lt _ rMod_pos)
  refine ⟨{ s with hints := s.hints ++ [.msmHint] }, ?_, rfl⟩
  simp only [CalcVerifyBN256Msm1, Circ.bind_run, h1, setInterfaceOrPanic, setInterface, Circ.pure_run, Int.cast_natCast,
    ZMod.natCast_zmod_val, affPt_enc]
  simp only [hintOuts, hE, List.range_succ, List.range_zero, List.nil_append, List.map_cons,
    List.map_nil, List.cons_append, List.getD_cons_zero, List.getD_cons_succ, idx, List.getElem?_cons_zero,
    List.getElem?_cons_succ, Circ.pure_run, setInterface, asBigInt]
  rw [(C21_msm P k _ E _).1 ⟨by rw [hm, Nat.mod_mod], by rw [hm, Nat.mod_mod]⟩]
  simp only [hm, residues]

/-- C50 is false: with the hints of the repo, doubling a certain point of the curve is accepted, and the pair returned is
not a point of the curve. -/
theorem C50_false {E : Engine} (hE : E.mode = .test) (hc : HonestMsm E) (s : St) :
    ∃ P : G1, ∃ s' : St, ∃ u v : ℕ, CalcVerifyBN256Msm1 (.big (enc P).1.val) (.big (enc P).2.val) (.big 2) E s =
      .ok (((.big u, .big v), none), s') ∧ s'.sat = s.sat ∧ ¬ OnCurve (u : Fp) (v : Fp) := by
  have h1 : (enc halfPt).1.val < rMod := by decide +kernel
  have h2 : (enc halfPt).2.val < rMod := by decide +kernel
  have e2 : (2 : ℤ) • halfPt = bigPt := by rw [← two_halfPt]; exact ofNat_zsmul _ _
  obtain ⟨s', hr, hs⟩ := C50_msm1_honest hE hc (P := halfPt) (k := 2) (by rw [e2]; exact mkPt_ne_zero _ _ _)
    (reads_of_lt (by positivity) (by exact_mod_cast h1)) (reads_of_lt (by positivity) (by exact_mod_cast h2))
    (reads_of_lt (by norm_num) (by decide +kernel)) s
  rw [e2] at hr
  exact ⟨halfPt, s', _, _, hr, hs, by decide +kernel⟩

/-- C50: in a compiled circuit the two gadgets never return without error: the hint outputs are circuit variables, on
which `SetInterface` fails, and the code panics. -/
theorem C50_compile {E : Engine} (hE : E.mode = .compile) {v1 v2 v3 v4 : Var} (s : St) :
    (∀ res s', CalcVerifyBN256Msm1 v1 v2 v3 E s ≠ .ok ((res, none), s')) ∧
    (∀ res s', CalcVerifyBN256Add1 v1 v2 v3 v4 E s ≠ .ok ((res, none), s')) := by
  constructor
  · intro res s' h
    simp only [CalcVerifyBN256Msm1] at h
    obtain ⟨result, s1, h1, h⟩ := Circ.bind_ok.1 h
    obtain ⟨-, -, -, os, rfl, -⟩ := newHint_ok h1
    obtain ⟨gx, s2, h2, h⟩ := Circ.bind_ok.1 h
    obtain ⟨gy, s3, h3, h⟩ := Circ.bind_ok.1 h
    cases hp : affPt gx gy with
    | none => rw [hp] at h; cases h
    | some P =>
      rw [hp] at h
      simp only [] at h
      obtain ⟨r0, s4, h4, h⟩ := Circ.bind_ok.1 h
      obtain ⟨rx, s5, h5, h⟩ := Circ.bind_ok.1 h
      have e4 := (idx_ok.1 h4).1
      simp only [hintOuts, hE, List.range_succ, List.range_zero, List.nil_append, List.map_cons,
        List.map_nil, List.cons_append, List.getElem?_cons_zero, Option.some.injEq] at e4
      subst e4
      cases h5
  · intro res s' h
    simp only [CalcVerifyBN256Add1] at h
    obtain ⟨result, s1, h1, h⟩ := Circ.bind_ok.1 h
    obtain ⟨-, -, -, os, rfl, -⟩ := newHint_ok h1
    obtain ⟨gx, s2, h2, h⟩ := Circ.bind_ok.1 h
    obtain ⟨gy, s3, h3, h⟩ := Circ.bind_ok.1 h
    cases hp : affPt gx gy with
    | none => rw [hp] at h; cases h
    | some P =>
      rw [hp] at h
      simp only [] at h
      obtain ⟨hx, s2', h2', h⟩ := Circ.bind_ok.1 h
      obtain ⟨hy, s3', h3', h⟩ := Circ.bind_ok.1 h
      cases hq : affPt hx hy with
      | none => rw [hq] at h; cases h
      | some Q =>
        rw [hq] at h
        simp only [] at h
        obtain ⟨r0, s4, h4, h⟩ := Circ.bind_ok.1 h
        obtain ⟨rx, s5, h5, h⟩ := Circ.bind_ok.1 h
        have e4 := (idx_ok.1 h4).1
        simp only [hintOuts, hE, List.range_succ, List.range_zero, List.nil_append, List.map_cons,
          List.map_nil, List.cons_append, List.getElem?_cons_zero, Option.some.injEq] at e4
        subst e4
        cases h5

-- 2·(1,2), with the hints of the repo
example : ∃ s', CalcVerifyBN256Msm1 (.big (enc G1gen).1.val) (.big (enc G1gen).2.val) (.big 2) (honestTest exX true) .init =
    .ok ((residues ((2 : ℤ) • G1gen), none), s') := by
  have g1 : (enc G1gen).1.val = 1 := congrArg Prod.fst encN_gen
  have g2 : (enc G1gen).2.val = 2 := congrArg Prod.snd encN_gen
  obtain ⟨s', h, -⟩ := C50_msm1_honest (E := honestTest exX true) rfl (fun _ _ _ => rfl) (P := G1gen) (k := 2) (by
    rw [show (2 : ℤ) • G1gen = (2 : Fr) • G1gen by rw [← Int.cast_smul_eq_zsmul Fr]; rfl]
    intro h0
    rcases fr_smul_eq_zero.1 h0 with h0 | h0
    · exact absurd h0 (by decide +kernel)
    · exact gen_ne_zero h0) rfl rfl rfl .init
  exact ⟨s', h⟩

/-- With the hints of the repo `CalcVerifyBN256Add1` accepts every sum that is not the point at infinity and returns its residues. -/
theorem C50_add1_honest {E : Engine} (hE : E.mode = .test) (hc : HonestAdd E) {P Q : G1} (hne : P + Q ≠ 0)
    (h1 : E.Reads (enc P).1.val) (h2 : E.Reads (enc P).2.val) (h3 : E.Reads (enc Q).1.val) (h4 : E.Reads (enc Q).2.val) (s : St) :
    ∃ s', CalcVerifyBN256Add1 (.big (enc P).1.val) (.big (enc P).2.val) (.big (enc Q).1.val) (.big (enc Q).2.val) E s =
      .ok ((residues (P + Q), none), s') ∧ s'.sat = s.sat := by
  have h1 := newHint_run (n := 2) (s := s) (.cons h1 (.cons h2 (.cons h3 (.cons h4 .nil))))
    ((hc _ 2 _).trans (AddHint_eq (P := P) (Q := Q) (Int.natAbs_natCast _) (Int.natAbs_natCast _) (Int.natAbs_natCast _) (Int.natAbs_natCast _)))
  rw [bn256Affine_ne hne] at h1
  have hm : ∀ x : Fp, ((((x.val : ℤ) % rMod : ℤ) : Fp)).val = x.val % rMod := by
    intro x
    rw [show ((x.val : ℤ) % rMod : ℤ) = ((x.val % rMod : ℕ) : ℤ) by push_cast; rfl]
    exact C46_embed _ (Nat.mod_lt _ rMod_pos)
  refine ⟨{ s with hints := s.hints ++ [.addHint] }, ?_, rfl⟩
  simp only [CalcVerifyBN256Add1, Circ.bind_run, h1, setInterfaceOrPanic, setInterface, Circ.pure_run, Int.cast_natCast,
    ZMod.natCast_zmod_val, affPt_enc]
  simp only [hintOuts, hE, List.range_succ, List.range_zero, List.nil_append, List.map_cons,
    List.map_nil, List.cons_append, List.getD_cons_zero, List.getD_cons_succ, idx, List.getElem?_cons_zero,
    List.getElem?_cons_succ, Circ.pure_run]
  rw [(C21_add P Q _ E _).1 ⟨by rw [hm, Nat.mod_mod], by rw [hm, Nat.mod_mod]⟩]
  simp only [hm, residues]

/-- C50 is false for the addition too: with the hints of the repo, the sum of a certain point with itself is accepted, and the
pair returned is not a point of the curve. -/
theorem C50_add1_false {E : Engine} (hE : E.mode = .test) (hc : HonestAdd E) (s : St) :
    ∃ P Q : G1, ∃ s' : St, ∃ u v : ℕ,
      CalcVerifyBN256Add1 (.big (enc P).1.val) (.big (enc P).2.val) (.big (enc Q).1.val) (.big (enc Q).2.val) E s =
        .ok (((.big u, .big v), none), s') ∧ s'.sat = s.sat ∧ ¬ OnCurve (u : Fp) (v : Fp) := by
  have h1 : (enc halfPt).1.val < rMod := by decide +kernel
  have h2 : (enc halfPt).2.val < rMod := by decide +kernel
  have e2 : halfPt + halfPt = bigPt := by rw [← two_halfPt, two_nsmul]
  have r1 := reads_of_lt (E := E) (n := (enc halfPt).1.val) (by positivity) (by exact_mod_cast h1)
  have r2 := reads_of_lt (E := E) (n := (enc halfPt).2.val) (by positivity) (by exact_mod_cast h2)
  obtain ⟨s', hr, hs⟩ := C50_add1_honest hE hc (P := halfPt) (Q := halfPt) (by rw [e2]; exact mkPt_ne_zero _ _ _) r1 r2 r1 r2 s
  rw [e2] at hr
  exact ⟨halfPt, halfPt, s', _, _, hr, hs, by decide +kernel⟩

/-- C50: with the hints of the repo a sum that is the point at infinity is never accepted without error: the hint answers (0, 1). -/
theorem C50_add1_infinity {E : Engine} (hE : E.mode = .test) (hc : HonestAdd E) {P Q : G1} (h0 : P + Q = 0)
    (h1 : E.Reads (enc P).1.val) (h2 : E.Reads (enc P).2.val) (h3 : E.Reads (enc Q).1.val) (h4 : E.Reads (enc Q).2.val) (s : St) :
    ∃ p, CalcVerifyBN256Add1 (.big (enc P).1.val) (.big (enc P).2.val) (.big (enc Q).1.val) (.big (enc Q).2.val) E s = .error p := by
  have h1 := newHint_run (n := 2) (s := s) (.cons h1 (.cons h2 (.cons h3 (.cons h4 .nil))))
    ((hc _ 2 _).trans (AddHint_eq (P := P) (Q := Q) (Int.natAbs_natCast _) (Int.natAbs_natCast _) (Int.natAbs_natCast _) (Int.natAbs_natCast _)))
  rw [h0, bn256Affine_zero] at h1
  simp only [CalcVerifyBN256Add1, Circ.bind_run, h1, setInterfaceOrPanic, setInterface, Circ.pure_run, Int.cast_natCast,
    ZMod.natCast_zmod_val, affPt_enc]
  simp only [hintOuts, hE, List.range_succ, List.range_zero, List.nil_append, List.map_cons,
    List.map_nil, List.cons_append, List.getD_cons_zero, List.getD_cons_succ, idx, List.getElem?_cons_zero,
    List.getElem?_cons_succ, Circ.pure_run]
  obtain ⟨p, hp⟩ := (C21_add P Q ((((0 : ℕ) : ℤ) % rMod : ℤ), (((1 : ℕ) : ℤ) % rMod : ℤ)) E { s with hints := s.hints ++ [.addHint] }).2 (by
    rw [h0, enc_zero]
    rintro ⟨-, h⟩
    revert h
    decide +kernel)
  exact ⟨p, by rw [hp]⟩

/-- C50: the same for the multiplication: a multiple that is the point at infinity is never accepted. -/
theorem C50_msm1_infinity {E : Engine} (hE : E.mode = .test) (hc : HonestMsm E) {P : G1} {k : ℤ} (h0 : k • P = 0)
    (hx : E.Reads (enc P).1.val) (hy : E.Reads (enc P).2.val) (hk : E.Reads k) (s : St) :
    ∃ p, CalcVerifyBN256Msm1 (.big (enc P).1.val) (.big (enc P).2.val) (.big k) E s = .error p := by
  have h1 := newHint_run (n := 2) (s := s) (.cons hx (.cons hy (.cons hk .nil)))
    ((hc _ 2 _).trans (MsmHint_eq (P := P) (k := k) (Int.natAbs_natCast _) (Int.natAbs_natCast _)))
  rw [h0, bn256Affine_zero] at h1
  simp only [CalcVerifyBN256Msm1, Circ.bind_run, h1, setInterfaceOrPanic, setInterface, Circ.pure_run, Int.cast_natCast,
    ZMod.natCast_zmod_val, affPt_enc]
  simp only [hintOuts, hE, List.range_succ, List.range_zero, List.nil_append, List.map_cons,
    List.map_nil, List.cons_append, List.getD_cons_zero, List.getD_cons_succ, idx, List.getElem?_cons_zero,
    List.getElem?_cons_succ, Circ.pure_run, asBigInt]
  obtain ⟨p, hp⟩ := (C21_msm P k ((((0 : ℕ) : ℤ) % rMod : ℤ), (((1 : ℕ) : ℤ) % rMod : ℤ)) E { s with hints := s.hints ++ [.msmHint] }).2 (by
    rw [h0, enc_zero]
    rintro ⟨-, h⟩
    revert h
    decide +kernel)
  exact ⟨p, by rw [hp]⟩

-- (1,2) + (1,2) is accepted and is the point; (1,2) + (1,-2) and 0·(1,2) panic
example (s : St) : (∃ res s', CalcVerifyBN256Add1 (.big (enc G1gen).1.val) (.big (enc G1gen).2.val) (.big (enc G1gen).1.val)
      (.big (enc G1gen).2.val) (honestTest exX true) s = .ok ((res, none), s') ∧
      res = (.big (enc (G1gen + G1gen)).1.val, .big (enc (G1gen + G1gen)).2.val)) ∧
    (∃ p, CalcVerifyBN256Add1 (.big (enc G1gen).1.val) (.big (enc G1gen).2.val) (.big (enc (-G1gen)).1.val)
      (.big (enc (-G1gen)).2.val) (honestTest exX true) s = .error p) ∧
    ∃ p, CalcVerifyBN256Msm1 (.big (enc G1gen).1.val) (.big (enc G1gen).2.val) (.big 0) (honestTest exX true) s = .error p := by
  refine ⟨?_, C50_add1_infinity (E := honestTest exX true) (P := G1gen) (Q := -G1gen) rfl (fun _ _ _ => rfl) (add_neg_cancel _) rfl rfl rfl rfl s,
    C50_msm1_infinity (E := honestTest exX true) (P := G1gen) (k := 0) rfl (fun _ _ _ => rfl) (zero_zsmul _) rfl rfl rfl s⟩
  obtain ⟨s', h, -⟩ := C50_add1_honest (E := honestTest exX true) rfl (fun _ _ _ => rfl) (P := G1gen) (Q := G1gen)
    (fun h => gen_ne_zero (no_two_torsion _ h)) rfl rfl rfl rfl s
  have e : encN (G1gen + G1gen) = (1368015179489954701390400359078579693043519447331113978918064868415326638035,
    9918110051302171585080402603319702774565515993150576347155970296011118125764) := by
    rw [← addN_encN, encN_gen]; decide +kernel
  have k1 : (enc (G1gen + G1gen)).1.val = _ := congrArg Prod.fst e
  have k2 : (enc (G1gen + G1gen)).2.val = _ := congrArg Prod.snd e
  have si (x : Fp) : setInterface (.big x.val) = some x := by simp [setInterface]
  exact ⟨_, s', h, C50_add1_partial rfl (si _) (si _) (si _) (si _) (by rw [k1]; decide +kernel) (by rw [k2]; decide +kernel) h⟩

/-! ### C51 -/

/-- C51: the on-curve circuit on integer constants is accepted exactly for solutions of the curve equation and (0, 0),
modulo p, in either engine. -/
theorem C51_check {c : CheckOnCurveCircuit} {x y : ℤ} (hx : IsConst c.x x) (hy : IsConst c.y y) {E : Engine} {s : St}
    (hs : s.sat = true) :
    c.Define.Accepted E s ↔ ((pMod : ℤ) ∣ y ^ 2 - (x ^ 3 + 3) ∨ ((pMod : ℤ) ∣ x ∧ (pMod : ℤ) ∣ y)) := by
  obtain ⟨e, h, he⟩ := C12_check hx hy E s
  rw [← he]
  constructor
  · rintro ⟨s', h', -⟩
    have := h.symm.trans h'
    cases this; rfl
  · rintro rfl
    exact ⟨s, h, hs⟩

/-- C51: compiled with a circuit variable, the on-curve circuit panics. -/
theorem C51_check_wire {c : CheckOnCurveCircuit} (h : c.x.isWire = true ∨ c.y.isWire = true) (E : Engine) (s : St) :
    ∃ p, c.Define E s = .error p := C12_wire_panics (h.imp_right .inl) E s

/-- C51: the other on-curve circuit, whose inputs are meant to be circuit variables, accepts every pair of circuit
variables: it checks nothing. -/
theorem C51_checkVar_false (x y : Fr) (E : Engine) {s : St} (hs : s.sat = true) :
    (CheckOnCurveCircuitVar.Define ⟨.wire x, .wire y⟩).Accepted E s := ⟨s, C13_false x y E s, hs⟩

/-- C51: the multi-scalar-multiplication circuit on points in general position is accepted iff the expected point is
the sum. -/
theorem C51_msm {X : Ext} (hX : X.Lawful) {Ps : List G1} {ss : List Fr} (hne : Ps ≠ []) (hd : MsmDomain Ps ss)
    (R : Aff) (E : Engine) {s : St} (hs : s.sat = true) :
    ((MultiScalarMulC.mk (Ps.map enc) ss R).Define X).Accepted E s ↔ R = enc (List.zipWith (fun s P => s • P) ss Ps).sum :=
  C44_msm hX hne hd R E hs

example : (CheckOnCurveCircuit.Define ⟨.big 1, .big 2⟩).Accepted exComp .init :=
  (C51_check (.big 1) (.big 2) rfl).2 (.inl (by norm_num))

example : ¬ (CheckOnCurveCircuit.Define ⟨.big 1, .big 3⟩).Accepted exComp .init := by
  rw [C51_check (.big 1) (.big 3) rfl]
  decide +kernel

end Verif
