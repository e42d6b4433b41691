/- Towards completeness: the sum of the terms, the aux witness, and the run of the steps to their end. -/
import Verif.Lemmas.Steps3
import Verif.Props.Soundness

namespace Verif
open Halo2

theorem partialSum_all (l : List (Fr × G1)) : partialSum l l.length = (l.map fun p => p.1 • p.2).sum := by
  rw [partialSum, List.take_length]

theorem permSet_weight {c : Challenges} {C : Commitments} {e : Evals} (hd : vanish (points c.x [2, -1]) c.u ≠ 0) :
    (permSet C e).weight c = 1 := by
  have h : (permSet C e).weight c = vanish (points c.x [2, -1]) c.u / vanish (points c.x [2, -1]) c.u := rfl
  rw [h, div_self hd]

theorem termList_sum (y v wi ws wn ww R cW u xn : Fr) (I : G1) (p : ℕ → G1) :
    ((termList y v wi ws wn ww R cW u xn (.ofProof I p)).map fun q => q.1 • q.2).sum =
      (v ^ 4 • (y ^ 2 • p 24 + y • p 26 + p 28) + (v ^ 3 * wi) • (y • p 16 + p 20) +
      (v ^ 2 * ws) • (y ^ 29 • I + y ^ 28 • p 0 + y ^ 27 • p 2 + y ^ 26 • p 4 + y ^ 25 • p 6 + y ^ 24 • p 10 + y ^ 23 • p 18 + y ^ 22 • p 22
        + y ^ 21 • vkFixed 0 + y ^ 20 • vkFixed 1 + y ^ 19 • vkFixed 2 + y ^ 18 • vkFixed 3 + y ^ 17 • vkFixed 4 + y ^ 16 • vkFixed 5 + y ^ 15 • vkFixed 6 + y ^ 14 • vkFixed 7 + y ^ 13 • vkFixed 8 + y ^ 12 • vkFixed 9 + y ^ 11 • vkFixed 10 + y ^ 10 • vkFixed 11 + y ^ 9 • vkFixed 12
        + y ^ 8 • vkSigma 0 + y ^ 7 • vkSigma 1 + y ^ 6 • vkSigma 2 + y ^ 5 • vkSigma 3 + y ^ 4 • vkSigma 4 + y ^ 3 • vkSigma 5 + y ^ 2 • vkSigma 6
        + y • (p 38 + xn • p 40 + xn ^ 2 • p 42) + p 36) +
      (v * wn) • (y ^ 3 • p 8 + y ^ 2 • p 30 + y • p 32 + p 34) + ww • (y • p 12 + p 14)) - R • G1gen + cW • p 100 + u • p 102 := by
  have := Eqs.acc_aux y v wi ws wn ww R cW u xn p vkFixed vkSigma I G1gen
  rw [pow_zero, mul_one] at this
  exact this

theorem hCommitment_eq (c : Challenges) (I : G1) (p : ℕ → G1) {xn : Fr} (h : c.x ^ n = xn) :
    hCommitment c (.ofProof I p) = p 38 + xn • p 40 + xn ^ 2 • p 42 := by
  have h0 : (Commitments.ofProof I p).h 0 = p 38 := rfl
  have h1 : (Commitments.ofProof I p).h 1 = p 40 := rfl
  have h2 : (Commitments.ofProof I p).h 2 = p 42 := rfl
  unfold hCommitment
  rw [h0, h1, h2, h]

theorem five_gen (v u : Fr) (w r : RotSet → Fr) (cm : RotSet → G1) {l : List RotSet} {S0 S1 S2 S3 S4 : RotSet} (hl : l = [S0, S1, S2, S3, S4])
    (h0 : w S0 = 1) (W W' : G1) (vn : Fr) :
    l.foldl (fun acc S => v • acc + w S • (cm S - r S • G1gen)) 0 - vn • W + u • W' =
      (v ^ 4 • cm S0 + (v ^ 3 * w S1) • cm S1 + (v ^ 2 * w S2) • cm S2 + (v * w S3) • cm S3 + w S4 • cm S4) -
      combine v (l.map fun S => w S * r S) • G1gen + (-vn) • W + u • W' := by
  subst hl
  rw [five, h0, mul_one, Eqs.final_aux]
theorem opening_expand (c : Challenges) (C : Commitments) (e : Evals) (h : Fr)
    (hd : (permSet C e).weight c = 1) : opening c C e h =
      (c.v ^ 4 • (permSet C e).commitment c + (c.v ^ 3 * (inputSet C e).weight c) • (inputSet C e).commitment c +
        (c.v ^ 2 * (singleSet c C e h).weight c) • (singleSet c C e h).commitment c +
        (c.v * (nextSet C e).weight c) • (nextSet C e).commitment c +
        (nextNextSet C e).weight c • (nextNextSet C e).commitment c) -
      combine c.v ((rotSets c C e h).map fun S => S.weight c * S.value c) • G1gen +
      (-vanish (points c.x firstRots) c.u) • C.W + c.u • C.W' := by
  have hr : rotSets c C e h = [permSet C e, inputSet C e, singleSet c C e h, nextSet C e, nextNextSet C e] := by
    unfold rotSets; rfl
  unfold opening
  generalize vanish (points c.x firstRots) c.u = vn
  generalize rotSets c C e h = l at hr ⊢
  generalize permSet C e = S0 at *
  generalize inputSet C e = S1 at *
  generalize singleSet c C e h = S2 at *
  generalize nextSet C e = S3 at *
  generalize nextNextSet C e = S4 at *
  obtain ⟨w, hw⟩ : ∃ w : RotSet → Fr, ∀ S, S.weight c = w S := ⟨_, fun _ => rfl⟩
  simp only [hw] at hd ⊢
  clear hw
  obtain ⟨r, hr'⟩ : ∃ w : RotSet → Fr, ∀ S, S.value c = w S := ⟨_, fun _ => rfl⟩
  simp only [hr'] at hd ⊢
  clear hr'
  obtain ⟨cm, hc⟩ : ∃ w : RotSet → G1, ∀ S, S.commitment c = w S := ⟨_, fun _ => rfl⟩
  simp only [hc] at hd ⊢
  exact five_gen c.v c.u w r cm hr hd _ _ _

theorem sum_aux (c : Challenges) (I : G1) (p : ℕ → G1) (e : Evals) (h : Fr) (z1 zx z3 z4 R cW xn : Fr) (hxn : c.x ^ n = xn) :
    ((termList c.y' c.v z1 zx z3 z4 R cW c.u xn (.ofProof I p)).map fun q => q.1 • q.2).sum =
      (c.v ^ 4 • (permSet (.ofProof I p) e).commitment c + (c.v ^ 3 * z1) • (inputSet (.ofProof I p) e).commitment c +
        (c.v ^ 2 * zx) • (singleSet c (.ofProof I p) e h).commitment c +
        (c.v * z3) • (nextSet (.ofProof I p) e).commitment c +
        z4 • (nextNextSet (.ofProof I p) e).commitment c) -
      R • G1gen + cW • (Commitments.ofProof I p).W + c.u • (Commitments.ofProof I p).W' := by
  rw [termList_sum, Eqs.comm_perm, Eqs.comm_input, Eqs.comm_single, Eqs.comm_next, Eqs.comm_nextNext,
    hCommitment_eq c I p hxn]
  rfl

/-- The 46 terms sum to the opening. -/
theorem sum_openingTerms (c : Challenges) (I : G1) (p : ℕ → G1) (e : Evals) (h : Fr)
    (hd : vanish (points c.x [2, -1]) c.u ≠ 0) :
    ((openingTerms c (.ofProof I p) e h).map fun p => p.1 • p.2).sum = opening c (.ofProof I p) e h := by
  rw [opening_expand c _ e h (permSet_weight hd)]
  unfold openingTerms
  rw [sum_aux c I p e h _ _ _ _ _ _ _ rfl]

/-- With honest hints and in general position the three steps run to their end, and hand over the opening and W'. -/
theorem steps_end {X : Ext} {E : Engine} {R : Var → Var → G1 → Prop} {M : Fr → G1 → Prop} {S : G1 → Prop} {T A B : List Var} {I : G1}
    (h : StepsOk X E R M S T A B I) {s : St} (hs : s.sat = true) :
    ∃ B1 B2 B3 s1 s2 s3, VerifyProof1 X T A B E s = .ok ((B1, none), s1) ∧ VerifyProof2 X T A B1 E s1 = .ok ((B2, none), s2) ∧
      VerifyProof3 X T A B2 E s2 = .ok ((B3, none), s3) ∧ s3.sat = true ∧ B3.length = 43 ∧
      PtExact (B3.getD 10 .nil) (B3.getD 11 .nil) (proofPoint T 102) ∧
      PtExact (B3.getD 12 .nil) (B3.getD 13 .nil) (opening (challengesOf (frAt B)) (.ofProof I (proofPoint T))
        (.ofProof (frAt T)) (frAt A 16)) ∧
      S (opening (challengesOf (frAt B)) (.ofProof I (proofPoint T)) (.ofProof (frAt T)) (frAt A 16)) := by
  obtain ⟨B1, s1, h1, k1, -⟩ := steps_progress h hs 99 (by norm_num)
  obtain ⟨B2, s2, h2, k2, -⟩ := steps_progress h hs 234 (by norm_num)
  obtain ⟨B3, s3, h3, k3, -⟩ := steps_progress h hs 301 (by norm_num)
  rw [take1] at h1
  have g2 : execBody X T A B1 step2 E s1 = .ok ((B2, none), s2) := by
    rw [take2, execBody_append _ h1] at h2; exact h2
  have g3 : execBody X T A B2 step3 E s2 = .ok ((B3, none), s3) := by
    rw [take2] at h2
    rw [take3, execBody_append _ h2] at h3; exact h3
  refine ⟨B1, B2, B3, s1, s2, s3, h1, g2, g3, k3, ?_⟩
  have hd : vanish (points (challengesOf (frAt B)).x [2, -1]) (challengesOf (frAt B)).u ≠ 0 := left_ne_zero_of_mul_eq_one h.aux.i8
  obtain ⟨-, bufs, hb0, -, hlen, H, hl⟩ := prefix_run h.ecc.test (by norm_num) h.len h3 k3
  subst hb0
  have hsum := sum_openingTerms (challengesOf (frAt (bufs 0))) I (proofPoint T) (.ofProof (frAt T)) (frAt A 16) hd
  rw [← partialSum_all] at hsum
  have hlen46 : (openingTerms (challengesOf (frAt (bufs 0))) (.ofProof I (proofPoint T)) (.ofProof (frAt T)) (frAt A 16)).length = 46 := by
    unfold openingTerms; exact termList_length ..
  rw [hlen46] at hsum
  have hrep := h.sums 46 (by norm_num) le_rfl
  have heq := termsOf_eq (I := I) H.fr (by norm_num)
  have hacc := acc_exact h.ecc.lawful H (fun i hi => h.ecc.res _ _ _ (h.points i hi)) h.inst h.u 45 (by norm_num) (by decide) (by
    rw [heq]
    exact fun j hj => h.ecc.val _ _ (h.muls _ (getD_mem (by omega))))
  rw [heq] at hacc
  have hfin : PtExact ((bufs 301).getD 12 .nil) ((bufs 301).getD 13 .nil) (partialSum (openingTerms (challengesOf (frAt (bufs 0)))
    (.ofProof I (proofPoint T)) (.ofProof (frAt T)) (frAt A 16)) 46) := hacc
  rw [hsum] at hfin hrep
  refine ⟨hlen, ?_, ?_, hrep⟩
  · have e10 := hl 10
    have e11 := hl 11
    rw [show (ssaFrom 0 (List.replicate 43 0) (prog.take 301)).2.getD 10 0 = 3 by decide +kernel] at e10
    rw [show (ssaFrom 0 (List.replicate 43 0) (prog.take 301)).2.getD 11 0 = 3 by decide +kernel] at e11
    rw [e10, e11]
    have e12 : (bufs 2).getD 12 .nil = .big 1 := by
      have h2 : (SStmt.set [12] [.str 1]).Holds X T A (fun j i => (bufs j).getD i .nil) 1 := H 1 (by omega)
      cases h2 with
      | cons h _ => exact h.shape
    have hp : R ((bufs 1).getD 10 .nil) ((bufs 1).getD 11 .nil) (proofPoint T 102) := by
      have h1 : (SStmt.set [10, 11] [.tr 102, .tr 103]).Holds X T A (fun j i => (bufs j).getD i .nil) 0 := H 0 (by omega)
      have := h.points 102 (by decide)
      cases h1 with
      | cons h1 h2 => cases h2 with
        | cons h3 _ =>
          rw [getD_some h1.shape, getD_some h3.shape] at this
          exact this
    have hm := mul_exact (β := fun j i => (bufs j).getD i .nil) (o := 10) (jx := 1) (jk := 2) (k := 2)
      (p := (1, proofPoint T 102)) (H 2 (by norm_num)) ⟨h.ecc.res _ _ _ hp, by
        beta_reduce
        rw [e12, ZMod.val_one]; rfl⟩ (h.ecc.val _ _ h.wrep)
    rw [one_smul] at hm
    exact hm
  · have e12 := hl 12
    have e13 := hl 13
    rw [show (ssaFrom 0 (List.replicate 43 0) (prog.take 301)).2.getD 12 0 = 301 by decide +kernel] at e12
    rw [show (ssaFrom 0 (List.replicate 43 0) (prog.take 301)).2.getD 13 0 = 301 by decide +kernel] at e13
    rw [e12, e13]
    exact hfin

theorem PtExact.const {v w : Var} {P : G1} (h : PtExact v w P) : ConstPair v w (enc P) := by
  refine ⟨_, _, .inl h.1, .inl h.2, ?_⟩
  rw [Int.cast_natCast, Int.cast_natCast, ZMod.natCast_zmod_val, ZMod.natCast_zmod_val]

/-- The final check succeeds on two finite points that satisfy the pairing equation. -/
theorem finalCheck_run {X : Ext} {B : List Var} {P Q : G1} (hP : PtExact (B.getD 10 .nil) (B.getD 11 .nil) P)
    (hQ : PtExact (B.getD 12 .nil) (B.getD 13 .nil) Q) (hl : 13 < B.length) (hP0 : P ≠ 0) (hQ0 : Q ≠ 0)
    (hpair : X.pairing [enc P, enc Q] [g20, g21] = true) (E : Engine) (s : St) : finalCheck X B E s = .ok (none, s) := by
  obtain ⟨p1, p2⟩ := (C45_no_zero_coordinate P).1 hP0
  obtain ⟨q1, q2⟩ := (C45_no_zero_coordinate Q).1 hQ0
  obtain ⟨p3, p4⟩ := C45_no_r_coordinate P
  obtain ⟨q3, q4⟩ := C45_no_r_coordinate Q
  have n1 := notZero_coord _ p3 E s
  have n2 := notZero_coord _ p4 E s
  have n3 := notZero_coord _ q3 E s
  have n4 := notZero_coord _ q4 E s
  rw [if_pos p1] at n1
  rw [if_pos p2] at n2
  rw [if_pos q1] at n3
  rw [if_pos q2] at n4
  have hf := (C41_fillG1 ⟨[], []⟩ ⟨[enc P, enc Q], []⟩ _ _ _ _ E s s).2 ⟨rfl, _, _, hP.const, hQ.const, validEnc_enc P, validEnc_enc Q, rfl⟩
  have i10 := (idx_at (E := E) (show 10 < B.length by omega) s).trans (by rw [hP.1])
  have i11 := (idx_at (E := E) (show 11 < B.length by omega) s).trans (by rw [hP.2])
  have i12 := (idx_at (E := E) (show 12 < B.length by omega) s).trans (by rw [hQ.1])
  have i13 := (idx_at (E := E) hl s).trans (by rw [hQ.2])
  rw [hP.1, hP.2, hQ.1, hQ.2] at hf
  unfold finalCheck
  rw [Circ.bind_run, i10]
  simp only []
  rw [Circ.bind_run, n1]
  simp only []
  rw [Circ.bind_run, i11]
  simp only []
  rw [Circ.bind_run, n2]
  simp only []
  rw [Circ.bind_run, i12]
  simp only []
  rw [Circ.bind_run, n3]
  simp only []
  rw [Circ.bind_run, i13]
  simp only []
  rw [Circ.bind_run, n4]
  simp only []
  rw [Circ.bind_run, hf]
  simp only []
  rw [Circ.bind_run, C41_fillG2]
  simp only []
  unfold VerifyBN256Pairing
  rw [if_neg (by simp), hpair]
  simp only [Circ.bind_run, gadget_true]
  rfl

/-! ### The aux witness -/

theorem ω_zpow_ne {i j : ℤ} (h : i ≠ j) (h1 : |i - j| < 10) : (ω : Fr) ^ i ≠ ω ^ j := by
  intro he
  have hω : ω ≠ 0 := ω_primitive.ne_zero (by decide)
  have h2 : ω ^ (i - j) = 1 := by rw [zpow_sub₀ hω, he, div_self (zpow_ne_zero _ hω)]
  rw [ω_primitive.zpow_eq_one_iff_dvd] at h2
  have h3 : (10 : ℤ) < n := by exact_mod_cast (show 10 < n by decide)
  have h4 := Int.eq_zero_of_abs_lt_dvd h2 (h1.trans h3)
  omega

theorem rot_ne {x : Fr} (hx : x ≠ 0) {i j : ℤ} (h : (ω : Fr) ^ i ≠ ω ^ j) : ω ^ i * x - ω ^ j * x ≠ 0 := by
  rw [← sub_mul]
  exact mul_ne_zero (sub_ne_zero.2 h) hx

/-- The relations for an explicit list. -/
theorem aux_of_list {c : Challenges} {e : Evals} {a0 a1 a2 a3 a4 a5 a6 a7 a8 a9 a10 a11 a12 a13 a14 a15 a16 a17 a18 a19 a20 : Fr}
    (i0 : (ω ^ (-6 : ℤ) * c.x - c.x) * a0 = 1)
    (i1 : (ω ^ (-6 : ℤ) * c.x - ω * c.x) * a1 = 1)
    (i2 : (c.x - ω ^ (-6 : ℤ) * c.x) * a2 = 1)
    (i3 : (c.x - ω * c.x) * a3 = 1)
    (i4 : (ω * c.x - ω ^ (-6 : ℤ) * c.x) * a4 = 1)
    (i5 : (ω * c.x - c.x) * a5 = 1)
    (i6 : (ω ^ (-1 : ℤ) * c.x - c.x) * a6 = 1)
    (i7 : (c.x - ω ^ (-1 : ℤ) * c.x) * a7 = 1)
    (i8 : vanish (points c.x [2, -1]) c.u * a8 = 1)
    (l0 : a9 = lagrange 0 c.x) (l6 : a10 = lagrange (n - 6) c.x) (l5 : a11 = lagrange (n - 5) c.x)
    (l4 : a12 = lagrange (n - 4) c.x) (l3 : a13 = lagrange (n - 3) c.x) (l2 : a14 = lagrange (n - 2) c.x)
    (l1 : a15 = lagrange (n - 1) c.x) (q : QuotientIdentity c (.at c.x) e a16)
    (i17 : (c.x - ω ^ (2 : ℤ) * c.x) * a17 = 1)
    (i18 : (ω * c.x - ω ^ (2 : ℤ) * c.x) * a18 = 1)
    (i19 : (ω ^ (2 : ℤ) * c.x - c.x) * a19 = 1)
    (i20 : (ω ^ (2 : ℤ) * c.x - ω * c.x) * a20 = 1) :
    AuxRelations c e fun i => [a0, a1, a2, a3, a4, a5, a6, a7, a8, a9, a10, a11, a12, a13, a14, a15, a16, a17, a18, a19, a20].getD i 0 := by
  have hL : ∀ k : ℕ, 1 ≤ k → k ≤ 6 → (lagrangeOf fun i => [a0, a1, a2, a3, a4, a5, a6, a7, a8, a9, a10, a11, a12, a13, a14, a15, a16, a17, a18, a19, a20].getD i 0).neg k = lagrange (n - k) c.x := by
    intro k k1 k6
    obtain rfl | rfl | rfl | rfl | rfl | rfl : k = 1 ∨ k = 2 ∨ k = 3 ∨ k = 4 ∨ k = 5 ∨ k = 6 := by omega
    · exact l1
    · exact l2
    · exact l3
    · exact l4
    · exact l5
    · exact l6
  refine ⟨i0, i1, i2, i3, i4, i5, i6, i7, i8, ⟨?_, fun k k1 k6 => ?_⟩, ?_, i17, i18, i19, i20⟩
  · have := lagrange_mul 0 (by decide) c.x
    rw [pow_zero, ← l0] at this
    exact this
  · have := lagrange_mul (n - k) (Nat.sub_lt (by decide) (by omega)) c.x
    rw [← ω_zpow_neg (k6.trans (by decide)), ← hL k k1 k6] at this
    exact this
  · exact q.congr (L' := lagrangeOf fun i => [a0, a1, a2, a3, a4, a5, a6, a7, a8, a9, a10, a11, a12, a13, a14, a15, a16, a17, a18, a19, a20].getD i 0) l0.symm fun k k1 k6 => (hL k k1 k6).symm

/-- The specified values satisfy the relations, outside the domain. -/
theorem auxValues_relations {c : Challenges} (e : Evals) (hx : c.x ≠ 0) (hn : ∀ i < n, c.x ≠ ω ^ i)
    (hd : vanish (points c.x [2, -1]) c.u ≠ 0) : AuxRelations c e fun i => (auxValues c e).getD i 0 := by
  have hne : c.x ^ n - 1 ≠ 0 := by
    rw [sub_ne_zero]
    intro h
    obtain ⟨i, hi, he⟩ := (domain_iff _).2 h
    exact hn i hi he
  have r1 : ∀ {j : ℤ}, (ω : Fr) ^ (0 : ℤ) ≠ ω ^ j → c.x - ω ^ j * c.x ≠ 0 := fun h => by
    have := rot_ne hx h
    rwa [zpow_zero, one_mul] at this
  have r2 : ∀ {j : ℤ}, (ω : Fr) ^ j ≠ ω ^ (0 : ℤ) → ω ^ j * c.x - c.x ≠ 0 := fun h => by
    have := rot_ne hx h
    rwa [zpow_zero, one_mul] at this
  have r3 : ∀ {j : ℤ}, (ω : Fr) ^ (1 : ℤ) ≠ ω ^ j → ω * c.x - ω ^ j * c.x ≠ 0 := fun h => by
    have := rot_ne hx h
    rwa [zpow_one] at this
  have r4 : ∀ {j : ℤ}, (ω : Fr) ^ j ≠ ω ^ (1 : ℤ) → ω ^ j * c.x - ω * c.x ≠ 0 := fun h => by
    have := rot_ne hx h
    rwa [zpow_one] at this
  have r5 : c.x - ω * c.x ≠ 0 := by
    have := r1 (j := 1) (ω_zpow_ne (by norm_num) (by norm_num))
    rwa [zpow_one] at this
  have r6 : ω * c.x - c.x ≠ 0 := by
    have := r2 (j := 1) (ω_zpow_ne (by norm_num) (by norm_num))
    rwa [zpow_one] at this
  have hq : QuotientIdentity c (.at c.x) e (quotientValue c e) := by
    unfold QuotientIdentity quotientValue
    exact div_mul_cancel₀ _ hne
  unfold auxValues
  exact aux_of_list
    (mul_inv_cancel₀ (r2 (ω_zpow_ne (by norm_num) (by norm_num))))
    (mul_inv_cancel₀ (r4 (ω_zpow_ne (by norm_num) (by norm_num))))
    (mul_inv_cancel₀ (r1 (ω_zpow_ne (by norm_num) (by norm_num))))
    (mul_inv_cancel₀ r5)
    (mul_inv_cancel₀ (r3 (ω_zpow_ne (by norm_num) (by norm_num))))
    (mul_inv_cancel₀ r6)
    (mul_inv_cancel₀ (r2 (ω_zpow_ne (by norm_num) (by norm_num))))
    (mul_inv_cancel₀ (r1 (ω_zpow_ne (by norm_num) (by norm_num))))
    (mul_inv_cancel₀ hd) rfl rfl rfl rfl rfl rfl rfl hq
    (mul_inv_cancel₀ (r1 (ω_zpow_ne (by norm_num) (by norm_num))))
    (mul_inv_cancel₀ (r3 (ω_zpow_ne (by norm_num) (by norm_num))))
    (mul_inv_cancel₀ (r2 (ω_zpow_ne (by norm_num) (by norm_num))))
    (mul_inv_cancel₀ (r4 (ω_zpow_ne (by norm_num) (by norm_num))))

end Verif
