/- From an accepted run of `Define` to the verifier's equations. -/
import Verif.Lemmas.Define
import Verif.Spec.Verifier

namespace Verif
open Halo2

theorem execBody_snoc {X : Ext} {T A : List Var} {E : Engine} {st : Stmt} : ∀ (P : List Stmt) {B B' : List Var}
    {s s' : St}, execBody X T A B (P ++ [st]) E s = .ok ((B', none), s') →
    ∃ B1 s1, execBody X T A B P E s = .ok ((B1, none), s1) ∧ st.exec X T A B1 E s1 = .ok ((none, B'), s')
  | [], B, B', s, s', h => by
    rw [List.nil_append, execBody, Circ.bind_ok] at h
    obtain ⟨⟨e, B1⟩, s1, h1, h⟩ := h
    cases e with
    | some m => cases h
    | none =>
      cases h
      exact ⟨B, s, rfl, h1⟩
  | st' :: P, B, B', s, s', h => by
    rw [List.cons_append, execBody, Circ.bind_ok] at h
    obtain ⟨⟨e, B1⟩, s1, h1, h⟩ := h
    cases e with
    | some m => cases h
    | none =>
      obtain ⟨B2, s2, h2, h3⟩ := execBody_snoc P h
      refine ⟨B2, s2, ?_, h3⟩
      rw [execBody, Circ.bind_ok]
      exact ⟨_, _, h1, h2⟩

/-- In test mode an elliptic-curve sum is stored as canonical integers. -/
theorem ecc_mul_add_canon {X : Ext} {B B' : List Var} {o : ℕ} {E : Engine} (hE : E.mode = .test) {s s' : St}
    (h : ecc_mul_add X B o E s = .ok ((none, B'), s')) : (B'.getD o .nil).Canon ∧ (B'.getD (o + 1) .nil).Canon := by
  simp only [ecc_mul_add, Circ.bind_ok] at h
  obtain ⟨⟨err, B1⟩, s1, h1, h⟩ := h
  cases err with
  | some m => cases h
  | none =>
    simp only [Circ.bind_ok, idx_ok, setIdx_ok] at h
    obtain ⟨a, _, -, b, _, -, c, _, -, d, _, -, ⟨res, e⟩, s2, h2, b1, _, ⟨l1, rfl, rfl⟩, b2, _, ⟨l2, rfl, rfl⟩, h⟩ := h
    cases h
    simp only [CalcVerifyBN256Add, Circ.bind_ok, idx_ok] at h2
    obtain ⟨rs, _, -, r0, _, -, e0, _, m1, r1, _, -, e1, _, m2, err, _, -, h5⟩ := h2
    cases h5
    have k1 := (mod_ok m1).2.2.2.1 hE
    have k2 := (mod_ok m2).2.2.2.1 hE
    rw [List.length_set] at l2
    rw [List.getD_eq_getElem?_getD, List.getD_eq_getElem?_getD, List.getElem?_set_ne (by omega),
      List.getElem?_set_self l1, List.getElem?_set_self (by rwa [List.length_set])]
    exact ⟨k1, k2⟩

theorem step3_last {X : Ext} {T A B B' : List Var} {E : Engine} (hE : E.mode = .test) {s s' : St}
    (h : VerifyProof3 X T A B E s = .ok ((B', none), s')) : (B'.getD 12 .nil).Canon ∧ (B'.getD 13 .nil).Canon := by
  have e : step3 = step3.dropLast ++ [.eccMulAdd 12] := by decide +kernel
  unfold VerifyProof3 at h
  rw [e] at h
  obtain ⟨B1, s1, -, h1⟩ := execBody_snoc _ h
  exact ecc_mul_add_canon hE h1

theorem slot10_canon {X : Ext} {T A B B1 B2 B3 : List Var} {E : Engine} (hE : E.mode = .test)
    {s s1 s2 s3 : St} (hB : B.length = 43) (h1 : VerifyProof1 X T A B E s = .ok ((B1, none), s1))
    (h2 : VerifyProof2 X T A B1 E s1 = .ok ((B2, none), s2)) (h3 : VerifyProof3 X T A B2 E s2 = .ok ((B3, none), s3))
    (hs : s3.sat = true) : (B3.getD 10 .nil).Canon := by
  obtain ⟨-, bufs, hb0, -, -, H, hl⟩ := prefix_run hE (by norm_num) hB (run3 h1 h2 h3) hs
  have e10 := hl 10
  rw [show (ssaFrom 0 (List.replicate 43 0) (prog.take 301)).2.getD 10 0 = 3 by decide +kernel] at e10
  rw [e10]
  obtain ⟨px, py, kk, n, m, -, -, -, n0, n1, -, -, -, r1, -⟩ := H 2 (by norm_num)
  exact ⟨n, r1, n0, n1⟩

theorem PtAt.unique {v w : Var} {P Q : G1} (h : PtAt v w P) (h' : PtAt v w Q) : P = Q := by
  rw [← h.ptVar, ← h'.ptVar]

theorem PtAt.of_const {v w : Var} {a : Aff} (h : ConstPair v w a) {P : G1} (hP : PtAt v w P) : a = enc P := by
  obtain ⟨x, y, h1, h2, h3⟩ := hP
  obtain ⟨g1, g2⟩ := constPair_iff.1 h
  rw [h1, Option.some.injEq] at g1
  rw [h2, Option.some.injEq] at g2
  rw [h3, g1, g2]

/-- A point whose stored first coordinate is an integer in [1, p) is not infinity. -/
theorem PtAt.ne_zero {v w : Var} {P : G1} (h : PtAt v w P) {n : ℤ} (hv : v = .big n) (h0 : 1 ≤ n) (h1 : n < pMod) :
    P ≠ 0 := by
  rintro rfl
  obtain ⟨x, y, q1, -, q3⟩ := h
  rw [enc_zero, Prod.mk.injEq] at q3
  subst hv
  rw [setInterface, Option.some.injEq, ← q3.1] at q1
  have := (ZMod.intCast_zmod_eq_zero_iff_dvd n pMod).1 q1
  have := Int.le_of_dvd (by omega) this
  omega

theorem Var.Canon.pos {v : Var} (h : v.Canon) {E : Engine} {m : ℤ} (hm : toBig E v = some m) (h1 : 1 ≤ m) :
    ∃ n : ℤ, v = .big n ∧ 1 ≤ n ∧ n < pMod := by
  obtain ⟨n, rfl, n0, n1⟩ := h
  have hn : n % rMod = n := Int.emod_eq_of_lt n0 n1
  have : m = n := by
    simp only [toBig, hn, ite_self, Option.some.injEq] at hm
    exact hm.symm
  refine ⟨n, rfl, by omega, n1.trans ?_⟩
  exact_mod_cast rMod_lt_pMod

theorem canonical_pos {n : ℤ} (h0 : 0 ≤ n) {E : Engine} {m : ℤ} (hm : toBig E (.big n) = some m) (h1 : 1 ≤ m) : 1 ≤ n := by
  by_contra hc
  have : n = 0 := by omega
  subst this
  simp only [toBig, Int.zero_emod, ite_self, Option.some.injEq] at hm
  omega

theorem vkInstance_enc : enc vkInstance = (((lagrangeX : ℕ) : Fp), ((lagrangeY : ℕ) : Fp)) :=
  enc_dec (c := (((lagrangeX : ℕ) : Fp), ((lagrangeY : ℕ) : Fp))) (.inl (by decide +kernel))

/-- The challenges read back from the buffer. -/
theorem challenges_read {B0 : List Var} {d : List ℕ} (hd : d.length = 8)
    (h : ∀ i (hi : i < 8), B0[2 + i]? = some (.big ((d[i]'(by omega) : ℤ) % rMod))) :
    challengesOf (frAt B0) = Challenges.ofDigests d := by
  have key : ∀ i, i < 8 → frAt B0 (2 + i) = ((d.getD i 0 : ℕ) : Fr) := by
    intro i hi
    have h1 := h i hi
    rw [frAt, getD_some h1, List.getD_eq_getElem?_getD, List.getElem?_eq_getElem (by omega), Option.getD_some]
    simp only [Var.fr]
    rw [ZMod.intCast_mod]
    exact Int.cast_natCast _
  have k0 := key 0 (by norm_num)
  have k1 := key 1 (by norm_num)
  have k2 := key 2 (by norm_num)
  have k3 := key 3 (by norm_num)
  have k4 := key 4 (by norm_num)
  have k5 := key 5 (by norm_num)
  have k6 := key 6 (by norm_num)
  have k7 := key 7 (by norm_num)
  simp only [challengesOf, Challenges.ofDigests]
  rw [← k0, ← k1, ← k2, ← k3, ← k4, ← k5, ← k6, ← k7]

end Verif
