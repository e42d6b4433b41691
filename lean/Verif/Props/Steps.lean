/- Properties C30–C33: what accepted runs of the verification steps establish. Concrete cases that meet the hypotheses: Verif/Props/Instances.lean. -/
import Verif.Lemmas.Shplonk
import Verif.Model.Define
import Verif.Props.Transcript

namespace Verif
open Halo2

/-! ### Running the steps one after the other -/

theorem run1 {X : Ext} {T A B B1 : List Var} {E : Engine} {s s1 : St}
    (h1 : VerifyProof1 X T A B E s = .ok ((B1, none), s1)) :
    execBody X T A B (prog.take 99) E s = .ok ((B1, none), s1) := by rw [take1]; exact h1

theorem run2 {X : Ext} {T A B B1 B2 : List Var} {E : Engine} {s s1 s2 : St}
    (h1 : VerifyProof1 X T A B E s = .ok ((B1, none), s1)) (h2 : VerifyProof2 X T A B1 E s1 = .ok ((B2, none), s2)) :
    execBody X T A B (prog.take 234) E s = .ok ((B2, none), s2) := by
  rw [take2, execBody_append _ h1]; exact h2

theorem run3 {X : Ext} {T A B B1 B2 B3 : List Var} {E : Engine} {s s1 s2 s3 : St}
    (h1 : VerifyProof1 X T A B E s = .ok ((B1, none), s1)) (h2 : VerifyProof2 X T A B1 E s1 = .ok ((B2, none), s2))
    (h3 : VerifyProof3 X T A B2 E s2 = .ok ((B3, none), s3)) :
    execBody X T A B (prog.take 301) E s = .ok ((B3, none), s3) := by
  have := run2 h1 h2
  rw [take2] at this
  rw [take3, execBody_append _ this]; exact h3

/-! ### C31 -/

/-- The decimal texts in a Go expression of the three bodies: constants and exponents. -/
def Expr.literals : Expr ℕ → List ℕ
  | .str n => [n]
  | .int _ | .buf _ | .tr _ | .aux _ => []
  | .mul a b | .add a b => a.literals ++ b.literals
  | .neg a => a.literals
  | .div a b c => a.literals ++ b.literals ++ c.literals
  | .pow a n => a.literals ++ [n]

/-- The decimal texts in a body, in order of appearance. -/
def literals (p : List Stmt) : List ℕ := p.flatMap fun
  | .set _ es => es.flatMap Expr.literals
  | .eccMul _ | .eccMulAdd _ => []

/-- The constants of the evaluation domain that the property names: ω, ω², ω⁻¹, …, ω⁻⁶, and ω⁻ⁱ/n for i = 0, …, 6. -/
noncomputable def domainConstants : List Fr :=
  [ω, ω ^ (2 : ℤ), ω ^ (-1 : ℤ), ω ^ (-2 : ℤ), ω ^ (-3 : ℤ), ω ^ (-4 : ℤ), ω ^ (-5 : ℤ), ω ^ (-6 : ℤ),
    1 / 2 ^ 23, ω ^ (-1 : ℤ) / 2 ^ 23, ω ^ (-2 : ℤ) / 2 ^ 23, ω ^ (-3 : ℤ) / 2 ^ 23, ω ^ (-4 : ℤ) / 2 ^ 23,
    ω ^ (-5 : ℤ) / 2 ^ 23, ω ^ (-6 : ℤ) / 2 ^ 23]

theorem domainConstants_eq : [(kω1 : Fr), kω2, kωn1, kωn2, kωn3, kωn4, kωn5, kωn6, kl0, kl1, kl2, kl3, kl4, kl5, kl6] = domainConstants := by
  have hn : (n : Fr) = 2 ^ 23 := by rw [n, Nat.cast_pow, Nat.cast_ofNat]
  rw [domainConstants, ← hn, ω_eq, ω2_eq, ωn1_eq, ωn2_eq, ωn3_eq, ωn4_eq, ωn5_eq, ωn6_eq, kl0_eq, kl1_eq, kl2_eq, kl3_eq, kl4_eq, kl5_eq, kl6_eq]

/-- C31, constants: the root of unity, its square and inverse powers, and their multiples by 1/n, are written in the code,
as canonical field elements. -/
theorem C31_constants : IsPrimitiveRoot ω (2 ^ 23) ∧
    ∀ z ∈ domainConstants, ∃ k ∈ literals (step1 ++ step2 ++ step3), k < rMod ∧ (k : Fr) = z := by
  refine ⟨ω_primitive, fun z hz => ?_⟩
  rw [← domainConstants_eq] at hz
  have key : ∀ k ∈ [kω1, kω2, kωn1, kωn2, kωn3, kωn4, kωn5, kωn6, kl0, kl1, kl2, kl3, kl4, kl5, kl6],
      k ∈ literals (step1 ++ step2 ++ step3) ∧ k < rMod := by decide +kernel
  obtain ⟨k, hk, rfl⟩ := List.mem_map.1 (show z ∈ [kω1, kω2, kωn1, kωn2, kωn3, kωn4, kωn5, kωn6, kl0, kl1, kl2, kl3, kl4, kl5, kl6].map (Nat.cast : ℕ → Fr) from hz)
  exact ⟨k, (key k hk).1, (key k hk).2, rfl⟩

/-- C31, conversely: every number written in the three bodies is one of those, the coset generator δ, -1, -2 or -3, a
small number or power of two, or a coordinate of a curve point whose other coordinate is written there too. -/
theorem C31_literals : ∀ k ∈ literals (step1 ++ step2 ++ step3),
    (k : Fr) ∈ domainConstants ∨ (k : Fr) = δ ∨ (k : Fr) ∈ [-1, -2, -3] ∨
    k ∈ [1, 2, 4, 6, 2 ^ 23, 2 ^ 18, 2 ^ 36, 2 ^ 54, 2 ^ 72, 2 ^ 90] ∨
    ∃ m ∈ literals (step1 ++ step2 ++ step3), OnCurve (k : Fp) m ∨ OnCurve (m : Fp) k := by
  intro k hk
  have key : ∀ k ∈ literals (step1 ++ step2 ++ step3),
      k ∈ [kω1, kω2, kωn1, kωn2, kωn3, kωn4, kωn5, kωn6, kl0, kl1, kl2, kl3, kl4, kl5, kl6] ∨ k = kδ ∨ k ∈ [rMod - 1, rMod - 2, rMod - 3] ∨
      k ∈ [1, 2, 4, 6, 2 ^ 23, 2 ^ 18, 2 ^ 36, 2 ^ 54, 2 ^ 72, 2 ^ 90] ∨
      ∃ m ∈ literals (step1 ++ step2 ++ step3), (m ^ 2) % pMod = (k ^ 3 + 3) % pMod ∨ (k ^ 2) % pMod = (m ^ 3 + 3) % pMod := by
    decide +kernel
  have curve {x y : ℕ} (h : y ^ 2 % pMod = (x ^ 3 + 3) % pMod) : OnCurve (x : Fp) (y : Fp) := by
    have := (ZMod.natCast_eq_natCast_iff' (y ^ 2) (x ^ 3 + 3) pMod).2 h
    push_cast at this
    exact this
  rcases key k hk with h | rfl | h | h | ⟨m, hm, h⟩
  · refine .inl ?_
    rw [← domainConstants_eq]
    exact List.mem_map.2 ⟨k, h, rfl⟩
  · exact .inr (.inl δ_eq)
  · refine .inr (.inr (.inl ?_))
    have sub (j : ℕ) (hj : j ≤ rMod) : ((rMod - j : ℕ) : Fr) = -(j : Fr) := by
      rw [Nat.cast_sub hj, ZMod.natCast_self, zero_sub]
    have h' : k = rMod - 1 ∨ k = rMod - 2 ∨ k = rMod - 3 := by simpa using h
    rcases h' with rfl | rfl | rfl
    · rw [sub 1 (by decide +kernel)]; simp
    · rw [sub 2 (by decide +kernel)]; simp
    · rw [sub 3 (by decide +kernel)]; simp
  · exact .inr (.inr (.inr (.inl h)))
  · exact .inr (.inr (.inr (.inr ⟨m, hm, h.imp curve curve⟩)))

/-- Cancelling the Lagrange denominator. -/
theorem lagrange_unique {i : ℕ} (hi : i < n) {x a : Fr} (hx : x ≠ ω ^ i) (h : a * (x - ω ^ i) = ω ^ i / n * (x ^ n - 1)) :
    a = lagrange i x := by
  rw [← lagrange_mul i hi] at h
  exact mul_right_cancel₀ (sub_ne_zero.2 hx) h

/-- C31: in an accepted run of the first two steps, each Lagrange witness is the value at x of the Lagrange basis
polynomial of the domain, unless x is the very domain point at which that polynomial is 1. -/
theorem C31_lagrange {X : Ext} {T A B B1 B2 : List Var} {E : Engine} (hE : E.mode = .test) {s s1 s2 : St}
    (hB : B.length = 43) (h1 : VerifyProof1 X T A B E s = .ok ((B1, none), s1))
    (h2 : VerifyProof2 X T A B1 E s1 = .ok ((B2, none), s2)) (hs : s2.sat = true) :
    let x := (challengesOf (frAt B)).x
    let L := lagrangeOf (frAt A)
    (x ≠ 1 → L.zero = lagrange 0 x) ∧ ∀ k, 1 ≤ k → k ≤ 6 → x ≠ ω ^ (n - k) → L.neg k = lagrange (n - k) x := by
  obtain ⟨-, bufs, hb0, -, -, H, -⟩ := prefix_run hE (by norm_num) hB (run2 h1 h2) hs
  have H := H.fr
  subst hb0
  refine ⟨fun hx => ?_, fun k k1 k6 hx => ?_⟩
  · have h := Eqs.lag0 H (by norm_num)
    refine lagrange_unique (by decide) (by rw [pow_zero]; exact hx) ?_
    rw [pow_zero]
    exact h
  · have hk : k ≤ n := k6.trans (by decide)
    have h := Eqs.lagk H (by norm_num) k k1 k6
    rw [ω_zpow_neg hk] at h
    exact lagrange_unique (Nat.sub_lt (by decide) (by omega)) hx h

/-- C31: outside the domain all seven values are right, and the domain is {ω^i} = {x | x^n = 1}. -/
theorem C31_outside {X : Ext} {T A B B1 B2 : List Var} {E : Engine} (hE : E.mode = .test) {s s1 s2 : St}
    (hB : B.length = 43) (h1 : VerifyProof1 X T A B E s = .ok ((B1, none), s1))
    (h2 : VerifyProof2 X T A B1 E s1 = .ok ((B2, none), s2)) (hs : s2.sat = true)
    (hx : ∀ i < n, (challengesOf (frAt B)).x ≠ ω ^ i) :
    (lagrangeOf (frAt A)).zero = lagrange 0 (challengesOf (frAt B)).x ∧
    ∀ k, 1 ≤ k → k ≤ 6 → (lagrangeOf (frAt A)).neg k = lagrange (n - k) (challengesOf (frAt B)).x := by
  obtain ⟨g1, g2⟩ := C31_lagrange hE hB h1 h2 hs
  refine ⟨g1 ?_, fun k k1 k6 => g2 k k1 k6 (hx _ (Nat.sub_lt (by decide) (by omega)))⟩
  have := hx 0 (by decide)
  rwa [pow_zero] at this

/-! ### C30 -/

/-- C30: in an accepted run of the first two steps the witness aux[16] for h(x) satisfies the quotient identity, with
the Lagrange values claimed by the aux witness, which satisfy the defining relations of the Lagrange values. -/
theorem C30_quotient {X : Ext} {T A B B1 B2 : List Var} {E : Engine} (hE : E.mode = .test) {s s1 s2 : St}
    (hB : B.length = 43) (h1 : VerifyProof1 X T A B E s = .ok ((B1, none), s1))
    (h2 : VerifyProof2 X T A B1 E s1 = .ok ((B2, none), s2)) (hs : s2.sat = true) :
    let c := challengesOf (frAt B)
    let L := lagrangeOf (frAt A)
    QuotientIdentity c L (Evals.ofProof (frAt T)) (frAt A 16) ∧
    L.zero * (c.x - 1) = 1 / n * (c.x ^ n - 1) ∧
    ∀ k : ℕ, 1 ≤ k → k ≤ 6 → L.neg k * (c.x - ω ^ (-(k : ℤ))) = ω ^ (-(k : ℤ)) / n * (c.x ^ n - 1) := by
  obtain ⟨-, bufs, hb0, -, -, H, -⟩ := prefix_run hE (by norm_num) hB (run2 h1 h2) hs
  have H := H.fr
  subst hb0
  have hq := Eqs.quotient_eq H (by norm_num)
  have h0 := Eqs.lag0 H (by norm_num)
  have hk := Eqs.lagk H (by norm_num)
  exact ⟨hq, h0, hk⟩

/-- The identity reads the Lagrange values l_0, l_(-1), …, l_(-6) only. -/
theorem Halo2.QuotientIdentity.congr {c : Challenges} {L L' : LagrangeVals} {e : Evals} {h : Fr} (h0 : L.zero = L'.zero)
    (hk : ∀ k, 1 ≤ k → k ≤ 6 → L.neg k = L'.neg k) (hq : QuotientIdentity c L e h) : QuotientIdentity c L' e h := by
  have hl : L.last = L'.last := hk 6 (by norm_num) (by norm_num)
  have ha : L.active = L'.active := by
    unfold LagrangeVals.active
    rw [hk 1 (by norm_num) (by norm_num), hk 2 (by norm_num) (by norm_num), hk 3 (by norm_num) (by norm_num),
      hk 4 (by norm_num) (by norm_num), hk 5 (by norm_num) (by norm_num), hk 6 (by norm_num) (by norm_num)]
  unfold QuotientIdentity constraints permutation lookup at *
  rw [h0, hl, ha] at hq
  exact hq

/-- C30: outside the domain, h(x) is forced to the combined constraint value divided by x^n - 1, with the true Lagrange
values. -/
theorem C30_forced {X : Ext} {T A B B1 B2 : List Var} {E : Engine} (hE : E.mode = .test) {s s1 s2 : St}
    (hB : B.length = 43) (h1 : VerifyProof1 X T A B E s = .ok ((B1, none), s1))
    (h2 : VerifyProof2 X T A B1 E s1 = .ok ((B2, none), s2)) (hs : s2.sat = true)
    (hx : ∀ i < n, (challengesOf (frAt B)).x ≠ ω ^ i) :
    let c := challengesOf (frAt B)
    QuotientIdentity c (LagrangeVals.at c.x) (Evals.ofProof (frAt T)) (frAt A 16) ∧
    frAt A 16 = combine c.y (constraints c (LagrangeVals.at c.x) (Evals.ofProof (frAt T))) / (c.x ^ n - 1) := by
  obtain ⟨g1, g2⟩ := C31_outside hE hB h1 h2 hs hx
  have hq := (C30_quotient hE hB h1 h2 hs).1.congr (L' := .at (challengesOf (frAt B)).x) g1 g2
  refine ⟨hq, ?_⟩
  have hne : (challengesOf (frAt B)).x ^ n - 1 ≠ 0 := by
    rw [sub_ne_zero]
    intro h
    obtain ⟨i, hi, he⟩ := (domain_iff _).2 h
    exact hx i hi he
  exact eq_div_of_mul_eq hne hq

/-! ### C32 -/

/-- C32: after the first step buf[18] and buf[21] are the values at u of the combined interpolation polynomials of the
first two rotation sets; after the second step buf[18] is the combination of all five, each weighted. The points of the
rotation sets are distinct, so that the interpolation polynomials take the claimed values. -/
theorem C32_values {X : Ext} {T A B B1 B2 : List Var} {E : Engine} (hE : E.mode = .test) {s s1 s2 : St}
    (hB : B.length = 43) (h1 : VerifyProof1 X T A B E s = .ok ((B1, none), s1))
    (h2 : VerifyProof2 X T A B1 E s1 = .ok ((B2, none), s2)) (hs : s2.sat = true) (C : Commitments) :
    let c := challengesOf (frAt B)
    let e := Evals.ofProof (frAt T)
    frAt B1 18 = (permSet C e).value c ∧ frAt B1 21 = (inputSet C e).value c ∧
    frAt B2 18 = combine c.v ((rotSets c C e (frAt A 16)).map fun S => S.weight c * S.value c) := by
  have hs1 : s1.sat = true := (body_ok hE _ h2 hs).1
  obtain ⟨-, bufs, hb0, -, -, H, hl⟩ := prefix_run hE (by norm_num) hB (run1 h1) hs1
  obtain ⟨-, bufs', hb0', -, -, H', hl'⟩ := prefix_run hE (by norm_num) hB (run2 h1 h2) hs
  have H := H.fr
  have H' := H'.fr
  refine ⟨?_, ?_, ?_⟩
  · subst hb0
    have := hl 18
    rw [show (ssaFrom 0 (List.replicate 43 0) (prog.take 99)).2.getD 18 0 = 32 by decide +kernel] at this
    rw [frAt, this]
    exact Eqs.r0 H (by norm_num)
  · subst hb0
    have := hl 21
    rw [show (ssaFrom 0 (List.replicate 43 0) (prog.take 99)).2.getD 21 0 = 39 by decide +kernel] at this
    rw [frAt, this]
    exact Eqs.r1 H (by norm_num)
  · subst hb0'
    have := hl' 18
    rw [show (ssaFrom 0 (List.replicate 43 0) (prog.take 234)).2.getD 18 0 = 142 by decide +kernel] at this
    rw [frAt, this]
    exact Eqs.total H' (by norm_num) C

/-! ### C33 -/

/-- C33: after the three steps (buf[12], buf[13]) encodes the SHPLONK combination of the commitments and (buf[10],
buf[11]) encodes W', given that the 24 pairs of the proof are points, that buf[0], buf[1] is the instance commitment I,
and that the challenge u in buf[9] is a canonical integer. -/
theorem C33_accumulator {X : Ext} (hX : X.Strict) {T A B B1 B2 B3 : List Var} {E : Engine} (hE : E.mode = .test)
    {s s1 s2 s3 : St} (hB : B.length = 43) (h1 : VerifyProof1 X T A B E s = .ok ((B1, none), s1))
    (h2 : VerifyProof2 X T A B1 E s1 = .ok ((B2, none), s2)) (h3 : VerifyProof3 X T A B2 E s2 = .ok ((B3, none), s3))
    (hs : s3.sat = true) (hT : ∀ i, IsPointPosition i → PointAt T i) {I : G1}
    (hI : PtAt (B.getD 0 .nil) (B.getD 1 .nil) I) (hu : ∃ u : ℤ, B[9]? = some (.big u) ∧ 0 ≤ u ∧ u < rMod) :
    PtAt (B3.getD 12 .nil) (B3.getD 13 .nil) (opening (challengesOf (frAt B)) (Commitments.ofProof I (proofPoint T))
      (Evals.ofProof (frAt T)) (frAt A 16)) ∧
    PtAt (B3.getD 10 .nil) (B3.getD 11 .nil) (proofPoint T 102) := by
  obtain ⟨-, bufs, hb0, -, -, H, hl⟩ := prefix_run hE (by norm_num) hB (run3 h1 h2 h3) hs
  subst hb0
  have hT' : ∀ i ∈ pointPositions, PairAt T i := fun i hi => (pointAt_iff T i).1 (hT i ((isPointPosition_iff i).2 hi))
  obtain ⟨u, hu, hu0, hu1⟩ := hu
  have hcu : ((bufs 0).getD 9 .nil).Canon := ⟨u, getD_some hu, hu0, hu1⟩
  constructor
  · have := acc_run hX H (by norm_num) hT' hI hcu
    rw [Eqs.acc_eq H.fr (by norm_num)] at this
    have e12 := hl 12
    have e13 := hl 13
    rw [show (ssaFrom 0 (List.replicate 43 0) (prog.take 301)).2.getD 12 0 = 301 by decide +kernel] at e12
    rw [show (ssaFrom 0 (List.replicate 43 0) (prog.take 301)).2.getD 13 0 = 301 by decide +kernel] at e13
    rw [e12, e13]
    exact this
  · have e10 := hl 10
    have e11 := hl 11
    rw [show (ssaFrom 0 (List.replicate 43 0) (prog.take 301)).2.getD 10 0 = 3 by decide +kernel] at e10
    rw [show (ssaFrom 0 (List.replicate 43 0) (prog.take 301)).2.getD 11 0 = 3 by decide +kernel] at e11
    rw [e10, e11]
    exact w_run hX H (by norm_num) hT'

end Verif
