/-
The optimal ate pairing of Spec/Ate.lean is additive in its first argument when the second one passes a finite check, made by
the kernel for the two fixed points of G2. Models nothing of /repo.
-/
import Verif.Math.Reciprocity

namespace Verif
open Ate

/-! ### The final exponentiation -/

/-- The final exponentiation. -/
noncomputable def fexp (z : Fp12) : Fp12 := z ^ ((pMod ^ 12 - 1) / rMod)

theorem fexp_mul (a b : Fp12) : fexp (a * b) = fexp a * fexp b := mul_pow _ _ _
theorem fexp_one : fexp 1 = 1 := one_pow _
theorem fexp_pow (a : Fp12) (k : ℕ) : fexp (a ^ k) = fexp a ^ k := by rw [fexp, fexp, ← pow_mul, ← pow_mul, mul_comm]
theorem fexp_ne {a : Fp12} (h : a ≠ 0) : fexp a ≠ 0 := pow_ne_zero _ h

theorem pow_p12_sub {a : Fp12} (h : a ≠ 0) : a ^ (pMod ^ 12 - 1) = 1 := by
  refine mul_right_cancel₀ h ?_
  rw [← pow_succ, Nat.sub_add_cancel (by decide +kernel), pow_p12, one_mul]

theorem fexp_r {a : Fp12} (h : a ≠ 0) : fexp a ^ rMod = 1 := by
  rw [fexp, ← pow_mul, Nat.div_mul_cancel (by decide +kernel), pow_p12_sub h]

/-- Elements of Fp6 are mapped to 1. -/
theorem fexp_sub {a : Fp12} (h : a ≠ 0) (h6 : a ^ (pMod ^ 6) = a) : fexp a = 1 := by
  have h1 : a ^ (pMod ^ 6 - 1) = 1 := by
    refine mul_right_cancel₀ h ?_
    rw [← pow_succ, Nat.sub_add_cancel (by decide +kernel), h6, one_mul]
  obtain ⟨k, hk⟩ : ∃ k, (pMod ^ 12 - 1) / rMod = (pMod ^ 6 - 1) * k :=
    ⟨(pMod ^ 12 - 1) / rMod / (pMod ^ 6 - 1), by decide +kernel⟩
  rw [fexp, hk, pow_mul, h1, one_pow]

theorem fexp_neg_one : fexp (-1) = 1 := by
  refine fexp_sub (neg_ne_zero.2 one_ne_zero) ?_
  have : Odd (pMod ^ 6) := by rw [Nat.odd_iff]; decide +kernel
  exact this.neg_one_pow

/-! ### Functions with divisor in E(Fp) -/

/-- `g` is a function on the curve over Fp whose zeros are the points `Ps`. -/
structure ZeroFun (Ps : List Aff) (g : Fp12 → Fp12 → Fp12) : Prop where
  /-- Reciprocity with lines. -/
  recip : ∃ s : Fp12, (s = 1 ∨ s = -1) ∧ ∀ L M X1 X2 X3 : Fp12, Tri L M X1 X2 X3 →
    (Ps.map fun P => emb P.2 - L * emb P.1 - M).prod = s * (g X1 (L * X1 + M) * g X2 (L * X2 + M) * g X3 (L * X3 + M))
  /-- The norm. -/
  norm : ∃ s : Fp12, (s = 1 ∨ s = -1) ∧ ∀ X Y : Fp12, Y ^ 2 = X ^ 3 + 3 →
    g X Y * g X (-Y) = s * (Ps.map fun P => X - emb P.1).prod
  /-- It has coefficients in Fp. -/
  frob : ∀ X Y : Fp12, g X Y ^ pMod = g (X ^ pMod) (Y ^ pMod)

section
variable {Ps : List Aff} {g : Fp12 → Fp12 → Fp12}

/-- The value at a point of the twist. -/
noncomputable def gval (g : Fp12 → Fp12 → Fp12) (A : Aff2) : Fp12 := fexp (g (px A) (py A))
/-- The value at the opposite point. -/
noncomputable def gneg (g : Fp12 → Fp12 → Fp12) (A : Aff2) : Fp12 := fexp (g (px A) (-py A))

theorem sign_ne {s : Fp12} (h : s = 1 ∨ s = -1) : s ≠ 0 := by
  rcases h with rfl | rfl
  · exact one_ne_zero
  · exact neg_ne_zero.2 one_ne_zero

theorem sign_fexp {s : Fp12} (h : s = 1 ∨ s = -1) : fexp s = 1 := by
  rcases h with rfl | rfl
  · exact fexp_one
  · exact fexp_neg_one

theorem fexp_prod (l : List Fp12) : fexp l.prod = (l.map fexp).prod := by
  induction l with
  | nil => simp [fexp_one]
  | cons a l ih => rw [List.prod_cons, fexp_mul, ih, List.map_cons, List.prod_cons]

theorem ZeroFun.ne (hg : ZeroFun Ps g) {A : Aff2} (h : OkPt A) : g (px A) (py A) * g (px A) (-py A) ≠ 0 := by
  obtain ⟨s, hs, hn⟩ := hg.norm
  rw [hn _ _ h.on]
  refine mul_ne_zero (sign_ne hs) (List.prod_ne_zero ?_)
  intro h0
  obtain ⟨P, -, hP⟩ := List.mem_map.1 h0
  exact px_ne_emb h.ne P.1 (sub_eq_zero.1 hP)

theorem ZeroFun.gval_mul (hg : ZeroFun Ps g) {A : Aff2} (h : OkPt A) : gval g A * gneg g A = 1 := by
  obtain ⟨s, hs, hn⟩ := hg.norm
  have hp : Fact pMod.Prime := inferInstance
  rw [gval, gneg, ← fexp_mul, hn _ _ h.on, fexp_mul, sign_fexp hs, one_mul, fexp_prod, List.map_map]
  refine List.prod_eq_one ?_
  intro z hz
  obtain ⟨P, -, rfl⟩ := List.mem_map.1 hz
  refine fexp_sub (a := px A - emb P.1) (sub_ne_zero.2 (px_ne_emb h.ne P.1)) ?_
  rw [sub_pow_char_pow, px_pow_p6, show emb P.1 ^ (pMod ^ 6) = emb P.1 by rw [emb, ← map_pow, ZMod.pow_card_pow]]

theorem ZeroFun.gval_r (hg : ZeroFun Ps g) {A : Aff2} (h : OkPt A) : gval g A ^ rMod = 1 :=
  fexp_r (left_ne_zero_of_mul (hg.ne h))

theorem ZeroFun.gval_frob (hg : ZeroFun Ps g) (A : Aff2) : gval g (Ate.frob A) = gval g A ^ pMod := by
  rw [gval, gval, frob_px, frob_py, ← hg.frob, fexp_pow]

theorem ZeroFun.gneg_frob (hg : ZeroFun Ps g) (A : Aff2) : gneg g (Ate.frob A) = gneg g A ^ pMod := by
  have hodd : Odd pMod := by rw [Nat.odd_iff]; decide +kernel
  rw [gneg, gneg, frob_px, frob_py, ← hodd.neg_pow, ← hg.frob, fexp_pow]

theorem gval_neg (g : Fp12 → Fp12 → Fp12) (A : Aff2) : gval g (Ate.neg A) = gneg g A := by
  rw [gval, gneg, neg_px, neg_py]

theorem gneg_neg (g : Fp12 → Fp12 → Fp12) (A : Aff2) : gneg g (Ate.neg A) = gval g A := by
  rw [gval, gneg, neg_px, neg_py, neg_neg]

/-- The product over the points of the final exponentiations. -/
noncomputable def overall (Ps : List Aff) (f : Aff → Fp12) : Fp12 := (Ps.map fun P => fexp (f P)).prod

theorem overall_mul (f f' : Aff → Fp12) : overall Ps (fun P => f P * f' P) = overall Ps f * overall Ps f' := by
  unfold overall
  simp only [fexp_mul]
  exact List.prod_map_mul

theorem ZeroFun.line (hg : ZeroFun Ps g) {l : Fp2} {A B : Aff2} (h : LineThrough l A B) :
    overall Ps (Ate.line l A) = gval g A * gval g B * gneg g (third l A B) := by
  obtain ⟨s, hs, hr⟩ := hg.recip
  have h1 := congrArg fexp (hr _ _ _ _ _ h.tri)
  rw [fexp_mul, sign_fexp hs, one_mul, fexp_mul, fexp_mul, fexp_prod, List.map_map] at h1
  have hA : emb2 l * w * px A + (py A - emb2 l * w * px A) = py A := by ring
  have hC : emb2 l * w * px (third l A B) + (py A - emb2 l * w * px A) = -py (third l A B) := by rw [third_py]; ring
  rw [hA, ← h.onB, hC] at h1
  rw [gval, gval, gneg, ← h1, overall]
  refine congrArg List.prod (List.map_congr_left fun P _ => ?_)
  rw [line_eq, Function.comp_apply]

/-! ### The loop -/

/-- The points of the Miller loop; `none` when a special case is met. -/
def loopOk (Q : Tw) : List Bool → Tw → Option Tw
  | [], T => some T
  | b :: bs, T => bif beq2 T.2 (0, 0) then none else
    force2 (tangentN T) fun l => forceT (thirdN l T T) fun T' =>
    bif beq2 T'.1 (0, 0) then none else
    match b with
    | false => loopOk Q bs T'
    | true => bif beq2 T'.1 Q.1 then none else
      force2 (chordTN T' Q) fun m => forceT (thirdN m T' Q) fun T'' =>
      bif beq2 T''.1 (0, 0) then none else loopOk Q bs T''

theorem val2_zero : val2 (0, 0) = (0, 0) := by simp [val2]

theorem ZeroFun.loop (hg : ZeroFun Ps g) {Q : Tw} (hQ : OkPt (valT Q)) : ∀ (bs : List Bool) (T S : Tw) (m : ℕ) (f : Aff → Fp12),
    OkPt (valT T) → loopOk Q bs T = some S → overall Ps f = gval g (valT Q) ^ m * gneg g (valT T) →
    OkPt (valT S) ∧ (∀ P, (bs.foldl (step P (valT Q)) (valT T, f P)).1 = valT S) ∧
    overall Ps (fun P => (bs.foldl (step P (valT Q)) (valT T, f P)).2) = gval g (valT Q) ^ bitsFrom m bs * gneg g (valT S)
  | [], T, S, m, f, hT, h, hf => by
    rw [loopOk, Option.some.injEq] at h
    subst h
    exact ⟨hT, fun _ => rfl, hf⟩
  | b :: bs, T, S, m, f, hT, h, hf => by
    rw [loopOk] at h
    cases hy : beq2 T.2 (0, 0) with
    | true => rw [hy, cond_true] at h; cases h
    | false =>
      rw [hy, cond_false, force2_id, forceT_id] at h
      have hy' : (valT T).2 ≠ (0, 0) := by
        have := beq2_false hy
        rwa [val2_zero] at this
      cases hx : beq2 (thirdN (tangentN T) T T).1 (0, 0) with
      | true => rw [hx, cond_true] at h; cases h
      | false =>
        rw [hx, cond_false] at h
        have hl := tangent_line hT hy'
        have hx' : (third (tangent (valT T)) (valT T) (valT T)).1 ≠ (0, 0) := by
          have := beq2_false hx
          rw [val2_zero] at this
          rw [← tangentN_val, ← thirdN_val]
          exact this
        have hT' := hl.third_on hx'
        have hf' : overall Ps (fun P => f P ^ 2 * Ate.line (tangent (valT T)) (valT T) P) =
            gval g (valT Q) ^ (2 * m) * gneg g (third (tangent (valT T)) (valT T) (valT T)) := by
          simp only [pow_two]
          rw [overall_mul, overall_mul, hf, hg.line hl]
          have h1 := hg.gval_mul hT
          have e : gval g (valT Q) ^ (2 * m) = gval g (valT Q) ^ m * gval g (valT Q) ^ m := by rw [two_mul, pow_add]
          rw [e]
          generalize gval g (valT Q) ^ m = z at *
          linear_combination (z * z * gneg g (third (tangent (valT T)) (valT T) (valT T)) *
            (gval g (valT T) * gneg g (valT T) + 1)) * h1
        cases b with
        | false =>
          simp only [] at h
          have := ZeroFun.loop hg hQ bs (thirdN (tangentN T) T T) S (2 * m) _ (by rw [thirdN_val, tangentN_val]; exact hT') h
            (by rw [thirdN_val, tangentN_val]; exact hf')
          rw [thirdN_val, tangentN_val] at this
          exact this
        | true =>
          simp only [] at h
          cases hc : beq2 (thirdN (tangentN T) T T).1 Q.1 with
          | true => rw [hc, cond_true] at h; cases h
          | false =>
            rw [hc, cond_false, force2_id, forceT_id] at h
            cases hx2 : beq2 (thirdN (chordTN (thirdN (tangentN T) T T) Q) (thirdN (tangentN T) T T) Q).1 (0, 0) with
            | true => rw [hx2, cond_true] at h; cases h
            | false =>
              rw [hx2, cond_false] at h
              have eT : valT (thirdN (tangentN T) T T) = third (tangent (valT T)) (valT T) (valT T) := by
                rw [thirdN_val, tangentN_val]
              have hc' : (third (tangent (valT T)) (valT T) (valT T)).1 ≠ (valT Q).1 := by
                rw [← eT]
                exact beq2_false hc
              have hl2 := chord_line hT' hQ hc'
              have eT2 : valT (thirdN (chordTN (thirdN (tangentN T) T T) Q) (thirdN (tangentN T) T T) Q) =
                  third (chord (third (tangent (valT T)) (valT T) (valT T)) (valT Q)) (third (tangent (valT T)) (valT T) (valT T)) (valT Q) := by
                rw [thirdN_val, chordTN_val, eT]
              have hx2' : (third (chord (third (tangent (valT T)) (valT T) (valT T)) (valT Q))
                  (third (tangent (valT T)) (valT T) (valT T)) (valT Q)).1 ≠ (0, 0) := by
                have := beq2_false hx2
                rw [val2_zero] at this
                rw [← eT2]
                exact this
              have hT2 := hl2.third_on hx2'
              have := ZeroFun.loop hg hQ bs _ S (2 * m + 1) (fun P => f P ^ 2 * Ate.line (tangent (valT T)) (valT T) P *
                Ate.line (chord (third (tangent (valT T)) (valT T) (valT T)) (valT Q)) (third (tangent (valT T)) (valT T) (valT T)) P)
                (by rw [eT2]; exact hT2) h (by
                  rw [eT2, overall_mul, hf', hg.line hl2, pow_succ]
                  have h1 := hg.gval_mul hT'
                  generalize gval g (valT Q) ^ (2 * m) = z at *
                  generalize gneg g (third (chord (third (tangent (valT T)) (valT T) (valT T)) (valT Q)) _ _) = z2
                  linear_combination (z * gval g (valT Q) * z2) * h1)
              rw [eT2] at this
              exact this

/-- The whole check for the second argument of the pairing. -/
def ateOk (Q : Tw) : Bool := match loopOk Q loopBits Q with
  | none => false
  | some S =>
    forceT (frobN Q) fun Q1 =>
    forceT (frobN Q1) fun Q2 =>
    forceT (negTN Q2) fun Q2n =>
    forceT (negTN (frobN Q2)) fun Q3n =>
    force2 (chordTN S Q1) fun l => forceT (thirdN l S Q1) fun T =>
    force2 (chordTN T Q2n) fun m => forceT (thirdN m T Q2n) fun T2 =>
    !(beq2 Q.1 (0, 0)) && !(beq2 S.1 Q1.1) && !(beq2 T.1 (0, 0)) && !(beq2 T.1 Q2n.1) && beq2 T2.1 Q3n.1 && beq2 T2.2 Q3n.2

theorem miller_eq (P : Aff) (Q : Aff2) : Ate.miller P Q = (loopBits.foldl (step P Q) (Q, 1)).2 *
    Ate.line (chord (loopBits.foldl (step P Q) (Q, 1)).1 (Ate.frob Q)) (loopBits.foldl (step P Q) (Q, 1)).1 P *
    Ate.line (chord (third (chord (loopBits.foldl (step P Q) (Q, 1)).1 (Ate.frob Q)) (loopBits.foldl (step P Q) (Q, 1)).1 (Ate.frob Q))
      (Ate.neg (Ate.frob (Ate.frob Q))))
      (third (chord (loopBits.foldl (step P Q) (Q, 1)).1 (Ate.frob Q)) (loopBits.foldl (step P Q) (Q, 1)).1 (Ate.frob Q)) P := by
  unfold Ate.miller
  rfl

theorem loopBits_val : bitsFrom 1 loopBits = loopCount := by decide +kernel

/-- The Miller values of the zeros of a function over Fp multiply to 1 under the final exponentiation. -/
theorem ZeroFun.miller (hg : ZeroFun Ps g) {Q : Tw} (hon : py (valT Q) ^ 2 = px (valT Q) ^ 3 + 3) (h : ateOk Q = true) :
    overall Ps (fun P => Ate.miller P (valT Q)) = 1 := by
  rw [ateOk] at h
  cases hS : loopOk Q loopBits Q with
  | none => rw [hS] at h; cases h
  | some S =>
    rw [hS] at h
    simp only [forceT_id, force2_id, Bool.and_eq_true, Bool.not_eq_true'] at h
    obtain ⟨⟨⟨⟨⟨h0, h1⟩, h2⟩, h3⟩, h4⟩, h5⟩ := h
    have hQ : OkPt (valT Q) := ⟨hon, by have := beq2_false h0; rwa [val2_zero] at this⟩
    obtain ⟨hSok, hT, hf⟩ := hg.loop hQ loopBits Q S 1 (fun _ => 1) hQ hS (by
      rw [pow_one, hg.gval_mul hQ, overall]
      simp [fexp_one])
    rw [loopBits_val] at hf
    have e1 : valT (frobN Q) = Ate.frob (valT Q) := frobN_val Q
    have e2 : valT (negTN (frobN (frobN Q))) = Ate.neg (Ate.frob (Ate.frob (valT Q))) := by
      rw [negTN_val, frobN_val, e1]
    have hQ1 : OkPt (Ate.frob (valT Q)) := hQ.frob
    have hQ2 : OkPt (Ate.neg (Ate.frob (Ate.frob (valT Q)))) := hQ.frob.frob.neg
    have hl1 := chord_line hSok hQ1 (by rw [← e1]; exact beq2_false h1)
    have eT : valT (thirdN (chordTN S (frobN Q)) S (frobN Q)) = third (chord (valT S) (Ate.frob (valT Q))) (valT S) (Ate.frob (valT Q)) := by
      rw [thirdN_val, chordTN_val, e1]
    have hTok := hl1.third_on (by
      have := beq2_false h2
      rw [val2_zero] at this
      rw [← eT]
      exact this)
    have hl2 := chord_line hTok hQ2 (by rw [← eT, ← e2]; exact beq2_false h3)
    have eT2 : third (chord (third (chord (valT S) (Ate.frob (valT Q))) (valT S) (Ate.frob (valT Q))) (Ate.neg (Ate.frob (Ate.frob (valT Q)))))
        (third (chord (valT S) (Ate.frob (valT Q))) (valT S) (Ate.frob (valT Q))) (Ate.neg (Ate.frob (Ate.frob (valT Q)))) =
        Ate.neg (Ate.frob (Ate.frob (Ate.frob (valT Q)))) := by
      have e3 : valT (negTN (frobN (frobN (frobN Q)))) = Ate.neg (Ate.frob (Ate.frob (Ate.frob (valT Q)))) := by
        rw [negTN_val, frobN_val, frobN_val, e1]
      rw [← e3, ← eT, ← e2, ← chordTN_val, ← thirdN_val]
      exact Prod.ext (beq2_true h4) (beq2_true h5)
    have hm : overall Ps (fun P => Ate.miller P (valT Q)) =
        gval g (valT Q) ^ loopCount * gneg g (valT S) *
        (gval g (valT S) * gval g (Ate.frob (valT Q)) * gneg g (third (chord (valT S) (Ate.frob (valT Q))) (valT S) (Ate.frob (valT Q)))) *
        (gval g (third (chord (valT S) (Ate.frob (valT Q))) (valT S) (Ate.frob (valT Q))) * gval g (Ate.neg (Ate.frob (Ate.frob (valT Q)))) *
          gneg g (Ate.neg (Ate.frob (Ate.frob (Ate.frob (valT Q)))))) := by
      rw [← hf, ← hg.line hl1, ← eT2, ← hg.line hl2, ← overall_mul, ← overall_mul]
      unfold overall
      refine congrArg List.prod (List.map_congr_left fun P _ => ?_)
      beta_reduce
      rw [miller_eq, hT P]
    rw [hm, gval_neg, gneg_neg, hg.gneg_frob, hg.gneg_frob, hg.gval_frob (Ate.frob (Ate.frob (valT Q))), hg.gval_frob (Ate.frob (valT Q)),
      hg.gval_frob (valT Q), ← pow_mul, ← pow_mul, ← pow_mul]
    have n1 := hg.gval_mul hSok
    have n2 := hg.gval_mul hTok
    have n3 := hg.gval_mul hQ
    have n4 := hg.gval_r hQ
    obtain ⟨k, hk⟩ : ∃ k, loopCount + pMod + pMod * (pMod * pMod) = pMod * pMod + rMod * k :=
      ⟨(loopCount + pMod + pMod * (pMod * pMod) - pMod * pMod) / rMod, by decide +kernel⟩
    have n5 : gval g (valT Q) ^ loopCount * gval g (valT Q) ^ pMod * gval g (valT Q) ^ (pMod * (pMod * pMod)) =
        gval g (valT Q) ^ (pMod * pMod) := by
      rw [← pow_add, ← pow_add, hk, pow_add, pow_mul _ rMod, n4, one_pow, mul_one]
    have n6 : gval g (valT Q) ^ (pMod * pMod) * gneg g (valT Q) ^ (pMod * pMod) = 1 := by
      rw [← mul_pow, n3, one_pow]
    generalize gval g (valT Q) ^ loopCount = z1 at *
    generalize gval g (valT Q) ^ pMod = z2 at *
    generalize gval g (valT Q) ^ (pMod * (pMod * pMod)) = z3 at *
    generalize gval g (valT Q) ^ (pMod * pMod) = z4 at *
    generalize gneg g (valT Q) ^ (pMod * pMod) = z5 at *
    generalize gval g (valT S) = a at *
    generalize gneg g (valT S) = a' at *
    generalize gval g (third _ _ _) = b at *
    generalize gneg g (third _ _ _) = b' at *
    calc z1 * a' * (a * z2 * b') * (b * z5 * z3) = (z1 * z2 * z3) * z5 * (a * a') * (b * b') := by ring
      _ = 1 := by rw [n1, n2, n5, n6, one_mul, one_mul]

end

end Verif
