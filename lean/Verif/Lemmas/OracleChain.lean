/- Lemmas: when no answer is unlucky, the transcript of a proof is asked for in order and can be read back from the questions. -/
import Verif.Lemmas.RandomOracle
import Verif.Props.Interactive

namespace Verif
open Halo2 Polynomial

/-- The first 32 bytes of a message, as a number. -/
def firstWord (m : List UInt8) : ℕ := beNat (m.take 32)

theorem firstWord_fsMessage {d : ℕ} (h : d < 2 ^ 256) (b : List ℕ) : firstWord (fsMessage d b) = d := by
  rw [firstWord, fsMessage, List.flatMap_cons, List.append_assoc, List.take_append_of_le_length (by rw [beBytes_length]),
    List.take_of_length_le (by rw [beBytes_length])]
  exact beNat_beBytes 32 d (by rw [show (256 : ℕ) = 2 ^ 8 by norm_num, ← pow_mul]; exact h)

theorem fs_get (sha : List UInt8 → List UInt8) : ∀ (d : ℕ) (bs : List (List ℕ)) (j : ℕ) (m : List UInt8),
    (fsMessages sha d bs)[j]? = some m → (fsDigests sha d bs)[j]? = some (beNat (sha m))
  | _, [], j, m, h => by simp [fsMessages] at h
  | d, b :: bs, 0, m, h => by
    rw [fsMessages, List.getElem?_cons_zero, Option.some.injEq] at h
    rw [fsDigests, List.getElem?_cons_zero, h]
  | d, b :: bs, j + 1, m, h => by
    rw [fsMessages, List.getElem?_cons_succ] at h
    rw [fsDigests, List.getElem?_cons_succ]
    exact fs_get sha _ bs j m h

theorem fs_next (sha : List UInt8 → List UInt8) : ∀ (d : ℕ) (bs : List (List ℕ)) (j : ℕ) (m m' : List UInt8),
    (fsMessages sha d bs)[j]? = some m → (fsMessages sha d bs)[j + 1]? = some m' → ∃ b, m' = fsMessage (beNat (sha m)) b
  | _, [], j, m, m', h, _ => by simp [fsMessages] at h
  | d, [b], j, m, m', h, h' => by simp [fsMessages] at h'
  | d, b :: b' :: bs, 0, m, m', h, h' => by
    rw [fsMessages, List.getElem?_cons_zero, Option.some.injEq] at h
    rw [fsMessages, List.getElem?_cons_succ, fsMessages, List.getElem?_cons_zero, Option.some.injEq, h] at h'
    exact ⟨b', h'.symm⟩
  | d, b :: b' :: bs, j + 1, m, m', h, h' => by
    rw [fsMessages, List.getElem?_cons_succ] at h h'
    exact fs_next sha _ _ j m m' h h'

theorem fsMessages_length (sha : List UInt8 → List UInt8) : ∀ (d : ℕ) (bs : List (List ℕ)), (fsMessages sha d bs).length = bs.length
  | _, [] => rfl
  | d, b :: bs => by rw [fsMessages, List.length_cons, fsMessages_length, List.length_cons]

variable {M : Finset (List UInt8)}

/-- The first word of the question that was answered with the number `d`. -/
noncomputable def OracleProver.back (R : OracleProver M) (l : List Digest) (d : ℕ) : ℕ :=
  open Classical in
  if h : ∃ i : ℕ, l[i]?.map Fin.val = some d then firstWord (R.query (l.take h.choose) : List UInt8) else 0

/-- The exceptional values of the challenge drawn by a question with claim `A`, when `b 0`, `b 1`, … are the challenges drawn
last, last but one, …: of whichever challenge it is. -/
noncomputable def Exceptions.anyStage {d : ℕ} (B : Exceptions d) (A : Claim) (b : ℕ → Fr) : Finset Fr :=
  open Classical in
  B.θ A.k A.P.a ∪ (B.β A.k A.P.a (b 0) A.P.permA A.P.permS ∪ (B.γ A.k A.P.a (b 1) A.P.permA A.P.permS (b 0) ∪
    (B.y A.k A.P (b 2) (b 1) (b 0) ∪ (B.x A.k A.P (b 3) (b 2) (b 1) (b 0) A.h ∪ (B.y' A.k A.P (b 4) (b 3) (b 2) (b 1) A.h (b 0) A.e ∪
      (B.v A.k A.P (b 5) (b 4) (b 3) (b 2) A.h (b 1) A.e (b 0) ∪
        B.u A.k A.P (b 6) (b 5) (b 4) (b 3) A.h (b 2) A.e (b 1) (b 0) A.q))))))

theorem Exceptions.anyStage_card {d : ℕ} (B : Exceptions d) (A : Claim) (b : ℕ → Fr) : (B.anyStage A b).card ≤ exceptionalValues d := by
  classical
  have step : ∀ {S T : Finset Fr} {m k : ℕ}, S.card ≤ m → T.card ≤ k → (S ∪ T).card ≤ m + k := fun h1 h2 =>
    (Finset.card_union_le _ _).trans (Nat.add_le_add h1 h2)
  rw [exceptionalValues, anyStage]
  exact step (B.θ_card _ _) (step (B.β_card _ _ _ _ _) (step (B.γ_card _ _ _ _ _ _) (step (B.y_card _ _ _ _ _)
    (step (B.x_card _ _ _ _ _ _ _) (step (B.y'_card _ _ _ _ _ _ _ _ _) (step (B.v_card _ _ _ _ _ _ _ _ _ _) (B.u_card _ _ _ _ _ _ _ _ _ _ _ _)))))))

/-- The exceptional values for any of these claims. -/
noncomputable def Exceptions.anyClaim {d : ℕ} (B : Exceptions d) (As : List Claim) (b : ℕ → Fr) : Finset Fr :=
  open Classical in As.toFinset.biUnion fun A => B.anyStage A b

theorem Exceptions.anyClaim_card {d : ℕ} (B : Exceptions d) (As : List Claim) (b : ℕ → Fr) :
    (B.anyClaim As b).card ≤ As.length * exceptionalValues d := by
  classical
  rw [anyClaim]
  refine Finset.card_biUnion_le.trans ((Finset.sum_le_card_nsmul _ _ _ fun A _ => B.anyStage_card A b).trans ?_)
  rw [smul_eq_mul]
  exact Nat.mul_le_mul_right _ As.toFinset_card_le

/-- The unlucky answers to the question after the answers `l`. -/
noncomputable def OracleProver.unlucky (R : OracleProver M) {d : ℕ} (B : Exceptions d) (l : List Digest) : Finset Digest :=
  open Classical in
  (Finset.univ.filter fun D : Digest => ∃ i ≤ l.length, D.val = firstWord (R.query (l.take i) : List UInt8)) ∪
    (l.toFinset ∪ Finset.univ.filter fun D : Digest =>
      ((D.val : ℕ) : Fr) ∈ B.anyClaim (R.claims l) fun k => ((R.back l)^[k] (firstWord (R.query l : List UInt8)) : ℕ))

theorem residue_card (S : Finset Fr) : (Finset.univ.filter fun D : Digest => ((D.val : ℕ) : Fr) ∈ S).card ≤ 6 * S.card := by
  classical
  have hr : 0 < rMod := rMod_pos
  have h1 : (S ×ˢ (Finset.range 6)).card = 6 * S.card := by rw [Finset.card_product, Finset.card_range, mul_comm]
  rw [← h1]
  refine Finset.card_le_card_of_injOn (fun D => (((D.val : ℕ) : Fr), D.val / rMod)) ?_ ?_
  · intro D hD
    have h2 : D.val / rMod < 6 := by
      rw [Nat.div_lt_iff_lt_mul hr]
      exact lt_of_lt_of_le D.isLt (by decide +kernel)
    simp only [Finset.coe_filter, Finset.mem_univ, true_and, Set.mem_setOf_eq] at hD
    rw [Finset.mem_coe, Finset.mem_product]
    exact ⟨hD, Finset.mem_range.2 h2⟩
  · intro D _ D' _ he
    rw [Prod.mk.injEq, ZMod.natCast_eq_natCast_iff'] at he
    apply Fin.ext
    rw [← Nat.mod_add_div D.val rMod, ← Nat.mod_add_div D'.val rMod, he.1, he.2]

theorem OracleProver.unlucky_card (R : OracleProver M) {d : ℕ} (B : Exceptions d) (l : List Digest) {v : ℕ} (hv : (R.claims l).length ≤ v) :
    (R.unlucky B l).card ≤ 2 * l.length + 1 + 6 * (v * exceptionalValues d) := by
  classical
  have h1 : (Finset.univ.filter fun D : Digest => ∃ i ≤ l.length, D.val = firstWord (R.query (l.take i) : List UInt8)).card ≤ l.length + 1 := by
    rw [← Finset.card_range (l.length + 1)]
    refine le_trans ?_ (Finset.card_image_le (f := fun i => firstWord (R.query (l.take i) : List UInt8)))
    refine Finset.card_le_card_of_injOn Fin.val ?_ fun D _ D' _ h => Fin.ext h
    intro D hD
    simp only [Finset.coe_filter, Finset.mem_univ, true_and, Set.mem_setOf_eq] at hD
    obtain ⟨i, hi, h⟩ := hD
    rw [Finset.mem_coe, Finset.mem_image]
    exact ⟨i, Finset.mem_range.2 (by omega), h.symm⟩
  have h2 := l.toFinset_card_le
  have h3 := (residue_card (B.anyClaim (R.claims l) fun k => ((R.back l)^[k] (firstWord (R.query l : List UInt8)) : ℕ))).trans
    (Nat.mul_le_mul_left 6 ((B.anyClaim_card _ _).trans (Nat.mul_le_mul_right _ hv)))
  have h4 := (Finset.card_union_le (Finset.univ.filter fun D : Digest => ∃ i ≤ l.length, D.val = firstWord (R.query (l.take i) : List UInt8))
    (l.toFinset ∪ Finset.univ.filter fun D : Digest =>
      ((D.val : ℕ) : Fr) ∈ B.anyClaim (R.claims l) fun k => ((R.back l)^[k] (firstWord (R.query l : List UInt8)) : ℕ)))
  have h5 := Finset.card_union_le l.toFinset (Finset.univ.filter fun D : Digest =>
      ((D.val : ℕ) : Fr) ∈ B.anyClaim (R.claims l) fun k => ((R.back l)^[k] (firstWord (R.query l : List UInt8)) : ℕ))
  rw [unlucky]
  omega

/-- No answer to a new question was unlucky. -/
def OracleProver.Lucky (R : OracleProver M) {d : ℕ} (B : Exceptions d) (Q : ℕ) (H : M → Digest) : Prop :=
  ∀ i < Q, R.Fresh H i → H (R.asks H i) ∉ R.unlucky B (R.answers H i)

theorem OracleProver.first (R : OracleProver M) (H : M → Digest) (l : ℕ) : ∃ i ≤ l, R.asks H i = R.asks H l ∧ R.Fresh H i := by
  classical
  have hex : ∃ i, R.asks H i = R.asks H l := ⟨l, rfl⟩
  refine ⟨Nat.find hex, Nat.find_min' hex rfl, Nat.find_spec hex, fun k hk h => Nat.find_min hex hk ?_⟩
  rw [h, Nat.find_spec hex]

section
variable {R : OracleProver M} {d : ℕ} {B : Exceptions d} {Q : ℕ} {H : M → Digest} (hL : R.Lucky B Q H)
include hL

theorem OracleProver.Lucky.word {i l : ℕ} (hi : i < Q) (hf : R.Fresh H i) (hl : l ≤ i) :
    (H (R.asks H i)).val ≠ firstWord (R.asks H l : List UInt8) := by
  classical
  intro h
  refine hL i hi hf ?_
  rw [unlucky, Finset.mem_union, Finset.mem_filter]
  refine .inl ⟨Finset.mem_univ _, l, by rw [answers_length]; exact hl, ?_⟩
  rw [R.answers_take H hl]
  exact h

theorem OracleProver.Lucky.collision {i l : ℕ} (hi : i < Q) (hf : R.Fresh H i) (hl : l < i) : H (R.asks H l) ≠ H (R.asks H i) := by
  classical
  intro h
  refine hL i hi hf ?_
  rw [unlucky, Finset.mem_union, Finset.mem_union, List.mem_toFinset, ← h]
  exact .inr (.inl (List.mem_of_getElem? (R.answers_get H hl)))

theorem OracleProver.Lucky.inj {i l : ℕ} (hi : i < Q) (hl : l < Q) (h : H (R.asks H i) = H (R.asks H l)) : R.asks H i = R.asks H l := by
  obtain ⟨i', hi', e1, f1⟩ := OracleProver.first R H i
  obtain ⟨l', hl', e2, f2⟩ := OracleProver.first R H l
  rw [← e1, ← e2] at h ⊢
  rcases Nat.lt_trichotomy i' l' with h1 | h1 | h1
  · exact absurd h (hL.collision (by omega) f2 h1)
  · rw [h1]
  · exact absurd h.symm (hL.collision (by omega) f1 h1)

/-- A message that starts with the digest of another was first asked for after the other. -/
theorem OracleProver.Lucky.order {i j : ℕ} (hi : i < Q) (hf : R.Fresh H i)
    (h : firstWord (R.asks H j : List UInt8) = (H (R.asks H i)).val) : i < j := by
  by_contra hc
  exact hL.word hi hf (by omega) h.symm

/-- The question that was answered with a given digest can be found. -/
theorem OracleProver.Lucky.back_eq {i j : ℕ} (hij : i < j) (hj : j < Q) :
    R.back (R.answers H j) (H (R.asks H i)).val = firstWord (R.asks H i : List UInt8) := by
  have hex : ∃ k : ℕ, (R.answers H j)[k]?.map Fin.val = some (H (R.asks H i)).val := ⟨i, by rw [R.answers_get H hij]; rfl⟩
  rw [back, dif_pos hex]
  have hs := hex.choose_spec
  generalize hex.choose = k at hs ⊢
  have hk : k < j := by
    by_contra hc
    rw [List.getElem?_eq_none (by rw [answers_length]; omega)] at hs
    exact absurd hs (by simp)
  rw [R.answers_get H hk, Option.map_some, Option.some.injEq] at hs
  rw [R.answers_take H hk.le]
  have := hL.inj (i := k) (l := i) (by omega) (by omega) (Fin.ext hs)
  exact congrArg (fun m : M => firstWord (m : List UInt8)) this

theorem OracleProver.Lucky.stage {i : ℕ} (hi : i < Q) (hf : R.Fresh H i) {A : Claim} (hA : A ∈ R.claims (R.answers H i)) :
    (((H (R.asks H i)).val : ℕ) : Fr) ∉ B.anyStage A
      fun k => ((R.back (R.answers H i))^[k] (firstWord (R.asks H i : List UInt8)) : ℕ) := by
  classical
  intro h
  refine hL i hi hf ?_
  rw [unlucky, Finset.mem_union, Finset.mem_union]
  refine .inr (.inr (Finset.mem_filter.2 ⟨Finset.mem_univ _, ?_⟩))
  rw [Exceptions.anyClaim, Finset.mem_biUnion]
  exact ⟨A, List.mem_toFinset.2 hA, h⟩

/-- Reading back along a chain of questions `q 0`, …, `q j`. -/
theorem OracleProver.Lucky.chain {q : ℕ → ℕ} {j : ℕ} (hq : ∀ k ≤ j, q k < Q ∧ R.Fresh H (q k))
    (hc : ∀ k < j, firstWord (R.asks H (q (k + 1)) : List UInt8) = (H (R.asks H (q k))).val) :
    ∀ k < j, (R.back (R.answers H (q j)))^[k] (firstWord (R.asks H (q j) : List UInt8)) = (H (R.asks H (q (j - 1 - k)))).val := by
  have hmono : ∀ k l, k < l → l ≤ j → q k < q l := by
    intro k l hkl
    induction l with
    | zero => omega
    | succ l ih =>
      intro hl
      have h1 : q l < q (l + 1) := hL.order (hq l (by omega)).1 (hq l (by omega)).2 (hc l (by omega))
      rcases Nat.lt_or_ge k l with h2 | h2
      · exact (ih h2 (by omega)).trans h1
      · rwa [show k = l by omega]
  intro k
  induction k with
  | zero =>
    intro hk
    rw [Function.iterate_zero_apply, Nat.sub_zero, ← hc (j - 1) (by omega), Nat.sub_add_cancel (by omega)]
  | succ k ih =>
    intro hk
    rw [Function.iterate_succ_apply', ih (by omega), hL.back_eq (hmono _ _ (by omega) le_rfl) (hq j le_rfl).1,
      ← hc (j - 1 - (k + 1)) (by omega), show j - 1 - (k + 1) + 1 = j - 1 - k by omega]

end

end Verif
