/- The best prover: the hint answers that get an assignment accepted whenever any do, and what an accepted run needs
whatever the hint answers are. -/
import Verif.Lemmas.Necessary
import Verif.Props.Completeness
import Verif.Props.Transcript

namespace Verif
open Halo2

/-- Both coordinates of the encoding, (0,0) for infinity, are below r. -/
def Storable (P : G1) : Prop := (enc P).1.val < rMod ∧ (enc P).2.val < rMod

/-- The answers of the best prover: `modHint` as in the repo, the digest and bytes of a chosen string for the Keccak hint, and
the true result, in canonical coordinates, for the two curve hints, reading their inputs modulo p. -/
noncomputable def bestStrat (X : Ext) (bs : List UInt8) : HintId → ℕ → ℕ → List ℤ → HintRes
  | .modHint, _, _, ins => modHint ins
  | .keccakHint, _, _, _ => .ok (0 :: ((X.keccak bs).map fun b => (b.toNat : ℤ)) ++ (bs.map fun b => (b.toNat : ℤ)))
  | .msmHint, _, _, [a, b, k] => .ok [((enc ((k : Fr) • dec ((a : Fp), (b : Fp)))).1.val : ℤ), ((enc ((k : Fr) • dec ((a : Fp), (b : Fp)))).2.val : ℤ)]
  | .addHint, _, _, [a, b, c, d] => .ok [((enc (dec ((a : Fp), (b : Fp)) + dec ((c : Fp), (d : Fp)))).1.val : ℤ),
      ((enc (dec ((a : Fp), (b : Fp)) + dec ((c : Fp), (d : Fp)))).2.val : ℤ)]
  | _, _, _, _ => .err

/-- Two big integers whose residues modulo p are the coordinates of P. -/
def PtBig (v w : Var) (P : G1) : Prop := ∃ a b : ℤ, v = .big a ∧ w = .big b ∧ enc P = ((a : Fp), (b : Fp))

theorem PtExact.big {v w : Var} {P : G1} (h : PtExact v w P) : PtBig v w P :=
  ⟨_, _, h.1, h.2, by rw [Int.cast_natCast, Int.cast_natCast, ZMod.natCast_zmod_val, ZMod.natCast_zmod_val]⟩

theorem best_runs {X : Ext} (hX : X.Lawful) (bs : List UInt8) :
    EccRuns X ⟨.test, true, bestStrat X bs⟩ PtBig
      (fun k P => X.scalarMul (enc P) k = some (enc (k • P)) ∧ Storable (k • P)) Storable where
  test := rfl
  mod := fun _ _ _ => rfl
  lawful := hX
  exact _ _ _ h := h.big
  res v w P h := by
    obtain ⟨a, b, rfl, rfl, e⟩ := h
    unfold PtRes
    rw [e]
    exact ⟨rfl, rfl⟩
  val k P h := h.1
  mul v w P k s h hM := by
    obtain ⟨a, b, rfl, rfl, e⟩ := h
    obtain ⟨h1, h2, h3⟩ := hM
    have hd : dec ((a : Fp), (b : Fp)) = P := by rw [← e, dec_enc]
    have hrun := calcMsm_run (X := X) (E := ⟨.test, true, bestStrat X bs⟩) (x := .big a) (y := .big b) (k := .big k.val) (s := s)
      (a := a) (b := b) (c := k.val) rfl (fun _ _ _ => rfl) rfl rfl rfl rfl
    simp only [List.getD_cons_zero, List.getD_cons_succ] at hrun
    have hk : (((k.val : ℕ) : ℤ) : Fr) = k := by rw [Int.cast_natCast, ZMod.natCast_zmod_val]
    rw [hd, hk, Int.emod_eq_of_lt (by positivity) (by exact_mod_cast h2),
      Int.emod_eq_of_lt (by positivity) (by exact_mod_cast h3)] at hrun
    rw [hrun]
    have hkv : (((k.val : ℕ) : ℤ) : Fp).val = k.val := by
      rw [Int.cast_natCast]; exact ZMod.val_natCast_of_lt ((ZMod.val_lt k).trans rMod_lt_pMod)
    simp only [VerifyBN254ScalarMul, setInterface, hkv]
    rw [← e, ZMod.natCast_zmod_val, h1]
    simp only [Int.cast_natCast, ZMod.natCast_zmod_val]
    simp only [Circ.bind_run, Option.isSome_some, gadget_true]
    rw [show ((enc (k • P)).1, (enc (k • P)).2) = enc (k • P) from rfl, beq_self_eq_true, gadget_true]
    rfl
  add P Q s hq := by
    obtain ⟨h2, h3⟩ := hq
    have hd : ∀ P : G1, dec (((((enc P).1.val : ℕ) : ℤ) : Fp), ((((enc P).2.val : ℕ) : ℤ) : Fp)) = P := fun P => by
      rw [Int.cast_natCast, Int.cast_natCast, ZMod.natCast_zmod_val, ZMod.natCast_zmod_val]
      exact dec_enc P
    have hrun := calcAdd_run (X := X) (E := ⟨.test, true, bestStrat X bs⟩) (x1 := .big (enc P).1.val) (y1 := .big (enc P).2.val)
      (x2 := .big (enc Q).1.val) (y2 := .big (enc Q).2.val) (s := s) rfl (fun _ _ _ => rfl) rfl rfl rfl rfl rfl
    simp only [List.getD_cons_zero, List.getD_cons_succ] at hrun
    simp only [↓reduceIte, and_self] at hrun
    rw [hd, hd, Int.emod_eq_of_lt (by positivity) (by exact_mod_cast h2),
      Int.emod_eq_of_lt (by positivity) (by exact_mod_cast h3)] at hrun
    rw [hrun]
    simp only [VerifyBN254Add, setInterface, Int.cast_natCast, ZMod.natCast_zmod_val]
    rw [show ((enc P).1, (enc P).2) = enc P from rfl, show ((enc Q).1, (enc Q).2) = enc Q from rfl, hX.addUnified]
    simp only [Circ.bind_run, Option.isSome_some, gadget_true]
    rw [show ((enc (P + Q)).1, (enc (P + Q)).2) = enc (P + Q) from rfl, beq_self_eq_true, gadget_true]
    rfl

theorem storable_of {n m : ℤ} (n0 : 0 ≤ n) (n1 : n < rMod) (m0 : 0 ≤ m) (m1 : m < rMod) {P : G1}
    (h : ((n : Fp), (m : Fp)) = enc P) : Storable P := by
  have h1 : (n : Fp) = (enc P).1 := congrArg Prod.fst h
  have h2 : (m : Fp) = (enc P).2 := congrArg Prod.snd h
  have e1 := exact_of n0 n1 h1
  have e2 := exact_of m0 m1 h2
  exact ⟨by omega, by omega⟩

/-- Whatever the hints answer, in an accepted run the 46 multiplications are defined and their results, and all partial
sums, are storable. -/
theorem terms_hold {X : Ext} (hX : X.Strict) {T A : List Var} {β : ℕ → ℕ → Var} {I : G1} (H : SRun X T A β 301)
    (hT : ∀ i ∈ pointPositions, PtRes (T.getD i .nil) (T.getD (i + 1) .nil) (proofPoint T i))
    (hI : PtExact (β 0 0) (β 0 1) I) (hu : (β 0 9).Canon) : ∀ m, m < 46 →
    let p := (termsOf T I β).getD m 0
    X.scalarMul (enc p.2) p.1 = some (enc (p.1 • p.2)) ∧ Storable (p.1 • p.2) ∧ Storable (partialSum (termsOf T I β) (m + 1)) := by
  intro m
  induction m using Nat.strong_induction_on with
  | _ m ih =>
  intro hm p
  cases m with
  | zero =>
    obtain ⟨n, k, n0, n1, m0, m1, hs, -⟩ := mul_holds (H 144 (by norm_num)) (t144 H (by norm_num) (fun _ _ _ h => h.res) hT hI hu)
    have he := hX.scalarMul_deg _ _ _ hs
    have hst : Storable (p.1 • p.2) := storable_of n0 n1 m0 m1 he
    rw [he] at hs
    refine ⟨hs, hst, ?_⟩
    rw [partialSum_succ _ 0 (by rw [termsOf, termList_length]; norm_num), show partialSum (termsOf T I β) 0 = 0 from rfl, zero_add]
    exact hst
  | succ m =>
    have htab : ssaLit.getD (accIdx.getD (m + 1) 0) (.set [] []) = _ :=
      beq_iff_eq.1 (List.all_eq_true.1 acc_table m (List.mem_range.2 (by omega)))
    have hlt : accIdx.getD m 0 < accIdx.getD (m + 1) 0 := by
      have := List.all_eq_true.1 acc_mono m (List.mem_range.2 (by omega))
      simpa using this
    have hle : accIdx.getD (m + 1) 0 < 301 := by
      have : (List.range 46).all (fun m => accIdx.getD m 0 < 301) = true := by decide +kernel
      have := List.all_eq_true.1 this (m + 1) (List.mem_range.2 (by omega))
      simpa using this
    have hacc := acc_exact hX.toLawful H hT hI hu m (by omega) (by omega) fun j hj => (ih j (by omega) (by omega)).1
    have h := H _ hle
    rw [htab] at h
    obtain ⟨n, k, n', k', n0, n1, m0, m1, n0', n1', m0', m1', hs, ha, -⟩ := mulAdd_holds h hacc
      (term_at H (fun _ _ _ h => h.res) hT hI hu m (by omega) hle.le)
    have he := hX.scalarMul_deg _ _ _ hs
    rw [he] at hs
    rw [he, hX.addUnified, Option.some.injEq] at ha
    refine ⟨hs, storable_of n0 n1 m0 m1 he, ?_⟩
    rw [partialSum_succ _ (m + 1) (by rw [termsOf, termList_length]; omega)]
    exact storable_of n0' n1' m0' m1' ha.symm

/-- The first multiplication, of W' by one. -/
theorem witness_holds {X : Ext} (hX : X.Strict) {T A : List Var} {β : ℕ → ℕ → Var} {N : ℕ} (hN : 2 < N) (H : SRun X T A β N)
    (hT : PtRes (T.getD 102 .nil) (T.getD 103 .nil) (proofPoint T 102)) : Storable (proofPoint T 102) := by
  have e12 : β 2 12 = .big 1 := by
    have h2 : (SStmt.set [12] [.str 1]).Holds X T A β 1 := H 1 (by omega)
    cases h2 with
    | cons h _ => exact h.shape
  have hp : PtRes (β 1 10) (β 1 11) (proofPoint T 102) := by
    have h1 : (SStmt.set [10, 11] [.tr 102, .tr 103]).Holds X T A β 0 := H 0 (by omega)
    cases h1 with
    | cons h1 h2 => cases h2 with
      | cons h3 _ =>
        rw [getD_some h1.shape, getD_some h3.shape] at hT
        exact hT
  have h2 : (SStmt.eccMul 10 1 1 2).Holds X T A β 2 := H 2 (by omega)
  obtain ⟨n, k, n0, n1, m0, m1, hs, -⟩ := mul_holds h2 (p := (1, proofPoint T 102)) ⟨hp, by rw [e12, ZMod.val_one]; rfl⟩
  have he := hX.scalarMul_deg _ _ _ hs
  rw [one_smul] at he
  exact storable_of n0 n1 m0 m1 he

end Verif
