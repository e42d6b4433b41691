/-
The repository's own tests, run in the model: what each test of /repo asserts is derived from the general theorems. These are single cases,
not properties; they compare the model with outcomes that are recorded for the real code.
-/
import Verif.Props.AtePairing
import Verif.Props.Standalone
import Verif.Props.Recorded
import Verif.Props.Signature
import Verif.Props.Whole

namespace Verif
open Halo2

/-- The point of /repo/msm_test.go:21-22, 87-88 and /repo/aggregator_lib_circuit_test.go:20-21. -/
def testPoint : ℕ × ℕ := (13534086339230182803823178260078315691269243572458753455438283544709107378988,
  9053077977614827188269653632534212501565186534180282672519599630892718179094)

theorem testPoint_curve : OnCurve ((testPoint.1 : ℕ) : Fp) ((testPoint.2 : ℕ) : Fp) := by
  unfold OnCurve
  decide +kernel

/-- The same as a point of the group. -/
noncomputable def testG1 : G1 := mkPt _ _ testPoint_curve

/-- `TestMsmSolve`, /repo/aggregator_lib_circuit_test.go:18-75, as intended: the point, the scalar and their product. -/
example (E : Engine) (s : St) :
    ∃ c', BN256MsmCircuit.Define ⟨testG1, recordedScalar, enc ((recordedScalar : ℤ) • testG1)⟩ E s = .ok ((none, c'), s) := by
  simp only [BN256MsmCircuit.Define, Circ.bind_run, (C21_msm testG1 recordedScalar _ E s).1 ⟨rfl, rfl⟩, Circ.pure_run]
  exact ⟨_, rfl⟩

/-- As run: none of the three fields is a circuit variable, so `test.IsSolved` leaves the zero values of the first circuit in place. -/
example (E : Engine) (s : St) : ∃ c', BN256MsmCircuit.Define ⟨0, 0, (0, 0)⟩ E s = .ok ((none, c'), s) := by
  simp only [BN256MsmCircuit.Define, Circ.bind_run, (C21_msm 0 0 (0, 0) E s).1 (by rw [zero_zsmul, enc_zero]; exact ⟨rfl, rfl⟩), Circ.pure_run]
  exact ⟨_, rfl⟩

/-- The 32 bytes of /repo/aggregator_lib_circuit_test.go:82. -/
def testBytes : List UInt8 := beBytes recordedScalar 32

/-- `TestSha2Circuit` and `TestKeccak256Circuit`, /repo/aggregator_lib_circuit_test.go:77-129: input bytes and the 32 bytes of the digest. -/
example {X : Ext} (hX : X.Lawful) (E : Engine) {s : St} (hs : s.sat = true) :
    (Sha256Circuit.Define X ⟨testBytes.map fun b => .big b.toNat, (X.sha256 testBytes).map fun b => .big b.toNat⟩).Accepted E s ∧
    (Keccak256Circuit.Define X ⟨testBytes.map fun b => .big b.toNat, (X.keccak testBytes).map fun b => .big b.toNat⟩).Accepted E s := by
  have key : ∀ {h : List UInt8 → List UInt8} {V : List Var → List Var → Circ GoErr}, DigestCheck h V → (∀ m, (h m).length = 32) →
      (V (testBytes.map fun b => .big b.toNat) ((h testBytes).map fun b => .big b.toNat)).Accepted E s := by
    intro h V hV hl
    have hb : ∀ bs : List UInt8, List.Forall₂ IsByte (bs.map fun b => .big b.toNat) bs := fun bs => by
      induction bs with
      | nil => exact .nil
      | cons b bs ih => exact .cons (isByte_big b) ih
    refine (hV.exact E s (hb _) (by simp [hl]) ?_ hs).2 ?_
    · intro v hv
      obtain ⟨b, -, rfl⟩ := List.mem_map.1 hv
      exact (isByte_big b).1
    · rw [List.take_of_length_le (by simp [hl]), List.map_map]
      exact List.map_congr_left fun b _ => (isByte_big b).2
  exact ⟨key (C23_circuits hX).2 hX.sha_len, key (C23_circuits hX).1 hX.keccak_len⟩

/-- `TestCheckOnCurveCircuit`, lines 131-156: the coordinates are `fr.Element`s, which are not constants for `SetInterface`; the circuit
accepts them, as it accepts any. -/
example (E : Engine) {s : St} (hs : s.sat = true) : (CheckOnCurveCircuitVar.Define ⟨.wire 1,
    .wire (21888242871839275222246405745257275088696311157297823662689037894645226208581 : ℕ)⟩).Accepted E s :=
  C51_checkVar_false _ _ E hs

/-- `TestMultiScalarMul`, /repo/msm_test.go:19-83: one point, one scalar. -/
example {X : Ext} (hX : X.Lawful) (E : Engine) {s : St} (hs : s.sat = true) :
    ((MultiScalarMulC.mk [enc testG1] [(recordedScalar : Fr)] (enc ((recordedScalar : Fr) • testG1))).Define X).Accepted E s := by
  have h0 : testG1 ≠ 0 := mkPt_ne_zero _ _ _
  have h1 : (recordedScalar : Fr) ≠ 0 := by decide +kernel
  have h2 : (recordedScalar : Fr) • testG1 ≠ 0 := fun h => (fr_smul_eq_zero.1 h).elim h1 h0
  generalize (recordedScalar : Fr) = k at h1 h2
  refine (C51_msm hX (Ps := [testG1]) (ss := [k]) (by simp) ⟨rfl, by simpa using h0, by simpa using h1, ?_, ?_⟩ _ E hs).2 (by simp)
  · intro i j h
    exact absurd (Subsingleton.elim (α := Fin 1) i j) h
  · intro e he hl hex
    match e, hl with
    | [a], _ =>
      obtain ⟨x, hx, hx0⟩ := hex
      simp only [List.mem_singleton] at hx
      subst hx
      rcases he x (by simp) with rfl | rfl | rfl
      · simpa using h2
      · exact absurd rfl hx0
      · simpa using h2

/-- `TestBN254MultiScalarMul`, /repo/msm_test.go:85-122. -/
example {X : Ext} (hX : X.Lawful) (E : Engine) {s : St} (hs : s.sat = true) :
    (BN254ScalarMulC.Define X ⟨(.big testPoint.1, .big testPoint.2), .big recordedScalar,
      (.big ((enc ((recordedScalar : ℤ) • testG1)).1.val : ℤ), .big ((enc ((recordedScalar : ℤ) • testG1)).2.val : ℤ))⟩).Accepted E s := by
  refine (C47_scalarMul hX (.big _) (.big _) (.big _) (.big _) (.big _) (P := testG1) ?_ (mkPt_ne_zero _ _ _) ?_ ?_ ?_ hs).2 ?_
  · rw [testG1, enc_mkPt, Int.cast_natCast, Int.cast_natCast]
  · decide +kernel
  · decide +kernel
  · decide +kernel
  · generalize enc ((recordedScalar : ℤ) • testG1) = a
    rw [Int.cast_natCast, Int.cast_natCast, ZMod.natCast_zmod_val, ZMod.natCast_zmod_val]

/-- `TestPairingCheckTestSolve`, /repo/pairing_circuit_test.go:77-95: four decimal strings, which are constants like Go integers. -/
example {X : Ext} (hX : X.pairing = Ate.check) (E : Engine) {s : St} (hs : s.sat = true) :
    (pairingStage X (.int (recordedPairing.getD 0 0)) (.int (recordedPairing.getD 1 0)) (.int (recordedPairing.getD 2 0))
      (.int (recordedPairing.getD 3 0))).Accepted E s := by
  obtain ⟨-, -, -, hW, hF⟩ := C49_recorded realExt_sha realExt_keccak
  have key : ∀ {P : G1} {a b : ℕ}, encN P = (a, b) → ConstPair (.int a) (.int b) (enc P) := by
    intro P a b h
    rw [encN, Prod.mk.injEq] at h
    refine ⟨a, b, .inr rfl, .inr rfl, ?_⟩
    rw [← h.1, ← h.2, Int.cast_natCast, Int.cast_natCast, ZMod.natCast_zmod_val, ZMod.natCast_zmod_val]
  exact (pairingStage_iff hX hs).2 ⟨_, _, key hW, key hF, C49_pairing⟩

/-- `TestOnCurve`, /repo/pairing_circuit_test.go:114-151. -/
example : isOnCurve (recordedPairing.getD 0 0 : ℕ) (recordedPairing.getD 1 0 : ℕ) = true ∧
    isOnCurve (recordedPairing.getD 2 0 : ℕ) (recordedPairing.getD 3 0 : ℕ) = true ∧ isOnTwist g20 = true ∧ isOnTwist g21 = true := by
  refine ⟨?_, ?_, ?_, ?_⟩ <;> decide +kernel

/-- `TestCircuit`, /repo/circuit_test.go:59-90. -/
example : (shippedCircuit.Define realExt).Accepted (honestTest realExt true) .init :=
  C49_real realExt_strict.toLawful realExt_sha realExt_keccak realExt_pairing rfl

/-- `TestKyc`, /repo/kyc_test.go:17-106. -/
example {X : Ext} (hX : X.EcdsaLaw) (E : Engine) {s : St} (hs : s.sat = true) : (testKyc.Define X).Accepted E s := (C58_shipped hX E hs).1

end Verif
