/-
Property C49: the values recorded in the repository's tests are the ones the model computes on the shipped proof. They were
printed by the real code, so this is a check of the model against it: instance hash, instance commitment, challenges, the
whole buffer after VerifyProof1, and the two points of the pairing check.
-/
import Verif.Props.Shipped

namespace Verif
open Halo2

/-- The buffer recorded in /repo/aggregator_lib_circuit_test.go:231-277 (the first 43 of 44 lines). -/
def recordedBuf : List ℕ := [
  0x2019468813ad3bfb184eec100a4f586a75635286fb97ea624ea0372ab83945bc,
  0x25cadb8048af8478880564973a1a470beae2842392885eb4fa8ae853bd1baa77,
  0x1a86db004dd17617b5a369186c5f99a4fb1860bd75f46fa5d84764ea1728f0d9,
  0x058489492ba829c0486d2b820fa6f4e05bd1718523f1f89a476d0c1669747965,
  0x1f151d33af47710bb034c64f468ba9df39758425243168a7693d3c3c3dd3a329,
  0x1543f4d28c68ea41ab4ea9aeab56579fcbbb91b033eb3a616ae52f993232b8bb,
  0x100f8232cd716f876ec209e5b0e8eab6d5b81abca006ac0c614934d827f3d5c5,
  0x192d8c45b0f96f98dbd4b1a88ca556d5b59bab53f4272668dbb3ae4aa87f592a,
  0x0bf477c82a0d9682ded1db91c8c79a2513e65b822c9fe20a2b2b4742fbcabde5,
  0x17a6301ccf4f0489b01c156674f117b7c5c4f83cd439ed10aa9b5c7a36504ca0,
  0x067502a2aaeec1739d0be3c677e8a16d245e14daf50f461c9ec15d4c2f888626,
  0x247c2f513abb7b5cab4144f87540d2020f4807097a90d7935b2f76b4b5c47210,
  0x0000000000000000000000000000000000000000000000000000000000000001,
  0x0000000000000000000000000000000000000000000000000000000000000000,
  0x0000000000000000000000000000000000000000000000000000000000000000,
  0x0000000000000000000000000000000000000000000000000000000000000000,
  0x0000000000000000000000000000000000000000000000000000000000000000,
  0x118e5a1c1a722142cb7e3e03ada5291596942a24416871753f75c40d5c578503,
  0x2bd0e4da8ae31ad34625a1213f3649800cd3c8b1fd45f7e118b8d78de216cda1,
  0x0855a3bb64c10f81cfbc6fbf178e020044367e230eaf63ad34ca6db254f9d44c,
  0x11f5fca8371622c457e9d32094ea4b37518cd6748b9f0303e9abf540eac9356b,
  0x06c5ac199ce325840c4469f3a546c262e2ccde85d9d7769b4117058013f0826b,
  0x0f508c616a8df507e05fa5a75d6315b7818e7a19c58a896375d0eec7e1567854,
  0x2875d8037c7fd58fb33017cb914606dd3b68493188c8a12e0ee703563fd4fdb9,
  0x2e24d289bfafbf1d80fcb9f3ca0273f73fa85cb027e8ce388d7485b97c90001b,
  0x19e5ac05f0d0e595e76fa1292c6ffc1dae5083d5260a8f696108cc54a9c04c86,
  0x07ee766f64b1ca9a05202deaf03b517feccb9f16f0f0cf6334faf23db02b0248,
  0x0323555c1c4305b817585ba76acea2e6ef00369d47cbc79b87cb5abf1a798728,
  0x060ceadb8825f9607efb8e4918d829a604071d2d201e2068b869ab7d54c0babd,
  0x028dbd6f17f75e54f1d2a5825a6288111d10962ddb36b797b25809f797de6d16,
  0x1346172434cec1d0c63ea4569760658da97c1f16e0869539c56446c05065a1a0,
  0x2eb660de0b8f9c4116f7f553debfea73bdcb8bb0c25cd9e01e7f97c081ead0c1,
  0x1d1e374eac62de58f211a15fea20f2cf7eb7c9319932db577e7daed39f9a5e60,
  0x19d81360c6f32f42761360fb6003c29eab451435f15d6b7cd7f4a5788ac97861,
  0x22a0d08de4170dd415dfb8270f03ea416955b976ebf259ac2591f7151116a6aa,
  0x1ded2b235ff4e7353a5698f7a0a59ec15372b5523c5be63ca303edc944b1b1cf,
  0x1ded2b235ff4e7353a5698f7a0a59ec15372b5523c5be63ca303edc944b1b1ce,
  0x0c9e7892f3706a46e6ae915abf41499be6f8bb862a698d584d6961d4765c836f,
  0x2f91ee2fd91f552f0c01048482b3c082a84e355525d1dc5f8951e6ffde9611e3,
  0x279c91b03ba32131225b2c8dffaa0a14c4993b030579f262f5e61227a16a9af8,
  0x0c700e936f498cfaff7ab722787c51d54dbe76b8dbb8e572533863af6c71421b,
  0x0e21eca359dbb9af5dce7ea85c0d28d4d02dc1810537e6c2ff7abb6247f394cd,
  0x160358d426c794afa49b046600102e357de5e73e1bbe7ce217baeb8a48123c88]

/-- The scalar of /repo/aggregator_lib_circuit_test.go:32. -/
def recordedScalar : ℕ := 21018549926786911420919261871844456760738199621624594828144407595472474813958

/-- The two points of /repo/pairing_circuit_test.go:85-88. -/
def recordedPairing : List ℕ := [
  2920616387084030925907755037226454382846345550621956833249622258647667607078,
  16502678157049327323910877548707266122319935523346850792311342099791838736912,
  7162082828732168937516361335135022403650719329242056518668518043784043198510,
  18768486256042060147567165227366772940689098806912976766549486364846889365307]

/-- The known cells of a buffer after the first step. -/
theorem recorded_eval : (execNs shippedProof shippedAux ((recordedBuf.take 10).map some ++ List.replicate 33 none) step1) =
    some ((recordedBuf.take 13).map some ++ List.replicate 4 none ++ (recordedBuf.drop 17).map some) := by decide +kernel

/-- C49: on the shipped proof and aux values, from a buffer that starts with the recorded instance commitment and challenges,
VerifyProof1 leaves exactly the recorded values in every slot it writes (it does not write the slots 13 to 16). -/
theorem C49_recorded_step {X : Ext} (hX : X.Lawful) {B : List Var} (hl : B.length = 43)
    (hB : ∀ i < 10, B[i]? = some (.big (recordedBuf.getD i 0 : ℕ))) {s : St} (hs : s.sat = true) :
    ∃ B' s', VerifyProof1 X shippedCircuit.Proof shippedCircuit.Aux B (honestTest X true) s = .ok ((B', none), s') ∧ s'.sat = true ∧
      ∀ i < 43, i < 13 ∨ 17 ≤ i → B'[i]? = some (.big (recordedBuf.getD i 0 : ℕ)) := by
  have hag : Agree ((recordedBuf.take 10).map some ++ List.replicate 33 none) B := by
    refine ⟨by rw [hl]; decide +kernel, fun i n hn => ?_⟩
    have hi : i < 10 := by
      by_contra hc
      rw [List.getD_eq_getElem?_getD, List.getElem?_append_right (by
        rw [List.length_map, List.length_take]; omega), List.getElem?_replicate] at hn
      split at hn <;> cases hn
    have key : ∀ i < 10, ((recordedBuf.take 10).map some ++ List.replicate 33 none).getD i none = some (recordedBuf.getD i 0) := by
      decide +kernel
    rw [key i hi, Option.some.injEq] at hn
    rw [getD_some (hB i hi), hn]
  obtain ⟨B', s', h1, h2, h3⟩ := execNs_ok hX (honest_raw X) (t := shippedProof) (a := shippedAux) (T := shippedCircuit.Proof)
    (A := shippedCircuit.Aux) rfl rfl step1 s hag recorded_eval
  refine ⟨B', s', h1, h2.trans hs, fun i hi hi' => ?_⟩
  have key : ∀ i < 43, i < 13 ∨ 17 ≤ i → ((recordedBuf.take 13).map some ++ List.replicate 4 none ++ (recordedBuf.drop 17).map some).getD i none =
      some (recordedBuf.getD i 0) := by decide +kernel
  have hl' : i < B'.length := by
    have := h3.1
    have e : ((recordedBuf.take 13).map some ++ List.replicate 4 none ++ (recordedBuf.drop 17).map some).length = 43 := by decide +kernel
    omega
  have := h3.2 i _ (key i hi hi')
  rw [List.getElem?_eq_getElem hl', ← this, getD_some (List.getElem?_eq_getElem hl')]

-- a buffer that meets the hypotheses of `C49_recorded_step`
example : ((recordedBuf.take 10).map (fun m : ℕ => Var.big m) ++ List.replicate 33 Var.nil).length = 43 ∧
    ∀ i < 10, ((recordedBuf.take 10).map (fun m : ℕ => Var.big m) ++ List.replicate 33 Var.nil)[i]? =
      some (.big (recordedBuf.getD i 0 : ℕ)) := by decide +kernel

theorem ofDigests_list {l st : List ℕ} (h : l.map (· % rMod) = st) (hl : st.length = 8) :
    [(Challenges.ofDigests l).θ, (Challenges.ofDigests l).β, (Challenges.ofDigests l).γ, (Challenges.ofDigests l).y,
      (Challenges.ofDigests l).x, (Challenges.ofDigests l).y', (Challenges.ofDigests l).v, (Challenges.ofDigests l).u] =
    st.map (fun m : ℕ => (m : Fr)) := by
  subst h
  rw [List.length_map] at hl
  obtain ⟨a0, a1, a2, a3, a4, a5, a6, a7, rfl⟩ : ∃ a0 a1 a2 a3 a4 a5 a6 a7, l = [a0, a1, a2, a3, a4, a5, a6, a7] := by
    match l, hl with
    | [a0, a1, a2, a3, a4, a5, a6, a7], _ => exact ⟨_, _, _, _, _, _, _, _, rfl⟩
  simp only [List.map_cons, List.map_nil, ZMod.natCast_mod]
  rfl

/-- C49: the recorded scalar is the instance hash of the shipped instances, the first two recorded cells are the coordinates
of its commitment, the next eight the Fiat–Shamir challenges, and the two recorded points are the ones of the pairing
equation of C49_shipped. -/
theorem C49_recorded {X : Ext} (hsha : X.sha256 = Sha256.hash) (hkec : X.keccak = Keccak.hash) :
    instHash X shippedCircuit.TargetInst shippedCircuit.VerifyInst = (recordedScalar : Fr) ∧
    encN (instCommitment (recordedScalar : Fr)) = (recordedBuf.getD 0 0, recordedBuf.getD 1 0) ∧
    (∀ ch, ch = chalOf X shippedProof shippedCircuit.TargetInst shippedCircuit.VerifyInst →
      [ch.θ, ch.β, ch.γ, ch.y, ch.x, ch.y', ch.v, ch.u] = ((recordedBuf.drop 2).take 8).map (fun m : ℕ => (m : Fr))) ∧
    encN (pointOf shippedProof 102) = (recordedPairing.getD 0 0, recordedPairing.getD 1 0) ∧
    encN shippedF = (recordedPairing.getD 2 0, recordedPairing.getD 3 0) := by
  have hstart : shippedStart = recordedBuf.take 10 := by decide +kernel
  obtain ⟨I, hI, henc, -, -⟩ := shipped_run.inst
  refine ⟨shipped_instHash hkec, ?_, ?_, ?_, ?_⟩
  · have h := henc
    rw [hI, hstart] at h
    exact h
  · intro ch hch
    rw [encN, Prod.mk.injEq] at henc
    have h0 : instHash X shippedCircuit.TargetInst shippedCircuit.VerifyInst = (shippedHash : Fr) := shipped_instHash hkec
    rw [chalOf, h0, ← hI, hsha, challengesFor, henc.1, henc.2] at hch
    have h := shipped_challenges
    unfold fsChallenges at h
    generalize fsDigests Sha256.hash fsSeed (fsBlocks (shippedStart.getD 0 0) (shippedStart.getD 1 0) (shippedProof.take 102)) = l at h hch
    have hd : (recordedBuf.drop 2).take 8 = shippedStart.drop 2 := by decide +kernel
    rw [hch, hd, ofDigests_list h (by rw [← hd]; decide +kernel)]
  · rw [shipped_run.W_enc]
    decide +kernel
  · have h1 : shippedOpening.1 < pMod ∧ shippedOpening.2 < pMod := shipped_run.F_lt
    have h : enc shippedF = _ := enc_dec (.inl shipped_run.F_curve)
    rw [encN, h, ZMod.val_natCast_of_lt h1.1, ZMod.val_natCast_of_lt h1.2]
    decide +kernel

end Verif
