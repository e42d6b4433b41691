/-
Property C71: what the verifier of the outer proof learns. A circuit is run by the prover; the verifier sees the public witness.
-/
import Verif.Model.Public
import Verif.Props.Signature
import Verif.Props.BestProver

namespace Verif

theorem publicWitness_append (l m : List (Visibility × Var)) : publicWitness (l ++ m) = publicWitness l ++ publicWitness m := by
  simp only [publicWitness, List.filter_append, List.map_append]

theorem publicWitness_sec (l : List Var) : publicWitness (l.map (Prod.mk .sec)) = [] := by
  induction l with
  | nil => rfl
  | cons v l ih => simp [publicWitness]

theorem publicWitness_pub (l : List Var) : publicWitness (l.map (Prod.mk .pub)) = l.map Var.fr := by
  induction l with
  | nil => rfl
  | cons v l ih => simpa [publicWitness] using ih

theorem publicWitness_aggregator (c : AggregatorCircuit) : publicWitness c.leaves = c.TargetInst.map Var.fr := by
  simp only [AggregatorCircuit.leaves, publicWitness_append, publicWitness_sec, publicWitness_pub, List.nil_append]

theorem publicWitness_kyc (c : KycCircuit) : publicWitness c.leaves = c.conditionHash.fields.map Var.fr := by
  simp only [KycCircuit.leaves, publicWitness_append, publicWitness_sec, publicWitness_pub, List.nil_append]

/-- C71: the public witness of the aggregation circuit fixes the target instances modulo r and nothing else: not the
verifier instances, the proof or the aux values. -/
theorem C71_view (c c' : AggregatorCircuit) :
    publicWitness c.leaves = publicWitness c'.leaves ↔ List.Forall₂ (fun v w => v.fr = w.fr) c.TargetInst c'.TargetInst := by
  rw [publicWitness_aggregator, publicWitness_aggregator, ← List.forall₂_eq_eq_eq, List.forall₂_map_left_iff,
    List.forall₂_map_right_iff]

/-- C71, aggregation: the public witness proves nothing. Every list of at most five field elements is the public witness of an
accepted run (with the other instance values private, five in all, and hint answers of the prover's choice), for one and the same
Halo2 proof and aux values. With four it is the shape that /repo/main.go compiles. -/
theorem C71_aggregator_false (w : List Fr) (hw : w.length ≤ 5) :
    ∃ (c : AggregatorCircuit) (σ : HintId → ℕ → ℕ → List ℤ → HintRes), c.Proof = shippedCircuit.Proof ∧ c.Aux = shippedCircuit.Aux ∧
      c.TargetInst.length = w.length ∧ c.VerifyInst.length = 5 - w.length ∧ publicWitness c.leaves = w ∧
      (c.Define realExt).Accepted ⟨.test, true, σ⟩ .init := by
  have hl : (shippedCircuit.TargetInst ++ shippedCircuit.VerifyInst).length = 5 := by decide +kernel
  obtain ⟨σ, h⟩ := C65_shipped_false (ti := w.map fun v : Fr => .big v.val) (vi := List.replicate (5 - w.length) (.big 0))
    (fun v hv => by
      rcases List.mem_append.1 hv with h | h
      · obtain ⟨u, -, rfl⟩ := List.mem_map.1 h
        trivial
      · rw [List.eq_of_mem_replicate h]
        trivial)
    (by rw [hl, List.length_append, List.length_map, List.length_replicate]; omega)
  refine ⟨{ shippedCircuit with TargetInst := w.map fun v : Fr => .big v.val, VerifyInst := List.replicate (5 - w.length) (.big 0) },
    σ, rfl, rfl, ?_, ?_, ?_, h⟩
  · exact List.length_map ..
  · exact List.length_replicate
  · rw [publicWitness_aggregator]
    show (w.map fun v : Fr => Var.big v.val).map Var.fr = w
    rw [List.map_map]
    refine (List.map_congr_left fun v _ => ?_).trans (List.map_id w)
    show (((v.val : ℕ) : ℤ) : Fr) = v
    rw [Int.cast_natCast, ZMod.natCast_val, ZMod.cast_id]

/-- C71, aggregation, for any circuit: whether some prover gets an assignment accepted does not depend on the public witness. -/
theorem C71_independent {X : Ext} (hX : X.Strict) {c : AggregatorCircuit}
    (hw : ∀ i, i = 102 ∨ i = 103 → ∀ z : ℤ, c.Proof[i]? ≠ some (.int z)) (hv : ∀ v ∈ c.VerifyInst, v.IsVal) {s : St} (hs : s.sat = true)
    (h : ∃ σ, (c.Define X).Accepted ⟨.test, true, σ⟩ s) {w : List Fr} (hl : w.length = c.TargetInst.length) :
    ∃ (c' : AggregatorCircuit) (σ : HintId → ℕ → ℕ → List ℤ → HintRes), c'.Proof = c.Proof ∧ c'.Aux = c.Aux ∧ c'.VerifyInst = c.VerifyInst ∧
      publicWitness c'.leaves = w ∧ (c'.Define X).Accepted ⟨.test, true, σ⟩ s := by
  obtain ⟨σ, h'⟩ := C65_instances_false hX hw hs h (ti := w.map fun v : Fr => .big v.val) (vi := c.VerifyInst)
    (fun v hm => by
      rcases List.mem_append.1 hm with h | h
      · obtain ⟨u, -, rfl⟩ := List.mem_map.1 h
        trivial
      · exact hv v h)
    (by rw [List.length_append, List.length_append, List.length_map, hl])
  refine ⟨{ c with TargetInst := w.map fun v : Fr => .big v.val }, σ, rfl, rfl, rfl, ?_, h'⟩
  rw [publicWitness_aggregator]
  show (w.map fun v : Fr => Var.big v.val).map Var.fr = w
  rw [List.map_map]
  refine (List.map_congr_left fun v _ => ?_).trans (List.map_id w)
  show (((v.val : ℕ) : ℤ) : Fr) = v
  rw [Int.cast_natCast, ZMod.natCast_val, ZMod.cast_id]

/-- C71, KYC: the public witness (age bounds, countries, levels, times) belongs to an accepted run if and only if the age bounds are
in order and there is a country: an accepted proof shows nothing about a person or a signature. -/
theorem C71_kyc_false {X : Ext} (hX : X.EcdsaLaw) (E : Engine) {s : St} (hs : s.sat = true) (ageMin ageMax : Fr)
    (countries levels times : List Fr) :
    (∃ c : KycCircuit, c.Inputs ∧ c.conditionHash.country.length = countries.length ∧ c.conditionHash.level.length = levels.length ∧
      publicWitness c.leaves = ageMin :: ageMax :: (countries ++ levels ++ times) ∧ (c.Define X).Accepted E s) ↔
      ageMin.val ≤ ageMax.val ∧ countries ≠ [] := by
  constructor
  · rintro ⟨c, hc, h1, h2, h3, h4⟩
    rw [publicWitness_kyc, Conditions.fields, List.map_cons, List.map_cons, List.cons.injEq, List.cons.injEq] at h3
    obtain ⟨e1, e2, -⟩ := h3
    obtain ⟨g1, g2, v, hv, -⟩ := (C58_sound hX hc hs h4).2
    rw [← e1, ← e2]
    refine ⟨g1.trans g2, ?_⟩
    rintro rfl
    rw [List.length_nil, List.length_eq_zero_iff] at h1
    rw [h1] at hv
    cases hv
  · rintro ⟨h1, h2⟩
    obtain ⟨k, ks, rfl⟩ := List.exists_cons_of_ne_nil h2
    have hid : ∀ l : List Fr, (l.map Var.wire).map Var.fr = l := fun l => by
      rw [List.map_map]; exact List.map_id l
    refine ⟨⟨50388075040568104090849593929932481415579556026783468719355080797348931680365,
      50388075040568104090849593929932481415579556026783468719355080797348931680365,
      50388075040568104090849593929932481415579556026783468719355080797348931680365, ⟨.wire ageMin, .wire k, .nil, .nil⟩,
      ⟨.wire ageMin, .wire ageMax, (k :: ks).map .wire, levels.map .wire, times.map .wire⟩⟩, ?_, List.length_map .., List.length_map .., ?_, ?_⟩
    · exact ⟨trivial, trivial, trivial, trivial, fun v hv => by
        obtain ⟨u, -, rfl⟩ := List.mem_map.1 hv
        trivial⟩
    · rw [publicWitness_kyc]
      simp only [Conditions.fields, List.map_append, List.map_cons, hid]
      rfl
    · refine C59_anyone hX rfl rfl rfl ?_ ?_ hs
      swap
      · exact ⟨le_rfl, h1, .wire k, List.mem_map.2 ⟨k, List.mem_cons_self, rfl⟩, rfl⟩
      exact ⟨trivial, trivial, trivial, trivial, fun v hv => by
        obtain ⟨u, -, rfl⟩ := List.mem_map.1 hv
        trivial⟩

/-- The hypotheses can be met: a public witness of main's shape, and the public witness of the test of the KYC circuit. -/
example : ([1, 2, 3, 4] : List Fr).length ≤ 5 ∧ (18 : Fr).val ≤ (50 : Fr).val ∧ ([100, 200, 300, 400, 500] : List Fr) ≠ [] :=
  ⟨by decide, by decide +kernel, by decide⟩

example : publicWitness testKyc.leaves = [18, 50, 100, 200, 300, 400, 500, 3, 300] := by
  rw [publicWitness_kyc]; decide +kernel

example : publicWitness shippedCircuit.leaves = [7059793422771910484, 2556686405730241944, 2133554817341762742, 8974371243071329347] := by
  rw [publicWitness_aggregator]; decide +kernel

end Verif
