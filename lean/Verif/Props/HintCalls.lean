/- Property C62: the hint calls of a run do not depend on the data. -/
import Verif.Lemmas.HintCalls
import Verif.Props.Instances

namespace Verif

/-- C62: one list of hint calls (1 Keccak, 833 reductions, 48 scalar multiplications, 45 additions, in a fixed order) is made by
every run of the circuit that ends without error, whatever the proof, the instances, the auxiliary values, the engine, the answers of
the hints and the gadgets; a run that ends with an error has made an initial part of these calls and no other. -/
theorem C62_calls : ∃ L : List HintId,
    (L.count .keccakHint = 1 ∧ L.count .modHint = 833 ∧ L.count .msmHint = 48 ∧ L.count .addHint = 45 ∧ L.count .toBytes = 0) ∧
    ∀ (X : Ext) (c : AggregatorCircuit) (E : Engine) (s s' : St) (e : GoErr), c.Define X E s = .ok (e, s') →
      ∃ called, s'.hints = s.hints ++ called ∧ called <+: L ∧ (e = none → called = L) :=
  ⟨circuitHints, by decide +kernel, fun X c E s s' e h => follows_define X c E s e s' h⟩

/-- C62, for two runs: two runs from the same state that end without error make the same hint calls in the same order. -/
theorem C62_same {X X' : Ext} {c c' : AggregatorCircuit} {E E' : Engine} {s t t' : St} (h : c.Define X E s = .ok (none, t))
    (h' : c'.Define X' E' s = .ok (none, t')) : t.hints = t'.hints := by
  obtain ⟨L, -, hL⟩ := C62_calls
  obtain ⟨A, e1, -, e2⟩ := hL X c E s t none h
  obtain ⟨A', e1', -, e2'⟩ := hL X' c' E' s t' none h'
  rw [e1, e1', e2 rfl, e2' rfl]

/-- The run of the shipped circuit ends without error: it makes 927 hint calls. -/
example : ∃ t, shippedCircuit.Define realExt (honestTest realExt true) .init = .ok (none, t) ∧ t.hints.length = 927 := by
  obtain ⟨t, h, -⟩ := shipped_accepted
  obtain ⟨A, e1, -, e2⟩ := follows_define _ _ _ _ _ _ h
  refine ⟨t, h, ?_⟩
  rw [e1, e2 rfl]
  decide +kernel

end Verif
