/- Property C36: the aux witness is determined by proof and instance, unless x is in the evaluation domain. Concrete cases that meet the hypotheses: Verif/Props/Instances.lean. -/
import Verif.Props.Soundness

namespace Verif
open Halo2

/-- The aux values in terms of the single-assignment equations. -/
theorem Eqs.aux_eq {b : ℕ → ℕ → Fr} {t a : ℕ → Fr} {N : ℕ} (H : FrRun b t a N) (hN : 145 < N) {e : Evals}
    (h0 : a 9 = lagrange 0 (b 0 6)) (hk : ∀ k, 1 ≤ k → k ≤ 6 → a (16 - k) = lagrange (n - k) (b 0 6))
    (hq : a 16 = quotientValue (challengesOf (b 0)) e) :
    (List.range 21).map a = auxValues (challengesOf (b 0)) e := by
  have q1 := p1 H (by omega)
  rw [zpow_one] at q1
  have k0 := inv_of (d0 H (by omega))
  have k1 := inv_of (d1 H (by omega))
  have k2 := inv_of (d2 H (by omega))
  have k3 := inv_of (d3 H (by omega))
  have k4 := inv_of (d4 H (by omega))
  have k5 := inv_of (d5 H (by omega))
  have k6 := inv_of (d6 H (by omega))
  have k7 := inv_of (d7 H (by omega))
  have k8 := denom H (by omega)
  have k17 := inv_of (d17 H (by omega))
  have k18 := inv_of (d18 H (by omega))
  have k19 := inv_of (d19 H (by omega))
  have k20 := inv_of (d20 H (by omega))
  have l1 := hk 1 (by norm_num) (by norm_num)
  have l2 := hk 2 (by norm_num) (by norm_num)
  have l3 := hk 3 (by norm_num) (by norm_num)
  have l4 := hk 4 (by norm_num) (by norm_num)
  have l5 := hk 5 (by norm_num) (by norm_num)
  have l6 := hk 6 (by norm_num) (by norm_num)
  have hr : List.range 21 = [0, 1, 2, 3, 4, 5, 6, 7, 8, 9, 10, 11, 12, 13, 14, 15, 16, 17, 18, 19, 20] := rfl
  rw [hr]
  unfold auxValues
  rw [← hq]
  have hcx : (challengesOf (b 0)).x = b 0 6 := rfl
  have hcu : (challengesOf (b 0)).u = b 0 9 := rfl
  rw [hcx, hcu, ← l1, ← l2, ← l3, ← l4, ← l5, ← l6, ← h0, pm6 H (by omega), q1, pm1 H (by omega), p2 H (by omega),
    k0, k1, k2, k3, k4, k5, k6, k7, k8, k17, k18, k19, k20]
  rfl

/-- C36, for the first two steps alone: when x is outside the domain, the accepted aux values are the 21 specified ones. -/
theorem C36_values {X : Ext} {T A B B1 B2 : List Var} {E : Engine} (hE : E.mode = .test) {s s1 s2 : St}
    (hB : B.length = 43) (h1 : VerifyProof1 X T A B E s = .ok ((B1, none), s1))
    (h2 : VerifyProof2 X T A B1 E s1 = .ok ((B2, none), s2)) (hs : s2.sat = true)
    (hx : ∀ i < n, (challengesOf (frAt B)).x ≠ ω ^ i) :
    (List.range 21).map (frAt A) = auxValues (challengesOf (frAt B)) (.ofProof (frAt T)) := by
  obtain ⟨g1, g2⟩ := C31_outside hE hB h1 h2 hs hx
  have g3 := (C30_forced hE hB h1 h2 hs hx).2
  obtain ⟨-, bufs, hb0, -, -, H, -⟩ := prefix_run hE (by norm_num) hB (run2 h1 h2) hs
  subst hb0
  exact Eqs.aux_eq H.fr (by norm_num) g1 g2 g3

/-- C36: in an accepted run, whatever the hints answered, the 21 aux values are the specified functions of the instance
hash, the proof words and the proof evaluations, provided that x is outside the domain. -/
theorem C36_define {X : Ext} (hX : X.Strict) {c : AggregatorCircuit} {E : Engine} (hE : E.mode = .test) {s : St}
    (h : (c.Define X).Accepted E s) :
    ∃ bs : List UInt8, bs.length = 32 * (c.TargetInst ++ c.VerifyInst).length ∧
      ∃ t, SoundAt X c (beNat (X.keccak bs) : ℕ) t ∧
        let ch := challengesFor X.sha256 (instCommitment (beNat (X.keccak bs) : ℕ)) (t.map Int.natAbs)
        ((∀ i < n, ch.x ≠ ω ^ i) → (List.range 21).map (frAt c.Aux) = auxValues ch (.ofProof (frAt c.Proof))) := by
  obtain ⟨s', h, hs⟩ := h
  obtain ⟨r⟩ := define_ok h
  obtain ⟨h1, hB, h6, t, ht, hC, -⟩ := sound_run hX hE r hs
  obtain ⟨bs, hb, hk⟩ := C25_some hX.toLawful ⟨_, r.hash, h1⟩
  refine ⟨bs, hb, t, hk ▸ ht, fun hx => ?_⟩
  rw [← hk] at hx ⊢
  rw [← hC] at hx ⊢
  exact C36_values hE hB r.step1 r.step2 h6 hx

/-- C36 with the Keccak hint of the repo: the instance hash is the specified one too. -/
theorem C36_honest {X : Ext} (hX : X.Strict) {c : AggregatorCircuit} {E : Engine} (hE : E.mode = .test)
    (hk : ∀ k n ins, E.strat .keccakHint k n ins = Keccak256Hint X n ins)
    (hv : ∀ v ∈ c.TargetInst ++ c.VerifyInst, v.Good) {s : St} (hs : s.sat = true) (h : (c.Define X).Accepted E s) :
    ∃ t : List ℤ, c.Proof.take 102 = t.map .big ∧
      let k : Fr := (beNat (X.keccak ((c.TargetInst ++ c.VerifyInst).flatMap fun v => beBytes v.fr.val 32)) : ℕ)
      let ch := challengesFor X.sha256 (instCommitment k) (t.map Int.natAbs)
      ((∀ i < n, ch.x ≠ ω ^ i) → (List.range 21).map (frAt c.Aux) = auxValues ch (.ofProof (frAt c.Proof))) := by
  obtain ⟨s', h, hs'⟩ := h
  obtain ⟨r⟩ := define_ok h
  obtain ⟨h1, hB, h6, t, ht, hC, -⟩ := sound_run hX hE r hs'
  obtain ⟨v, ⟨s2, g1, -⟩, g2, -⟩ := C24_hash hX.toLawful hk hv hs
  rw [r.hash, Except.ok.injEq, Prod.mk.injEq, Prod.mk.injEq] at g1
  rw [← g1.1.1] at g2
  refine ⟨t, ht.words.2, fun hx => ?_⟩
  rw [← g2] at hx ⊢
  rw [← hC] at hx ⊢
  exact C36_values hE hB r.step1 r.step2 h6 hx

theorem map_big_inj {a b : List ℤ} (h : a.map Var.big = b.map Var.big) : a = b :=
  List.map_injective_iff.2 (fun x y h => by cases h; rfl) h

/-- C36, uniqueness: two accepted runs on the same proof and the same instances have the same 21 aux values, as
elements of the scalar field, provided that x is outside the domain. -/
theorem C36_unique {X : Ext} (hX : X.Strict) {c c' : AggregatorCircuit} {E E' : Engine} (hE : E.mode = .test)
    (hE' : E'.mode = .test) (hk : ∀ k n ins, E.strat .keccakHint k n ins = Keccak256Hint X n ins)
    (hk' : ∀ k n ins, E'.strat .keccakHint k n ins = Keccak256Hint X n ins)
    (hp : c'.Proof = c.Proof) (ht : c'.TargetInst = c.TargetInst) (hi : c'.VerifyInst = c.VerifyInst)
    (hv : ∀ v ∈ c.TargetInst ++ c.VerifyInst, v.Good) {s s' : St} (hs : s.sat = true) (hs' : s'.sat = true)
    (h : (c.Define X).Accepted E s) (h' : (c'.Define X).Accepted E' s')
    (hx : ∀ t : List ℤ, c.Proof.take 102 = t.map .big → ∀ i < n, (challengesFor X.sha256 (instCommitment
      (beNat (X.keccak ((c.TargetInst ++ c.VerifyInst).flatMap fun v => beBytes v.fr.val 32)) : ℕ))
      (t.map Int.natAbs)).x ≠ ω ^ i) :
    ∀ i < 21, frAt c'.Aux i = frAt c.Aux i := by
  obtain ⟨t, e1, g1⟩ := C36_honest hX hE hk hv hs h
  obtain ⟨t', e2, g2⟩ := C36_honest hX hE' hk' (by rw [ht, hi]; exact hv) hs' h'
  rw [hp] at e2 g2
  rw [ht, hi] at g2
  cases map_big_inj (e1.symm.trans e2)
  have e := (g2 (hx t e1)).trans (g1 (hx t e1)).symm
  intro i hi
  have := congrArg (fun l => l[i]?) e
  simpa only [List.getElem?_map, List.getElem?_range hi, Option.map_some, Option.some.injEq] using this

/-- C36: if moreover both aux lists hold canonical numbers, their first 21 entries are literally equal. -/
theorem C36_unique_list {c c' : AggregatorCircuit} (h : ∀ i < 21, frAt c'.Aux i = frAt c.Aux i)
    (hl : 21 ≤ c.Aux.length) (hl' : 21 ≤ c'.Aux.length) (hc : ∀ v ∈ c.Aux, ∃ z : ℤ, v = .big z ∧ 0 ≤ z ∧ z < rMod)
    (hc' : ∀ v ∈ c'.Aux, ∃ z : ℤ, v = .big z ∧ 0 ≤ z ∧ z < rMod) : c'.Aux.take 21 = c.Aux.take 21 := by
  refine List.ext_getElem? fun i => ?_
  rw [List.getElem?_take, List.getElem?_take]
  by_cases hi : i < 21
  · rw [if_pos hi, if_pos hi]
    have e1 : c.Aux[i]? = some (c.Aux[i]'(by omega)) := List.getElem?_eq_getElem _
    have e2 : c'.Aux[i]? = some (c'.Aux[i]'(by omega)) := List.getElem?_eq_getElem _
    obtain ⟨z, hz, z0, z1⟩ := hc _ (List.getElem_mem (l := c.Aux) (n := i) (by omega))
    obtain ⟨w, hw, w0, w1⟩ := hc' _ (List.getElem_mem (l := c'.Aux) (n := i) (by omega))
    rw [hz] at e1
    rw [hw] at e2
    have := h i hi
    rw [frAt, frAt, getD_some e1, getD_some e2, Var.fr, Var.fr, ZMod.intCast_eq_intCast_iff'] at this
    rw [Int.emod_eq_of_lt w0 w1, Int.emod_eq_of_lt z0 z1] at this
    rw [e1, e2, this]
  · rw [if_neg hi, if_neg hi]

end Verif
