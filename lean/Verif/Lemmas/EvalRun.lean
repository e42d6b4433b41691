/- A run of the whole circuit on concrete numbers, from kernel computations on them. -/
import Verif.Lemmas.Eval
import Verif.Props.Exact

namespace Verif
open Halo2

/-- Numbers as `*big.Int` values. -/
def bigs (l : List ℕ) : List Var := l.map fun m : ℕ => .big (m : ℤ)

/-- The circuit value with these numbers, as built in /repo/main.go:192-218. -/
def bigCircuit (t vi a ti : List ℕ) : AggregatorCircuit := ⟨bigs t, bigs vi, bigs a, bigs ti⟩

theorem bigs_append (l m : List ℕ) : bigs l ++ bigs m = bigs (l ++ m) := by
  rw [bigs, bigs, bigs, List.map_append]

theorem bigs_good {l : List ℕ} (h : ∀ n ∈ l, n < rMod) : ∀ v ∈ bigs l, v.Good := by
  intro v hv
  obtain ⟨n, hn, rfl⟩ := List.mem_map.1 hv
  exact big_good (h n hn)

theorem bigs_bytes : ∀ {l : List ℕ}, (∀ n ∈ l, n < rMod) →
    ((bigs l).flatMap fun v => beBytes v.fr.val 32) = l.flatMap fun n => beBytes n 32
  | [], _ => rfl
  | n :: l, h => by
    have ih := bigs_bytes (l := l) fun m hm => h m (by simp [hm])
    have hn : (Var.big (n : ℤ)).fr.val = n := by
      simp only [Var.fr, Int.cast_natCast]
      exact ZMod.val_natCast_of_lt (h n (by simp))
    rw [bigs, List.map_cons, List.flatMap_cons, List.flatMap_cons, hn]
    rw [bigs] at ih
    rw [ih]

theorem dec_ne {x y : Fp} (h : OnCurve x y) : dec (x, y) ≠ 0 := by
  intro h0
  have h1 : enc (dec (x, y)) = (x, y) := enc_dec (.inl h)
  rw [h0, enc_zero, Prod.mk.injEq] at h1
  obtain ⟨rfl, rfl⟩ := h1
  unfold OnCurve at h
  revert h
  decide +kernel

theorem getElem?_getD {l : List ℕ} {i : ℕ} (h : i < l.length) : l[i]? = some (l.getD i 0) := by
  rw [List.getD_eq_getElem?_getD, List.getElem?_eq_getElem h]
  rfl

/-- The outcome of evaluating the circuit on concrete numbers: `t` the proof, `vi` and `ti` the instances, `a` the aux
values, `st` the instance commitment and the eight challenges, `h` the instance hash and `F` the combination of openings.
Every field can be checked by computation. -/
structure EvalRun (sha kec : List UInt8 → List UInt8) (t vi a ti st : List ℕ) (h : ℕ) (F : ℕ × ℕ) : Prop where
  canonical : CanonicalProof t
  inst_lt : ∀ n ∈ ti ++ vi, n < rMod
  inst_len : (ti ++ vi).length ≤ 43
  aux_lt : ∀ n ∈ a, n < rMod
  st_len : st.length = 10
  keccak : beNat (kec ((ti ++ vi).flatMap fun n => beBytes n 32)) % rMod = h
  commitment : mulChk lagrangeX lagrangeY h = some (st.getD 0 0, st.getD 1 0)
  challenges : (fsChallenges sha (st.getD 0 0) (st.getD 1 0) (t.take 102)).map (· % rMod) = st.drop 2
  steps : (execNs t a (st.map some ++ List.replicate 33 none) prog).map
    (fun b => (b.getD 10 none, b.getD 11 none, b.getD 12 none, b.getD 13 none)) =
      some (t[102]?, t[103]?, some F.1, some F.2)
  F_lt : F.1 < pMod ∧ F.2 < pMod
  F_curve : OnCurve (F.1 : Fp) (F.2 : Fp)

namespace EvalRun

variable {sha kec : List UInt8 → List UInt8} {t vi a ti st : List ℕ} {h : ℕ} {F : ℕ × ℕ}

theorem circuitFor (r : EvalRun sha kec t vi a ti st h F) :
    bigCircuit t vi a ti = Verif.circuitFor t (a.map fun n : ℕ => (n : Fr)) (bigs vi) (bigs ti) := by
  have h : bigs a = (a.map fun n : ℕ => (n : Fr)).map fun v => .big v.val := by
    rw [bigs, List.map_map]
    refine List.map_congr_left fun n hn => ?_
    rw [Function.comp_apply, ZMod.val_natCast_of_lt (r.aux_lt n hn)]
  rw [bigCircuit, h]
  rfl

theorem good (r : EvalRun sha kec t vi a ti st h F) : ∀ v ∈ bigs ti ++ bigs vi, v.Good := by
  rw [bigs_append]
  exact bigs_good r.inst_lt

theorem instHash (r : EvalRun sha kec t vi a ti st h F) {X : Ext} (hk : X.keccak = kec) :
    Verif.instHash X (bigs ti) (bigs vi) = (h : Fr) := by
  rw [Verif.instHash, hk, bigs_append, bigs_bytes r.inst_lt, ← r.keccak, ZMod.natCast_mod]

theorem inst (r : EvalRun sha kec t vi a ti st h F) : ∃ I : G1, I = instCommitment (h : Fr) ∧ encN I = (st.getD 0 0, st.getD 1 0) ∧
    Representable I ∧ (h : Fr) ≠ 0 := by
  obtain ⟨p, e1, e2, e3, e4, e5, e6⟩ := mulChk_ok r.commitment
  have hp1 : p.1 = (h : Fr) := by rw [← e3, ZMod.natCast_zmod_val]
  have hp2 : p.2 = vkInstance := by
    refine enc_injective ?_
    rw [vkInstance_enc]
    rw [encN, Prod.mk.injEq] at e1
    rw [← e1.1, ← e1.2, ZMod.natCast_zmod_val, ZMod.natCast_zmod_val]
  rw [hp1, hp2] at e5 e6
  rw [hp1] at e4
  exact ⟨_, rfl, e5, e6, e4⟩

theorem F_enc (r : EvalRun sha kec t vi a ti st h F) : encN (dec ((F.1 : Fp), (F.2 : Fp))) = F := by
  have h : enc (dec ((F.1 : Fp), (F.2 : Fp))) = ((F.1 : Fp), (F.2 : Fp)) := enc_dec (.inl r.F_curve)
  rw [encN, h, ZMod.val_natCast_of_lt r.F_lt.1, ZMod.val_natCast_of_lt r.F_lt.2]

theorem F_ne (r : EvalRun sha kec t vi a ti st h F) : dec ((F.1 : Fp), (F.2 : Fp)) ≠ 0 := dec_ne r.F_curve

theorem W_curve (r : EvalRun sha kec t vi a ti st h F) : OnCurve (t.getD 102 0 : Fp) (t.getD 103 0 : Fp) :=
  (r.canonical.point 102 (.inr (.inr rfl))).2.2

theorem W_enc (r : EvalRun sha kec t vi a ti st h F) : encN (pointOf t 102) = (t.getD 102 0, t.getD 103 0) := by
  obtain ⟨h1, h2, h3⟩ := r.canonical.point 102 (.inr (.inr rfl))
  have h : enc (pointOf t 102) = _ := enc_dec (.inl h3)
  rw [encN, h, ZMod.val_natCast_of_lt h1, ZMod.val_natCast_of_lt h2]

theorem W_ne (r : EvalRun sha kec t vi a ti st h F) : pointOf t 102 ≠ 0 := dec_ne r.W_curve

/-- With these hash functions, lawful curve arithmetic and the hints of the repo, the circuit on these numbers is accepted
if and only if the pairing equation holds for the second opening proof and the computed point. -/
theorem accepted_iff (r : EvalRun sha kec t vi a ti st h F) {X : Ext} (hX : X.Lawful) (hsha : X.sha256 = sha)
    (hkec : X.keccak = kec) {s : St} (hs : s.sat = true) :
    ((bigCircuit t vi a ti).Define X).Accepted (honestTest X true) s ↔
      X.PairingEq (pointOf t 102) (dec ((F.1 : Fp), (F.2 : Fp))) := by
  have hih := r.instHash hkec
  obtain ⟨I, hI, henc, hrep, hne⟩ := r.inst
  have hE := honest_raw X
  rw [encN, Prod.mk.injEq] at henc
  have hg := r.good
  obtain ⟨B0, s3, hs3, hl, hp, hch, hdef⟩ := define_prologue hX hE (fun _ _ _ => rfl) r.canonical (a.map fun n : ℕ => (n : Fr))
    (vi := bigs vi) (ti := bigs ti) (by
      rw [bigs_append, bigs, List.length_map]; exact r.inst_len) hg (by rw [hih]; exact hne)
    (by rw [hih, ← hI]; exact hrep) s hs
  rw [hih, ← hI] at hp
  simp only [hih, ← hI, hsha, henc.1, henc.2] at hch
  rw [← r.circuitFor] at hdef
  have hag : Agree (st.map some ++ List.replicate 33 none) B0 := by
    refine ⟨by rw [hl, List.length_append, List.length_map, r.st_len, List.length_replicate], fun i n hn => ?_⟩
    have hi : i < 10 := by
      by_contra hc
      rw [List.getD_eq_getElem?_getD, List.getElem?_append_right (by
        rw [List.length_map]
        have := r.st_len
        omega), List.getElem?_replicate] at hn
      split at hn <;> cases hn
    have hlen := r.st_len
    rw [List.getD_eq_getElem?_getD, List.getElem?_append_left (by rw [List.length_map]; omega), List.getElem?_map] at hn
    cases hsi : st[i]? with
    | none => rw [hsi] at hn; cases hn
    | some m =>
      rw [hsi] at hn
      have hnm : m = n := by simpa using hn
      subst hnm
      by_cases h2 : i < 2
      · have h3 : st.getD i 0 = m := by rw [List.getD_eq_getElem?_getD, hsi]; rfl
        obtain rfl | rfl : i = 0 ∨ i = 1 := by omega
        · rw [hp.1, henc.1, h3]
        · rw [hp.2, henc.2, h3]
      · have h8 := hch (i - 2) (by omega)
        rw [show 2 + (i - 2) = i by omega] at h8
        rw [getD_some h8]
        have h9 := congrArg (fun l : List ℕ => l[i - 2]?) r.challenges
        simp only [List.getElem?_map, List.getElem?_drop, show 2 + (i - 2) = i by omega, hsi] at h9
        rw [List.getElem?_eq_getElem (by rw [fsChallenges_length]; omega), Option.map_some, Option.some.injEq] at h9
        rw [← h9, Int.natCast_mod]
  have hst := r.steps
  rw [Option.map_eq_some_iff] at hst
  obtain ⟨b', hb', hcells⟩ := hst
  obtain ⟨B3, s6, hrun, hsat6, hag3⟩ := execNs_ok hX hE (t := t) (a := a) (T := (bigCircuit t vi a ti).Proof)
    (A := (bigCircuit t vi a ti).Aux) rfl rfl prog s3 hag hb'
  obtain ⟨B2, s5, h12, h3⟩ := execBody_split (step1 ++ step2) (show execBody X _ _ B0 (step1 ++ step2 ++ step3) _ s3 = _ from hrun)
  obtain ⟨B1, s4, h1, h2⟩ := execBody_split step1 h12
  have hD := hdef B1 B2 B3 s4 s5 s6 h1 h2 h3
  have hs6 : s6.sat = true := hsat6.trans hs3
  rw [Prod.mk.injEq, Prod.mk.injEq, Prod.mk.injEq] at hcells
  obtain ⟨d10, d11, d12, d13⟩ := hcells
  have w10 : t[102]? = some (t.getD 102 0) := getElem?_getD (by rw [r.canonical.len]; decide)
  have w11 : t[103]? = some (t.getD 103 0) := getElem?_getD (by rw [r.canonical.len]; decide)
  have hW : PtExact (B3.getD 10 .nil) (B3.getD 11 .nil) (pointOf t 102) :=
    encN_exact r.W_enc (hag3.2 _ _ (d10.trans w10)) (hag3.2 _ _ (d11.trans w11))
  have hF : PtExact (B3.getD 12 .nil) (B3.getD 13 .nil) (dec ((F.1 : Fp), (F.2 : Fp))) :=
    encN_exact r.F_enc (hag3.2 _ _ d12) (hag3.2 _ _ d13)
  constructor
  · rintro ⟨s', hd, hs'⟩
    rw [hD] at hd
    obtain ⟨-, x, y, ha, hb, -, -, hpair, -⟩ := finalCheck_ok hd hs'
    rw [constPair_iff] at ha hb
    have ha' := constPair_iff.1 hW.const
    have hb' := constPair_iff.1 hF.const
    have e1 : x = enc (pointOf t 102) := Prod.ext (Option.some.inj (ha.1.symm.trans ha'.1)) (Option.some.inj (ha.2.symm.trans ha'.2))
    have e2 : y = enc (dec ((F.1 : Fp), (F.2 : Fp))) := Prod.ext (Option.some.inj (hb.1.symm.trans hb'.1)) (Option.some.inj (hb.2.symm.trans hb'.2))
    rw [e1, e2] at hpair
    exact hpair
  · intro hpair
    exact ⟨s6, hD.trans (finalCheck_run hW hF (hag3.lt d13) r.W_ne r.F_ne hpair _ s6), hs6⟩

end EvalRun

end Verif
