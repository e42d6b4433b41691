/-
C36 needs its proviso: a proof whose challenge x is in the evaluation domain is accepted with different aux values.
-/
import Verif.Lemmas.EvalRun
import Verif.Props.Shipped

namespace Verif
open Halo2

/-- A proof whose points are all the generator and whose evaluations make every constraint of the aggregator circuit
vanish at x = 1. -/
def degProof : List ℕ := [
  1, 2, 1, 2, 1, 2, 1, 2, 1, 2, 1, 2, 1, 2, 1, 2, 1, 2, 1, 2, 1, 2, 1, 2, 1, 2, 1, 2, 1, 2, 1, 2, 1,
  2, 1, 2, 1, 2, 1, 2, 1, 2, 1, 2, 0, 0, 0, 0, 0, 0, 0, 0, 0, 0, 0, 0, 0, 0, 0, 0, 0, 0, 0, 0, 0, 0,
  0, 0, 0, 0, 0, 0, 0, 0, 0, 0, 0, 0, 0, 1, 1, 1, 1, 1, 1, 1, 1, 1, 1, 1, 1, 1, 0, 0, 0, 1, 1, 0, 0,
  0, 1, 2, 1, 2]

/-- Its aux values, with any value `l` in the place of the first Lagrange quotient (aux 9). -/
def degAux (l : ℕ) : List ℕ := [
  9932431202690475865047084517015710593440296130880628342716589063904371939780,
  20005159452841998521249769098864485922710205810460446476860114344835018535213,
  11955811669148799357199321228241564495108068269535406000981615122671436555837,
  8717783133901898583561798021000513348536090440840560122388845848656301367713,
  1883083418997276700996636646392789165838158589955587866838089841740789960404,
  13170459737937376638684607724256761740012273959575474221309358337919507127904,
  8717783133901898583561798021000513348536090440840560122388845848656301367712,
  13170459737937376638684607724256761740012273959575474221309358337919507127905,
  5964618332021808577771106459516172024460498742397021955267206232644483589634,
  l,
  0,
  0,
  0,
  0,
  0,
  0,
  0,
  16352206697061657430563581843187481446777689521943739700638456480333604011382,
  18459337025322362911857078510650657915439107647313861507422879233536245242060,
  5536036174777617791682823902069793641770674878472294643059747706242204484235,
  3428905846516912310389327234606617173109256753102172836275324953039563253557]

/-- The instance commitment for hash 1 and the eight challenges. -/
def degStart : List ℕ := [
  13534086339230182803823178260078315691269243572458753455438283544709107378988,
  9053077977614827188269653632534212501565186534180282672519599630892718179094,
  0, 0, 33, 481, 1, 1825, 33, 97]

/-- The combination of the openings. -/
def degOpening : ℕ × ℕ := (10525951068543027736808298821219817887563765840355493280320845037905843783882,
  1329123591428585315116553469561540838166599749674148857326502104550925012229)

/-- A 32-byte hash under which the challenge x is 1 and θ and β are 0: it depends on the length of the message only. -/
def degSha (m : List UInt8) : List UInt8 :=
  beBytes (if m.length = 225 then 1 else if m.length = 289 ∨ m.length = 609 then 0 else m.length) 32

/-- A 32-byte hash that is always 1. -/
def degKeccak (_ : List UInt8) : List UInt8 := beBytes 1 32

theorem deg_canonical : CanonicalProof degProof := by
  refine ⟨by decide +kernel, by decide +kernel, fun i hi => ?_⟩
  have h : ∀ i < 103, (i % 2 = 0 ∧ i < 44 ∨ i = 100 ∨ i = 102) → degProof.getD i 0 < pMod ∧ degProof.getD (i + 1) 0 < pMod ∧
      Nat.beq (degProof.getD (i + 1) 0 * degProof.getD (i + 1) 0 % pMod)
        ((degProof.getD i 0 * degProof.getD i 0 % pMod * degProof.getD i 0 + 3) % pMod) = true := by decide +kernel
  obtain ⟨h1, h2, h3⟩ := h i (by rcases hi with ⟨-, h⟩ | h | h <;> omega) hi
  exact ⟨h1, h2, curve_of_chk h3⟩

theorem deg_run (l : ℕ) (hl : l = 0 ∨ l = 1) :
    EvalRun degSha degKeccak degProof [1] (degAux l) [2] degStart 1 degOpening where
  canonical := deg_canonical
  inst_lt := by decide +kernel
  inst_len := by decide
  aux_lt := by rcases hl with rfl | rfl <;> decide +kernel
  st_len := by decide +kernel
  keccak := by decide +kernel
  commitment := by decide +kernel
  challenges := by decide +kernel
  steps := by rcases hl with rfl | rfl <;> decide +kernel
  F_lt := by decide +kernel
  F_curve := curve_of_chk (by decide +kernel)

/-- The environment: curve arithmetic in the group, the hash functions above, a pairing with trapdoor `τ`. -/
noncomputable def degExt (τ : Fr) : Ext := (idealExt τ id).withHashes degSha degKeccak

theorem degExt_strict (τ : Fr) : (degExt τ).Strict :=
  (idealExt_strict τ id).withHashes (fun _ => beBytes_length _ _) fun _ => beBytes_length _ _

/-- The claim of C36 without its proviso is false: there is an environment that keeps every contract, a well-formed
proof and instances, and two different aux lists of 21 canonical numbers, such that the circuit accepts both, with the
hints of the repo. The challenge x of the proof is 1, a point of the evaluation domain. -/
theorem C36_false : ∃ (X : Ext) (t vi ti a a' : List ℕ), X.Strict ∧ CanonicalProof t ∧ a.length = 21 ∧ a'.length = 21 ∧
    (∀ m ∈ a ++ a', m < rMod) ∧ a ≠ a' ∧
    ((bigCircuit t vi a ti).Define X).Accepted (honestTest X true) .init ∧
    ((bigCircuit t vi a' ti).Define X).Accepted (honestTest X true) .init := by
  have r0 := deg_run 0 (.inl rfl)
  have r1 := deg_run 1 (.inr rfl)
  obtain ⟨a, ha⟩ := exists_smul_gen (pointOf degProof 102)
  obtain ⟨b, hb⟩ := exists_smul_gen (dec ((degOpening.1 : Fp), (degOpening.2 : Fp)))
  have ha0 : a ≠ 0 := by
    rintro rfl
    exact r0.W_ne (ha.trans ((fr_smul_eq_zero).2 (.inl rfl)))
  have hs : (degExt (b / a)).sha256 = degSha := by rw [degExt, Ext.withHashes]
  have hk : (degExt (b / a)).keccak = degKeccak := by rw [degExt, Ext.withHashes]
  have hp : (degExt (b / a)).PairingEq (pointOf degProof 102) (dec ((degOpening.1 : Fp), (degOpening.2 : Fp))) := by
    rw [degExt, Ext.withHashes_pairing]
    unfold Ext.PairingEq idealExt
    simp only [dec_enc, decide_eq_true_eq]
    rw [ha, hb, ← mul_smul, div_mul_cancel₀ _ ha0]
  exact ⟨degExt (b / a), degProof, [1], [2], degAux 0, degAux 1, degExt_strict _, deg_canonical, by decide +kernel,
    by decide +kernel, by decide +kernel, by decide +kernel,
    (r0.accepted_iff (degExt_strict _).toLawful hs hk rfl).2 hp,
    (r1.accepted_iff (degExt_strict _).toLawful hs hk rfl).2 hp⟩

end Verif
