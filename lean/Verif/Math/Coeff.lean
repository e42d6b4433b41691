/- Polynomial functions with a known coefficient, and statements that hold for all but a bounded number of field elements.
Models nothing of /repo. -/
import Verif.Math.AllBut

namespace Verif
open Polynomial

/-- A property with an exceptional set of at most `d` elements for each member of a finite set. -/
theorem AllBut.forall_mem' {F ι : Type} [DecidableEq F] {d : ℕ} (s : Finset ι) {p : ι → F → Prop} (h : ∀ i ∈ s, AllBut d (p i)) :
    AllBut (s.card * d) fun c => ∀ i ∈ s, p i c := by
  classical
  induction s using Finset.induction_on with
  | empty => exact .of_forall fun c i hi => by simp at hi
  | insert a s ha ih =>
    rw [Finset.card_insert_of_notMem ha, Nat.succ_mul]
    refine ((ih fun i hi => h i (Finset.mem_insert_of_mem hi)).and (h a (Finset.mem_insert_self a s))).mono le_rfl ?_
    rintro c ⟨h1, h2⟩ i hi
    rcases Finset.mem_insert.1 hi with rfl | hi
    · exact h2
    · exact h1 i hi

theorem AllBut.forall_lt {F : Type} [DecidableEq F] {d : ℕ} (m : ℕ) {p : ℕ → F → Prop} (h : ∀ i < m, AllBut d (p i)) :
    AllBut (m * d) fun c => ∀ i < m, p i c := by
  have := AllBut.forall_mem' (Finset.range m) (p := p) fun i hi => h i (Finset.mem_range.1 hi)
  rw [Finset.card_range] at this
  exact this.mono le_rfl fun c h i hi => h i (Finset.mem_range.2 hi)

variable {F : Type} [Field F]

/-- `f` is a polynomial function of degree at most `d` whose coefficient of degree `j` is `a`. -/
def HasCoeff (d j : ℕ) (f : F → F) (a : F) : Prop := ∃ p : F[X], p.natDegree ≤ d ∧ p.coeff j = a ∧ ∀ x, p.eval x = f x

theorem HasCoeff.congr {d j : ℕ} {f g : F → F} {a : F} (h : HasCoeff d j f a) (hfg : ∀ x, f x = g x) : HasCoeff d j g a :=
  let ⟨p, hp, hc, h⟩ := h
  ⟨p, hp, hc, fun x => (h x).trans (hfg x)⟩

theorem HasCoeff.of_eq {d j : ℕ} {f : F → F} {a b : F} (h : HasCoeff d j f a) (hab : a = b) : HasCoeff d j f b := hab ▸ h

theorem HasCoeff.polyFn {d j : ℕ} {f : F → F} {a : F} (h : HasCoeff d j f a) : PolyFn d f :=
  let ⟨p, hp, _, h⟩ := h
  ⟨p, hp, h⟩

theorem PolyFn.hasCoeff {d : ℕ} {f : F → F} (h : PolyFn d f) (j : ℕ) : ∃ a, HasCoeff d j f a :=
  let ⟨p, hp, h⟩ := h
  ⟨p.coeff j, p, hp, rfl, h⟩

theorem PolyFn.hasCoeff_zero {d e j : ℕ} {f : F → F} (h : PolyFn d f) (hj : d < j) (he : d ≤ e) : HasCoeff e j f 0 :=
  let ⟨p, hp, h⟩ := h
  ⟨p, hp.trans he, coeff_eq_zero_of_natDegree_lt (hp.trans_lt hj), h⟩

theorem HasCoeff.mono {d e j : ℕ} {f : F → F} {a : F} (h : HasCoeff d j f a) (hde : d ≤ e) : HasCoeff e j f a :=
  let ⟨p, hp, hc, h⟩ := h
  ⟨p, hp.trans hde, hc, h⟩

theorem HasCoeff.add {d j : ℕ} {f g : F → F} {a b : F} (hf : HasCoeff d j f a) (hg : HasCoeff d j g b) :
    HasCoeff d j (fun x => f x + g x) (a + b) := by
  obtain ⟨p, hp, hc, hf⟩ := hf
  obtain ⟨q, hq, hc', hg⟩ := hg
  exact ⟨p + q, (natDegree_add_le p q).trans (max_le hp hq), by rw [coeff_add, hc, hc'], fun x => by rw [eval_add, hf, hg]⟩

theorem HasCoeff.sub {d j : ℕ} {f g : F → F} {a b : F} (hf : HasCoeff d j f a) (hg : HasCoeff d j g b) :
    HasCoeff d j (fun x => f x - g x) (a - b) := by
  obtain ⟨p, hp, hc, hf⟩ := hf
  obtain ⟨q, hq, hc', hg⟩ := hg
  exact ⟨p - q, (natDegree_sub_le p q).trans (max_le hp hq), by rw [coeff_sub, hc, hc'], fun x => by rw [eval_sub, hf, hg]⟩

theorem HasCoeff.smul {d j : ℕ} {f : F → F} {b : F} (a : F) (hf : HasCoeff d j f b) : HasCoeff d j (fun x => a * f x) (a * b) := by
  obtain ⟨p, hp, hc, hf⟩ := hf
  exact ⟨C a * p, (natDegree_C_mul_le a p).trans hp, by rw [coeff_C_mul, hc], fun x => by rw [Polynomial.eval_mul, eval_C, hf]⟩

theorem HasCoeff.monomial {d k : ℕ} (hk : k ≤ d) (j : ℕ) (a : F) : HasCoeff d j (fun x => x ^ k * a) (if k = j then a else 0) := by
  refine ⟨Polynomial.monomial k a, (natDegree_monomial_le a).trans hk, coeff_monomial, fun x => ?_⟩
  rw [eval_monomial, mul_comm]

/-- Leading coefficients multiply. -/
theorem HasCoeff.mul {d e : ℕ} {f g : F → F} {a b : F} (hf : HasCoeff d d f a) (hg : HasCoeff e e g b) :
    HasCoeff (d + e) (d + e) (fun x => f x * g x) (a * b) := by
  obtain ⟨p, hp, hc, hf⟩ := hf
  obtain ⟨q, hq, hc', hg⟩ := hg
  refine ⟨p * q, natDegree_mul_le.trans (Nat.add_le_add hp hq), ?_, fun x => by rw [Polynomial.eval_mul, hf, hg]⟩
  rw [coeff_mul_add_eq_of_natDegree_le hp hq, hc, hc']

theorem HasCoeff.id : HasCoeff 1 1 (fun x : F => x) 1 := ⟨X, natDegree_X_le, coeff_X_one, fun x => eval_X⟩

theorem HasCoeff.sub_const (a : F) : HasCoeff 1 1 (fun x : F => x - a) 1 := by
  have h := HasCoeff.id.sub ((PolyFn.const (F := F) 0 a).hasCoeff_zero (j := 1) (e := 1) Nat.zero_lt_one (Nat.zero_le 1))
  exact h.of_eq (sub_zero 1)

theorem HasCoeff.const_sub (a : F) : HasCoeff 1 1 (fun x : F => a - x) (-1) := by
  have h := ((PolyFn.const (F := F) 0 a).hasCoeff_zero (j := 1) (e := 1) Nat.zero_lt_one (Nat.zero_le 1)).sub HasCoeff.id
  exact h.of_eq (zero_sub 1)

/-- A polynomial function with a non-zero coefficient has at most `d` zeros. -/
theorem HasCoeff.allBut {d j : ℕ} {f : F → F} {a : F} (hf : HasCoeff d j f a) (ha : a ≠ 0) : AllBut d fun x => f x ≠ 0 := by
  classical
  obtain ⟨p, hp, hc, h⟩ := hf
  have hp0 : p ≠ 0 := by
    rintro rfl
    exact ha (by rw [← hc, coeff_zero])
  refine ⟨p.roots.toFinset, (Multiset.toFinset_card_le _).trans ((card_roots' p).trans hp), fun x hx h0 => ?_⟩
  rw [Multiset.mem_toFinset, mem_roots hp0, IsRoot.def, h] at hx
  exact hx h0

/-- The same against a polynomial function without that coefficient. -/
theorem HasCoeff.allBut_ne {d e j : ℕ} {f g : F → F} {a : F} (hf : HasCoeff d j f a) (ha : a ≠ 0) (hg : PolyFn e g) (he : e < j) (hed : e ≤ d) :
    AllBut d fun x => f x ≠ g x :=
  ((hf.sub (hg.hasCoeff_zero he hed)).of_eq (sub_zero a) |>.allBut ha).mono le_rfl fun _ h => sub_ne_zero.1 h

/-- Values of a fraction outside a finite set: for all but |B| d arguments. -/
theorem HasCoeff.avoids [DecidableEq F] {d e j : ℕ} {f g : F → F} {a : F} (hf : HasCoeff d j f a) (ha : a ≠ 0) (hg : PolyFn e g) (he : e < j) (hed : e ≤ d)
    (B : Finset F) : AllBut (B.card * d) fun x => ∀ b ∈ B, f x ≠ b * g x :=
  AllBut.forall_mem' B fun b _ => hf.allBut_ne ha (hg.smul b) he hed

end Verif
