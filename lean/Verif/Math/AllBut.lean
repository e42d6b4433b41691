/- Statements that hold for all but a bounded number of field elements, and polynomial functions. Models nothing of /repo. -/
import Mathlib.Algebra.Polynomial.Roots
import Mathlib.Algebra.Polynomial.BigOperators

namespace Verif
open Polynomial

/-- `p` holds for all but at most `k` elements. -/
def AllBut {F : Type} (k : ℕ) (p : F → Prop) : Prop := ∃ B : Finset F, B.card ≤ k ∧ ∀ c, c ∉ B → p c

section
variable {F : Type}

theorem AllBut.mono {k l : ℕ} {p q : F → Prop} (h : AllBut k p) (hkl : k ≤ l) (hpq : ∀ c, p c → q c) : AllBut l q :=
  let ⟨B, hB, h⟩ := h
  ⟨B, hB.trans hkl, fun c hc => hpq c (h c hc)⟩

theorem AllBut.of_forall {k : ℕ} {p : F → Prop} (h : ∀ c, p c) : AllBut k p := ⟨∅, by simp, fun c _ => h c⟩

theorem AllBut.and [DecidableEq F] {k l : ℕ} {p q : F → Prop} (h : AllBut k p) (h' : AllBut l q) :
    AllBut (k + l) fun c => p c ∧ q c := by
  obtain ⟨B, hB, h⟩ := h
  obtain ⟨B', hB', h'⟩ := h'
  refine ⟨B ∪ B', (Finset.card_union_le _ _).trans (Nat.add_le_add hB hB'), fun c hc => ?_⟩
  rw [Finset.mem_union, not_or] at hc
  exact ⟨h c hc.1, h' c hc.2⟩

theorem AllBut.finset (B : Finset F) : AllBut B.card fun c => c ∉ B := ⟨B, le_rfl, fun _ h => h⟩

theorem AllBut.ne (a : F) : AllBut 1 fun c => c ≠ a := ⟨{a}, by simp, fun c hc => by simpa using hc⟩

/-- A property that fails for at most one element per member of a list. -/
theorem AllBut.forall_mem [DecidableEq F] {ι : Type} (s : Finset ι) {p : ι → F → Prop} (h : ∀ i ∈ s, AllBut 1 (p i)) :
    AllBut s.card fun c => ∀ i ∈ s, p i c := by
  classical
  induction s using Finset.induction_on with
  | empty => exact .of_forall fun c i hi => by simp at hi
  | insert a s ha ih =>
    rw [Finset.card_insert_of_notMem ha]
    refine ((ih fun i hi => h i (Finset.mem_insert_of_mem hi)).and (h a (Finset.mem_insert_self a s))).mono le_rfl ?_
    rintro c ⟨h1, h2⟩ i hi
    rcases Finset.mem_insert.1 hi with rfl | hi
    · exact h2
    · exact h1 i hi

/-- The exceptional set can be chosen whether or not the premise holds. -/
theorem AllBut.imp {k : ℕ} {H : Prop} {p : F → Prop} (h : H → AllBut k p) :
    ∃ B : Finset F, B.card ≤ k ∧ (H → ∀ c, c ∉ B → p c) := by
  by_cases hH : H
  · obtain ⟨B, hB, h⟩ := h hH
    exact ⟨B, hB, fun _ => h⟩
  · exact ⟨∅, by simp, fun h => absurd h hH⟩

end

variable {F : Type} [Field F]

/-- `f` is a polynomial function of degree at most `d`. -/
def PolyFn (d : ℕ) (f : F → F) : Prop := ∃ p : F[X], p.natDegree ≤ d ∧ ∀ x, p.eval x = f x

theorem PolyFn.congr {d : ℕ} {f g : F → F} (h : PolyFn d f) (hfg : ∀ x, f x = g x) : PolyFn d g :=
  let ⟨p, hp, h⟩ := h
  ⟨p, hp, fun x => (h x).trans (hfg x)⟩

theorem PolyFn.mono {d e : ℕ} {f : F → F} (h : PolyFn d f) (hde : d ≤ e) : PolyFn e f :=
  let ⟨p, hp, h⟩ := h
  ⟨p, hp.trans hde, h⟩

theorem PolyFn.const (d : ℕ) (a : F) : PolyFn d fun _ => a := ⟨C a, by rw [natDegree_C]; exact Nat.zero_le d, fun x => eval_C⟩

theorem PolyFn.id {d : ℕ} (hd : 1 ≤ d) : PolyFn d fun x : F => x := ⟨X, natDegree_X_le.trans hd, fun x => eval_X⟩

theorem PolyFn.eval {d : ℕ} {p : F[X]} (hp : p.natDegree ≤ d) : PolyFn d fun x => p.eval x := ⟨p, hp, fun _ => rfl⟩

theorem PolyFn.eval_mul {d : ℕ} {p : F[X]} (hp : p.natDegree ≤ d) (a : F) : PolyFn d fun x => p.eval (a * x) := by
  refine ⟨p.comp (C a * X), ?_, fun x => by simp [eval_comp]⟩
  refine natDegree_comp_le.trans ?_
  have : (C a * X).natDegree ≤ 1 := (natDegree_C_mul_le a X).trans natDegree_X_le
  calc p.natDegree * (C a * X).natDegree ≤ p.natDegree * 1 := Nat.mul_le_mul_left _ this
    _ ≤ d := by rw [mul_one]; exact hp

theorem PolyFn.add {d : ℕ} {f g : F → F} (hf : PolyFn d f) (hg : PolyFn d g) : PolyFn d fun x => f x + g x := by
  obtain ⟨p, hp, hf⟩ := hf
  obtain ⟨q, hq, hg⟩ := hg
  exact ⟨p + q, (natDegree_add_le p q).trans (max_le hp hq), fun x => by rw [eval_add, hf, hg]⟩

theorem PolyFn.sub {d : ℕ} {f g : F → F} (hf : PolyFn d f) (hg : PolyFn d g) : PolyFn d fun x => f x - g x := by
  obtain ⟨p, hp, hf⟩ := hf
  obtain ⟨q, hq, hg⟩ := hg
  exact ⟨p - q, (natDegree_sub_le p q).trans (max_le hp hq), fun x => by rw [eval_sub, hf, hg]⟩

theorem PolyFn.mul {d e : ℕ} {f g : F → F} (hf : PolyFn d f) (hg : PolyFn e g) : PolyFn (d + e) fun x => f x * g x := by
  obtain ⟨p, hp, hf⟩ := hf
  obtain ⟨q, hq, hg⟩ := hg
  refine ⟨p * q, natDegree_mul_le.trans (Nat.add_le_add hp hq), fun x => ?_⟩
  rw [Polynomial.eval_mul, hf, hg]

theorem PolyFn.pow {d : ℕ} {f : F → F} (hf : PolyFn d f) (k : ℕ) : PolyFn (k * d) fun x => f x ^ k := by
  obtain ⟨p, hp, hf⟩ := hf
  exact ⟨p ^ k, natDegree_pow_le.trans (Nat.mul_le_mul_left _ hp), fun x => by rw [Polynomial.eval_pow, hf]⟩

theorem PolyFn.smul {d : ℕ} {f : F → F} (hf : PolyFn d f) (a : F) : PolyFn d fun x => a * f x := by
  have := (PolyFn.const 0 a).mul hf
  rwa [Nat.zero_add] at this

theorem PolyFn.prod {ι : Type} (s : Finset ι) {d : ℕ} {f : ι → F → F} (h : ∀ i ∈ s, PolyFn d (f i)) :
    PolyFn (s.card * d) fun x => ∏ i ∈ s, f i x := by
  classical
  induction s using Finset.induction_on with
  | empty => simpa using PolyFn.const (F := F) 0 1
  | insert a s ha ih =>
    refine (((h a (Finset.mem_insert_self a s)).mul
      (ih fun i hi => h i (Finset.mem_insert_of_mem hi))).mono ?_).congr fun x => (Finset.prod_insert (f := fun i => f i x) ha).symm
    rw [Finset.card_insert_of_notMem ha]
    exact le_of_eq (by ring)

/-- A polynomial function that is not identically zero has at most `d` zeros. -/
theorem PolyFn.allBut {d : ℕ} {f : F → F} (hf : PolyFn d f) {a : F} (ha : f a ≠ 0) : AllBut d fun x => f x ≠ 0 := by
  classical
  obtain ⟨p, hp, h⟩ := hf
  have hp0 : p ≠ 0 := by
    rintro rfl
    exact ha (by rw [← h, eval_zero])
  refine ⟨p.roots.toFinset, (Multiset.toFinset_card_le _).trans ((card_roots' p).trans hp), fun x hx h0 => ?_⟩
  rw [Multiset.mem_toFinset, mem_roots hp0, IsRoot.def, h] at hx
  exact hx h0

/-- Two polynomial functions of degree ≤ d that differ somewhere agree at no more than d points. -/
theorem PolyFn.allBut_ne {d : ℕ} {f g : F → F} (hf : PolyFn d f) (hg : PolyFn d g) {a : F} (ha : f a ≠ g a) :
    AllBut d fun x => f x ≠ g x :=
  ((hf.sub hg).allBut (sub_ne_zero.2 ha)).mono le_rfl fun _ h => sub_ne_zero.1 h

end Verif
