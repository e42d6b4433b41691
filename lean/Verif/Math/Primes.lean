/-
Primality of the two BN254 moduli, by Pratt (Lucas) certificates checked in the kernel.
The numbers are the constants of /repo/aggregator_lib_circuit.go:24-26 (FpModulus, FrModulus).
Generated by tools/gen_primes.py.
-/
import Verif.Math.PowMod

namespace Verif

theorem prime_2 : Nat.Prime 2 := by norm_num

theorem prime_3 : Nat.Prime 3 := by norm_num

theorem prime_13 : Nat.Prime 13 := by norm_num

theorem prime_29 : Nat.Prime 29 := by norm_num

theorem prime_983 : Nat.Prime 983 := by norm_num

theorem prime_11003 : Nat.Prime 11003 := by norm_num

theorem prime_237073 : Nat.Prime 237073 := by norm_num

theorem prime_11 : Nat.Prime 11 := by norm_num

theorem prime_3691 : Nat.Prime 3691 := by norm_num

theorem prime_4999 : Nat.Prime 4999 := by norm_num

theorem prime_405928799 : Nat.Prime 405928799 := by
  refine lucas_of_factors 405928799 22 [(2, 1), (11, 1), (3691, 1), (4999, 1)] (by norm_num) (by decide +kernel) ?_ (by decide +kernel) (by decide +kernel)
  simp only [List.forall_mem_cons, List.not_mem_nil, false_imp_iff, implies_true, and_true]
  exact ⟨prime_2, prime_11, prime_3691, prime_4999⟩

theorem prime_107 : Nat.Prime 107 := by norm_num

theorem prime_7 : Nat.Prime 7 := by norm_num

theorem prime_661 : Nat.Prime 661 := by norm_num

theorem prime_93001 : Nat.Prime 93001 := by norm_num

theorem prime_12048837557 : Nat.Prime 12048837557 := by
  refine lucas_of_factors 12048837557 2 [(2, 2), (7, 2), (661, 1), (93001, 1)] (by norm_num) (by decide +kernel) ?_ (by decide +kernel) (by decide +kernel)
  simp only [List.forall_mem_cons, List.not_mem_nil, false_imp_iff, implies_true, and_true]
  exact ⟨prime_2, prime_7, prime_661, prime_93001⟩

theorem prime_5156902474397 : Nat.Prime 5156902474397 := by
  refine lucas_of_factors 5156902474397 2 [(2, 2), (107, 1), (12048837557, 1)] (by norm_num) (by decide +kernel) ?_ (by decide +kernel) (by decide +kernel)
  simp only [List.forall_mem_cons, List.not_mem_nil, false_imp_iff, implies_true, and_true]
  exact ⟨prime_2, prime_107, prime_12048837557⟩

theorem prime_1670836401704629 : Nat.Prime 1670836401704629 := by
  refine lucas_of_factors 1670836401704629 2 [(2, 2), (3, 4), (5156902474397, 1)] (by norm_num) (by decide +kernel) ?_ (by decide +kernel) (by decide +kernel)
  simp only [List.forall_mem_cons, List.not_mem_nil, false_imp_iff, implies_true, and_true]
  exact ⟨prime_2, prime_3, prime_5156902474397⟩

theorem prime_5 : Nat.Prime 5 := by norm_num

theorem prime_823 : Nat.Prime 823 := by norm_num

theorem prime_1593227 : Nat.Prime 1593227 := by norm_num

theorem prime_83 : Nat.Prime 83 := by norm_num

theorem prime_379 : Nat.Prime 379 := by norm_num

theorem prime_1637 : Nat.Prime 1637 := by norm_num

theorem prime_229 : Nat.Prime 229 := by norm_num

theorem prime_853 : Nat.Prime 853 := by norm_num

theorem prime_639533339 : Nat.Prime 639533339 := by
  refine lucas_of_factors 639533339 2 [(2, 1), (229, 1), (853, 1), (1637, 1)] (by norm_num) (by decide +kernel) ?_ (by decide +kernel) (by decide +kernel)
  simp only [List.forall_mem_cons, List.not_mem_nil, false_imp_iff, implies_true, and_true]
  exact ⟨prime_2, prime_229, prime_853, prime_1637⟩

theorem prime_65865678001877903 : Nat.Prime 65865678001877903 := by
  refine lucas_of_factors 65865678001877903 5 [(2, 1), (83, 1), (379, 1), (1637, 1), (639533339, 1)] (by norm_num) (by decide +kernel) ?_ (by decide +kernel) (by decide +kernel)
  simp only [List.forall_mem_cons, List.not_mem_nil, false_imp_iff, implies_true, and_true]
  exact ⟨prime_2, prime_83, prime_379, prime_1637, prime_639533339⟩

theorem prime_13818364434197438864469338081 : Nat.Prime 13818364434197438864469338081 := by
  refine lucas_of_factors 13818364434197438864469338081 3 [(2, 5), (5, 1), (823, 1), (1593227, 1), (65865678001877903, 1)] (by norm_num) (by decide +kernel) ?_ (by decide +kernel) (by decide +kernel)
  simp only [List.forall_mem_cons, List.not_mem_nil, false_imp_iff, implies_true, and_true]
  exact ⟨prime_2, prime_5, prime_823, prime_1593227, prime_65865678001877903⟩

theorem prime_rMod_lit : Nat.Prime 21888242871839275222246405745257275088548364400416034343698204186575808495617 := by
  refine lucas_of_factors 21888242871839275222246405745257275088548364400416034343698204186575808495617 5 [(2, 28), (3, 2), (13, 1), (29, 1), (983, 1), (11003, 1), (237073, 1), (405928799, 1), (1670836401704629, 1), (13818364434197438864469338081, 1)] (by norm_num) (by decide +kernel) ?_ (by decide +kernel) (by decide +kernel)
  simp only [List.forall_mem_cons, List.not_mem_nil, false_imp_iff, implies_true, and_true]
  exact ⟨prime_2, prime_3, prime_13, prime_29, prime_983, prime_11003, prime_237073, prime_405928799, prime_1670836401704629, prime_13818364434197438864469338081⟩

theorem prime_67 : Nat.Prime 67 := by norm_num

theorem prime_311 : Nat.Prime 311 := by norm_num

theorem prime_327599 : Nat.Prime 327599 := by norm_num

theorem prime_11465965001 : Nat.Prime 11465965001 := by
  refine lucas_of_factors 11465965001 3 [(2, 3), (5, 4), (7, 1), (327599, 1)] (by norm_num) (by decide +kernel) ?_ (by decide +kernel) (by decide +kernel)
  simp only [List.forall_mem_cons, List.not_mem_nil, false_imp_iff, implies_true, and_true]
  exact ⟨prime_2, prime_5, prime_7, prime_327599⟩

theorem prime_1853641 : Nat.Prime 1853641 := by norm_num

theorem prime_17 : Nat.Prime 17 := by norm_num

theorem prime_109 : Nat.Prime 109 := by norm_num

theorem prime_1231 : Nat.Prime 1231 := by norm_num

theorem prime_4562087 : Nat.Prime 4562087 := by
  refine lucas_of_factors 4562087 5 [(2, 1), (17, 1), (109, 1), (1231, 1)] (by norm_num) (by decide +kernel) ?_ (by decide +kernel) (by decide +kernel)
  simp only [List.forall_mem_cons, List.not_mem_nil, false_imp_iff, implies_true, and_true]
  exact ⟨prime_2, prime_17, prime_109, prime_1231⟩

theorem prime_73 : Nat.Prime 73 := by norm_num

theorem prime_89 : Nat.Prime 89 := by norm_num

theorem prime_13327 : Nat.Prime 13327 := by norm_num

theorem prime_173171039 : Nat.Prime 173171039 := by
  refine lucas_of_factors 173171039 13 [(2, 1), (73, 1), (89, 1), (13327, 1)] (by norm_num) (by decide +kernel) ?_ (by decide +kernel) (by decide +kernel)
  simp only [List.forall_mem_cons, List.not_mem_nil, false_imp_iff, implies_true, and_true]
  exact ⟨prime_2, prime_73, prime_89, prime_13327⟩

theorem prime_19 : Nat.Prime 19 := by norm_num

theorem prime_41 : Nat.Prime 41 := by norm_num

theorem prime_911 : Nat.Prime 911 := by norm_num

theorem prime_3557 : Nat.Prime 3557 := by norm_num

theorem prime_1263766531 : Nat.Prime 1263766531 := by
  refine lucas_of_factors 1263766531 10 [(2, 1), (3, 1), (5, 1), (13, 1), (911, 1), (3557, 1)] (by norm_num) (by decide +kernel) ?_ (by decide +kernel) (by decide +kernel)
  simp only [List.forall_mem_cons, List.not_mem_nil, false_imp_iff, implies_true, and_true]
  exact ⟨prime_2, prime_3, prime_5, prime_13, prime_911, prime_3557⟩

theorem prime_35385462869 : Nat.Prime 35385462869 := by
  refine lucas_of_factors 35385462869 2 [(2, 2), (7, 1), (1263766531, 1)] (by norm_num) (by decide +kernel) ?_ (by decide +kernel) (by decide +kernel)
  simp only [List.forall_mem_cons, List.not_mem_nil, false_imp_iff, implies_true, and_true]
  exact ⟨prime_2, prime_7, prime_1263766531⟩

theorem prime_2480874801745591 : Nat.Prime 2480874801745591 := by
  refine lucas_of_factors 2480874801745591 6 [(2, 1), (3, 2), (5, 1), (19, 1), (41, 1), (35385462869, 1)] (by norm_num) (by decide +kernel) ?_ (by decide +kernel) (by decide +kernel)
  simp only [List.forall_mem_cons, List.not_mem_nil, false_imp_iff, implies_true, and_true]
  exact ⟨prime_2, prime_3, prime_5, prime_19, prime_41, prime_35385462869⟩

theorem prime_13427688667394608761327070753331941386769 : Nat.Prime 13427688667394608761327070753331941386769 := by
  refine lucas_of_factors 13427688667394608761327070753331941386769 17 [(2, 4), (3, 1), (7, 1), (11, 1), (1853641, 1), (4562087, 1), (173171039, 1), (2480874801745591, 1)] (by norm_num) (by decide +kernel) ?_ (by decide +kernel) (by decide +kernel)
  simp only [List.forall_mem_cons, List.not_mem_nil, false_imp_iff, implies_true, and_true]
  exact ⟨prime_2, prime_3, prime_7, prime_11, prime_1853641, prime_4562087, prime_173171039, prime_2480874801745591⟩

theorem prime_pMod_lit : Nat.Prime 21888242871839275222246405745257275088696311157297823662689037894645226208583 := by
  refine lucas_of_factors 21888242871839275222246405745257275088696311157297823662689037894645226208583 3 [(2, 1), (3, 2), (13, 1), (29, 1), (67, 1), (229, 1), (311, 1), (983, 1), (11003, 1), (405928799, 1), (11465965001, 1), (13427688667394608761327070753331941386769, 1)] (by norm_num) (by decide +kernel) ?_ (by decide +kernel) (by decide +kernel)
  simp only [List.forall_mem_cons, List.not_mem_nil, false_imp_iff, implies_true, and_true]
  exact ⟨prime_2, prime_3, prime_13, prime_29, prime_67, prime_229, prime_311, prime_983, prime_11003, prime_405928799, prime_11465965001, prime_13427688667394608761327070753331941386769⟩

end Verif
