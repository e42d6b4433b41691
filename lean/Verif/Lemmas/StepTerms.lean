/- The operands of every ecc call are those of the specified term list. GENERATED by tools/gen_stepterms.py. -/
import Verif.Lemmas.Exact

namespace Verif
open Halo2

/-- The positions of the ecc calls on cells 12, 13. -/
def accIdx : List ℕ := [144, 155, 159, 162, 165, 170, 173, 176, 179, 183, 186, 190, 194, 197, 200, 203, 207, 210, 213, 217, 220, 223, 226, 229, 233, 236, 239, 242, 246, 250, 253, 256, 259, 262, 265, 269, 272, 275, 278, 281, 284, 288, 291, 294, 297, 300]

variable {R : Var → Var → G1 → Prop} {X : Ext} {T A : List Var} {β : ℕ → ℕ → Var} {N : ℕ} {I : G1}

theorem t144 (H : SRun X T A β N) (hN : 144 ≤ N) (hR : ∀ v w P, PtExact v w P → R v w P) (hT : ∀ i ∈ pointPositions, R (T.getD i .nil) (T.getD (i + 1) .nil) (proofPoint T i))
    (hI : PtExact (β 0 0) (β 0 1) I) (hu : (β 0 9).Canon) : TermAt R β 143 144 12 ((β 142 18).fr, -G1gen) :=
  ⟨(hR _ _ _ <| ex_str (H 142 (by omega)) (by decide +kernel) (by decide +kernel) (by decide +kernel) ptOf_negG), canon_exact (canon_of (H 143 (by omega)) fun _ h => by rw [show _ = _ from h]; exact (canon_of (H 141 (by omega)) fun _ h => h)) (Eqs.e143 H.fr (by omega))⟩
theorem t155 (H : SRun X T A β N) (hN : 155 ≤ N) (hR : ∀ v w P, PtExact v w P → R v w P) (hT : ∀ i ∈ pointPositions, R (T.getD i .nil) (T.getD (i + 1) .nil) (proofPoint T i))
    (hI : PtExact (β 0 0) (β 0 1) I) (hu : (β 0 9).Canon) : TermAt R β 154 155 14 ((β 0 8).fr ^ 2 * (β 111 33).fr * (β 0 7).fr ^ 28, proofPoint T 0) :=
  ⟨(ex_tr (H 153 (by omega)) (hT 0 (by decide))), canon_exact (canon_of (H 154 (by omega)) fun _ h => h) (Eqs.s155 H.fr (by omega))⟩
theorem t159 (H : SRun X T A β N) (hN : 159 ≤ N) (hR : ∀ v w P, PtExact v w P → R v w P) (hT : ∀ i ∈ pointPositions, R (T.getD i .nil) (T.getD (i + 1) .nil) (proofPoint T i))
    (hI : PtExact (β 0 0) (β 0 1) I) (hu : (β 0 9).Canon) : TermAt R β 158 159 14 ((β 0 8).fr ^ 2 * (β 111 33).fr * (β 0 7).fr ^ 27, proofPoint T 2) :=
  ⟨(ex_tr (H 157 (by omega)) (hT 2 (by decide))), canon_exact (canon_of (H 158 (by omega)) fun _ h => h) (Eqs.s159 H.fr (by omega))⟩
theorem t162 (H : SRun X T A β N) (hN : 162 ≤ N) (hR : ∀ v w P, PtExact v w P → R v w P) (hT : ∀ i ∈ pointPositions, R (T.getD i .nil) (T.getD (i + 1) .nil) (proofPoint T i))
    (hI : PtExact (β 0 0) (β 0 1) I) (hu : (β 0 9).Canon) : TermAt R β 161 162 14 ((β 0 8).fr ^ 2 * (β 111 33).fr * (β 0 7).fr ^ 26, proofPoint T 4) :=
  ⟨(ex_tr (H 160 (by omega)) (hT 4 (by decide))), canon_exact (canon_of (H 161 (by omega)) fun _ h => h) (Eqs.s162 H.fr (by omega))⟩
theorem t165 (H : SRun X T A β N) (hN : 165 ≤ N) (hR : ∀ v w P, PtExact v w P → R v w P) (hT : ∀ i ∈ pointPositions, R (T.getD i .nil) (T.getD (i + 1) .nil) (proofPoint T i))
    (hI : PtExact (β 0 0) (β 0 1) I) (hu : (β 0 9).Canon) : TermAt R β 164 165 14 ((β 0 8).fr ^ 2 * (β 111 33).fr * (β 0 7).fr ^ 25, proofPoint T 6) :=
  ⟨(ex_tr (H 163 (by omega)) (hT 6 (by decide))), canon_exact (canon_of (H 164 (by omega)) fun _ h => h) (Eqs.s165 H.fr (by omega))⟩
theorem t170 (H : SRun X T A β N) (hN : 170 ≤ N) (hR : ∀ v w P, PtExact v w P → R v w P) (hT : ∀ i ∈ pointPositions, R (T.getD i .nil) (T.getD (i + 1) .nil) (proofPoint T i))
    (hI : PtExact (β 0 0) (β 0 1) I) (hu : (β 0 9).Canon) : TermAt R β 169 170 14 ((β 0 8).fr * (β 119 25).fr * (β 0 7).fr ^ 3, proofPoint T 8) :=
  ⟨(ex_tr (H 168 (by omega)) (hT 8 (by decide))), canon_exact (canon_of (H 169 (by omega)) fun _ h => h) (Eqs.s170 H.fr (by omega))⟩
theorem t173 (H : SRun X T A β N) (hN : 173 ≤ N) (hR : ∀ v w P, PtExact v w P → R v w P) (hT : ∀ i ∈ pointPositions, R (T.getD i .nil) (T.getD (i + 1) .nil) (proofPoint T i))
    (hI : PtExact (β 0 0) (β 0 1) I) (hu : (β 0 9).Canon) : TermAt R β 172 173 14 ((β 0 8).fr ^ 2 * (β 111 33).fr * (β 0 7).fr ^ 24, proofPoint T 10) :=
  ⟨(ex_tr (H 171 (by omega)) (hT 10 (by decide))), canon_exact (canon_of (H 172 (by omega)) fun _ h => h) (Eqs.s173 H.fr (by omega))⟩
theorem t176 (H : SRun X T A β N) (hN : 176 ≤ N) (hR : ∀ v w P, PtExact v w P → R v w P) (hT : ∀ i ∈ pointPositions, R (T.getD i .nil) (T.getD (i + 1) .nil) (proofPoint T i))
    (hI : PtExact (β 0 0) (β 0 1) I) (hu : (β 0 9).Canon) : TermAt R β 175 176 14 ((β 141 20).fr * (β 0 7).fr, proofPoint T 12) :=
  ⟨(ex_tr (H 174 (by omega)) (hT 12 (by decide))), canon_exact (canon_of (H 175 (by omega)) fun _ h => h) (Eqs.s176 H.fr (by omega))⟩
theorem t179 (H : SRun X T A β N) (hN : 179 ≤ N) (hR : ∀ v w P, PtExact v w P → R v w P) (hT : ∀ i ∈ pointPositions, R (T.getD i .nil) (T.getD (i + 1) .nil) (proofPoint T i))
    (hI : PtExact (β 0 0) (β 0 1) I) (hu : (β 0 9).Canon) : TermAt R β 178 179 14 ((β 141 20).fr, proofPoint T 14) :=
  ⟨(ex_tr (H 177 (by omega)) (hT 14 (by decide))), canon_exact (canon_of (H 178 (by omega)) fun _ h => by rw [show _ = _ from h]; exact (canon_of (H 140 (by omega)) fun _ h => h)) (Eqs.s179 H.fr (by omega))⟩
theorem t183 (H : SRun X T A β N) (hN : 183 ≤ N) (hR : ∀ v w P, PtExact v w P → R v w P) (hT : ∀ i ∈ pointPositions, R (T.getD i .nil) (T.getD (i + 1) .nil) (proofPoint T i))
    (hI : PtExact (β 0 0) (β 0 1) I) (hu : (β 0 9).Canon) : TermAt R β 182 183 14 ((β 0 8).fr ^ 2 * (β 111 33).fr * (β 0 7).fr ^ 19, vkFixed 2) :=
  ⟨(hR _ _ _ <| ex_str (H 181 (by omega)) (by decide +kernel) (by decide +kernel) (by decide +kernel) vk_f2), canon_exact (canon_of (H 182 (by omega)) fun _ h => h) (Eqs.s183 H.fr (by omega))⟩
theorem t186 (H : SRun X T A β N) (hN : 186 ≤ N) (hR : ∀ v w P, PtExact v w P → R v w P) (hT : ∀ i ∈ pointPositions, R (T.getD i .nil) (T.getD (i + 1) .nil) (proofPoint T i))
    (hI : PtExact (β 0 0) (β 0 1) I) (hu : (β 0 9).Canon) : TermAt R β 185 186 14 ((β 0 8).fr ^ 2 * (β 111 33).fr * (β 0 7).fr ^ 18, vkFixed 3) :=
  ⟨(hR _ _ _ <| ex_str (H 184 (by omega)) (by decide +kernel) (by decide +kernel) (by decide +kernel) vk_f3), canon_exact (canon_of (H 185 (by omega)) fun _ h => h) (Eqs.s186 H.fr (by omega))⟩
theorem t190 (H : SRun X T A β N) (hN : 190 ≤ N) (hR : ∀ v w P, PtExact v w P → R v w P) (hT : ∀ i ∈ pointPositions, R (T.getD i .nil) (T.getD (i + 1) .nil) (proofPoint T i))
    (hI : PtExact (β 0 0) (β 0 1) I) (hu : (β 0 9).Canon) : TermAt R β 189 190 14 ((β 0 8).fr ^ 2 * (β 111 33).fr * (β 0 7).fr ^ 12, vkFixed 9) :=
  ⟨(hR _ _ _ <| ex_str (H 188 (by omega)) (by decide +kernel) (by decide +kernel) (by decide +kernel) vk_f9), canon_exact (canon_of (H 189 (by omega)) fun _ h => h) (Eqs.s190 H.fr (by omega))⟩
theorem t194 (H : SRun X T A β N) (hN : 194 ≤ N) (hR : ∀ v w P, PtExact v w P → R v w P) (hT : ∀ i ∈ pointPositions, R (T.getD i .nil) (T.getD (i + 1) .nil) (proofPoint T i))
    (hI : PtExact (β 0 0) (β 0 1) I) (hu : (β 0 9).Canon) : TermAt R β 193 194 14 ((β 0 8).fr ^ 2 * (β 111 33).fr * (β 0 7).fr ^ 11, vkFixed 10) :=
  ⟨(hR _ _ _ <| ex_str (H 192 (by omega)) (by decide +kernel) (by decide +kernel) (by decide +kernel) vk_f10), canon_exact (canon_of (H 193 (by omega)) fun _ h => h) (Eqs.s194 H.fr (by omega))⟩
theorem t197 (H : SRun X T A β N) (hN : 197 ≤ N) (hR : ∀ v w P, PtExact v w P → R v w P) (hT : ∀ i ∈ pointPositions, R (T.getD i .nil) (T.getD (i + 1) .nil) (proofPoint T i))
    (hI : PtExact (β 0 0) (β 0 1) I) (hu : (β 0 9).Canon) : TermAt R β 196 197 14 ((β 0 8).fr ^ 2 * (β 111 33).fr * (β 0 7).fr ^ 10, vkFixed 11) :=
  ⟨(hR _ _ _ <| ex_str (H 195 (by omega)) (by decide +kernel) (by decide +kernel) (by decide +kernel) vk_f11), canon_exact (canon_of (H 196 (by omega)) fun _ h => h) (Eqs.s197 H.fr (by omega))⟩
theorem t200 (H : SRun X T A β N) (hN : 200 ≤ N) (hR : ∀ v w P, PtExact v w P → R v w P) (hT : ∀ i ∈ pointPositions, R (T.getD i .nil) (T.getD (i + 1) .nil) (proofPoint T i))
    (hI : PtExact (β 0 0) (β 0 1) I) (hu : (β 0 9).Canon) : TermAt R β 199 200 14 ((β 0 8).fr ^ 2 * (β 111 33).fr * (β 0 7).fr ^ 17, vkFixed 4) :=
  ⟨(hR _ _ _ <| ex_str (H 198 (by omega)) (by decide +kernel) (by decide +kernel) (by decide +kernel) vk_f4), canon_exact (canon_of (H 199 (by omega)) fun _ h => h) (Eqs.s200 H.fr (by omega))⟩
theorem t203 (H : SRun X T A β N) (hN : 203 ≤ N) (hR : ∀ v w P, PtExact v w P → R v w P) (hT : ∀ i ∈ pointPositions, R (T.getD i .nil) (T.getD (i + 1) .nil) (proofPoint T i))
    (hI : PtExact (β 0 0) (β 0 1) I) (hu : (β 0 9).Canon) : TermAt R β 202 203 14 ((β 0 8).fr ^ 2 * (β 111 33).fr * (β 0 7).fr ^ 16, vkFixed 5) :=
  ⟨(hR _ _ _ <| ex_str (H 201 (by omega)) (by decide +kernel) (by decide +kernel) (by decide +kernel) vk_f5), canon_exact (canon_of (H 202 (by omega)) fun _ h => h) (Eqs.s203 H.fr (by omega))⟩
theorem t207 (H : SRun X T A β N) (hN : 207 ≤ N) (hR : ∀ v w P, PtExact v w P → R v w P) (hT : ∀ i ∈ pointPositions, R (T.getD i .nil) (T.getD (i + 1) .nil) (proofPoint T i))
    (hI : PtExact (β 0 0) (β 0 1) I) (hu : (β 0 9).Canon) : TermAt R β 206 207 14 ((β 0 8).fr ^ 2 * (β 111 33).fr * (β 0 7).fr ^ 15, vkFixed 6) :=
  ⟨(hR _ _ _ <| ex_str (H 205 (by omega)) (by decide +kernel) (by decide +kernel) (by decide +kernel) vk_f6), canon_exact (canon_of (H 206 (by omega)) fun _ h => h) (Eqs.s207 H.fr (by omega))⟩
theorem t210 (H : SRun X T A β N) (hN : 210 ≤ N) (hR : ∀ v w P, PtExact v w P → R v w P) (hT : ∀ i ∈ pointPositions, R (T.getD i .nil) (T.getD (i + 1) .nil) (proofPoint T i))
    (hI : PtExact (β 0 0) (β 0 1) I) (hu : (β 0 9).Canon) : TermAt R β 209 210 14 ((β 0 8).fr ^ 2 * (β 111 33).fr * (β 0 7).fr ^ 14, vkFixed 7) :=
  ⟨(hR _ _ _ <| ex_str (H 208 (by omega)) (by decide +kernel) (by decide +kernel) (by decide +kernel) vk_f7), canon_exact (canon_of (H 209 (by omega)) fun _ h => h) (Eqs.s210 H.fr (by omega))⟩
theorem t213 (H : SRun X T A β N) (hN : 213 ≤ N) (hR : ∀ v w P, PtExact v w P → R v w P) (hT : ∀ i ∈ pointPositions, R (T.getD i .nil) (T.getD (i + 1) .nil) (proofPoint T i))
    (hI : PtExact (β 0 0) (β 0 1) I) (hu : (β 0 9).Canon) : TermAt R β 212 213 14 ((β 0 8).fr ^ 2 * (β 111 33).fr * (β 0 7).fr ^ 13, vkFixed 8) :=
  ⟨(hR _ _ _ <| ex_str (H 211 (by omega)) (by decide +kernel) (by decide +kernel) (by decide +kernel) vk_f8), canon_exact (canon_of (H 212 (by omega)) fun _ h => h) (Eqs.s213 H.fr (by omega))⟩
theorem t217 (H : SRun X T A β N) (hN : 217 ≤ N) (hR : ∀ v w P, PtExact v w P → R v w P) (hT : ∀ i ∈ pointPositions, R (T.getD i .nil) (T.getD (i + 1) .nil) (proofPoint T i))
    (hI : PtExact (β 0 0) (β 0 1) I) (hu : (β 0 9).Canon) : TermAt R β 216 217 14 ((β 0 8).fr ^ 2 * (β 111 33).fr * (β 0 7).fr ^ 20, vkFixed 1) :=
  ⟨(hR _ _ _ <| ex_str (H 215 (by omega)) (by decide +kernel) (by decide +kernel) (by decide +kernel) vk_f1), canon_exact (canon_of (H 216 (by omega)) fun _ h => h) (Eqs.s217 H.fr (by omega))⟩
theorem t220 (H : SRun X T A β N) (hN : 220 ≤ N) (hR : ∀ v w P, PtExact v w P → R v w P) (hT : ∀ i ∈ pointPositions, R (T.getD i .nil) (T.getD (i + 1) .nil) (proofPoint T i))
    (hI : PtExact (β 0 0) (β 0 1) I) (hu : (β 0 9).Canon) : TermAt R β 219 220 14 ((β 0 8).fr ^ 2 * (β 111 33).fr * (β 0 7).fr ^ 21, vkFixed 0) :=
  ⟨(hR _ _ _ <| ex_str (H 218 (by omega)) (by decide +kernel) (by decide +kernel) (by decide +kernel) vk_f0), canon_exact (canon_of (H 219 (by omega)) fun _ h => h) (Eqs.s220 H.fr (by omega))⟩
theorem t223 (H : SRun X T A β N) (hN : 223 ≤ N) (hR : ∀ v w P, PtExact v w P → R v w P) (hT : ∀ i ∈ pointPositions, R (T.getD i .nil) (T.getD (i + 1) .nil) (proofPoint T i))
    (hI : PtExact (β 0 0) (β 0 1) I) (hu : (β 0 9).Canon) : TermAt R β 222 223 14 ((β 0 8).fr ^ 2 * (β 111 33).fr * (β 0 7).fr ^ 9, vkFixed 12) :=
  ⟨(hR _ _ _ <| ex_str (H 221 (by omega)) (by decide +kernel) (by decide +kernel) (by decide +kernel) vk_f12), canon_exact (canon_of (H 222 (by omega)) fun _ h => h) (Eqs.s223 H.fr (by omega))⟩
theorem t226 (H : SRun X T A β N) (hN : 226 ≤ N) (hR : ∀ v w P, PtExact v w P → R v w P) (hT : ∀ i ∈ pointPositions, R (T.getD i .nil) (T.getD (i + 1) .nil) (proofPoint T i))
    (hI : PtExact (β 0 0) (β 0 1) I) (hu : (β 0 9).Canon) : TermAt R β 225 226 14 ((-vanish (points (β 0 6).fr firstRots) (β 0 9).fr), proofPoint T 100) :=
  ⟨(ex_tr (H 224 (by omega)) (hT 100 (by decide))), canon_exact (canon_of (H 225 (by omega)) fun _ h => h) (Eqs.coeffW H.fr (by omega))⟩
theorem t229 (H : SRun X T A β N) (hN : 229 ≤ N) (hR : ∀ v w P, PtExact v w P → R v w P) (hT : ∀ i ∈ pointPositions, R (T.getD i .nil) (T.getD (i + 1) .nil) (proofPoint T i))
    (hI : PtExact (β 0 0) (β 0 1) I) (hu : (β 0 9).Canon) : TermAt R β 228 229 14 ((β 0 9).fr, proofPoint T 102) :=
  ⟨(ex_tr (H 227 (by omega)) (hT 102 (by decide))), canon_exact (canon_of (H 228 (by omega)) fun _ h => by rw [show _ = _ from h]; exact hu) (Eqs.s229 H.fr (by omega))⟩
theorem t233 (H : SRun X T A β N) (hN : 233 ≤ N) (hR : ∀ v w P, PtExact v w P → R v w P) (hT : ∀ i ∈ pointPositions, R (T.getD i .nil) (T.getD (i + 1) .nil) (proofPoint T i))
    (hI : PtExact (β 0 0) (β 0 1) I) (hu : (β 0 9).Canon) : TermAt R β 232 233 14 ((β 0 8).fr ^ 2 * (β 111 33).fr * (β 0 7).fr * (β 69 35).fr ^ 2, proofPoint T 42) :=
  ⟨(ex_tr (H 231 (by omega)) (hT 42 (by decide))), canon_exact (canon_of (H 232 (by omega)) fun _ h => h) (Eqs.s233 H.fr (by omega))⟩
theorem t236 (H : SRun X T A β N) (hN : 236 ≤ N) (hR : ∀ v w P, PtExact v w P → R v w P) (hT : ∀ i ∈ pointPositions, R (T.getD i .nil) (T.getD (i + 1) .nil) (proofPoint T i))
    (hI : PtExact (β 0 0) (β 0 1) I) (hu : (β 0 9).Canon) : TermAt R β 235 236 14 ((β 0 8).fr ^ 2 * (β 111 33).fr * (β 0 7).fr * (β 69 35).fr, proofPoint T 40) :=
  ⟨(ex_tr (H 234 (by omega)) (hT 40 (by decide))), canon_exact (canon_of (H 235 (by omega)) fun _ h => h) (Eqs.s236 H.fr (by omega))⟩
theorem t239 (H : SRun X T A β N) (hN : 239 ≤ N) (hR : ∀ v w P, PtExact v w P → R v w P) (hT : ∀ i ∈ pointPositions, R (T.getD i .nil) (T.getD (i + 1) .nil) (proofPoint T i))
    (hI : PtExact (β 0 0) (β 0 1) I) (hu : (β 0 9).Canon) : TermAt R β 238 239 14 ((β 0 8).fr ^ 2 * (β 111 33).fr * (β 0 7).fr, proofPoint T 38) :=
  ⟨(ex_tr (H 237 (by omega)) (hT 38 (by decide))), canon_exact (canon_of (H 238 (by omega)) fun _ h => by rw [show _ = _ from h]; exact (canon_of (H 230 (by omega)) fun _ h => h)) (Eqs.s239 H.fr (by omega))⟩
theorem t242 (H : SRun X T A β N) (hN : 242 ≤ N) (hR : ∀ v w P, PtExact v w P → R v w P) (hT : ∀ i ∈ pointPositions, R (T.getD i .nil) (T.getD (i + 1) .nil) (proofPoint T i))
    (hI : PtExact (β 0 0) (β 0 1) I) (hu : (β 0 9).Canon) : TermAt R β 241 242 14 ((β 0 8).fr ^ 2 * (β 111 33).fr * (β 0 7).fr ^ 29, I) :=
  ⟨(hR _ _ _ <| ex_buf (H 240 (by omega)) hI), canon_exact (canon_of (H 241 (by omega)) fun _ h => h) (Eqs.s242 H.fr (by omega))⟩
theorem t246 (H : SRun X T A β N) (hN : 246 ≤ N) (hR : ∀ v w P, PtExact v w P → R v w P) (hT : ∀ i ∈ pointPositions, R (T.getD i .nil) (T.getD (i + 1) .nil) (proofPoint T i))
    (hI : PtExact (β 0 0) (β 0 1) I) (hu : (β 0 9).Canon) : TermAt R β 245 246 14 ((β 0 8).fr ^ 3 * (β 46 28).fr * (β 0 7).fr, proofPoint T 16) :=
  ⟨(ex_tr (H 244 (by omega)) (hT 16 (by decide))), canon_exact (canon_of (H 245 (by omega)) fun _ h => h) (Eqs.s246 H.fr (by omega))⟩
theorem t250 (H : SRun X T A β N) (hN : 250 ≤ N) (hR : ∀ v w P, PtExact v w P → R v w P) (hT : ∀ i ∈ pointPositions, R (T.getD i .nil) (T.getD (i + 1) .nil) (proofPoint T i))
    (hI : PtExact (β 0 0) (β 0 1) I) (hu : (β 0 9).Canon) : TermAt R β 249 250 14 ((β 0 8).fr ^ 2 * (β 111 33).fr * (β 0 7).fr ^ 23, proofPoint T 18) :=
  ⟨(ex_tr (H 248 (by omega)) (hT 18 (by decide))), canon_exact (canon_of (H 249 (by omega)) fun _ h => h) (Eqs.s250 H.fr (by omega))⟩
theorem t253 (H : SRun X T A β N) (hN : 253 ≤ N) (hR : ∀ v w P, PtExact v w P → R v w P) (hT : ∀ i ∈ pointPositions, R (T.getD i .nil) (T.getD (i + 1) .nil) (proofPoint T i))
    (hI : PtExact (β 0 0) (β 0 1) I) (hu : (β 0 9).Canon) : TermAt R β 252 253 14 ((β 0 8).fr * (β 119 25).fr * (β 0 7).fr, proofPoint T 32) :=
  ⟨(ex_tr (H 251 (by omega)) (hT 32 (by decide))), canon_exact (canon_of (H 252 (by omega)) fun _ h => h) (Eqs.s253 H.fr (by omega))⟩
theorem t256 (H : SRun X T A β N) (hN : 256 ≤ N) (hR : ∀ v w P, PtExact v w P → R v w P) (hT : ∀ i ∈ pointPositions, R (T.getD i .nil) (T.getD (i + 1) .nil) (proofPoint T i))
    (hI : PtExact (β 0 0) (β 0 1) I) (hu : (β 0 9).Canon) : TermAt R β 255 256 14 ((β 0 8).fr ^ 3 * (β 46 28).fr, proofPoint T 20) :=
  ⟨(ex_tr (H 254 (by omega)) (hT 20 (by decide))), canon_exact (canon_of (H 255 (by omega)) fun _ h => by rw [show _ = _ from h]; exact (canon_of (H 243 (by omega)) fun _ h => h)) (Eqs.s256 H.fr (by omega))⟩
theorem t259 (H : SRun X T A β N) (hN : 259 ≤ N) (hR : ∀ v w P, PtExact v w P → R v w P) (hT : ∀ i ∈ pointPositions, R (T.getD i .nil) (T.getD (i + 1) .nil) (proofPoint T i))
    (hI : PtExact (β 0 0) (β 0 1) I) (hu : (β 0 9).Canon) : TermAt R β 258 259 14 ((β 0 8).fr ^ 2 * (β 111 33).fr * (β 0 7).fr ^ 22, proofPoint T 22) :=
  ⟨(ex_tr (H 257 (by omega)) (hT 22 (by decide))), canon_exact (canon_of (H 258 (by omega)) fun _ h => h) (Eqs.s259 H.fr (by omega))⟩
theorem t262 (H : SRun X T A β N) (hN : 262 ≤ N) (hR : ∀ v w P, PtExact v w P → R v w P) (hT : ∀ i ∈ pointPositions, R (T.getD i .nil) (T.getD (i + 1) .nil) (proofPoint T i))
    (hI : PtExact (β 0 0) (β 0 1) I) (hu : (β 0 9).Canon) : TermAt R β 261 262 14 ((β 0 8).fr * (β 119 25).fr, proofPoint T 34) :=
  ⟨(ex_tr (H 260 (by omega)) (hT 34 (by decide))), canon_exact (canon_of (H 261 (by omega)) fun _ h => by rw [show _ = _ from h]; exact (canon_of (H 166 (by omega)) fun _ h => h)) (Eqs.s262 H.fr (by omega))⟩
theorem t265 (H : SRun X T A β N) (hN : 265 ≤ N) (hR : ∀ v w P, PtExact v w P → R v w P) (hT : ∀ i ∈ pointPositions, R (T.getD i .nil) (T.getD (i + 1) .nil) (proofPoint T i))
    (hI : PtExact (β 0 0) (β 0 1) I) (hu : (β 0 9).Canon) : TermAt R β 264 265 14 ((β 0 8).fr ^ 2 * (β 111 33).fr * (β 0 7).fr ^ 8, vkSigma 0) :=
  ⟨(hR _ _ _ <| ex_str (H 263 (by omega)) (by decide +kernel) (by decide +kernel) (by decide +kernel) vk_s0), canon_exact (canon_of (H 264 (by omega)) fun _ h => h) (Eqs.s265 H.fr (by omega))⟩
theorem t269 (H : SRun X T A β N) (hN : 269 ≤ N) (hR : ∀ v w P, PtExact v w P → R v w P) (hT : ∀ i ∈ pointPositions, R (T.getD i .nil) (T.getD (i + 1) .nil) (proofPoint T i))
    (hI : PtExact (β 0 0) (β 0 1) I) (hu : (β 0 9).Canon) : TermAt R β 268 269 14 ((β 0 8).fr ^ 2 * (β 111 33).fr * (β 0 7).fr ^ 7, vkSigma 1) :=
  ⟨(hR _ _ _ <| ex_str (H 267 (by omega)) (by decide +kernel) (by decide +kernel) (by decide +kernel) vk_s1), canon_exact (canon_of (H 268 (by omega)) fun _ h => h) (Eqs.s269 H.fr (by omega))⟩
theorem t272 (H : SRun X T A β N) (hN : 272 ≤ N) (hR : ∀ v w P, PtExact v w P → R v w P) (hT : ∀ i ∈ pointPositions, R (T.getD i .nil) (T.getD (i + 1) .nil) (proofPoint T i))
    (hI : PtExact (β 0 0) (β 0 1) I) (hu : (β 0 9).Canon) : TermAt R β 271 272 14 ((β 0 8).fr ^ 2 * (β 111 33).fr * (β 0 7).fr ^ 6, vkSigma 2) :=
  ⟨(hR _ _ _ <| ex_str (H 270 (by omega)) (by decide +kernel) (by decide +kernel) (by decide +kernel) vk_s2), canon_exact (canon_of (H 271 (by omega)) fun _ h => h) (Eqs.s272 H.fr (by omega))⟩
theorem t275 (H : SRun X T A β N) (hN : 275 ≤ N) (hR : ∀ v w P, PtExact v w P → R v w P) (hT : ∀ i ∈ pointPositions, R (T.getD i .nil) (T.getD (i + 1) .nil) (proofPoint T i))
    (hI : PtExact (β 0 0) (β 0 1) I) (hu : (β 0 9).Canon) : TermAt R β 274 275 14 ((β 0 8).fr ^ 2 * (β 111 33).fr * (β 0 7).fr ^ 5, vkSigma 3) :=
  ⟨(hR _ _ _ <| ex_str (H 273 (by omega)) (by decide +kernel) (by decide +kernel) (by decide +kernel) vk_s3), canon_exact (canon_of (H 274 (by omega)) fun _ h => h) (Eqs.s275 H.fr (by omega))⟩
theorem t278 (H : SRun X T A β N) (hN : 278 ≤ N) (hR : ∀ v w P, PtExact v w P → R v w P) (hT : ∀ i ∈ pointPositions, R (T.getD i .nil) (T.getD (i + 1) .nil) (proofPoint T i))
    (hI : PtExact (β 0 0) (β 0 1) I) (hu : (β 0 9).Canon) : TermAt R β 277 278 14 ((β 0 8).fr ^ 2 * (β 111 33).fr * (β 0 7).fr ^ 4, vkSigma 4) :=
  ⟨(hR _ _ _ <| ex_str (H 276 (by omega)) (by decide +kernel) (by decide +kernel) (by decide +kernel) vk_s4), canon_exact (canon_of (H 277 (by omega)) fun _ h => h) (Eqs.s278 H.fr (by omega))⟩
theorem t281 (H : SRun X T A β N) (hN : 281 ≤ N) (hR : ∀ v w P, PtExact v w P → R v w P) (hT : ∀ i ∈ pointPositions, R (T.getD i .nil) (T.getD (i + 1) .nil) (proofPoint T i))
    (hI : PtExact (β 0 0) (β 0 1) I) (hu : (β 0 9).Canon) : TermAt R β 280 281 14 ((β 0 8).fr ^ 2 * (β 111 33).fr * (β 0 7).fr ^ 3, vkSigma 5) :=
  ⟨(hR _ _ _ <| ex_str (H 279 (by omega)) (by decide +kernel) (by decide +kernel) (by decide +kernel) vk_s5), canon_exact (canon_of (H 280 (by omega)) fun _ h => h) (Eqs.s281 H.fr (by omega))⟩
theorem t284 (H : SRun X T A β N) (hN : 284 ≤ N) (hR : ∀ v w P, PtExact v w P → R v w P) (hT : ∀ i ∈ pointPositions, R (T.getD i .nil) (T.getD (i + 1) .nil) (proofPoint T i))
    (hI : PtExact (β 0 0) (β 0 1) I) (hu : (β 0 9).Canon) : TermAt R β 283 284 14 ((β 0 8).fr ^ 2 * (β 111 33).fr * (β 0 7).fr ^ 2, vkSigma 6) :=
  ⟨(hR _ _ _ <| ex_str (H 282 (by omega)) (by decide +kernel) (by decide +kernel) (by decide +kernel) vk_s6), canon_exact (canon_of (H 283 (by omega)) fun _ h => h) (Eqs.s284 H.fr (by omega))⟩
theorem t288 (H : SRun X T A β N) (hN : 288 ≤ N) (hR : ∀ v w P, PtExact v w P → R v w P) (hT : ∀ i ∈ pointPositions, R (T.getD i .nil) (T.getD (i + 1) .nil) (proofPoint T i))
    (hI : PtExact (β 0 0) (β 0 1) I) (hu : (β 0 9).Canon) : TermAt R β 287 288 14 ((β 0 8).fr ^ 4 * (β 0 7).fr ^ 2, proofPoint T 24) :=
  ⟨(ex_tr (H 286 (by omega)) (hT 24 (by decide))), canon_exact (canon_of (H 287 (by omega)) fun _ h => h) (Eqs.s288 H.fr (by omega))⟩
theorem t291 (H : SRun X T A β N) (hN : 291 ≤ N) (hR : ∀ v w P, PtExact v w P → R v w P) (hT : ∀ i ∈ pointPositions, R (T.getD i .nil) (T.getD (i + 1) .nil) (proofPoint T i))
    (hI : PtExact (β 0 0) (β 0 1) I) (hu : (β 0 9).Canon) : TermAt R β 290 291 14 ((β 0 8).fr ^ 4 * (β 0 7).fr, proofPoint T 26) :=
  ⟨(ex_tr (H 289 (by omega)) (hT 26 (by decide))), canon_exact (canon_of (H 290 (by omega)) fun _ h => h) (Eqs.s291 H.fr (by omega))⟩
theorem t294 (H : SRun X T A β N) (hN : 294 ≤ N) (hR : ∀ v w P, PtExact v w P → R v w P) (hT : ∀ i ∈ pointPositions, R (T.getD i .nil) (T.getD (i + 1) .nil) (proofPoint T i))
    (hI : PtExact (β 0 0) (β 0 1) I) (hu : (β 0 9).Canon) : TermAt R β 293 294 14 ((β 0 8).fr ^ 4, proofPoint T 28) :=
  ⟨(ex_tr (H 292 (by omega)) (hT 28 (by decide))), canon_exact (canon_of (H 293 (by omega)) fun _ h => by rw [show _ = _ from h]; exact (canon_of (H 285 (by omega)) fun _ h => h)) (Eqs.s294 H.fr (by omega))⟩
theorem t297 (H : SRun X T A β N) (hN : 297 ≤ N) (hR : ∀ v w P, PtExact v w P → R v w P) (hT : ∀ i ∈ pointPositions, R (T.getD i .nil) (T.getD (i + 1) .nil) (proofPoint T i))
    (hI : PtExact (β 0 0) (β 0 1) I) (hu : (β 0 9).Canon) : TermAt R β 296 297 14 ((β 0 8).fr * (β 119 25).fr * (β 0 7).fr ^ 2, proofPoint T 30) :=
  ⟨(ex_tr (H 295 (by omega)) (hT 30 (by decide))), canon_exact (canon_of (H 296 (by omega)) fun _ h => h) (Eqs.s297 H.fr (by omega))⟩
theorem t300 (H : SRun X T A β N) (hN : 300 ≤ N) (hR : ∀ v w P, PtExact v w P → R v w P) (hT : ∀ i ∈ pointPositions, R (T.getD i .nil) (T.getD (i + 1) .nil) (proofPoint T i))
    (hI : PtExact (β 0 0) (β 0 1) I) (hu : (β 0 9).Canon) : TermAt R β 299 300 14 ((β 0 8).fr ^ 2 * (β 111 33).fr, proofPoint T 36) :=
  ⟨(ex_tr (H 298 (by omega)) (hT 36 (by decide))), canon_exact (canon_of (H 299 (by omega)) fun _ h => by rw [show _ = _ from h]; exact (canon_of (H 146 (by omega)) fun _ h => h)) ((by rw [Eqs.s300 H.fr (by omega), pow_zero, mul_one]))⟩

/-- All 46 terms. -/
theorem term_at (H : SRun X T A β N) (hR : ∀ v w P, PtExact v w P → R v w P) (hT : ∀ i ∈ pointPositions, R (T.getD i .nil) (T.getD (i + 1) .nil) (proofPoint T i))
    (hI : PtExact (β 0 0) (β 0 1) I) (hu : (β 0 9).Canon) : ∀ m, m < 45 → accIdx.getD (m + 1) 0 ≤ N →
    TermAt R β (accIdx.getD (m + 1) 0 - 1) (accIdx.getD (m + 1) 0) 14 ((termList (β 0 7).fr (β 0 8).fr (β 46 28).fr (β 111 33).fr (β 119 25).fr (β 141 20).fr (β 142 18).fr (-vanish (points (β 0 6).fr firstRots) (β 0 9).fr) (β 0 9).fr (β 69 35).fr
      (.ofProof I (proofPoint T))).getD (m + 1) 0)
  | 0, _, h => t155 H h hR hT hI hu
  | 1, _, h => t159 H h hR hT hI hu
  | 2, _, h => t162 H h hR hT hI hu
  | 3, _, h => t165 H h hR hT hI hu
  | 4, _, h => t170 H h hR hT hI hu
  | 5, _, h => t173 H h hR hT hI hu
  | 6, _, h => t176 H h hR hT hI hu
  | 7, _, h => t179 H h hR hT hI hu
  | 8, _, h => t183 H h hR hT hI hu
  | 9, _, h => t186 H h hR hT hI hu
  | 10, _, h => t190 H h hR hT hI hu
  | 11, _, h => t194 H h hR hT hI hu
  | 12, _, h => t197 H h hR hT hI hu
  | 13, _, h => t200 H h hR hT hI hu
  | 14, _, h => t203 H h hR hT hI hu
  | 15, _, h => t207 H h hR hT hI hu
  | 16, _, h => t210 H h hR hT hI hu
  | 17, _, h => t213 H h hR hT hI hu
  | 18, _, h => t217 H h hR hT hI hu
  | 19, _, h => t220 H h hR hT hI hu
  | 20, _, h => t223 H h hR hT hI hu
  | 21, _, h => t226 H h hR hT hI hu
  | 22, _, h => t229 H h hR hT hI hu
  | 23, _, h => t233 H h hR hT hI hu
  | 24, _, h => t236 H h hR hT hI hu
  | 25, _, h => t239 H h hR hT hI hu
  | 26, _, h => t242 H h hR hT hI hu
  | 27, _, h => t246 H h hR hT hI hu
  | 28, _, h => t250 H h hR hT hI hu
  | 29, _, h => t253 H h hR hT hI hu
  | 30, _, h => t256 H h hR hT hI hu
  | 31, _, h => t259 H h hR hT hI hu
  | 32, _, h => t262 H h hR hT hI hu
  | 33, _, h => t265 H h hR hT hI hu
  | 34, _, h => t269 H h hR hT hI hu
  | 35, _, h => t272 H h hR hT hI hu
  | 36, _, h => t275 H h hR hT hI hu
  | 37, _, h => t278 H h hR hT hI hu
  | 38, _, h => t281 H h hR hT hI hu
  | 39, _, h => t284 H h hR hT hI hu
  | 40, _, h => t288 H h hR hT hI hu
  | 41, _, h => t291 H h hR hT hI hu
  | 42, _, h => t294 H h hR hT hI hu
  | 43, _, h => t297 H h hR hT hI hu
  | 44, _, h => t300 H h hR hT hI hu
  | m + 45, h, _ => by omega

end Verif
