/- Every point of the proof is an operand of an ecc call with a canonical scalar. GENERATED by tools/gen_steppoints.py. -/
import Verif.Lemmas.StepTerms

namespace Verif
open Halo2

/-- Call `k` (on cells 12 to 16) multiplies the point at position `i` of the proof by a canonical scalar. -/
structure PointUse (T : List Var) (β : ℕ → ℕ → Var) (i k : ℕ) : Prop where
  x : T[i]? = some (β (k - 1) 14)
  y : T[i + 1]? = some (β (k - 1) 15)
  scalar : (β k 16).Canon

variable {X : Ext} {T A : List Var} {β : ℕ → ℕ → Var} {N : ℕ}

theorem use_tr {k i : ℕ} (h : (SStmt.set [14, 15] [.tr i, .tr (i + 1)]).Holds X T A β k) :
    T[i]? = some (β (k + 1) 14) ∧ T[i + 1]? = some (β (k + 1) 15) := by
  cases h with
  | cons h1 h2 => cases h2 with
    | cons h3 _ => exact ⟨h1.shape, h3.shape⟩

theorem u155 (H : SRun X T A β N) (hN : 155 ≤ N) (hu : (β 0 9).Canon) : PointUse T β 0 155 :=
  have h := use_tr (H 153 (by omega))
  ⟨h.1, h.2, (canon_of (H 154 (by omega)) fun _ h => h)⟩
theorem u159 (H : SRun X T A β N) (hN : 159 ≤ N) (hu : (β 0 9).Canon) : PointUse T β 2 159 :=
  have h := use_tr (H 157 (by omega))
  ⟨h.1, h.2, (canon_of (H 158 (by omega)) fun _ h => h)⟩
theorem u162 (H : SRun X T A β N) (hN : 162 ≤ N) (hu : (β 0 9).Canon) : PointUse T β 4 162 :=
  have h := use_tr (H 160 (by omega))
  ⟨h.1, h.2, (canon_of (H 161 (by omega)) fun _ h => h)⟩
theorem u165 (H : SRun X T A β N) (hN : 165 ≤ N) (hu : (β 0 9).Canon) : PointUse T β 6 165 :=
  have h := use_tr (H 163 (by omega))
  ⟨h.1, h.2, (canon_of (H 164 (by omega)) fun _ h => h)⟩
theorem u170 (H : SRun X T A β N) (hN : 170 ≤ N) (hu : (β 0 9).Canon) : PointUse T β 8 170 :=
  have h := use_tr (H 168 (by omega))
  ⟨h.1, h.2, (canon_of (H 169 (by omega)) fun _ h => h)⟩
theorem u173 (H : SRun X T A β N) (hN : 173 ≤ N) (hu : (β 0 9).Canon) : PointUse T β 10 173 :=
  have h := use_tr (H 171 (by omega))
  ⟨h.1, h.2, (canon_of (H 172 (by omega)) fun _ h => h)⟩
theorem u176 (H : SRun X T A β N) (hN : 176 ≤ N) (hu : (β 0 9).Canon) : PointUse T β 12 176 :=
  have h := use_tr (H 174 (by omega))
  ⟨h.1, h.2, (canon_of (H 175 (by omega)) fun _ h => h)⟩
theorem u179 (H : SRun X T A β N) (hN : 179 ≤ N) (hu : (β 0 9).Canon) : PointUse T β 14 179 :=
  have h := use_tr (H 177 (by omega))
  ⟨h.1, h.2, (canon_of (H 178 (by omega)) fun _ h => by rw [show _ = _ from h]; exact (canon_of (H 140 (by omega)) fun _ h => h))⟩
theorem u226 (H : SRun X T A β N) (hN : 226 ≤ N) (hu : (β 0 9).Canon) : PointUse T β 100 226 :=
  have h := use_tr (H 224 (by omega))
  ⟨h.1, h.2, (canon_of (H 225 (by omega)) fun _ h => h)⟩
theorem u229 (H : SRun X T A β N) (hN : 229 ≤ N) (hu : (β 0 9).Canon) : PointUse T β 102 229 :=
  have h := use_tr (H 227 (by omega))
  ⟨h.1, h.2, (canon_of (H 228 (by omega)) fun _ h => by rw [show _ = _ from h]; exact hu)⟩
theorem u233 (H : SRun X T A β N) (hN : 233 ≤ N) (hu : (β 0 9).Canon) : PointUse T β 42 233 :=
  have h := use_tr (H 231 (by omega))
  ⟨h.1, h.2, (canon_of (H 232 (by omega)) fun _ h => h)⟩
theorem u236 (H : SRun X T A β N) (hN : 236 ≤ N) (hu : (β 0 9).Canon) : PointUse T β 40 236 :=
  have h := use_tr (H 234 (by omega))
  ⟨h.1, h.2, (canon_of (H 235 (by omega)) fun _ h => h)⟩
theorem u239 (H : SRun X T A β N) (hN : 239 ≤ N) (hu : (β 0 9).Canon) : PointUse T β 38 239 :=
  have h := use_tr (H 237 (by omega))
  ⟨h.1, h.2, (canon_of (H 238 (by omega)) fun _ h => by rw [show _ = _ from h]; exact (canon_of (H 230 (by omega)) fun _ h => h))⟩
theorem u246 (H : SRun X T A β N) (hN : 246 ≤ N) (hu : (β 0 9).Canon) : PointUse T β 16 246 :=
  have h := use_tr (H 244 (by omega))
  ⟨h.1, h.2, (canon_of (H 245 (by omega)) fun _ h => h)⟩
theorem u250 (H : SRun X T A β N) (hN : 250 ≤ N) (hu : (β 0 9).Canon) : PointUse T β 18 250 :=
  have h := use_tr (H 248 (by omega))
  ⟨h.1, h.2, (canon_of (H 249 (by omega)) fun _ h => h)⟩
theorem u253 (H : SRun X T A β N) (hN : 253 ≤ N) (hu : (β 0 9).Canon) : PointUse T β 32 253 :=
  have h := use_tr (H 251 (by omega))
  ⟨h.1, h.2, (canon_of (H 252 (by omega)) fun _ h => h)⟩
theorem u256 (H : SRun X T A β N) (hN : 256 ≤ N) (hu : (β 0 9).Canon) : PointUse T β 20 256 :=
  have h := use_tr (H 254 (by omega))
  ⟨h.1, h.2, (canon_of (H 255 (by omega)) fun _ h => by rw [show _ = _ from h]; exact (canon_of (H 243 (by omega)) fun _ h => h))⟩
theorem u259 (H : SRun X T A β N) (hN : 259 ≤ N) (hu : (β 0 9).Canon) : PointUse T β 22 259 :=
  have h := use_tr (H 257 (by omega))
  ⟨h.1, h.2, (canon_of (H 258 (by omega)) fun _ h => h)⟩
theorem u262 (H : SRun X T A β N) (hN : 262 ≤ N) (hu : (β 0 9).Canon) : PointUse T β 34 262 :=
  have h := use_tr (H 260 (by omega))
  ⟨h.1, h.2, (canon_of (H 261 (by omega)) fun _ h => by rw [show _ = _ from h]; exact (canon_of (H 166 (by omega)) fun _ h => h))⟩
theorem u288 (H : SRun X T A β N) (hN : 288 ≤ N) (hu : (β 0 9).Canon) : PointUse T β 24 288 :=
  have h := use_tr (H 286 (by omega))
  ⟨h.1, h.2, (canon_of (H 287 (by omega)) fun _ h => h)⟩
theorem u291 (H : SRun X T A β N) (hN : 291 ≤ N) (hu : (β 0 9).Canon) : PointUse T β 26 291 :=
  have h := use_tr (H 289 (by omega))
  ⟨h.1, h.2, (canon_of (H 290 (by omega)) fun _ h => h)⟩
theorem u294 (H : SRun X T A β N) (hN : 294 ≤ N) (hu : (β 0 9).Canon) : PointUse T β 28 294 :=
  have h := use_tr (H 292 (by omega))
  ⟨h.1, h.2, (canon_of (H 293 (by omega)) fun _ h => by rw [show _ = _ from h]; exact (canon_of (H 285 (by omega)) fun _ h => h))⟩
theorem u297 (H : SRun X T A β N) (hN : 297 ≤ N) (hu : (β 0 9).Canon) : PointUse T β 30 297 :=
  have h := use_tr (H 295 (by omega))
  ⟨h.1, h.2, (canon_of (H 296 (by omega)) fun _ h => h)⟩
theorem u300 (H : SRun X T A β N) (hN : 300 ≤ N) (hu : (β 0 9).Canon) : PointUse T β 36 300 :=
  have h := use_tr (H 298 (by omega))
  ⟨h.1, h.2, (canon_of (H 299 (by omega)) fun _ h => by rw [show _ = _ from h]; exact (canon_of (H 146 (by omega)) fun _ h => h))⟩

/-- Which call uses which point. -/
def pointUses : List (ℕ × ℕ) := [(0, 155), (2, 159), (4, 162), (6, 165), (8, 170), (10, 173), (12, 176), (14, 179), (16, 246), (18, 250), (20, 256), (22, 259), (24, 288), (26, 291), (28, 294), (30, 297), (32, 253), (34, 262), (36, 300), (38, 239), (40, 236), (42, 233), (100, 226), (102, 229)]

theorem point_uses (H : SRun X T A β N) (hu : (β 0 9).Canon) : ∀ q ∈ pointUses, q.2 ≤ N → PointUse T β q.1 q.2 := by
  simp only [pointUses, List.forall_mem_cons]
  exact ⟨fun h => u155 H h hu, fun h => u159 H h hu, fun h => u162 H h hu, fun h => u165 H h hu, fun h => u170 H h hu, fun h => u173 H h hu, fun h => u176 H h hu, fun h => u179 H h hu, fun h => u246 H h hu, fun h => u250 H h hu, fun h => u256 H h hu, fun h => u259 H h hu, fun h => u288 H h hu, fun h => u291 H h hu, fun h => u294 H h hu, fun h => u297 H h hu, fun h => u253 H h hu, fun h => u262 H h hu, fun h => u300 H h hu, fun h => u239 H h hu, fun h => u236 H h hu, fun h => u233 H h hu, fun h => u226 H h hu, fun h => u229 H h hu, fun _ h => absurd h List.not_mem_nil⟩

theorem pointUses_complete : pointPositions.all (fun i => (pointUses.map Prod.fst).contains i) = true := by decide +kernel

theorem pointUses_calls : pointUses.all (fun q => decide (q.2 < 301) && (prog[q.2]? == some (.eccMulAdd 12)) &&
    match ssaLit.getD q.2 (.set [] []) with
    | .eccMulAdd o _ _ jx jy jk => o == 12 && jx == q.2 - 1 && jy == q.2 - 1 && jk == q.2
    | _ => false) = true := by decide +kernel

end Verif
