/- The point accumulated by the ecc calls. GENERATED by tools/gen_stepacc.py. -/
import Verif.Lemmas.Run

namespace Verif
open Halo2

/-- Scalar and point of every ecc call on cells 12, 13. -/
noncomputable def accTerms (T : List Var) (I : G1) (β : ℕ → ℕ → Var) : List (Fr × G1) := [
  ((β 144 14).fr, ptOf (1, kpm2)),
  ((β 155 16).fr, proofPoint T 0),
  ((β 159 16).fr, proofPoint T 2),
  ((β 162 16).fr, proofPoint T 4),
  ((β 165 16).fr, proofPoint T 6),
  ((β 170 16).fr, proofPoint T 8),
  ((β 173 16).fr, proofPoint T 10),
  ((β 176 16).fr, proofPoint T 12),
  ((β 179 16).fr, proofPoint T 14),
  ((β 183 16).fr, ptOf (kc4, kc5)),
  ((β 186 16).fr, ptOf (kc6, kc7)),
  ((β 190 16).fr, ptOf (kc8, kc9)),
  ((β 194 16).fr, ptOf (kc10, kc11)),
  ((β 197 16).fr, ptOf (kc12, kc13)),
  ((β 200 16).fr, ptOf (kc14, kc15)),
  ((β 203 16).fr, ptOf (kc16, kc17)),
  ((β 207 16).fr, ptOf (kc18, kc19)),
  ((β 210 16).fr, ptOf (kc20, kc21)),
  ((β 213 16).fr, ptOf (kc22, kc23)),
  ((β 217 16).fr, ptOf (kc24, kc25)),
  ((β 220 16).fr, ptOf (kc26, kc27)),
  ((β 223 16).fr, ptOf (kc28, kc29)),
  ((β 226 16).fr, proofPoint T 100),
  ((β 229 16).fr, proofPoint T 102),
  ((β 233 16).fr, proofPoint T 42),
  ((β 236 16).fr, proofPoint T 40),
  ((β 239 16).fr, proofPoint T 38),
  ((β 242 16).fr, I),
  ((β 246 16).fr, proofPoint T 16),
  ((β 250 16).fr, proofPoint T 18),
  ((β 253 16).fr, proofPoint T 32),
  ((β 256 16).fr, proofPoint T 20),
  ((β 259 16).fr, proofPoint T 22),
  ((β 262 16).fr, proofPoint T 34),
  ((β 265 16).fr, ptOf (kc30, kc31)),
  ((β 269 16).fr, ptOf (kc32, kc33)),
  ((β 272 16).fr, ptOf (kc34, kc35)),
  ((β 275 16).fr, ptOf (kc36, kc37)),
  ((β 278 16).fr, ptOf (kc38, kc39)),
  ((β 281 16).fr, ptOf (kc40, kc41)),
  ((β 284 16).fr, ptOf (kc42, kc43)),
  ((β 288 16).fr, proofPoint T 24),
  ((β 291 16).fr, proofPoint T 26),
  ((β 294 16).fr, proofPoint T 28),
  ((β 297 16).fr, proofPoint T 30),
  ((β 300 16).fr, proofPoint T 36)]

theorem acc_run {X : Ext} (hX : X.Strict) {T A : List Var} {β : ℕ → ℕ → Var} {N : ℕ} (H : SRun X T A β N) (hN : 300 < N)
    (hT : ∀ i, i ∈ pointPositions → PairAt T i) {I : G1} (hI : PtAt (β 0 0) (β 0 1) I) (hu : (β 0 9).Canon) :
    PtAt (β 301 12) (β 301 13) ((accTerms T I β).map fun p => p.1 • p.2).sum := by
  have q144 := mul_step hX (H 144 (by omega)) (pt_str (H 142 (by omega)) (by decide +kernel))
    (canon_of (H 143 (by omega)) fun _ h => by rw [show _ = _ from h]; exact (canon_of (H 141 (by omega)) fun _ h => h))
  have q155 := mulAdd_step hX (H 155 (by omega)) q144 (pt_tr (H 153 (by omega)) (hT 0 (by decide)))
    (canon_of (H 154 (by omega)) fun _ h => h)
  have q159 := mulAdd_step hX (H 159 (by omega)) q155 (pt_tr (H 157 (by omega)) (hT 2 (by decide)))
    (canon_of (H 158 (by omega)) fun _ h => h)
  have q162 := mulAdd_step hX (H 162 (by omega)) q159 (pt_tr (H 160 (by omega)) (hT 4 (by decide)))
    (canon_of (H 161 (by omega)) fun _ h => h)
  have q165 := mulAdd_step hX (H 165 (by omega)) q162 (pt_tr (H 163 (by omega)) (hT 6 (by decide)))
    (canon_of (H 164 (by omega)) fun _ h => h)
  have q170 := mulAdd_step hX (H 170 (by omega)) q165 (pt_tr (H 168 (by omega)) (hT 8 (by decide)))
    (canon_of (H 169 (by omega)) fun _ h => h)
  have q173 := mulAdd_step hX (H 173 (by omega)) q170 (pt_tr (H 171 (by omega)) (hT 10 (by decide)))
    (canon_of (H 172 (by omega)) fun _ h => h)
  have q176 := mulAdd_step hX (H 176 (by omega)) q173 (pt_tr (H 174 (by omega)) (hT 12 (by decide)))
    (canon_of (H 175 (by omega)) fun _ h => h)
  have q179 := mulAdd_step hX (H 179 (by omega)) q176 (pt_tr (H 177 (by omega)) (hT 14 (by decide)))
    (canon_of (H 178 (by omega)) fun _ h => by rw [show _ = _ from h]; exact (canon_of (H 140 (by omega)) fun _ h => h))
  have q183 := mulAdd_step hX (H 183 (by omega)) q179 (pt_str (H 181 (by omega)) (by decide +kernel))
    (canon_of (H 182 (by omega)) fun _ h => h)
  have q186 := mulAdd_step hX (H 186 (by omega)) q183 (pt_str (H 184 (by omega)) (by decide +kernel))
    (canon_of (H 185 (by omega)) fun _ h => h)
  have q190 := mulAdd_step hX (H 190 (by omega)) q186 (pt_str (H 188 (by omega)) (by decide +kernel))
    (canon_of (H 189 (by omega)) fun _ h => h)
  have q194 := mulAdd_step hX (H 194 (by omega)) q190 (pt_str (H 192 (by omega)) (by decide +kernel))
    (canon_of (H 193 (by omega)) fun _ h => h)
  have q197 := mulAdd_step hX (H 197 (by omega)) q194 (pt_str (H 195 (by omega)) (by decide +kernel))
    (canon_of (H 196 (by omega)) fun _ h => h)
  have q200 := mulAdd_step hX (H 200 (by omega)) q197 (pt_str (H 198 (by omega)) (by decide +kernel))
    (canon_of (H 199 (by omega)) fun _ h => h)
  have q203 := mulAdd_step hX (H 203 (by omega)) q200 (pt_str (H 201 (by omega)) (by decide +kernel))
    (canon_of (H 202 (by omega)) fun _ h => h)
  have q207 := mulAdd_step hX (H 207 (by omega)) q203 (pt_str (H 205 (by omega)) (by decide +kernel))
    (canon_of (H 206 (by omega)) fun _ h => h)
  have q210 := mulAdd_step hX (H 210 (by omega)) q207 (pt_str (H 208 (by omega)) (by decide +kernel))
    (canon_of (H 209 (by omega)) fun _ h => h)
  have q213 := mulAdd_step hX (H 213 (by omega)) q210 (pt_str (H 211 (by omega)) (by decide +kernel))
    (canon_of (H 212 (by omega)) fun _ h => h)
  have q217 := mulAdd_step hX (H 217 (by omega)) q213 (pt_str (H 215 (by omega)) (by decide +kernel))
    (canon_of (H 216 (by omega)) fun _ h => h)
  have q220 := mulAdd_step hX (H 220 (by omega)) q217 (pt_str (H 218 (by omega)) (by decide +kernel))
    (canon_of (H 219 (by omega)) fun _ h => h)
  have q223 := mulAdd_step hX (H 223 (by omega)) q220 (pt_str (H 221 (by omega)) (by decide +kernel))
    (canon_of (H 222 (by omega)) fun _ h => h)
  have q226 := mulAdd_step hX (H 226 (by omega)) q223 (pt_tr (H 224 (by omega)) (hT 100 (by decide)))
    (canon_of (H 225 (by omega)) fun _ h => h)
  have q229 := mulAdd_step hX (H 229 (by omega)) q226 (pt_tr (H 227 (by omega)) (hT 102 (by decide)))
    (canon_of (H 228 (by omega)) fun _ h => by rw [show _ = _ from h]; exact hu)
  have q233 := mulAdd_step hX (H 233 (by omega)) q229 (pt_tr (H 231 (by omega)) (hT 42 (by decide)))
    (canon_of (H 232 (by omega)) fun _ h => h)
  have q236 := mulAdd_step hX (H 236 (by omega)) q233 (pt_tr (H 234 (by omega)) (hT 40 (by decide)))
    (canon_of (H 235 (by omega)) fun _ h => h)
  have q239 := mulAdd_step hX (H 239 (by omega)) q236 (pt_tr (H 237 (by omega)) (hT 38 (by decide)))
    (canon_of (H 238 (by omega)) fun _ h => by rw [show _ = _ from h]; exact (canon_of (H 230 (by omega)) fun _ h => h))
  have q242 := mulAdd_step hX (H 242 (by omega)) q239 (pt_buf (H 240 (by omega)) hI)
    (canon_of (H 241 (by omega)) fun _ h => h)
  have q246 := mulAdd_step hX (H 246 (by omega)) q242 (pt_tr (H 244 (by omega)) (hT 16 (by decide)))
    (canon_of (H 245 (by omega)) fun _ h => h)
  have q250 := mulAdd_step hX (H 250 (by omega)) q246 (pt_tr (H 248 (by omega)) (hT 18 (by decide)))
    (canon_of (H 249 (by omega)) fun _ h => h)
  have q253 := mulAdd_step hX (H 253 (by omega)) q250 (pt_tr (H 251 (by omega)) (hT 32 (by decide)))
    (canon_of (H 252 (by omega)) fun _ h => h)
  have q256 := mulAdd_step hX (H 256 (by omega)) q253 (pt_tr (H 254 (by omega)) (hT 20 (by decide)))
    (canon_of (H 255 (by omega)) fun _ h => by rw [show _ = _ from h]; exact (canon_of (H 243 (by omega)) fun _ h => h))
  have q259 := mulAdd_step hX (H 259 (by omega)) q256 (pt_tr (H 257 (by omega)) (hT 22 (by decide)))
    (canon_of (H 258 (by omega)) fun _ h => h)
  have q262 := mulAdd_step hX (H 262 (by omega)) q259 (pt_tr (H 260 (by omega)) (hT 34 (by decide)))
    (canon_of (H 261 (by omega)) fun _ h => by rw [show _ = _ from h]; exact (canon_of (H 166 (by omega)) fun _ h => h))
  have q265 := mulAdd_step hX (H 265 (by omega)) q262 (pt_str (H 263 (by omega)) (by decide +kernel))
    (canon_of (H 264 (by omega)) fun _ h => h)
  have q269 := mulAdd_step hX (H 269 (by omega)) q265 (pt_str (H 267 (by omega)) (by decide +kernel))
    (canon_of (H 268 (by omega)) fun _ h => h)
  have q272 := mulAdd_step hX (H 272 (by omega)) q269 (pt_str (H 270 (by omega)) (by decide +kernel))
    (canon_of (H 271 (by omega)) fun _ h => h)
  have q275 := mulAdd_step hX (H 275 (by omega)) q272 (pt_str (H 273 (by omega)) (by decide +kernel))
    (canon_of (H 274 (by omega)) fun _ h => h)
  have q278 := mulAdd_step hX (H 278 (by omega)) q275 (pt_str (H 276 (by omega)) (by decide +kernel))
    (canon_of (H 277 (by omega)) fun _ h => h)
  have q281 := mulAdd_step hX (H 281 (by omega)) q278 (pt_str (H 279 (by omega)) (by decide +kernel))
    (canon_of (H 280 (by omega)) fun _ h => h)
  have q284 := mulAdd_step hX (H 284 (by omega)) q281 (pt_str (H 282 (by omega)) (by decide +kernel))
    (canon_of (H 283 (by omega)) fun _ h => h)
  have q288 := mulAdd_step hX (H 288 (by omega)) q284 (pt_tr (H 286 (by omega)) (hT 24 (by decide)))
    (canon_of (H 287 (by omega)) fun _ h => h)
  have q291 := mulAdd_step hX (H 291 (by omega)) q288 (pt_tr (H 289 (by omega)) (hT 26 (by decide)))
    (canon_of (H 290 (by omega)) fun _ h => h)
  have q294 := mulAdd_step hX (H 294 (by omega)) q291 (pt_tr (H 292 (by omega)) (hT 28 (by decide)))
    (canon_of (H 293 (by omega)) fun _ h => by rw [show _ = _ from h]; exact (canon_of (H 285 (by omega)) fun _ h => h))
  have q297 := mulAdd_step hX (H 297 (by omega)) q294 (pt_tr (H 295 (by omega)) (hT 30 (by decide)))
    (canon_of (H 296 (by omega)) fun _ h => h)
  have q300 := mulAdd_step hX (H 300 (by omega)) q297 (pt_tr (H 298 (by omega)) (hT 36 (by decide)))
    (canon_of (H 299 (by omega)) fun _ h => by rw [show _ = _ from h]; exact (canon_of (H 146 (by omega)) fun _ h => h))
  rw [accTerms, sum_assoc]
  simp only [List.foldl_cons, List.foldl_nil]
  exact q300

end Verif
