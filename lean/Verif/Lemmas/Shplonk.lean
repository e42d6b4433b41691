/- The accumulated point is the SHPLONK combination. -/
import Verif.Lemmas.StepAcc

namespace Verif
open Halo2

theorem ptOf_negG : ptOf (1, kpm2) = -G1gen := by
  have h : (kpm2 : Fp) = -2 := by
    have h1 : ((kpm2 + 2 : ℕ) : Fp) = ((0 : ℕ) : Fp) := (ZMod.natCast_eq_natCast_iff' _ _ pMod).2 (by decide +kernel)
    rw [Nat.cast_add, Nat.cast_zero] at h1
    exact eq_neg_of_add_eq_zero_left (by exact_mod_cast h1)
  have hc : OnCurve 1 (-2) := by unfold OnCurve; norm_num
  rw [ptOf, h]
  simp only [Nat.cast_one, dec, hc, dif_pos]
  rw [G1gen, mkPt, mkPt, WeierstrassCurve.Affine.Point.neg_some]
  simp [WeierstrassCurve.Affine.negY, curve]
  rfl

theorem five {ι : Type} (v : Fr) (w r : ι → Fr) (cm : ι → G1) (S0 S1 S2 S3 S4 : ι) :
    [S0, S1, S2, S3, S4].foldl (fun acc S => v • acc + w S • (cm S - r S • G1gen)) 0 =
      ((v ^ 4 * w S0) • cm S0 + (v ^ 3 * w S1) • cm S1 + (v ^ 2 * w S2) • cm S2 + (v * w S3) • cm S3 + w S4 • cm S4) -
        combine v ([S0, S1, S2, S3, S4].map fun S => w S * r S) • G1gen := by
  simp only [combine, List.map_cons, List.map_nil, List.foldl_cons, List.foldl_nil]
  module

theorem vk_f2 : ptOf (kc4, kc5) = vkFixed 2 := congrArg ptOf (by decide +kernel)
theorem vk_f3 : ptOf (kc6, kc7) = vkFixed 3 := congrArg ptOf (by decide +kernel)
theorem vk_f9 : ptOf (kc8, kc9) = vkFixed 9 := congrArg ptOf (by decide +kernel)
theorem vk_f10 : ptOf (kc10, kc11) = vkFixed 10 := congrArg ptOf (by decide +kernel)
theorem vk_f11 : ptOf (kc12, kc13) = vkFixed 11 := congrArg ptOf (by decide +kernel)
theorem vk_f4 : ptOf (kc14, kc15) = vkFixed 4 := congrArg ptOf (by decide +kernel)
theorem vk_f5 : ptOf (kc16, kc17) = vkFixed 5 := congrArg ptOf (by decide +kernel)
theorem vk_f6 : ptOf (kc18, kc19) = vkFixed 6 := congrArg ptOf (by decide +kernel)
theorem vk_f7 : ptOf (kc20, kc21) = vkFixed 7 := congrArg ptOf (by decide +kernel)
theorem vk_f8 : ptOf (kc22, kc23) = vkFixed 8 := congrArg ptOf (by decide +kernel)
theorem vk_f1 : ptOf (kc24, kc25) = vkFixed 1 := congrArg ptOf (by decide +kernel)
theorem vk_f0 : ptOf (kc26, kc27) = vkFixed 0 := congrArg ptOf (by decide +kernel)
theorem vk_f12 : ptOf (kc28, kc29) = vkFixed 12 := congrArg ptOf (by decide +kernel)
theorem vk_s0 : ptOf (kc30, kc31) = vkSigma 0 := congrArg ptOf (by decide +kernel)
theorem vk_s1 : ptOf (kc32, kc33) = vkSigma 1 := congrArg ptOf (by decide +kernel)
theorem vk_s2 : ptOf (kc34, kc35) = vkSigma 2 := congrArg ptOf (by decide +kernel)
theorem vk_s3 : ptOf (kc36, kc37) = vkSigma 3 := congrArg ptOf (by decide +kernel)
theorem vk_s4 : ptOf (kc38, kc39) = vkSigma 4 := congrArg ptOf (by decide +kernel)
theorem vk_s5 : ptOf (kc40, kc41) = vkSigma 5 := congrArg ptOf (by decide +kernel)
theorem vk_s6 : ptOf (kc42, kc43) = vkSigma 6 := congrArg ptOf (by decide +kernel)

namespace Eqs
variable {b : ℕ → ℕ → Fr} {t a : ℕ → Fr} {N : ℕ}

theorem coeffW (H : FrRun b t a N) (hN : 225 < N) : b 226 16 = -vanish (points (b 0 6) firstRots) (b 0 9) := by
  rw [e225 H, e40 H, e39 H]
  simp only [points, firstRots, List.map_cons, List.map_nil, vanish, List.prod_cons, List.prod_nil, p0, p1 H (by omega),
    pm6 H (by omega)]
  ring

theorem final_aux {A R W W' : G1} {vn u : Fr} : A - R - vn • W + u • W' = A - R + (-vn) • W + u • W' := by module

/-- The commitment part of the opening, with the weights as computed. -/
theorem opening_eq (H : FrRun b t a N) (hN : 300 < N) (C : Commitments) :
    opening (challengesOf (b 0)) C (Evals.ofProof t) (a 16) =
      (b 0 8 ^ 4 • (permSet C (Evals.ofProof t)).commitment (challengesOf (b 0)) +
        (b 0 8 ^ 3 * b 46 28) • (inputSet C (Evals.ofProof t)).commitment (challengesOf (b 0)) +
        (b 0 8 ^ 2 * b 111 33) • (singleSet (challengesOf (b 0)) C (Evals.ofProof t) (a 16)).commitment (challengesOf (b 0)) +
        (b 0 8 * b 119 25) • (nextSet C (Evals.ofProof t)).commitment (challengesOf (b 0)) +
        b 141 20 • (nextNextSet C (Evals.ofProof t)).commitment (challengesOf (b 0))) - b 142 18 • G1gen +
      b 226 16 • C.W + b 0 9 • C.W' := by
  have hw := weights H (by omega) C
  have ht := total H (by omega) C
  have e : sets b t a C = rotSets (challengesOf (b 0)) C (Evals.ofProof t) (a 16) := rfl
  rw [coeffW H (by omega), ht, ← final_aux]
  rw [e] at hw ⊢
  unfold rotSets at hw ⊢
  rw [List.map_cons, List.map_cons, List.map_cons, List.map_cons, List.map_cons, List.map_nil, List.cons.injEq, List.cons.injEq,
    List.cons.injEq, List.cons.injEq, List.cons.injEq] at hw
  obtain ⟨h0, h1, h2, h3, h4, -⟩ := hw
  unfold opening rotSets
  rw [five, h0, h1, h2, h3, h4, mul_one]
  rfl

/-! Scalars. -/
theorem y148 (H : FrRun b t a N) (hN : 147 < N) : b 148 23 = b 0 7 ^ 2 := by
  rw [e147 H]; ring
theorem y149 (H : FrRun b t a N) (hN : 148 < N) : b 149 24 = b 0 7 ^ 4 := by
  rw [e148 H, y148 H (by omega)]; ring
theorem y150 (H : FrRun b t a N) (hN : 149 < N) : b 150 26 = b 0 7 ^ 8 := by
  rw [e149 H, y149 H (by omega)]; ring
theorem y151 (H : FrRun b t a N) (hN : 150 < N) : b 151 27 = b 0 7 ^ 16 := by
  rw [e150 H, y150 H (by omega)]; ring
theorem y152 (H : FrRun b t a N) (hN : 151 < N) : b 152 29 = b 0 7 ^ 24 := by
  rw [e151 H, y151 H (by omega), y150 H (by omega)]; ring
theorem y153 (H : FrRun b t a N) (hN : 152 < N) : b 153 30 = b 0 7 ^ 28 := by
  rw [e152 H, y152 H (by omega), y149 H (by omega)]; ring
theorem y157 (H : FrRun b t a N) (hN : 156 < N) : b 157 31 = b 0 7 ^ 26 := by
  rw [e156 H, y152 H (by omega), y148 H (by omega)]; ring
theorem y168 (H : FrRun b t a N) (hN : 167 < N) : b 168 31 = b 0 7 ^ 3 := by
  rw [e167 H, y148 H (by omega)]; ring
theorem y181 (H : FrRun b t a N) (hN : 180 < N) : b 181 20 = b 0 7 ^ 18 := by
  rw [e180 H, y151 H (by omega), y148 H (by omega)]; ring
theorem y188 (H : FrRun b t a N) (hN : 187 < N) : b 188 20 = b 0 7 ^ 12 := by
  rw [e187 H, y150 H (by omega), y149 H (by omega)]; ring
theorem y192 (H : FrRun b t a N) (hN : 191 < N) : b 192 29 = b 0 7 ^ 10 := by
  rw [e191 H, y150 H (by omega), y148 H (by omega)]; ring
theorem y205 (H : FrRun b t a N) (hN : 204 < N) : b 205 29 = b 0 7 ^ 14 := by
  rw [e204 H, y188 H (by omega), y148 H (by omega)]; ring
theorem y215 (H : FrRun b t a N) (hN : 214 < N) : b 215 20 = b 0 7 ^ 20 := by
  rw [e214 H, y151 H (by omega), y149 H (by omega)]; ring
theorem y248 (H : FrRun b t a N) (hN : 247 < N) : b 248 20 = b 0 7 ^ 22 := by
  rw [e247 H, y215 H (by omega), y148 H (by omega)]; ring
theorem y267 (H : FrRun b t a N) (hN : 266 < N) : b 267 17 = b 0 7 ^ 6 := by
  rw [e266 H, y149 H (by omega), y148 H (by omega)]; ring
theorem y147 (H : FrRun b t a N) (hN : 146 < N) : b 147 21 = b 0 8 ^ 2 * b 111 33 := by
  rw [e146 H, e145 H]; ring
theorem y231 (H : FrRun b t a N) (hN : 230 < N) : b 231 17 = b 0 8 ^ 2 * b 111 33 * b 0 7 := by
  rw [e230 H, y147 H (by omega)]
theorem y244 (H : FrRun b t a N) (hN : 243 < N) : b 244 17 = b 0 8 ^ 3 * b 46 28 := by
  rw [e243 H, e145 H]; ring
theorem y286 (H : FrRun b t a N) (hN : 285 < N) : b 286 17 = b 0 8 ^ 4 := by
  rw [e285 H, e145 H]; ring
theorem s155 (H : FrRun b t a N) (hN : 154 < N) : b 155 16 = b 0 8 ^ 2 * b 111 33 * b 0 7 ^ 28 := by
  rw [e154 H, y153 H (by omega), y147 H (by omega)]
  try ring
theorem s159 (H : FrRun b t a N) (hN : 158 < N) : b 159 16 = b 0 8 ^ 2 * b 111 33 * b 0 7 ^ 27 := by
  rw [e158 H, y157 H (by omega), y147 H (by omega)]
  try ring
theorem s162 (H : FrRun b t a N) (hN : 161 < N) : b 162 16 = b 0 8 ^ 2 * b 111 33 * b 0 7 ^ 26 := by
  rw [e161 H, y157 H (by omega), y147 H (by omega)]
  try ring
theorem s165 (H : FrRun b t a N) (hN : 164 < N) : b 165 16 = b 0 8 ^ 2 * b 111 33 * b 0 7 ^ 25 := by
  rw [e164 H, y152 H (by omega), y147 H (by omega)]
  try ring
theorem s170 (H : FrRun b t a N) (hN : 169 < N) : b 170 16 = b 0 8 * b 119 25 * b 0 7 ^ 3 := by
  rw [e169 H, y168 H (by omega), e166 H]
  try ring
theorem s173 (H : FrRun b t a N) (hN : 172 < N) : b 173 16 = b 0 8 ^ 2 * b 111 33 * b 0 7 ^ 24 := by
  rw [e172 H, y152 H (by omega), y147 H (by omega)]
  try ring
theorem s176 (H : FrRun b t a N) (hN : 175 < N) : b 176 16 = b 141 20 * b 0 7 := by
  rw [e175 H]
  try ring
theorem s179 (H : FrRun b t a N) (hN : 178 < N) : b 179 16 = b 141 20 := by
  rw [e178 H]
  try ring
theorem s183 (H : FrRun b t a N) (hN : 182 < N) : b 183 16 = b 0 8 ^ 2 * b 111 33 * b 0 7 ^ 19 := by
  rw [e182 H, y181 H (by omega), y147 H (by omega)]
  try ring
theorem s186 (H : FrRun b t a N) (hN : 185 < N) : b 186 16 = b 0 8 ^ 2 * b 111 33 * b 0 7 ^ 18 := by
  rw [e185 H, y181 H (by omega), y147 H (by omega)]
  try ring
theorem s190 (H : FrRun b t a N) (hN : 189 < N) : b 190 16 = b 0 8 ^ 2 * b 111 33 * b 0 7 ^ 12 := by
  rw [e189 H, y188 H (by omega), y147 H (by omega)]
  try ring
theorem s194 (H : FrRun b t a N) (hN : 193 < N) : b 194 16 = b 0 8 ^ 2 * b 111 33 * b 0 7 ^ 11 := by
  rw [e193 H, y192 H (by omega), y147 H (by omega)]
  try ring
theorem s197 (H : FrRun b t a N) (hN : 196 < N) : b 197 16 = b 0 8 ^ 2 * b 111 33 * b 0 7 ^ 10 := by
  rw [e196 H, y192 H (by omega), y147 H (by omega)]
  try ring
theorem s200 (H : FrRun b t a N) (hN : 199 < N) : b 200 16 = b 0 8 ^ 2 * b 111 33 * b 0 7 ^ 17 := by
  rw [e199 H, y151 H (by omega), y147 H (by omega)]
  try ring
theorem s203 (H : FrRun b t a N) (hN : 202 < N) : b 203 16 = b 0 8 ^ 2 * b 111 33 * b 0 7 ^ 16 := by
  rw [e202 H, y151 H (by omega), y147 H (by omega)]
  try ring
theorem s207 (H : FrRun b t a N) (hN : 206 < N) : b 207 16 = b 0 8 ^ 2 * b 111 33 * b 0 7 ^ 15 := by
  rw [e206 H, y205 H (by omega), y147 H (by omega)]
  try ring
theorem s210 (H : FrRun b t a N) (hN : 209 < N) : b 210 16 = b 0 8 ^ 2 * b 111 33 * b 0 7 ^ 14 := by
  rw [e209 H, y205 H (by omega), y147 H (by omega)]
  try ring
theorem s213 (H : FrRun b t a N) (hN : 212 < N) : b 213 16 = b 0 8 ^ 2 * b 111 33 * b 0 7 ^ 13 := by
  rw [e212 H, y188 H (by omega), y147 H (by omega)]
  try ring
theorem s217 (H : FrRun b t a N) (hN : 216 < N) : b 217 16 = b 0 8 ^ 2 * b 111 33 * b 0 7 ^ 20 := by
  rw [e216 H, y215 H (by omega), y147 H (by omega)]
  try ring
theorem s220 (H : FrRun b t a N) (hN : 219 < N) : b 220 16 = b 0 8 ^ 2 * b 111 33 * b 0 7 ^ 21 := by
  rw [e219 H, y215 H (by omega), y147 H (by omega)]
  try ring
theorem s223 (H : FrRun b t a N) (hN : 222 < N) : b 223 16 = b 0 8 ^ 2 * b 111 33 * b 0 7 ^ 9 := by
  rw [e222 H, y150 H (by omega), y147 H (by omega)]
  try ring
theorem s229 (H : FrRun b t a N) (hN : 228 < N) : b 229 16 = b 0 9 := by
  rw [e228 H]
  try ring
theorem s233 (H : FrRun b t a N) (hN : 232 < N) : b 233 16 = b 0 8 ^ 2 * b 111 33 * b 0 7 * b 69 35 ^ 2 := by
  rw [e232 H, y231 H (by omega)]
  try ring
theorem s236 (H : FrRun b t a N) (hN : 235 < N) : b 236 16 = b 0 8 ^ 2 * b 111 33 * b 0 7 * b 69 35 := by
  rw [e235 H, y231 H (by omega)]
  try ring
theorem s239 (H : FrRun b t a N) (hN : 238 < N) : b 239 16 = b 0 8 ^ 2 * b 111 33 * b 0 7 := by
  rw [e238 H, y231 H (by omega)]
  try ring
theorem s242 (H : FrRun b t a N) (hN : 241 < N) : b 242 16 = b 0 8 ^ 2 * b 111 33 * b 0 7 ^ 29 := by
  rw [e241 H, y153 H (by omega), y147 H (by omega)]
  try ring
theorem s246 (H : FrRun b t a N) (hN : 245 < N) : b 246 16 = b 0 8 ^ 3 * b 46 28 * b 0 7 := by
  rw [e245 H, y244 H (by omega)]
  try ring
theorem s250 (H : FrRun b t a N) (hN : 249 < N) : b 250 16 = b 0 8 ^ 2 * b 111 33 * b 0 7 ^ 23 := by
  rw [e249 H, y248 H (by omega), y147 H (by omega)]
  try ring
theorem s253 (H : FrRun b t a N) (hN : 252 < N) : b 253 16 = b 0 8 * b 119 25 * b 0 7 := by
  rw [e252 H, e166 H]
  try ring
theorem s256 (H : FrRun b t a N) (hN : 255 < N) : b 256 16 = b 0 8 ^ 3 * b 46 28 := by
  rw [e255 H, y244 H (by omega)]
  try ring
theorem s259 (H : FrRun b t a N) (hN : 258 < N) : b 259 16 = b 0 8 ^ 2 * b 111 33 * b 0 7 ^ 22 := by
  rw [e258 H, y248 H (by omega), y147 H (by omega)]
  try ring
theorem s262 (H : FrRun b t a N) (hN : 261 < N) : b 262 16 = b 0 8 * b 119 25 := by
  rw [e261 H, e166 H]
  try ring
theorem s265 (H : FrRun b t a N) (hN : 264 < N) : b 265 16 = b 0 8 ^ 2 * b 111 33 * b 0 7 ^ 8 := by
  rw [e264 H, y150 H (by omega), y147 H (by omega)]
  try ring
theorem s269 (H : FrRun b t a N) (hN : 268 < N) : b 269 16 = b 0 8 ^ 2 * b 111 33 * b 0 7 ^ 7 := by
  rw [e268 H, y267 H (by omega), y147 H (by omega)]
  try ring
theorem s272 (H : FrRun b t a N) (hN : 271 < N) : b 272 16 = b 0 8 ^ 2 * b 111 33 * b 0 7 ^ 6 := by
  rw [e271 H, y267 H (by omega), y147 H (by omega)]
  try ring
theorem s275 (H : FrRun b t a N) (hN : 274 < N) : b 275 16 = b 0 8 ^ 2 * b 111 33 * b 0 7 ^ 5 := by
  rw [e274 H, y149 H (by omega), y147 H (by omega)]
  try ring
theorem s278 (H : FrRun b t a N) (hN : 277 < N) : b 278 16 = b 0 8 ^ 2 * b 111 33 * b 0 7 ^ 4 := by
  rw [e277 H, y149 H (by omega), y147 H (by omega)]
  try ring
theorem s281 (H : FrRun b t a N) (hN : 280 < N) : b 281 16 = b 0 8 ^ 2 * b 111 33 * b 0 7 ^ 3 := by
  rw [e280 H, y168 H (by omega), y147 H (by omega)]
  try ring
theorem s284 (H : FrRun b t a N) (hN : 283 < N) : b 284 16 = b 0 8 ^ 2 * b 111 33 * b 0 7 ^ 2 := by
  rw [e283 H, y148 H (by omega), y147 H (by omega)]
  try ring
theorem s288 (H : FrRun b t a N) (hN : 287 < N) : b 288 16 = b 0 8 ^ 4 * b 0 7 ^ 2 := by
  rw [e287 H, y286 H (by omega), y148 H (by omega)]
  try ring
theorem s291 (H : FrRun b t a N) (hN : 290 < N) : b 291 16 = b 0 8 ^ 4 * b 0 7 := by
  rw [e290 H, y286 H (by omega)]
  try ring
theorem s294 (H : FrRun b t a N) (hN : 293 < N) : b 294 16 = b 0 8 ^ 4 := by
  rw [e293 H, y286 H (by omega)]
  try ring
theorem s297 (H : FrRun b t a N) (hN : 296 < N) : b 297 16 = b 0 8 * b 119 25 * b 0 7 ^ 2 := by
  rw [e296 H, e166 H, y148 H (by omega)]
  try ring
theorem s300 (H : FrRun b t a N) (hN : 299 < N) : b 300 16 = b 0 8 ^ 2 * b 111 33 * b 0 7 ^ 0 := by
  rw [e299 H, y147 H (by omega)]
  try ring

theorem comm_perm (c : Challenges) (C : Commitments) (e : Evals) :
    (permSet C e).commitment c = c.y' ^ 2 • C.z 0 + c.y' • C.z 1 + C.z 2 := by
  unfold permSet RotSet.commitment
  simp only [List.foldl_cons, List.foldl_nil]
  module

theorem comm_input (c : Challenges) (C : Commitments) (e : Evals) :
    (inputSet C e).commitment c = c.y' • C.permA 0 + C.permA 1 := by
  unfold inputSet RotSet.commitment
  simp only [List.foldl_cons, List.foldl_nil]
  module

theorem comm_next (c : Challenges) (C : Commitments) (e : Evals) :
    (nextSet C e).commitment c = c.y' ^ 3 • C.a 4 + c.y' ^ 2 • C.z 3 + c.y' • C.Z 0 + C.Z 1 := by
  unfold nextSet RotSet.commitment
  simp only [List.foldl_cons, List.foldl_nil]
  module

theorem comm_nextNext (c : Challenges) (C : Commitments) (e : Evals) :
    (nextNextSet C e).commitment c = c.y' • C.a 6 + C.a 7 := by
  unfold nextNextSet RotSet.commitment
  simp only [List.foldl_cons, List.foldl_nil]
  module

theorem comm_single_aux (y : Fr) (i a0 a1 a2 a3 a5 s0 s1 h r : G1) (f s : ℕ → G1) :
    ([i, a0, a1, a2, a3, a5, s0, s1] ++ (List.range 13).map f ++ (List.range 7).map s ++ [h, r]).foldl
      (fun acc q => y • acc + q) 0 =
    y ^ 29 • i + y ^ 28 • a0 + y ^ 27 • a1 + y ^ 26 • a2 + y ^ 25 • a3 + y ^ 24 • a5 + y ^ 23 • s0 + y ^ 22 • s1
    + y ^ 21 • f 0 + y ^ 20 • f 1 + y ^ 19 • f 2 + y ^ 18 • f 3 + y ^ 17 • f 4 + y ^ 16 • f 5 + y ^ 15 • f 6 + y ^ 14 • f 7 + y ^ 13 • f 8 + y ^ 12 • f 9 + y ^ 11 • f 10 + y ^ 10 • f 11 + y ^ 9 • f 12
    + y ^ 8 • s 0 + y ^ 7 • s 1 + y ^ 6 • s 2 + y ^ 5 • s 3 + y ^ 4 • s 4 + y ^ 3 • s 5 + y ^ 2 • s 6 + y • h + r := by
  simp only [show List.range 13 = [0, 1, 2, 3, 4, 5, 6, 7, 8, 9, 10, 11, 12] from rfl,
    show List.range 7 = [0, 1, 2, 3, 4, 5, 6] from rfl, List.map_cons, List.map_nil, List.cons_append, List.nil_append,
    List.foldl_cons, List.foldl_nil]
  module

theorem commitment_map (S : RotSet) (c : Challenges) :
    S.commitment c = (S.queries.map Prod.fst).foldl (fun acc q => c.y' • acc + q) 0 := by
  unfold RotSet.commitment
  rw [List.foldl_map]

theorem comm_single (c : Challenges) (C : Commitments) (e : Evals) (h : Fr) :
    (singleSet c C e h).commitment c =
    c.y' ^ 29 • C.inst + c.y' ^ 28 • C.a 0 + c.y' ^ 27 • C.a 1 + c.y' ^ 26 • C.a 2 + c.y' ^ 25 • C.a 3 + c.y' ^ 24 • C.a 5
    + c.y' ^ 23 • C.permS 0 + c.y' ^ 22 • C.permS 1
    + c.y' ^ 21 • vkFixed 0 + c.y' ^ 20 • vkFixed 1 + c.y' ^ 19 • vkFixed 2 + c.y' ^ 18 • vkFixed 3 + c.y' ^ 17 • vkFixed 4 + c.y' ^ 16 • vkFixed 5 + c.y' ^ 15 • vkFixed 6 + c.y' ^ 14 • vkFixed 7 + c.y' ^ 13 • vkFixed 8 + c.y' ^ 12 • vkFixed 9 + c.y' ^ 11 • vkFixed 10 + c.y' ^ 10 • vkFixed 11 + c.y' ^ 9 • vkFixed 12
    + c.y' ^ 8 • vkSigma 0 + c.y' ^ 7 • vkSigma 1 + c.y' ^ 6 • vkSigma 2 + c.y' ^ 5 • vkSigma 3 + c.y' ^ 4 • vkSigma 4 + c.y' ^ 3 • vkSigma 5 + c.y' ^ 2 • vkSigma 6 + c.y' • hCommitment c C + C.random := by
  rw [commitment_map, ← comm_single_aux]
  unfold singleSet
  rw [List.map_append, List.map_append, List.map_append, List.map_map, List.map_map]
  rfl

theorem acc_aux (y v z1 zx z3 z4 R cW u xn : Fr) (p f s : ℕ → G1) (I G : G1) :
    [
      (R) • (-G),
      (v ^ 2 * zx * y ^ 28) • (p 0),
      (v ^ 2 * zx * y ^ 27) • (p 2),
      (v ^ 2 * zx * y ^ 26) • (p 4),
      (v ^ 2 * zx * y ^ 25) • (p 6),
      (v * z3 * y ^ 3) • (p 8),
      (v ^ 2 * zx * y ^ 24) • (p 10),
      (z4 * y) • (p 12),
      (z4) • (p 14),
      (v ^ 2 * zx * y ^ 19) • (f 2),
      (v ^ 2 * zx * y ^ 18) • (f 3),
      (v ^ 2 * zx * y ^ 12) • (f 9),
      (v ^ 2 * zx * y ^ 11) • (f 10),
      (v ^ 2 * zx * y ^ 10) • (f 11),
      (v ^ 2 * zx * y ^ 17) • (f 4),
      (v ^ 2 * zx * y ^ 16) • (f 5),
      (v ^ 2 * zx * y ^ 15) • (f 6),
      (v ^ 2 * zx * y ^ 14) • (f 7),
      (v ^ 2 * zx * y ^ 13) • (f 8),
      (v ^ 2 * zx * y ^ 20) • (f 1),
      (v ^ 2 * zx * y ^ 21) • (f 0),
      (v ^ 2 * zx * y ^ 9) • (f 12),
      (cW) • (p 100),
      (u) • (p 102),
      (v ^ 2 * zx * y * xn ^ 2) • (p 42),
      (v ^ 2 * zx * y * xn) • (p 40),
      (v ^ 2 * zx * y) • (p 38),
      (v ^ 2 * zx * y ^ 29) • (I),
      (v ^ 3 * z1 * y) • (p 16),
      (v ^ 2 * zx * y ^ 23) • (p 18),
      (v * z3 * y) • (p 32),
      (v ^ 3 * z1) • (p 20),
      (v ^ 2 * zx * y ^ 22) • (p 22),
      (v * z3) • (p 34),
      (v ^ 2 * zx * y ^ 8) • (s 0),
      (v ^ 2 * zx * y ^ 7) • (s 1),
      (v ^ 2 * zx * y ^ 6) • (s 2),
      (v ^ 2 * zx * y ^ 5) • (s 3),
      (v ^ 2 * zx * y ^ 4) • (s 4),
      (v ^ 2 * zx * y ^ 3) • (s 5),
      (v ^ 2 * zx * y ^ 2) • (s 6),
      (v ^ 4 * y ^ 2) • (p 24),
      (v ^ 4 * y) • (p 26),
      (v ^ 4) • (p 28),
      (v * z3 * y ^ 2) • (p 30),
      (v ^ 2 * zx * y ^ 0) • (p 36)].sum =
      (v ^ 4 • (y ^ 2 • p 24 + y • p 26 + p 28) + (v ^ 3 * z1) • (y • p 16 + p 20) +
      (v ^ 2 * zx) • (y ^ 29 • I + y ^ 28 • p 0 + y ^ 27 • p 2 + y ^ 26 • p 4 + y ^ 25 • p 6 + y ^ 24 • p 10 + y ^ 23 • p 18 + y ^ 22 • p 22
        + y ^ 21 • f 0 + y ^ 20 • f 1 + y ^ 19 • f 2 + y ^ 18 • f 3 + y ^ 17 • f 4 + y ^ 16 • f 5 + y ^ 15 • f 6 + y ^ 14 • f 7 + y ^ 13 • f 8 + y ^ 12 • f 9 + y ^ 11 • f 10 + y ^ 10 • f 11 + y ^ 9 • f 12
        + y ^ 8 • s 0 + y ^ 7 • s 1 + y ^ 6 • s 2 + y ^ 5 • s 3 + y ^ 4 • s 4 + y ^ 3 • s 5 + y ^ 2 • s 6
        + y • (p 38 + xn • p 40 + xn ^ 2 • p 42) + p 36) +
      (v * z3) • (y ^ 3 • p 8 + y ^ 2 • p 30 + y • p 32 + p 34) + z4 • (y • p 12 + p 14)) - R • G + cW • p 100 + u • p 102 := by
  simp only [List.sum_cons, List.sum_nil]
  module

/-- The accumulated point is the SHPLONK combination. -/
theorem acc_eq {T : List Var} {I : G1} {β : ℕ → ℕ → Var} (H : FrRun (fun j i => (β j i).fr) t a N) (hN : 300 < N) :
    ((accTerms T I β).map fun p => p.1 • p.2).sum =
      opening (challengesOf fun i => (β 0 i).fr) (Commitments.ofProof I (proofPoint T)) (Evals.ofProof t) (a 16) := by
  rw [opening_eq H hN, comm_perm, comm_input, comm_single, comm_next, comm_nextNext]
  unfold accTerms hCommitment
  simp only [List.map_cons, List.map_nil, ptOf_negG, vk_f2, vk_f3, vk_f9, vk_f10, vk_f11, vk_f4, vk_f5, vk_f6, vk_f7, vk_f8, vk_f1, vk_f0, vk_f12, vk_s0, vk_s1, vk_s2, vk_s3, vk_s4, vk_s5, vk_s6]
  have x0 : (challengesOf fun i => (β 0 i).fr).x ^ n = (β 69 35).fr := (xn H (by omega)).symm
  have e143 := e143 H
  have h155 := s155 H (by omega)
  have h159 := s159 H (by omega)
  have h162 := s162 H (by omega)
  have h165 := s165 H (by omega)
  have h170 := s170 H (by omega)
  have h173 := s173 H (by omega)
  have h176 := s176 H (by omega)
  have h179 := s179 H (by omega)
  have h183 := s183 H (by omega)
  have h186 := s186 H (by omega)
  have h190 := s190 H (by omega)
  have h194 := s194 H (by omega)
  have h197 := s197 H (by omega)
  have h200 := s200 H (by omega)
  have h203 := s203 H (by omega)
  have h207 := s207 H (by omega)
  have h210 := s210 H (by omega)
  have h213 := s213 H (by omega)
  have h217 := s217 H (by omega)
  have h220 := s220 H (by omega)
  have h223 := s223 H (by omega)
  have h229 := s229 H (by omega)
  have h233 := s233 H (by omega)
  have h236 := s236 H (by omega)
  have h239 := s239 H (by omega)
  have h242 := s242 H (by omega)
  have h246 := s246 H (by omega)
  have h250 := s250 H (by omega)
  have h253 := s253 H (by omega)
  have h256 := s256 H (by omega)
  have h259 := s259 H (by omega)
  have h262 := s262 H (by omega)
  have h265 := s265 H (by omega)
  have h269 := s269 H (by omega)
  have h272 := s272 H (by omega)
  have h275 := s275 H (by omega)
  have h278 := s278 H (by omega)
  have h281 := s281 H (by omega)
  have h284 := s284 H (by omega)
  have h288 := s288 H (by omega)
  have h291 := s291 H (by omega)
  have h294 := s294 H (by omega)
  have h297 := s297 H (by omega)
  have h300 := s300 H (by omega)
  beta_reduce at *
  rw [h155, h159, h162, h165, h170, h173, h176, h179, h183, h186, h190, h194, h197, h200, h203, h207, h210, h213, h217, h220, h223, h229, h233, h236, h239, h242, h246, h250, h253, h256, h259, h262, h265, h269, h272, h275, h278, h281, h284, h288, h291, h294, h297, h300, e143, acc_aux, x0]
  rfl

end Eqs
/-- The first two statements load W', which is multiplied by 1. -/
theorem w_run {X : Ext} (hX : X.Strict) {T A : List Var} {β : ℕ → ℕ → Var} {N : ℕ} (H : SRun X T A β N) (hN : 300 < N)
    (hT : ∀ i, i ∈ pointPositions → PairAt T i) : PtAt (β 3 10) (β 3 11) (proofPoint T 102) := by
  have h1 : (SStmt.set [10, 11] [.tr 102, .tr 103]).Holds X T A β 0 := H 0 (by omega)
  have h2 : (SStmt.set [12] [.str 1]).Holds X T A β 1 := H 1 (by omega)
  have e12 : β 2 12 = .big 1 := by
    cases h2 with
    | cons h _ => exact h.shape
  have hp : PtAt (β 1 10) (β 1 11) (proofPoint T 102) := by
    have := PtAt.of_pair (hT 102 (by decide))
    cases h1 with
    | cons h1 h2 => cases h2 with
      | cons h3 _ =>
        rw [getD_some h1.shape, getD_some h3.shape] at this
        exact this
  have := mul_step hX (H 2 (by omega)) hp (by rw [e12]; exact ⟨1, rfl, by norm_num, by decide +kernel⟩)
  rw [e12, show (Var.big 1).fr = 1 by simp [Var.fr], one_smul] at this
  exact this

end Verif
