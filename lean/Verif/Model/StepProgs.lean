/-
The bodies of VerifyProof1, VerifyProof2, VerifyProof3 as programs of the statement language of
Verif/Model/StepLang. GENERATED by tools/gen_steps.py from /repo/AggregatorVerifierStep{1,2,3}.go; the comment
after each statement gives the lines of the Go statement. Statements are in source order, one per Go statement
(the `if err != nil` after an ecc call belongs to the call).
-/
import Verif.Model.StepLang

namespace Verif

/-- Body of `VerifyProof1`, /repo/AggregatorVerifierStep1.go:13-883. -/
def step1 : List Stmt := [
  .set [10, 11] [.tr 102, .tr 103],  -- 13
  .set [12] [.str 1],  -- 14
  .eccMul 10,  -- 15
  .set [17] [.mul (.str 21710372849001950800533397158415938114909991150039389063546734567764856596059) (.buf 6)],  -- 19-22
  .set [18] [.div (.str 1) (.add (.buf 17) (.neg (.buf 6))) (.aux 0)],  -- 23-27
  .set [19] [.mul (.str 8374374965308410102411073611984011876711565317741801500439755773472076597347) (.buf 6)],  -- 28-31
  .set [20] [.div (.str 1) (.add (.buf 17) (.neg (.buf 19))) (.aux 1)],  -- 32-36
  .set [21] [.mul (.buf 18) (.buf 20)],  -- 37
  .set [22] [.div (.str 1) (.add (.buf 6) (.neg (.buf 17))) (.aux 2)],  -- 38-42
  .set [23] [.div (.str 1) (.add (.buf 6) (.neg (.buf 19))) (.aux 3)],  -- 43-47
  .set [24] [.mul (.buf 22) (.buf 23)],  -- 48
  .set [25] [.div (.str 1) (.add (.buf 19) (.neg (.buf 17))) (.aux 4)],  -- 49-53
  .set [26] [.div (.str 1) (.add (.buf 19) (.neg (.buf 6))) (.aux 5)],  -- 54-58
  .set [27] [.mul (.buf 25) (.buf 26)],  -- 59
  .set [28] [.neg (.mul (.buf 18) (.buf 6))],  -- 60-61
  .set [29] [.mul (.buf 20) (.buf 19)],  -- 62
  .set [18] [.add (.mul (.buf 28) (.buf 20)) (.neg (.mul (.buf 18) (.buf 29)))],  -- 63-66
  .set [20] [.neg (.mul (.buf 22) (.buf 17))],  -- 67-68
  .set [30] [.mul (.buf 23) (.buf 19)],  -- 69
  .set [22] [.add (.mul (.buf 20) (.buf 23)) (.neg (.mul (.buf 22) (.buf 30)))],  -- 70-73
  .set [31] [.neg (.mul (.buf 25) (.buf 17))],  -- 74-75
  .set [32] [.mul (.buf 26) (.buf 6)],  -- 76
  .set [25] [.add (.mul (.buf 31) (.buf 26)) (.neg (.mul (.buf 25) (.buf 32)))],  -- 77-80
  .set [33] [.add (.mul (.add (.add (.mul (.buf 21) (.tr 81)) (.mul (.buf 24) (.tr 79))) (.mul (.buf 27) (.tr 80))) (.buf 9)) (.add (.add (.mul (.buf 18) (.tr 81)) (.mul (.buf 22) (.tr 79))) (.mul (.buf 25) (.tr 80)))],  -- 81-99
  .set [28] [.neg (.mul (.buf 28) (.buf 29))],  -- 100
  .set [20] [.neg (.mul (.buf 20) (.buf 30))],  -- 101
  .set [29] [.neg (.mul (.buf 31) (.buf 32))],  -- 102
  .set [31] [.mul (.buf 7) (.add (.mul (.buf 33) (.buf 9)) (.add (.add (.mul (.buf 28) (.tr 81)) (.mul (.buf 20) (.tr 79))) (.mul (.buf 29) (.tr 80))))],  -- 103-115
  .set [33] [.add (.mul (.add (.add (.mul (.buf 21) (.tr 84)) (.mul (.buf 24) (.tr 82))) (.mul (.buf 27) (.tr 83))) (.buf 9)) (.add (.add (.mul (.buf 18) (.tr 84)) (.mul (.buf 22) (.tr 82))) (.mul (.buf 25) (.tr 83)))],  -- 116-134
  .set [31] [.add (.buf 31) (.add (.mul (.buf 33) (.buf 9)) (.add (.add (.mul (.buf 28) (.tr 84)) (.mul (.buf 20) (.tr 82))) (.mul (.buf 29) (.tr 83))))],  -- 135-147
  .set [18] [.add (.mul (.add (.add (.mul (.buf 21) (.tr 87)) (.mul (.buf 24) (.tr 85))) (.mul (.buf 27) (.tr 86))) (.buf 9)) (.add (.add (.mul (.buf 18) (.tr 87)) (.mul (.buf 22) (.tr 85))) (.mul (.buf 25) (.tr 86)))],  -- 148-166
  .set [18] [.add (.mul (.buf 7) (.buf 31)) (.add (.mul (.buf 18) (.buf 9)) (.add (.add (.mul (.buf 28) (.tr 87)) (.mul (.buf 20) (.tr 85))) (.mul (.buf 29) (.tr 86))))],  -- 167-179
  .set [20] [.mul (.str 9741553891420464328295280489650144566903017206473301385034033384879943874347) (.buf 6)],  -- 180-183
  .set [21] [.div (.str 1) (.add (.buf 20) (.neg (.buf 6))) (.aux 6)],  -- 184-188
  .set [22] [.div (.str 1) (.add (.buf 6) (.neg (.buf 20))) (.aux 7)],  -- 189-193
  .set [24] [.neg (.mul (.buf 21) (.buf 6))],  -- 194
  .set [25] [.neg (.mul (.buf 22) (.buf 20))],  -- 195
  .set [27] [.mul (.buf 7) (.add (.mul (.add (.mul (.buf 21) (.tr 93)) (.mul (.buf 22) (.tr 92))) (.buf 9)) (.add (.mul (.buf 24) (.tr 93)) (.mul (.buf 25) (.tr 92))))],  -- 196-211
  .set [21] [.add (.buf 27) (.add (.mul (.add (.mul (.buf 21) (.tr 98)) (.mul (.buf 22) (.tr 97))) (.buf 9)) (.add (.mul (.buf 24) (.tr 98)) (.mul (.buf 25) (.tr 97))))],  -- 212-227
  .set [17] [.add (.buf 9) (.neg (.buf 17))],  -- 228-231
  .set [22] [.add (.buf 9) (.neg (.buf 19))],  -- 232-235
  .set [24] [.mul (.str 11211301017135681023579411905410872569206244553457844956874280139879520583390) (.buf 6)],  -- 236-239
  .set [25] [.add (.buf 9) (.neg (.buf 24))],  -- 240-243
  .set [20] [.add (.buf 9) (.neg (.buf 20))],  -- 244-247
  .set [27] [.div (.str 1) (.mul (.buf 20) (.buf 25)) (.aux 8)],  -- 248-252
  .set [28] [.mul (.mul (.mul (.buf 17) (.buf 22)) (.buf 25)) (.buf 27)],  -- 253-259
  .set [29] [.mul (.buf 7) (.add (.mul (.buf 7) (.add (.mul (.buf 7) (.tr 44)) (.tr 45))) (.tr 46))],  -- 260-272
  .set [29] [.add (.mul (.buf 7) (.add (.mul (.buf 7) (.add (.buf 29) (.tr 47))) (.tr 48))) (.tr 51)],  -- 273-285
  .set [29] [.mul (.buf 7) (.add (.mul (.buf 7) (.add (.mul (.buf 7) (.buf 29)) (.tr 94))) (.tr 99))],  -- 286-298
  .set [29] [.add (.mul (.buf 7) (.add (.mul (.buf 7) (.add (.buf 29) (.tr 58))) (.tr 59))) (.tr 60)],  -- 299-311
  .set [29] [.mul (.buf 7) (.add (.mul (.buf 7) (.add (.mul (.buf 7) (.buf 29)) (.tr 61))) (.tr 62))],  -- 312-324
  .set [29] [.add (.mul (.buf 7) (.add (.mul (.buf 7) (.add (.buf 29) (.tr 63))) (.tr 64))) (.tr 65)],  -- 325-337
  .set [29] [.mul (.buf 7) (.add (.mul (.buf 7) (.add (.mul (.buf 7) (.buf 29)) (.tr 66))) (.tr 67))],  -- 338-350
  .set [29] [.add (.mul (.buf 7) (.add (.mul (.buf 7) (.add (.buf 29) (.tr 68))) (.tr 69))) (.tr 70)],  -- 351-363
  .set [29] [.mul (.buf 7) (.add (.mul (.buf 7) (.add (.mul (.buf 7) (.buf 29)) (.tr 72))) (.tr 73))],  -- 364-376
  .set [29] [.add (.mul (.buf 7) (.add (.mul (.buf 7) (.add (.buf 29) (.tr 74))) (.tr 75))) (.tr 76)],  -- 377-389
  .set [29] [.mul (.buf 7) (.add (.mul (.buf 7) (.add (.mul (.buf 7) (.buf 29)) (.tr 77))) (.tr 78))],  -- 390-402
  .set [31] [.add (.add (.add (.add (.tr 58) (.mul (.tr 50) (.tr 59))) (.mul (.tr 45) (.tr 60))) (.mul (.tr 46) (.tr 61))) (.mul (.tr 47) (.tr 62))],  -- 403-418
  .set [31] [.add (.add (.add (.add (.buf 31) (.mul (.tr 48) (.tr 63))) (.mul (.tr 49) (.tr 64))) (.mul (.mul (.tr 45) (.tr 46)) (.tr 65))) (.mul (.mul (.tr 47) (.tr 48)) (.tr 66))],  -- 419-440
  .set [33] [.add (.tr 70) (.str 21888242871839275222246405745257275088548364400416034343698204186575808495615)],  -- 441-444
  .set [34] [.add (.tr 70) (.str 21888242871839275222246405745257275088548364400416034343698204186575808495614)],  -- 445-448
  .set [35] [.mul (.mul (.mul (.add (.tr 51) (.neg (.tr 52))) (.tr 70)) (.buf 33)) (.buf 34)],  -- 449-461
  .set [36] [.add (.add (.tr 51) (.neg (.tr 53))) (.neg (.mul (.tr 54) (.str 262144)))],  -- 462-468
  .set [37] [.mul (.add (.add (.buf 36) (.neg (.mul (.tr 52) (.str 68719476736)))) (.neg (.mul (.tr 55) (.str 18014398509481984)))) (.tr 70)],  -- 469-484
  .set [38] [.add (.tr 70) (.str 21888242871839275222246405745257275088548364400416034343698204186575808495616)],  -- 485-488
  .set [31] [.mul (.add (.mul (.add (.mul (.buf 31) (.buf 5)) (.buf 35)) (.buf 5)) (.mul (.mul (.buf 37) (.buf 38)) (.buf 34))) (.buf 5)],  -- 489-504
  .set [34] [.add (.add (.add (.buf 36) (.neg (.mul (.tr 56) (.str 68719476736)))) (.neg (.mul (.tr 52) (.str 18014398509481984)))) (.neg (.mul (.tr 55) (.str 4722366482869645213696)))],  -- 505-523
  .set [34] [.mul (.mul (.add (.buf 34) (.neg (.mul (.tr 57) (.str 1237940039285380274899124224)))) (.tr 70)) (.buf 38)],  -- 524-536
  .set [35] [.pow (.buf 6) 8388608],  -- 537
  .set [36] [.add (.buf 35) (.neg (.str 1))],  -- 538
  .set [37] [.div (.mul (.str 21888240262557392955334514970720457388010314637169927192662615958087340972065) (.buf 36)) (.add (.buf 6) (.neg (.str 1))) (.aux 9)],  -- 539-546
  .set [31] [.mul (.add (.mul (.add (.buf 31) (.mul (.buf 34) (.buf 33))) (.buf 5)) (.mul (.buf 37) (.add (.str 1) (.neg (.tr 79))))) (.buf 5)],  -- 547-565
  .set [33] [.div (.mul (.str 4976187549286291281196346419790865785215437125361463174887299780224677482739) (.buf 36)) (.add (.buf 6) (.neg (.str 21710372849001950800533397158415938114909991150039389063546734567764856596059))) (.aux 10)],  -- 566-576
  .set [31] [.mul (.add (.buf 31) (.mul (.buf 33) (.add (.mul (.tr 88) (.tr 88)) (.neg (.tr 88))))) (.buf 5)],  -- 577-592
  .set [31] [.add (.mul (.add (.buf 31) (.mul (.add (.tr 82) (.neg (.tr 81))) (.buf 37))) (.buf 5)) (.mul (.add (.tr 85) (.neg (.tr 84))) (.buf 37))],  -- 593-614
  .set [34] [.add (.tr 46) (.buf 4)],  -- 615
  .set [38] [.add (.tr 45) (.buf 4)],  -- 616
  .set [39] [.mul (.buf 3) (.buf 6)],  -- 617
  .set [34] [.add (.mul (.add (.buf 34) (.mul (.buf 3) (.tr 73))) (.mul (.add (.buf 38) (.mul (.buf 3) (.tr 72))) (.tr 80))) (.neg (.mul (.add (.buf 34) (.mul (.str 4131629893567559867359510883348571134090853742863529169391034518566172092834) (.buf 39))) (.mul (.add (.buf 38) (.buf 39)) (.tr 79))))],  -- 618-645
  .set [38] [.add (.add (.add (.div (.mul (.str 17545179510056424625657753961500172777187948487824275719647175633757629801999) (.buf 36)) (.add (.buf 6) (.neg (.str 1887003188133998471169152042388914354640772748308168868301418279904560637395))) (.aux 11)) (.div (.mul (.str 12181902470161097505840471953356915228510866946798053228669051859673065660797) (.buf 36)) (.add (.buf 6) (.neg (.str 2785514556381676080176937710880804108647911392478702105860685610379369825016))) (.aux 12))) (.div (.mul (.str 3094683119308499972127188652296432785995218440930254516456812473854441617488) (.buf 36)) (.add (.buf 6) (.neg (.str 14655294445420895451632927078981340937842238432098198055057679026789553137428))) (.aux 13))) (.div (.mul (.str 17403859010271654340651602860211012227656903909453797585120745724534928821531) (.buf 36)) (.add (.buf 6) (.neg (.str 8734126352828345679573237859165904705806588461301144420590422589042130041188))) (.aux 14))],  -- 646-695
  .set [38] [.add (.str 1) (.neg (.add (.buf 33) (.add (.buf 38) (.div (.mul (.str 7444483286096152693477325065105185543054922671492455540957072536952082259082) (.buf 36)) (.add (.buf 6) (.neg (.str 9741553891420464328295280489650144566903017206473301385034033384879943874347))) (.aux 15)))))],  -- 696-715
  .set [31] [.add (.mul (.add (.mul (.buf 31) (.buf 5)) (.mul (.add (.tr 88) (.neg (.tr 87))) (.buf 37))) (.buf 5)) (.mul (.buf 34) (.buf 38))],  -- 716-731
  .set [34] [.add (.tr 48) (.buf 4)],  -- 732
  .set [40] [.add (.tr 47) (.buf 4)],  -- 733
  .set [41] [.pow (.str 4131629893567559867359510883348571134090853742863529169391034518566172092834) 2],  -- 734-737
  .set [41] [.mul (.buf 39) (.buf 41)],  -- 738
  .set [34] [.add (.mul (.add (.buf 34) (.mul (.buf 3) (.tr 75))) (.mul (.add (.buf 40) (.mul (.buf 3) (.tr 74))) (.tr 83))) (.neg (.mul (.add (.buf 34) (.mul (.str 4131629893567559867359510883348571134090853742863529169391034518566172092834) (.buf 41))) (.mul (.add (.buf 40) (.buf 41)) (.tr 82))))],  -- 739-766
  .set [40] [.add (.tr 51) (.buf 4)],  -- 767
  .set [41] [.add (.tr 49) (.buf 4)],  -- 768
  .set [42] [.pow (.str 4131629893567559867359510883348571134090853742863529169391034518566172092834) 4],  -- 769-772
  .set [42] [.mul (.buf 39) (.buf 42)],  -- 773
  .set [40] [.add (.mul (.add (.buf 40) (.mul (.buf 3) (.tr 77))) (.mul (.add (.buf 41) (.mul (.buf 3) (.tr 76))) (.tr 86))) (.neg (.mul (.add (.buf 40) (.mul (.str 4131629893567559867359510883348571134090853742863529169391034518566172092834) (.buf 42))) (.mul (.add (.buf 41) (.buf 42)) (.tr 85))))],  -- 774-801
  .set [31] [.mul (.add (.mul (.add (.mul (.buf 31) (.buf 5)) (.mul (.buf 34) (.buf 38))) (.buf 5)) (.mul (.buf 40) (.buf 38))) (.buf 5)],  -- 802-814
  .set [34] [.add (.tr 44) (.buf 4)],  -- 815
  .set [40] [.pow (.str 4131629893567559867359510883348571134090853742863529169391034518566172092834) 6],  -- 816-819
  .set [34] [.mul (.add (.mul (.add (.buf 34) (.mul (.buf 3) (.tr 78))) (.tr 89)) (.neg (.mul (.add (.buf 34) (.mul (.buf 39) (.buf 40))) (.tr 88)))) (.buf 38)],  -- 820-838
  .set [31] [.add (.mul (.add (.mul (.add (.buf 31) (.buf 34)) (.buf 5)) (.mul (.buf 37) (.add (.str 1) (.neg (.tr 90))))) (.buf 5)) (.mul (.buf 33) (.add (.mul (.tr 90) (.tr 90)) (.neg (.tr 90))))],  -- 839-863
  .set [34] [.add (.add (.mul (.tr 68) (.buf 2)) (.tr 69)) (.buf 4)],  -- 864-870
  .set [39] [.mul (.mul (.tr 90) (.add (.add (.mul (.tr 67) (.buf 2)) (.tr 52)) (.buf 3))) (.buf 34)]]  -- 871-883

/-- Body of `VerifyProof2`, /repo/AggregatorVerifierStep2.go:13-559. -/
def step2 : List Stmt := [
  .set [39] [.mul (.add (.mul (.mul (.tr 91) (.add (.tr 92) (.buf 3))) (.add (.tr 94) (.buf 4))) (.neg (.buf 39))) (.buf 38)],  -- 13-25
  .set [40] [.add (.tr 92) (.neg (.tr 94))],  -- 26-29
  .set [31] [.mul (.add (.mul (.add (.mul (.buf 31) (.buf 5)) (.buf 39)) (.buf 5)) (.mul (.buf 37) (.buf 40))) (.buf 5)],  -- 30-42
  .set [31] [.mul (.add (.buf 31) (.mul (.mul (.buf 40) (.add (.tr 92) (.neg (.tr 93)))) (.buf 38))) (.buf 5)],  -- 43-58
  .set [31] [.add (.mul (.add (.buf 31) (.mul (.buf 37) (.add (.int 1) (.neg (.tr 95))))) (.buf 5)) (.mul (.buf 33) (.add (.mul (.tr 95) (.tr 95)) (.neg (.tr 95))))],  -- 59-80
  .set [33] [.mul (.mul (.tr 95) (.add (.add (.mul (.int 18) (.buf 2)) (.tr 53)) (.buf 3))) (.buf 34)],  -- 81-93
  .set [33] [.mul (.add (.mul (.mul (.tr 96) (.add (.tr 97) (.buf 3))) (.add (.tr 99) (.buf 4))) (.neg (.buf 33))) (.buf 38)],  -- 94-106
  .set [34] [.add (.tr 97) (.neg (.tr 99))],  -- 107-110
  .set [31] [.mul (.add (.mul (.add (.mul (.buf 31) (.buf 5)) (.buf 33)) (.buf 5)) (.mul (.buf 37) (.buf 34))) (.buf 5)],  -- 111-123
  .set [31] [.div (.add (.buf 31) (.mul (.mul (.buf 34) (.add (.tr 97) (.neg (.tr 98)))) (.buf 38))) (.buf 36) (.aux 16)],  -- 124-140
  .set [20] [.mul (.buf 17) (.buf 20)],  -- 141
  .set [33] [.mul (.mul (.mul (.buf 20) (.buf 22)) (.buf 25)) (.buf 27)],  -- 142-148
  .set [18] [.add (.mul (.buf 8) (.add (.mul (.buf 8) (.buf 18)) (.mul (.buf 21) (.buf 28)))) (.mul (.add (.mul (.buf 7) (.add (.buf 29) (.buf 31))) (.tr 71)) (.buf 33))],  -- 149-167
  .set [21] [.neg (.buf 30)],  -- 168
  .set [29] [.neg (.buf 32)],  -- 169
  .set [30] [.mul (.buf 7) (.add (.mul (.add (.mul (.buf 23) (.tr 49)) (.mul (.buf 26) (.tr 50))) (.buf 9)) (.add (.mul (.buf 21) (.tr 49)) (.mul (.buf 29) (.tr 50))))],  -- 170-185
  .set [30] [.add (.buf 30) (.add (.mul (.add (.mul (.buf 23) (.tr 88)) (.mul (.buf 26) (.tr 89))) (.buf 9)) (.add (.mul (.buf 21) (.tr 88)) (.mul (.buf 29) (.tr 89))))],  -- 186-201
  .set [30] [.add (.mul (.buf 7) (.buf 30)) (.add (.mul (.add (.mul (.buf 23) (.tr 90)) (.mul (.buf 26) (.tr 91))) (.buf 9)) (.add (.mul (.buf 21) (.tr 90)) (.mul (.buf 29) (.tr 91))))],  -- 202-217
  .set [30] [.add (.mul (.buf 7) (.buf 30)) (.add (.mul (.add (.mul (.buf 23) (.tr 95)) (.mul (.buf 26) (.tr 96))) (.buf 9)) (.add (.mul (.buf 21) (.tr 95)) (.mul (.buf 29) (.tr 96))))],  -- 218-233
  .set [25] [.mul (.mul (.buf 20) (.buf 25)) (.buf 27)],  -- 234-237
  .set [31] [.div (.int 1) (.add (.buf 6) (.neg (.buf 24))) (.aux 17)],  -- 238-242
  .set [32] [.mul (.buf 23) (.buf 31)],  -- 243
  .set [34] [.div (.int 1) (.add (.buf 19) (.neg (.buf 24))) (.aux 18)],  -- 244-248
  .set [36] [.mul (.buf 26) (.buf 34)],  -- 249
  .set [37] [.div (.int 1) (.add (.buf 24) (.neg (.buf 6))) (.aux 19)],  -- 250-254
  .set [38] [.div (.int 1) (.add (.buf 24) (.neg (.buf 19))) (.aux 20)],  -- 255-259
  .set [39] [.mul (.buf 37) (.buf 38)],  -- 260
  .set [40] [.mul (.buf 31) (.buf 24)],  -- 261
  .set [23] [.add (.mul (.buf 21) (.buf 31)) (.neg (.mul (.buf 23) (.buf 40)))],  -- 262-265
  .set [24] [.mul (.buf 34) (.buf 24)],  -- 266
  .set [26] [.add (.mul (.buf 29) (.buf 34)) (.neg (.mul (.buf 26) (.buf 24)))],  -- 267-270
  .set [31] [.neg (.mul (.buf 37) (.buf 6))],  -- 271
  .set [19] [.mul (.buf 38) (.buf 19)],  -- 272
  .set [34] [.add (.mul (.buf 31) (.buf 38)) (.neg (.mul (.buf 37) (.buf 19)))],  -- 273-276
  .set [37] [.add (.mul (.add (.add (.mul (.buf 32) (.tr 52)) (.mul (.buf 36) (.tr 55))) (.mul (.buf 39) (.tr 57))) (.buf 9)) (.add (.add (.mul (.buf 23) (.tr 52)) (.mul (.buf 26) (.tr 55))) (.mul (.buf 34) (.tr 57)))],  -- 277-295
  .set [21] [.neg (.mul (.buf 21) (.buf 40))],  -- 296
  .set [24] [.neg (.mul (.buf 29) (.buf 24))],  -- 297
  .set [19] [.neg (.mul (.buf 31) (.buf 19))],  -- 298
  .set [29] [.mul (.buf 7) (.add (.mul (.buf 37) (.buf 9)) (.add (.add (.mul (.buf 21) (.tr 52)) (.mul (.buf 24) (.tr 55))) (.mul (.buf 19) (.tr 57))))],  -- 299-311
  .set [23] [.add (.mul (.add (.add (.mul (.buf 32) (.tr 53)) (.mul (.buf 36) (.tr 54))) (.mul (.buf 39) (.tr 56))) (.buf 9)) (.add (.add (.mul (.buf 23) (.tr 53)) (.mul (.buf 26) (.tr 54))) (.mul (.buf 34) (.tr 56)))],  -- 312-330
  .set [19] [.add (.buf 29) (.add (.mul (.buf 23) (.buf 9)) (.add (.add (.mul (.buf 21) (.tr 53)) (.mul (.buf 24) (.tr 54))) (.mul (.buf 19) (.tr 56))))],  -- 331-343
  .set [20] [.mul (.buf 20) (.buf 27)],  -- 344
  .set [18] [.add (.mul (.buf 8) (.add (.mul (.buf 8) (.buf 18)) (.mul (.buf 30) (.buf 25)))) (.mul (.buf 19) (.buf 20))],  -- 345-354
  .set [12, 13] [.str 1, .str 21888242871839275222246405745257275088696311157297823662689037894645226208581],  -- 355
  .set [14] [.buf 18],  -- 356
  .eccMul 12,  -- 357
  .set [19] [.mul (.buf 8) (.buf 8)],  -- 361
  .set [21] [.mul (.buf 19) (.buf 33)],  -- 362
  .set [23] [.mul (.buf 7) (.buf 7)],  -- 363
  .set [24] [.mul (.buf 23) (.buf 23)],  -- 364
  .set [26] [.mul (.buf 24) (.buf 24)],  -- 365
  .set [27] [.mul (.buf 26) (.buf 26)],  -- 366
  .set [29] [.mul (.buf 27) (.buf 26)],  -- 367
  .set [30] [.mul (.buf 29) (.buf 24)],  -- 368
  .set [14, 15] [.tr 0, .tr 1],  -- 369
  .set [16] [.mul (.buf 21) (.buf 30)],  -- 370
  .eccMulAdd 12,  -- 371
  .set [31] [.mul (.buf 29) (.buf 23)],  -- 375
  .set [14, 15] [.tr 2, .tr 3],  -- 376
  .set [16] [.mul (.buf 21) (.mul (.buf 31) (.buf 7))],  -- 377-380
  .eccMulAdd 12,  -- 381
  .set [14, 15] [.tr 4, .tr 5],  -- 385
  .set [16] [.mul (.buf 21) (.buf 31)],  -- 386
  .eccMulAdd 12,  -- 387
  .set [14, 15] [.tr 6, .tr 7],  -- 391
  .set [16] [.mul (.buf 21) (.mul (.buf 29) (.buf 7))],  -- 392-395
  .eccMulAdd 12,  -- 396
  .set [25] [.mul (.buf 8) (.buf 25)],  -- 400
  .set [31] [.mul (.buf 23) (.buf 7)],  -- 401
  .set [14, 15] [.tr 8, .tr 9],  -- 402
  .set [16] [.mul (.buf 25) (.buf 31)],  -- 403
  .eccMulAdd 12,  -- 404
  .set [14, 15] [.tr 10, .tr 11],  -- 408
  .set [16] [.mul (.buf 21) (.buf 29)],  -- 409
  .eccMulAdd 12,  -- 410
  .set [14, 15] [.tr 12, .tr 13],  -- 414
  .set [16] [.mul (.buf 20) (.buf 7)],  -- 415
  .eccMulAdd 12,  -- 416
  .set [14, 15] [.tr 14, .tr 15],  -- 420
  .set [16] [.buf 20],  -- 421
  .eccMulAdd 12,  -- 422
  .set [20] [.mul (.buf 27) (.buf 23)],  -- 426
  .set [14, 15] [.str 7302810833326292183657845455542786945088085612690237136517265240120492143686, .str 12265020872042776853325862543934338413628778238311540007481750568301839403357],  -- 427
  .set [16] [.mul (.buf 21) (.mul (.buf 20) (.buf 7))],  -- 428-431
  .eccMulAdd 12,  -- 432
  .set [14, 15] [.str 15714457855017303792793529634633875645702708944223275612000098593544931343989, .str 15257349176403661815620892222123615612513039066905856829097618251943836626674],  -- 436
  .set [16] [.mul (.buf 21) (.buf 20)],  -- 437
  .eccMulAdd 12,  -- 438
  .set [20] [.mul (.buf 26) (.buf 24)],  -- 442
  .set [14, 15] [.str 15488644080723619432119612346004359086916581306660788742559926675716559909239, .str 8754616038193501373921013994731307318251353370144049595366428636287857472101],  -- 443
  .set [16] [.mul (.buf 21) (.buf 20)],  -- 444
  .eccMulAdd 12,  -- 445
  .set [29] [.mul (.buf 26) (.buf 23)],  -- 449
  .set [14, 15] [.str 9621060932553241457331309181312468446375012848693562416915297961501104714797, .str 18774224011527979955178720803820949077824414817387957068075380161701868796982],  -- 450
  .set [16] [.mul (.buf 21) (.mul (.buf 29) (.buf 7))],  -- 451-454
  .eccMulAdd 12,  -- 455
  .set [14, 15] [.str 7332275780326935691999111227339181700750973508937555651107089016408829877447, .str 10101962784746658718602667114782992736503033294933308373536577801383886245995],  -- 459
  .set [16] [.mul (.buf 21) (.buf 29)],  -- 460
  .eccMulAdd 12,  -- 461
  .set [14, 15] [.str 6588502116763777047662055789514359601800459134197048587585162560883404012798, .str 11714447983073049655392713639630119352182916653299642193786804830268642535746],  -- 465
  .set [16] [.mul (.buf 21) (.mul (.buf 27) (.buf 7))],  -- 466-469
  .eccMulAdd 12,  -- 470
  .set [14, 15] [.str 9125246457194062079192598275178850075343678690105278369118112655547944406336, .str 294075161521838319967190643963225379772318561607769296285010787743709643736],  -- 474
  .set [16] [.mul (.buf 21) (.buf 27)],  -- 475
  .eccMulAdd 12,  -- 476
  .set [29] [.mul (.buf 20) (.buf 23)],  -- 480
  .set [14, 15] [.str 21619461572256759847460179508152708219554585855297084173283796582786124555803, .str 4345524860916738024637605707697977254152854672257192099656709386158566955621],  -- 481
  .set [16] [.mul (.buf 21) (.mul (.buf 29) (.buf 7))],  -- 482-485
  .eccMulAdd 12,  -- 486
  .set [14, 15] [.str 17258678549324502889708499924818360135272319280666991023610380123832805047961, .str 5334989116053542497869652553010890811115308152577125353854023583257775982812],  -- 490
  .set [16] [.mul (.buf 21) (.buf 29)],  -- 491
  .eccMulAdd 12,  -- 492
  .set [14, 15] [.str 5308159394739710035241344480420553410175387652800783904684585252715061491340, .str 3019131547261358901530790449779825851153791728474681515444029058543922522335],  -- 496
  .set [16] [.mul (.buf 21) (.mul (.buf 20) (.buf 7))],  -- 497-500
  .eccMulAdd 12,  -- 501
  .set [20] [.mul (.buf 27) (.buf 24)],  -- 505
  .set [14, 15] [.str 1602442613231540506062434465510844080484629772386483161935289973450738328411, .str 8632200768118172237953570969696965645934378330803102067059028669153881824687],  -- 506
  .set [16] [.mul (.buf 21) (.buf 20)],  -- 507
  .eccMulAdd 12,  -- 508
  .set [14, 15] [.str 14938380413158645463746726818663993049411440720262319458512240364576743949172, .str 612698444000497655149316219443956538920213548045757527589465098726453410217],  -- 512
  .set [16] [.mul (.buf 21) (.mul (.buf 20) (.buf 7))],  -- 513-516
  .eccMulAdd 12,  -- 517
  .set [14, 15] [.str 18180235640340843615912844522870848024440129915340282133294923228193557588624, .str 16150223963193906991297402627411591966306440109235686551266596870812093013098],  -- 521
  .set [16] [.mul (.buf 21) (.mul (.buf 26) (.buf 7))],  -- 522-525
  .eccMulAdd 12,  -- 526
  .set [14, 15] [.tr 100, .tr 101],  -- 530
  .set [16] [.neg (.mul (.mul (.buf 17) (.add (.buf 9) (.neg (.buf 6)))) (.buf 22))],  -- 531-542
  .eccMulAdd 12,  -- 543
  .set [14, 15] [.tr 102, .tr 103],  -- 547
  .set [16] [.buf 9],  -- 548
  .eccMulAdd 12,  -- 549
  .set [17] [.mul (.buf 21) (.buf 7)],  -- 553
  .set [14, 15] [.tr 42, .tr 43],  -- 554
  .set [16] [.mul (.buf 17) (.mul (.buf 35) (.buf 35))],  -- 555-558
  .eccMulAdd 12]  -- 559

/-- Body of `VerifyProof3`, /repo/AggregatorVerifierStep3.go:15-170. -/
def step3 : List Stmt := [
  .set [14, 15] [.tr 40, .tr 41],  -- 15
  .set [16] [.mul (.buf 17) (.buf 35)],  -- 16
  .eccMulAdd 12,  -- 17
  .set [14, 15] [.tr 38, .tr 39],  -- 21
  .set [16] [.buf 17],  -- 22
  .eccMulAdd 12,  -- 23
  .set [14, 15] [.buf 0, .buf 1],  -- 27
  .set [16] [.mul (.buf 21) (.mul (.buf 30) (.buf 7))],  -- 28-31
  .eccMulAdd 12,  -- 32
  .set [17] [.mul (.mul (.buf 19) (.buf 8)) (.buf 28)],  -- 36-39
  .set [14, 15] [.tr 16, .tr 17],  -- 40
  .set [16] [.mul (.buf 17) (.buf 7)],  -- 41
  .eccMulAdd 12,  -- 42
  .set [20] [.mul (.buf 20) (.buf 23)],  -- 46
  .set [14, 15] [.tr 18, .tr 19],  -- 47
  .set [16] [.mul (.buf 21) (.mul (.buf 20) (.buf 7))],  -- 48-51
  .eccMulAdd 12,  -- 52
  .set [14, 15] [.tr 32, .tr 33],  -- 56
  .set [16] [.mul (.buf 25) (.buf 7)],  -- 57
  .eccMulAdd 12,  -- 58
  .set [14, 15] [.tr 20, .tr 21],  -- 62
  .set [16] [.buf 17],  -- 63
  .eccMulAdd 12,  -- 64
  .set [14, 15] [.tr 22, .tr 23],  -- 68
  .set [16] [.mul (.buf 21) (.buf 20)],  -- 69
  .eccMulAdd 12,  -- 70
  .set [14, 15] [.tr 34, .tr 35],  -- 74
  .set [16] [.buf 25],  -- 75
  .eccMulAdd 12,  -- 76
  .set [14, 15] [.str 14330957265734295635487529150089503047509680887155412481838936779763595454159, .str 11657029790297552620042403612079612021781553164410884915460958808861335447799],  -- 82
  .set [16] [.mul (.buf 21) (.buf 26)],  -- 83
  .eccMulAdd 12,  -- 84
  .set [17] [.mul (.buf 24) (.buf 23)],  -- 88
  .set [14, 15] [.str 3217632689962165131030083420553195932069690674124201615821228288158667916559, .str 11279851209809827628209572028517900058696331891386803672043677236706605258017],  -- 91
  .set [16] [.mul (.buf 21) (.mul (.buf 17) (.buf 7))],  -- 92-95
  .eccMulAdd 12,  -- 96
  .set [14, 15] [.str 6052548824579324632823008857297151984962554125394528409163563861993455062230, .str 5253299219790956244634070239415866732913146545893144333850618503587190167918],  -- 102
  .set [16] [.mul (.buf 21) (.buf 17)],  -- 103
  .eccMulAdd 12,  -- 104
  .set [14, 15] [.str 20134811260136067172423268982757475565512657205230154765724273546621797752349, .str 6892971650116630821526804754060441250258363920342589425839414580605638919318],  -- 110
  .set [16] [.mul (.buf 21) (.mul (.buf 24) (.buf 7))],  -- 111-114
  .eccMulAdd 12,  -- 115
  .set [14, 15] [.str 17209526517725877136177243553045588666670528061781328851527842192340596792007, .str 673380535462416015709313880421335139519451950072360935904307055208109203957],  -- 121
  .set [16] [.mul (.buf 21) (.buf 24)],  -- 122
  .eccMulAdd 12,  -- 123
  .set [14, 15] [.str 9973741392326192617521393709476164203221054644042980686853312098867551316157, .str 9696890272060053851986158851707718469926088811173404342570425124396426957984],  -- 129
  .set [16] [.mul (.buf 21) (.buf 31)],  -- 130
  .eccMulAdd 12,  -- 131
  .set [14, 15] [.str 14118917696035322873139367456503207319385222068825598680486765986706935215403, .str 18580702656451937158771044279900207779359395181895031379070145857747412641911],  -- 137
  .set [16] [.mul (.buf 21) (.buf 23)],  -- 138
  .eccMulAdd 12,  -- 139
  .set [17] [.mul (.buf 19) (.buf 19)],  -- 143
  .set [14, 15] [.tr 24, .tr 25],  -- 144
  .set [16] [.mul (.buf 17) (.buf 23)],  -- 145
  .eccMulAdd 12,  -- 146
  .set [14, 15] [.tr 26, .tr 27],  -- 150
  .set [16] [.mul (.buf 17) (.buf 7)],  -- 151
  .eccMulAdd 12,  -- 152
  .set [14, 15] [.tr 28, .tr 29],  -- 156
  .set [16] [.buf 17],  -- 157
  .eccMulAdd 12,  -- 158
  .set [14, 15] [.tr 30, .tr 31],  -- 162
  .set [16] [.mul (.buf 25) (.buf 23)],  -- 163
  .eccMulAdd 12,  -- 164
  .set [14, 15] [.tr 36, .tr 37],  -- 168
  .set [16] [.buf 21],  -- 169
  .eccMulAdd 12]  -- 170

end Verif
