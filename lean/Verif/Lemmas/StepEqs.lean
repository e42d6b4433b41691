/-
Single-assignment form of the concatenated bodies of VerifyProof1, 2, 3, and one equation per assignment.
GENERATED by tools/gen_stepeqs.py; `ssa_eq` checks the form against Verif/Model/StepProgs in the kernel.
-/
import Verif.Lemmas.Steps
import Verif.Model.Define

namespace Verif

/-- The three bodies in sequence. -/
def prog : List Stmt := step1 ++ step2 ++ step3

def kωn6 : ℕ := 21710372849001950800533397158415938114909991150039389063546734567764856596059
def kω1 : ℕ := 8374374965308410102411073611984011876711565317741801500439755773472076597347
def kωn1 : ℕ := 9741553891420464328295280489650144566903017206473301385034033384879943874347
def kω2 : ℕ := 11211301017135681023579411905410872569206244553457844956874280139879520583390
def krm2 : ℕ := 21888242871839275222246405745257275088548364400416034343698204186575808495615
def krm3 : ℕ := 21888242871839275222246405745257275088548364400416034343698204186575808495614
def kc0 : ℕ := 68719476736
def kc1 : ℕ := 18014398509481984
def krm1 : ℕ := 21888242871839275222246405745257275088548364400416034343698204186575808495616
def kc2 : ℕ := 4722366482869645213696
def kc3 : ℕ := 1237940039285380274899124224
def kl0 : ℕ := 21888240262557392955334514970720457388010314637169927192662615958087340972065
def kl6 : ℕ := 4976187549286291281196346419790865785215437125361463174887299780224677482739
def kδ : ℕ := 4131629893567559867359510883348571134090853742863529169391034518566172092834
def kl5 : ℕ := 17545179510056424625657753961500172777187948487824275719647175633757629801999
def kωn5 : ℕ := 1887003188133998471169152042388914354640772748308168868301418279904560637395
def kl4 : ℕ := 12181902470161097505840471953356915228510866946798053228669051859673065660797
def kωn4 : ℕ := 2785514556381676080176937710880804108647911392478702105860685610379369825016
def kl3 : ℕ := 3094683119308499972127188652296432785995218440930254516456812473854441617488
def kωn3 : ℕ := 14655294445420895451632927078981340937842238432098198055057679026789553137428
def kl2 : ℕ := 17403859010271654340651602860211012227656903909453797585120745724534928821531
def kωn2 : ℕ := 8734126352828345679573237859165904705806588461301144420590422589042130041188
def kl1 : ℕ := 7444483286096152693477325065105185543054922671492455540957072536952082259082
def kpm2 : ℕ := 21888242871839275222246405745257275088696311157297823662689037894645226208581
def kc4 : ℕ := 7302810833326292183657845455542786945088085612690237136517265240120492143686
def kc5 : ℕ := 12265020872042776853325862543934338413628778238311540007481750568301839403357
def kc6 : ℕ := 15714457855017303792793529634633875645702708944223275612000098593544931343989
def kc7 : ℕ := 15257349176403661815620892222123615612513039066905856829097618251943836626674
def kc8 : ℕ := 15488644080723619432119612346004359086916581306660788742559926675716559909239
def kc9 : ℕ := 8754616038193501373921013994731307318251353370144049595366428636287857472101
def kc10 : ℕ := 9621060932553241457331309181312468446375012848693562416915297961501104714797
def kc11 : ℕ := 18774224011527979955178720803820949077824414817387957068075380161701868796982
def kc12 : ℕ := 7332275780326935691999111227339181700750973508937555651107089016408829877447
def kc13 : ℕ := 10101962784746658718602667114782992736503033294933308373536577801383886245995
def kc14 : ℕ := 6588502116763777047662055789514359601800459134197048587585162560883404012798
def kc15 : ℕ := 11714447983073049655392713639630119352182916653299642193786804830268642535746
def kc16 : ℕ := 9125246457194062079192598275178850075343678690105278369118112655547944406336
def kc17 : ℕ := 294075161521838319967190643963225379772318561607769296285010787743709643736
def kc18 : ℕ := 21619461572256759847460179508152708219554585855297084173283796582786124555803
def kc19 : ℕ := 4345524860916738024637605707697977254152854672257192099656709386158566955621
def kc20 : ℕ := 17258678549324502889708499924818360135272319280666991023610380123832805047961
def kc21 : ℕ := 5334989116053542497869652553010890811115308152577125353854023583257775982812
def kc22 : ℕ := 5308159394739710035241344480420553410175387652800783904684585252715061491340
def kc23 : ℕ := 3019131547261358901530790449779825851153791728474681515444029058543922522335
def kc24 : ℕ := 1602442613231540506062434465510844080484629772386483161935289973450738328411
def kc25 : ℕ := 8632200768118172237953570969696965645934378330803102067059028669153881824687
def kc26 : ℕ := 14938380413158645463746726818663993049411440720262319458512240364576743949172
def kc27 : ℕ := 612698444000497655149316219443956538920213548045757527589465098726453410217
def kc28 : ℕ := 18180235640340843615912844522870848024440129915340282133294923228193557588624
def kc29 : ℕ := 16150223963193906991297402627411591966306440109235686551266596870812093013098
def kc30 : ℕ := 14330957265734295635487529150089503047509680887155412481838936779763595454159
def kc31 : ℕ := 11657029790297552620042403612079612021781553164410884915460958808861335447799
def kc32 : ℕ := 3217632689962165131030083420553195932069690674124201615821228288158667916559
def kc33 : ℕ := 11279851209809827628209572028517900058696331891386803672043677236706605258017
def kc34 : ℕ := 6052548824579324632823008857297151984962554125394528409163563861993455062230
def kc35 : ℕ := 5253299219790956244634070239415866732913146545893144333850618503587190167918
def kc36 : ℕ := 20134811260136067172423268982757475565512657205230154765724273546621797752349
def kc37 : ℕ := 6892971650116630821526804754060441250258363920342589425839414580605638919318
def kc38 : ℕ := 17209526517725877136177243553045588666670528061781328851527842192340596792007
def kc39 : ℕ := 673380535462416015709313880421335139519451950072360935904307055208109203957
def kc40 : ℕ := 9973741392326192617521393709476164203221054644042980686853312098867551316157
def kc41 : ℕ := 9696890272060053851986158851707718469926088811173404342570425124396426957984
def kc42 : ℕ := 14118917696035322873139367456503207319385222068825598680486765986706935215403
def kc43 : ℕ := 18580702656451937158771044279900207779359395181895031379070145857747412641911

def ssaLit : List SStmt := [
  .set [10, 11] [.tr 102, .tr 103],  -- 0
  .set [12] [.str 1],  -- 1
  .eccMul 10 1 1 2,  -- 2
  .set [17] [.mul (.str kωn6) (.buf (0, 6))],  -- 3
  .set [18] [.div (.str 1) (.add (.buf (4, 17)) (.neg (.buf (0, 6)))) (.aux 0)],  -- 4
  .set [19] [.mul (.str kω1) (.buf (0, 6))],  -- 5
  .set [20] [.div (.str 1) (.add (.buf (4, 17)) (.neg (.buf (6, 19)))) (.aux 1)],  -- 6
  .set [21] [.mul (.buf (5, 18)) (.buf (7, 20))],  -- 7
  .set [22] [.div (.str 1) (.add (.buf (0, 6)) (.neg (.buf (4, 17)))) (.aux 2)],  -- 8
  .set [23] [.div (.str 1) (.add (.buf (0, 6)) (.neg (.buf (6, 19)))) (.aux 3)],  -- 9
  .set [24] [.mul (.buf (9, 22)) (.buf (10, 23))],  -- 10
  .set [25] [.div (.str 1) (.add (.buf (6, 19)) (.neg (.buf (4, 17)))) (.aux 4)],  -- 11
  .set [26] [.div (.str 1) (.add (.buf (6, 19)) (.neg (.buf (0, 6)))) (.aux 5)],  -- 12
  .set [27] [.mul (.buf (12, 25)) (.buf (13, 26))],  -- 13
  .set [28] [.neg (.mul (.buf (5, 18)) (.buf (0, 6)))],  -- 14
  .set [29] [.mul (.buf (7, 20)) (.buf (6, 19))],  -- 15
  .set [18] [.add (.mul (.buf (15, 28)) (.buf (7, 20))) (.neg (.mul (.buf (5, 18)) (.buf (16, 29))))],  -- 16
  .set [20] [.neg (.mul (.buf (9, 22)) (.buf (4, 17)))],  -- 17
  .set [30] [.mul (.buf (10, 23)) (.buf (6, 19))],  -- 18
  .set [22] [.add (.mul (.buf (18, 20)) (.buf (10, 23))) (.neg (.mul (.buf (9, 22)) (.buf (19, 30))))],  -- 19
  .set [31] [.neg (.mul (.buf (12, 25)) (.buf (4, 17)))],  -- 20
  .set [32] [.mul (.buf (13, 26)) (.buf (0, 6))],  -- 21
  .set [25] [.add (.mul (.buf (21, 31)) (.buf (13, 26))) (.neg (.mul (.buf (12, 25)) (.buf (22, 32))))],  -- 22
  .set [33] [.add (.mul (.add (.add (.mul (.buf (8, 21)) (.tr 81)) (.mul (.buf (11, 24)) (.tr 79))) (.mul (.buf (14, 27)) (.tr 80))) (.buf (0, 9))) (.add (.add (.mul (.buf (17, 18)) (.tr 81)) (.mul (.buf (20, 22)) (.tr 79))) (.mul (.buf (23, 25)) (.tr 80)))],  -- 23
  .set [28] [.neg (.mul (.buf (15, 28)) (.buf (16, 29)))],  -- 24
  .set [20] [.neg (.mul (.buf (18, 20)) (.buf (19, 30)))],  -- 25
  .set [29] [.neg (.mul (.buf (21, 31)) (.buf (22, 32)))],  -- 26
  .set [31] [.mul (.buf (0, 7)) (.add (.mul (.buf (24, 33)) (.buf (0, 9))) (.add (.add (.mul (.buf (25, 28)) (.tr 81)) (.mul (.buf (26, 20)) (.tr 79))) (.mul (.buf (27, 29)) (.tr 80))))],  -- 27
  .set [33] [.add (.mul (.add (.add (.mul (.buf (8, 21)) (.tr 84)) (.mul (.buf (11, 24)) (.tr 82))) (.mul (.buf (14, 27)) (.tr 83))) (.buf (0, 9))) (.add (.add (.mul (.buf (17, 18)) (.tr 84)) (.mul (.buf (20, 22)) (.tr 82))) (.mul (.buf (23, 25)) (.tr 83)))],  -- 28
  .set [31] [.add (.buf (28, 31)) (.add (.mul (.buf (29, 33)) (.buf (0, 9))) (.add (.add (.mul (.buf (25, 28)) (.tr 84)) (.mul (.buf (26, 20)) (.tr 82))) (.mul (.buf (27, 29)) (.tr 83))))],  -- 29
  .set [18] [.add (.mul (.add (.add (.mul (.buf (8, 21)) (.tr 87)) (.mul (.buf (11, 24)) (.tr 85))) (.mul (.buf (14, 27)) (.tr 86))) (.buf (0, 9))) (.add (.add (.mul (.buf (17, 18)) (.tr 87)) (.mul (.buf (20, 22)) (.tr 85))) (.mul (.buf (23, 25)) (.tr 86)))],  -- 30
  .set [18] [.add (.mul (.buf (0, 7)) (.buf (30, 31))) (.add (.mul (.buf (31, 18)) (.buf (0, 9))) (.add (.add (.mul (.buf (25, 28)) (.tr 87)) (.mul (.buf (26, 20)) (.tr 85))) (.mul (.buf (27, 29)) (.tr 86))))],  -- 31
  .set [20] [.mul (.str kωn1) (.buf (0, 6))],  -- 32
  .set [21] [.div (.str 1) (.add (.buf (33, 20)) (.neg (.buf (0, 6)))) (.aux 6)],  -- 33
  .set [22] [.div (.str 1) (.add (.buf (0, 6)) (.neg (.buf (33, 20)))) (.aux 7)],  -- 34
  .set [24] [.neg (.mul (.buf (34, 21)) (.buf (0, 6)))],  -- 35
  .set [25] [.neg (.mul (.buf (35, 22)) (.buf (33, 20)))],  -- 36
  .set [27] [.mul (.buf (0, 7)) (.add (.mul (.add (.mul (.buf (34, 21)) (.tr 93)) (.mul (.buf (35, 22)) (.tr 92))) (.buf (0, 9))) (.add (.mul (.buf (36, 24)) (.tr 93)) (.mul (.buf (37, 25)) (.tr 92))))],  -- 37
  .set [21] [.add (.buf (38, 27)) (.add (.mul (.add (.mul (.buf (34, 21)) (.tr 98)) (.mul (.buf (35, 22)) (.tr 97))) (.buf (0, 9))) (.add (.mul (.buf (36, 24)) (.tr 98)) (.mul (.buf (37, 25)) (.tr 97))))],  -- 38
  .set [17] [.add (.buf (0, 9)) (.neg (.buf (4, 17)))],  -- 39
  .set [22] [.add (.buf (0, 9)) (.neg (.buf (6, 19)))],  -- 40
  .set [24] [.mul (.str kω2) (.buf (0, 6))],  -- 41
  .set [25] [.add (.buf (0, 9)) (.neg (.buf (42, 24)))],  -- 42
  .set [20] [.add (.buf (0, 9)) (.neg (.buf (33, 20)))],  -- 43
  .set [27] [.div (.str 1) (.mul (.buf (44, 20)) (.buf (43, 25))) (.aux 8)],  -- 44
  .set [28] [.mul (.mul (.mul (.buf (40, 17)) (.buf (41, 22))) (.buf (43, 25))) (.buf (45, 27))],  -- 45
  .set [29] [.mul (.buf (0, 7)) (.add (.mul (.buf (0, 7)) (.add (.mul (.buf (0, 7)) (.tr 44)) (.tr 45))) (.tr 46))],  -- 46
  .set [29] [.add (.mul (.buf (0, 7)) (.add (.mul (.buf (0, 7)) (.add (.buf (47, 29)) (.tr 47))) (.tr 48))) (.tr 51)],  -- 47
  .set [29] [.mul (.buf (0, 7)) (.add (.mul (.buf (0, 7)) (.add (.mul (.buf (0, 7)) (.buf (48, 29))) (.tr 94))) (.tr 99))],  -- 48
  .set [29] [.add (.mul (.buf (0, 7)) (.add (.mul (.buf (0, 7)) (.add (.buf (49, 29)) (.tr 58))) (.tr 59))) (.tr 60)],  -- 49
  .set [29] [.mul (.buf (0, 7)) (.add (.mul (.buf (0, 7)) (.add (.mul (.buf (0, 7)) (.buf (50, 29))) (.tr 61))) (.tr 62))],  -- 50
  .set [29] [.add (.mul (.buf (0, 7)) (.add (.mul (.buf (0, 7)) (.add (.buf (51, 29)) (.tr 63))) (.tr 64))) (.tr 65)],  -- 51
  .set [29] [.mul (.buf (0, 7)) (.add (.mul (.buf (0, 7)) (.add (.mul (.buf (0, 7)) (.buf (52, 29))) (.tr 66))) (.tr 67))],  -- 52
  .set [29] [.add (.mul (.buf (0, 7)) (.add (.mul (.buf (0, 7)) (.add (.buf (53, 29)) (.tr 68))) (.tr 69))) (.tr 70)],  -- 53
  .set [29] [.mul (.buf (0, 7)) (.add (.mul (.buf (0, 7)) (.add (.mul (.buf (0, 7)) (.buf (54, 29))) (.tr 72))) (.tr 73))],  -- 54
  .set [29] [.add (.mul (.buf (0, 7)) (.add (.mul (.buf (0, 7)) (.add (.buf (55, 29)) (.tr 74))) (.tr 75))) (.tr 76)],  -- 55
  .set [29] [.mul (.buf (0, 7)) (.add (.mul (.buf (0, 7)) (.add (.mul (.buf (0, 7)) (.buf (56, 29))) (.tr 77))) (.tr 78))],  -- 56
  .set [31] [.add (.add (.add (.add (.tr 58) (.mul (.tr 50) (.tr 59))) (.mul (.tr 45) (.tr 60))) (.mul (.tr 46) (.tr 61))) (.mul (.tr 47) (.tr 62))],  -- 57
  .set [31] [.add (.add (.add (.add (.buf (58, 31)) (.mul (.tr 48) (.tr 63))) (.mul (.tr 49) (.tr 64))) (.mul (.mul (.tr 45) (.tr 46)) (.tr 65))) (.mul (.mul (.tr 47) (.tr 48)) (.tr 66))],  -- 58
  .set [33] [.add (.tr 70) (.str krm2)],  -- 59
  .set [34] [.add (.tr 70) (.str krm3)],  -- 60
  .set [35] [.mul (.mul (.mul (.add (.tr 51) (.neg (.tr 52))) (.tr 70)) (.buf (60, 33))) (.buf (61, 34))],  -- 61
  .set [36] [.add (.add (.tr 51) (.neg (.tr 53))) (.neg (.mul (.tr 54) (.str 262144)))],  -- 62
  .set [37] [.mul (.add (.add (.buf (63, 36)) (.neg (.mul (.tr 52) (.str kc0)))) (.neg (.mul (.tr 55) (.str kc1)))) (.tr 70)],  -- 63
  .set [38] [.add (.tr 70) (.str krm1)],  -- 64
  .set [31] [.mul (.add (.mul (.add (.mul (.buf (59, 31)) (.buf (0, 5))) (.buf (62, 35))) (.buf (0, 5))) (.mul (.mul (.buf (64, 37)) (.buf (65, 38))) (.buf (61, 34)))) (.buf (0, 5))],  -- 65
  .set [34] [.add (.add (.add (.buf (63, 36)) (.neg (.mul (.tr 56) (.str kc0)))) (.neg (.mul (.tr 52) (.str kc1)))) (.neg (.mul (.tr 55) (.str kc2)))],  -- 66
  .set [34] [.mul (.mul (.add (.buf (67, 34)) (.neg (.mul (.tr 57) (.str kc3)))) (.tr 70)) (.buf (65, 38))],  -- 67
  .set [35] [.pow (.buf (0, 6)) 8388608],  -- 68
  .set [36] [.add (.buf (69, 35)) (.neg (.str 1))],  -- 69
  .set [37] [.div (.mul (.str kl0) (.buf (70, 36))) (.add (.buf (0, 6)) (.neg (.str 1))) (.aux 9)],  -- 70
  .set [31] [.mul (.add (.mul (.add (.buf (66, 31)) (.mul (.buf (68, 34)) (.buf (60, 33)))) (.buf (0, 5))) (.mul (.buf (71, 37)) (.add (.str 1) (.neg (.tr 79))))) (.buf (0, 5))],  -- 71
  .set [33] [.div (.mul (.str kl6) (.buf (70, 36))) (.add (.buf (0, 6)) (.neg (.str kωn6))) (.aux 10)],  -- 72
  .set [31] [.mul (.add (.buf (72, 31)) (.mul (.buf (73, 33)) (.add (.mul (.tr 88) (.tr 88)) (.neg (.tr 88))))) (.buf (0, 5))],  -- 73
  .set [31] [.add (.mul (.add (.buf (74, 31)) (.mul (.add (.tr 82) (.neg (.tr 81))) (.buf (71, 37)))) (.buf (0, 5))) (.mul (.add (.tr 85) (.neg (.tr 84))) (.buf (71, 37)))],  -- 74
  .set [34] [.add (.tr 46) (.buf (0, 4))],  -- 75
  .set [38] [.add (.tr 45) (.buf (0, 4))],  -- 76
  .set [39] [.mul (.buf (0, 3)) (.buf (0, 6))],  -- 77
  .set [34] [.add (.mul (.add (.buf (76, 34)) (.mul (.buf (0, 3)) (.tr 73))) (.mul (.add (.buf (77, 38)) (.mul (.buf (0, 3)) (.tr 72))) (.tr 80))) (.neg (.mul (.add (.buf (76, 34)) (.mul (.str kδ) (.buf (78, 39)))) (.mul (.add (.buf (77, 38)) (.buf (78, 39))) (.tr 79))))],  -- 78
  .set [38] [.add (.add (.add (.div (.mul (.str kl5) (.buf (70, 36))) (.add (.buf (0, 6)) (.neg (.str kωn5))) (.aux 11)) (.div (.mul (.str kl4) (.buf (70, 36))) (.add (.buf (0, 6)) (.neg (.str kωn4))) (.aux 12))) (.div (.mul (.str kl3) (.buf (70, 36))) (.add (.buf (0, 6)) (.neg (.str kωn3))) (.aux 13))) (.div (.mul (.str kl2) (.buf (70, 36))) (.add (.buf (0, 6)) (.neg (.str kωn2))) (.aux 14))],  -- 79
  .set [38] [.add (.str 1) (.neg (.add (.buf (73, 33)) (.add (.buf (80, 38)) (.div (.mul (.str kl1) (.buf (70, 36))) (.add (.buf (0, 6)) (.neg (.str kωn1))) (.aux 15)))))],  -- 80
  .set [31] [.add (.mul (.add (.mul (.buf (75, 31)) (.buf (0, 5))) (.mul (.add (.tr 88) (.neg (.tr 87))) (.buf (71, 37)))) (.buf (0, 5))) (.mul (.buf (79, 34)) (.buf (81, 38)))],  -- 81
  .set [34] [.add (.tr 48) (.buf (0, 4))],  -- 82
  .set [40] [.add (.tr 47) (.buf (0, 4))],  -- 83
  .set [41] [.pow (.str kδ) 2],  -- 84
  .set [41] [.mul (.buf (78, 39)) (.buf (85, 41))],  -- 85
  .set [34] [.add (.mul (.add (.buf (83, 34)) (.mul (.buf (0, 3)) (.tr 75))) (.mul (.add (.buf (84, 40)) (.mul (.buf (0, 3)) (.tr 74))) (.tr 83))) (.neg (.mul (.add (.buf (83, 34)) (.mul (.str kδ) (.buf (86, 41)))) (.mul (.add (.buf (84, 40)) (.buf (86, 41))) (.tr 82))))],  -- 86
  .set [40] [.add (.tr 51) (.buf (0, 4))],  -- 87
  .set [41] [.add (.tr 49) (.buf (0, 4))],  -- 88
  .set [42] [.pow (.str kδ) 4],  -- 89
  .set [42] [.mul (.buf (78, 39)) (.buf (90, 42))],  -- 90
  .set [40] [.add (.mul (.add (.buf (88, 40)) (.mul (.buf (0, 3)) (.tr 77))) (.mul (.add (.buf (89, 41)) (.mul (.buf (0, 3)) (.tr 76))) (.tr 86))) (.neg (.mul (.add (.buf (88, 40)) (.mul (.str kδ) (.buf (91, 42)))) (.mul (.add (.buf (89, 41)) (.buf (91, 42))) (.tr 85))))],  -- 91
  .set [31] [.mul (.add (.mul (.add (.mul (.buf (82, 31)) (.buf (0, 5))) (.mul (.buf (87, 34)) (.buf (81, 38)))) (.buf (0, 5))) (.mul (.buf (92, 40)) (.buf (81, 38)))) (.buf (0, 5))],  -- 92
  .set [34] [.add (.tr 44) (.buf (0, 4))],  -- 93
  .set [40] [.pow (.str kδ) 6],  -- 94
  .set [34] [.mul (.add (.mul (.add (.buf (94, 34)) (.mul (.buf (0, 3)) (.tr 78))) (.tr 89)) (.neg (.mul (.add (.buf (94, 34)) (.mul (.buf (78, 39)) (.buf (95, 40)))) (.tr 88)))) (.buf (81, 38))],  -- 95
  .set [31] [.add (.mul (.add (.mul (.add (.buf (93, 31)) (.buf (96, 34))) (.buf (0, 5))) (.mul (.buf (71, 37)) (.add (.str 1) (.neg (.tr 90))))) (.buf (0, 5))) (.mul (.buf (73, 33)) (.add (.mul (.tr 90) (.tr 90)) (.neg (.tr 90))))],  -- 96
  .set [34] [.add (.add (.mul (.tr 68) (.buf (0, 2))) (.tr 69)) (.buf (0, 4))],  -- 97
  .set [39] [.mul (.mul (.tr 90) (.add (.add (.mul (.tr 67) (.buf (0, 2))) (.tr 52)) (.buf (0, 3)))) (.buf (98, 34))],  -- 98
  .set [39] [.mul (.add (.mul (.mul (.tr 91) (.add (.tr 92) (.buf (0, 3)))) (.add (.tr 94) (.buf (0, 4)))) (.neg (.buf (99, 39)))) (.buf (81, 38))],  -- 99
  .set [40] [.add (.tr 92) (.neg (.tr 94))],  -- 100
  .set [31] [.mul (.add (.mul (.add (.mul (.buf (97, 31)) (.buf (0, 5))) (.buf (100, 39))) (.buf (0, 5))) (.mul (.buf (71, 37)) (.buf (101, 40)))) (.buf (0, 5))],  -- 101
  .set [31] [.mul (.add (.buf (102, 31)) (.mul (.mul (.buf (101, 40)) (.add (.tr 92) (.neg (.tr 93)))) (.buf (81, 38)))) (.buf (0, 5))],  -- 102
  .set [31] [.add (.mul (.add (.buf (103, 31)) (.mul (.buf (71, 37)) (.add (.int 1) (.neg (.tr 95))))) (.buf (0, 5))) (.mul (.buf (73, 33)) (.add (.mul (.tr 95) (.tr 95)) (.neg (.tr 95))))],  -- 103
  .set [33] [.mul (.mul (.tr 95) (.add (.add (.mul (.int 18) (.buf (0, 2))) (.tr 53)) (.buf (0, 3)))) (.buf (98, 34))],  -- 104
  .set [33] [.mul (.add (.mul (.mul (.tr 96) (.add (.tr 97) (.buf (0, 3)))) (.add (.tr 99) (.buf (0, 4)))) (.neg (.buf (105, 33)))) (.buf (81, 38))],  -- 105
  .set [34] [.add (.tr 97) (.neg (.tr 99))],  -- 106
  .set [31] [.mul (.add (.mul (.add (.mul (.buf (104, 31)) (.buf (0, 5))) (.buf (106, 33))) (.buf (0, 5))) (.mul (.buf (71, 37)) (.buf (107, 34)))) (.buf (0, 5))],  -- 107
  .set [31] [.div (.add (.buf (108, 31)) (.mul (.mul (.buf (107, 34)) (.add (.tr 97) (.neg (.tr 98)))) (.buf (81, 38)))) (.buf (70, 36)) (.aux 16)],  -- 108
  .set [20] [.mul (.buf (40, 17)) (.buf (44, 20))],  -- 109
  .set [33] [.mul (.mul (.mul (.buf (110, 20)) (.buf (41, 22))) (.buf (43, 25))) (.buf (45, 27))],  -- 110
  .set [18] [.add (.mul (.buf (0, 8)) (.add (.mul (.buf (0, 8)) (.buf (32, 18))) (.mul (.buf (39, 21)) (.buf (46, 28))))) (.mul (.add (.mul (.buf (0, 7)) (.add (.buf (57, 29)) (.buf (109, 31)))) (.tr 71)) (.buf (111, 33)))],  -- 111
  .set [21] [.neg (.buf (19, 30))],  -- 112
  .set [29] [.neg (.buf (22, 32))],  -- 113
  .set [30] [.mul (.buf (0, 7)) (.add (.mul (.add (.mul (.buf (10, 23)) (.tr 49)) (.mul (.buf (13, 26)) (.tr 50))) (.buf (0, 9))) (.add (.mul (.buf (113, 21)) (.tr 49)) (.mul (.buf (114, 29)) (.tr 50))))],  -- 114
  .set [30] [.add (.buf (115, 30)) (.add (.mul (.add (.mul (.buf (10, 23)) (.tr 88)) (.mul (.buf (13, 26)) (.tr 89))) (.buf (0, 9))) (.add (.mul (.buf (113, 21)) (.tr 88)) (.mul (.buf (114, 29)) (.tr 89))))],  -- 115
  .set [30] [.add (.mul (.buf (0, 7)) (.buf (116, 30))) (.add (.mul (.add (.mul (.buf (10, 23)) (.tr 90)) (.mul (.buf (13, 26)) (.tr 91))) (.buf (0, 9))) (.add (.mul (.buf (113, 21)) (.tr 90)) (.mul (.buf (114, 29)) (.tr 91))))],  -- 116
  .set [30] [.add (.mul (.buf (0, 7)) (.buf (117, 30))) (.add (.mul (.add (.mul (.buf (10, 23)) (.tr 95)) (.mul (.buf (13, 26)) (.tr 96))) (.buf (0, 9))) (.add (.mul (.buf (113, 21)) (.tr 95)) (.mul (.buf (114, 29)) (.tr 96))))],  -- 117
  .set [25] [.mul (.mul (.buf (110, 20)) (.buf (43, 25))) (.buf (45, 27))],  -- 118
  .set [31] [.div (.int 1) (.add (.buf (0, 6)) (.neg (.buf (42, 24)))) (.aux 17)],  -- 119
  .set [32] [.mul (.buf (10, 23)) (.buf (120, 31))],  -- 120
  .set [34] [.div (.int 1) (.add (.buf (6, 19)) (.neg (.buf (42, 24)))) (.aux 18)],  -- 121
  .set [36] [.mul (.buf (13, 26)) (.buf (122, 34))],  -- 122
  .set [37] [.div (.int 1) (.add (.buf (42, 24)) (.neg (.buf (0, 6)))) (.aux 19)],  -- 123
  .set [38] [.div (.int 1) (.add (.buf (42, 24)) (.neg (.buf (6, 19)))) (.aux 20)],  -- 124
  .set [39] [.mul (.buf (124, 37)) (.buf (125, 38))],  -- 125
  .set [40] [.mul (.buf (120, 31)) (.buf (42, 24))],  -- 126
  .set [23] [.add (.mul (.buf (113, 21)) (.buf (120, 31))) (.neg (.mul (.buf (10, 23)) (.buf (127, 40))))],  -- 127
  .set [24] [.mul (.buf (122, 34)) (.buf (42, 24))],  -- 128
  .set [26] [.add (.mul (.buf (114, 29)) (.buf (122, 34))) (.neg (.mul (.buf (13, 26)) (.buf (129, 24))))],  -- 129
  .set [31] [.neg (.mul (.buf (124, 37)) (.buf (0, 6)))],  -- 130
  .set [19] [.mul (.buf (125, 38)) (.buf (6, 19))],  -- 131
  .set [34] [.add (.mul (.buf (131, 31)) (.buf (125, 38))) (.neg (.mul (.buf (124, 37)) (.buf (132, 19))))],  -- 132
  .set [37] [.add (.mul (.add (.add (.mul (.buf (121, 32)) (.tr 52)) (.mul (.buf (123, 36)) (.tr 55))) (.mul (.buf (126, 39)) (.tr 57))) (.buf (0, 9))) (.add (.add (.mul (.buf (128, 23)) (.tr 52)) (.mul (.buf (130, 26)) (.tr 55))) (.mul (.buf (133, 34)) (.tr 57)))],  -- 133
  .set [21] [.neg (.mul (.buf (113, 21)) (.buf (127, 40)))],  -- 134
  .set [24] [.neg (.mul (.buf (114, 29)) (.buf (129, 24)))],  -- 135
  .set [19] [.neg (.mul (.buf (131, 31)) (.buf (132, 19)))],  -- 136
  .set [29] [.mul (.buf (0, 7)) (.add (.mul (.buf (134, 37)) (.buf (0, 9))) (.add (.add (.mul (.buf (135, 21)) (.tr 52)) (.mul (.buf (136, 24)) (.tr 55))) (.mul (.buf (137, 19)) (.tr 57))))],  -- 137
  .set [23] [.add (.mul (.add (.add (.mul (.buf (121, 32)) (.tr 53)) (.mul (.buf (123, 36)) (.tr 54))) (.mul (.buf (126, 39)) (.tr 56))) (.buf (0, 9))) (.add (.add (.mul (.buf (128, 23)) (.tr 53)) (.mul (.buf (130, 26)) (.tr 54))) (.mul (.buf (133, 34)) (.tr 56)))],  -- 138
  .set [19] [.add (.buf (138, 29)) (.add (.mul (.buf (139, 23)) (.buf (0, 9))) (.add (.add (.mul (.buf (135, 21)) (.tr 53)) (.mul (.buf (136, 24)) (.tr 54))) (.mul (.buf (137, 19)) (.tr 56))))],  -- 139
  .set [20] [.mul (.buf (110, 20)) (.buf (45, 27))],  -- 140
  .set [18] [.add (.mul (.buf (0, 8)) (.add (.mul (.buf (0, 8)) (.buf (112, 18))) (.mul (.buf (118, 30)) (.buf (119, 25))))) (.mul (.buf (140, 19)) (.buf (141, 20)))],  -- 141
  .set [12, 13] [.str 1, .str kpm2],  -- 142
  .set [14] [.buf (142, 18)],  -- 143
  .eccMul 12 143 143 144,  -- 144
  .set [19] [.mul (.buf (0, 8)) (.buf (0, 8))],  -- 145
  .set [21] [.mul (.buf (146, 19)) (.buf (111, 33))],  -- 146
  .set [23] [.mul (.buf (0, 7)) (.buf (0, 7))],  -- 147
  .set [24] [.mul (.buf (148, 23)) (.buf (148, 23))],  -- 148
  .set [26] [.mul (.buf (149, 24)) (.buf (149, 24))],  -- 149
  .set [27] [.mul (.buf (150, 26)) (.buf (150, 26))],  -- 150
  .set [29] [.mul (.buf (151, 27)) (.buf (150, 26))],  -- 151
  .set [30] [.mul (.buf (152, 29)) (.buf (149, 24))],  -- 152
  .set [14, 15] [.tr 0, .tr 1],  -- 153
  .set [16] [.mul (.buf (147, 21)) (.buf (153, 30))],  -- 154
  .eccMulAdd 12 145 145 154 154 155,  -- 155
  .set [31] [.mul (.buf (152, 29)) (.buf (148, 23))],  -- 156
  .set [14, 15] [.tr 2, .tr 3],  -- 157
  .set [16] [.mul (.buf (147, 21)) (.mul (.buf (157, 31)) (.buf (0, 7)))],  -- 158
  .eccMulAdd 12 156 156 158 158 159,  -- 159
  .set [14, 15] [.tr 4, .tr 5],  -- 160
  .set [16] [.mul (.buf (147, 21)) (.buf (157, 31))],  -- 161
  .eccMulAdd 12 160 160 161 161 162,  -- 162
  .set [14, 15] [.tr 6, .tr 7],  -- 163
  .set [16] [.mul (.buf (147, 21)) (.mul (.buf (152, 29)) (.buf (0, 7)))],  -- 164
  .eccMulAdd 12 163 163 164 164 165,  -- 165
  .set [25] [.mul (.buf (0, 8)) (.buf (119, 25))],  -- 166
  .set [31] [.mul (.buf (148, 23)) (.buf (0, 7))],  -- 167
  .set [14, 15] [.tr 8, .tr 9],  -- 168
  .set [16] [.mul (.buf (167, 25)) (.buf (168, 31))],  -- 169
  .eccMulAdd 12 166 166 169 169 170,  -- 170
  .set [14, 15] [.tr 10, .tr 11],  -- 171
  .set [16] [.mul (.buf (147, 21)) (.buf (152, 29))],  -- 172
  .eccMulAdd 12 171 171 172 172 173,  -- 173
  .set [14, 15] [.tr 12, .tr 13],  -- 174
  .set [16] [.mul (.buf (141, 20)) (.buf (0, 7))],  -- 175
  .eccMulAdd 12 174 174 175 175 176,  -- 176
  .set [14, 15] [.tr 14, .tr 15],  -- 177
  .set [16] [.buf (141, 20)],  -- 178
  .eccMulAdd 12 177 177 178 178 179,  -- 179
  .set [20] [.mul (.buf (151, 27)) (.buf (148, 23))],  -- 180
  .set [14, 15] [.str kc4, .str kc5],  -- 181
  .set [16] [.mul (.buf (147, 21)) (.mul (.buf (181, 20)) (.buf (0, 7)))],  -- 182
  .eccMulAdd 12 180 180 182 182 183,  -- 183
  .set [14, 15] [.str kc6, .str kc7],  -- 184
  .set [16] [.mul (.buf (147, 21)) (.buf (181, 20))],  -- 185
  .eccMulAdd 12 184 184 185 185 186,  -- 186
  .set [20] [.mul (.buf (150, 26)) (.buf (149, 24))],  -- 187
  .set [14, 15] [.str kc8, .str kc9],  -- 188
  .set [16] [.mul (.buf (147, 21)) (.buf (188, 20))],  -- 189
  .eccMulAdd 12 187 187 189 189 190,  -- 190
  .set [29] [.mul (.buf (150, 26)) (.buf (148, 23))],  -- 191
  .set [14, 15] [.str kc10, .str kc11],  -- 192
  .set [16] [.mul (.buf (147, 21)) (.mul (.buf (192, 29)) (.buf (0, 7)))],  -- 193
  .eccMulAdd 12 191 191 193 193 194,  -- 194
  .set [14, 15] [.str kc12, .str kc13],  -- 195
  .set [16] [.mul (.buf (147, 21)) (.buf (192, 29))],  -- 196
  .eccMulAdd 12 195 195 196 196 197,  -- 197
  .set [14, 15] [.str kc14, .str kc15],  -- 198
  .set [16] [.mul (.buf (147, 21)) (.mul (.buf (151, 27)) (.buf (0, 7)))],  -- 199
  .eccMulAdd 12 198 198 199 199 200,  -- 200
  .set [14, 15] [.str kc16, .str kc17],  -- 201
  .set [16] [.mul (.buf (147, 21)) (.buf (151, 27))],  -- 202
  .eccMulAdd 12 201 201 202 202 203,  -- 203
  .set [29] [.mul (.buf (188, 20)) (.buf (148, 23))],  -- 204
  .set [14, 15] [.str kc18, .str kc19],  -- 205
  .set [16] [.mul (.buf (147, 21)) (.mul (.buf (205, 29)) (.buf (0, 7)))],  -- 206
  .eccMulAdd 12 204 204 206 206 207,  -- 207
  .set [14, 15] [.str kc20, .str kc21],  -- 208
  .set [16] [.mul (.buf (147, 21)) (.buf (205, 29))],  -- 209
  .eccMulAdd 12 208 208 209 209 210,  -- 210
  .set [14, 15] [.str kc22, .str kc23],  -- 211
  .set [16] [.mul (.buf (147, 21)) (.mul (.buf (188, 20)) (.buf (0, 7)))],  -- 212
  .eccMulAdd 12 211 211 212 212 213,  -- 213
  .set [20] [.mul (.buf (151, 27)) (.buf (149, 24))],  -- 214
  .set [14, 15] [.str kc24, .str kc25],  -- 215
  .set [16] [.mul (.buf (147, 21)) (.buf (215, 20))],  -- 216
  .eccMulAdd 12 214 214 216 216 217,  -- 217
  .set [14, 15] [.str kc26, .str kc27],  -- 218
  .set [16] [.mul (.buf (147, 21)) (.mul (.buf (215, 20)) (.buf (0, 7)))],  -- 219
  .eccMulAdd 12 218 218 219 219 220,  -- 220
  .set [14, 15] [.str kc28, .str kc29],  -- 221
  .set [16] [.mul (.buf (147, 21)) (.mul (.buf (150, 26)) (.buf (0, 7)))],  -- 222
  .eccMulAdd 12 221 221 222 222 223,  -- 223
  .set [14, 15] [.tr 100, .tr 101],  -- 224
  .set [16] [.neg (.mul (.mul (.buf (40, 17)) (.add (.buf (0, 9)) (.neg (.buf (0, 6))))) (.buf (41, 22)))],  -- 225
  .eccMulAdd 12 224 224 225 225 226,  -- 226
  .set [14, 15] [.tr 102, .tr 103],  -- 227
  .set [16] [.buf (0, 9)],  -- 228
  .eccMulAdd 12 227 227 228 228 229,  -- 229
  .set [17] [.mul (.buf (147, 21)) (.buf (0, 7))],  -- 230
  .set [14, 15] [.tr 42, .tr 43],  -- 231
  .set [16] [.mul (.buf (231, 17)) (.mul (.buf (69, 35)) (.buf (69, 35)))],  -- 232
  .eccMulAdd 12 230 230 232 232 233,  -- 233
  .set [14, 15] [.tr 40, .tr 41],  -- 234
  .set [16] [.mul (.buf (231, 17)) (.buf (69, 35))],  -- 235
  .eccMulAdd 12 234 234 235 235 236,  -- 236
  .set [14, 15] [.tr 38, .tr 39],  -- 237
  .set [16] [.buf (231, 17)],  -- 238
  .eccMulAdd 12 237 237 238 238 239,  -- 239
  .set [14, 15] [.buf (0, 0), .buf (0, 1)],  -- 240
  .set [16] [.mul (.buf (147, 21)) (.mul (.buf (153, 30)) (.buf (0, 7)))],  -- 241
  .eccMulAdd 12 240 240 241 241 242,  -- 242
  .set [17] [.mul (.mul (.buf (146, 19)) (.buf (0, 8))) (.buf (46, 28))],  -- 243
  .set [14, 15] [.tr 16, .tr 17],  -- 244
  .set [16] [.mul (.buf (244, 17)) (.buf (0, 7))],  -- 245
  .eccMulAdd 12 243 243 245 245 246,  -- 246
  .set [20] [.mul (.buf (215, 20)) (.buf (148, 23))],  -- 247
  .set [14, 15] [.tr 18, .tr 19],  -- 248
  .set [16] [.mul (.buf (147, 21)) (.mul (.buf (248, 20)) (.buf (0, 7)))],  -- 249
  .eccMulAdd 12 247 247 249 249 250,  -- 250
  .set [14, 15] [.tr 32, .tr 33],  -- 251
  .set [16] [.mul (.buf (167, 25)) (.buf (0, 7))],  -- 252
  .eccMulAdd 12 251 251 252 252 253,  -- 253
  .set [14, 15] [.tr 20, .tr 21],  -- 254
  .set [16] [.buf (244, 17)],  -- 255
  .eccMulAdd 12 254 254 255 255 256,  -- 256
  .set [14, 15] [.tr 22, .tr 23],  -- 257
  .set [16] [.mul (.buf (147, 21)) (.buf (248, 20))],  -- 258
  .eccMulAdd 12 257 257 258 258 259,  -- 259
  .set [14, 15] [.tr 34, .tr 35],  -- 260
  .set [16] [.buf (167, 25)],  -- 261
  .eccMulAdd 12 260 260 261 261 262,  -- 262
  .set [14, 15] [.str kc30, .str kc31],  -- 263
  .set [16] [.mul (.buf (147, 21)) (.buf (150, 26))],  -- 264
  .eccMulAdd 12 263 263 264 264 265,  -- 265
  .set [17] [.mul (.buf (149, 24)) (.buf (148, 23))],  -- 266
  .set [14, 15] [.str kc32, .str kc33],  -- 267
  .set [16] [.mul (.buf (147, 21)) (.mul (.buf (267, 17)) (.buf (0, 7)))],  -- 268
  .eccMulAdd 12 266 266 268 268 269,  -- 269
  .set [14, 15] [.str kc34, .str kc35],  -- 270
  .set [16] [.mul (.buf (147, 21)) (.buf (267, 17))],  -- 271
  .eccMulAdd 12 270 270 271 271 272,  -- 272
  .set [14, 15] [.str kc36, .str kc37],  -- 273
  .set [16] [.mul (.buf (147, 21)) (.mul (.buf (149, 24)) (.buf (0, 7)))],  -- 274
  .eccMulAdd 12 273 273 274 274 275,  -- 275
  .set [14, 15] [.str kc38, .str kc39],  -- 276
  .set [16] [.mul (.buf (147, 21)) (.buf (149, 24))],  -- 277
  .eccMulAdd 12 276 276 277 277 278,  -- 278
  .set [14, 15] [.str kc40, .str kc41],  -- 279
  .set [16] [.mul (.buf (147, 21)) (.buf (168, 31))],  -- 280
  .eccMulAdd 12 279 279 280 280 281,  -- 281
  .set [14, 15] [.str kc42, .str kc43],  -- 282
  .set [16] [.mul (.buf (147, 21)) (.buf (148, 23))],  -- 283
  .eccMulAdd 12 282 282 283 283 284,  -- 284
  .set [17] [.mul (.buf (146, 19)) (.buf (146, 19))],  -- 285
  .set [14, 15] [.tr 24, .tr 25],  -- 286
  .set [16] [.mul (.buf (286, 17)) (.buf (148, 23))],  -- 287
  .eccMulAdd 12 285 285 287 287 288,  -- 288
  .set [14, 15] [.tr 26, .tr 27],  -- 289
  .set [16] [.mul (.buf (286, 17)) (.buf (0, 7))],  -- 290
  .eccMulAdd 12 289 289 290 290 291,  -- 291
  .set [14, 15] [.tr 28, .tr 29],  -- 292
  .set [16] [.buf (286, 17)],  -- 293
  .eccMulAdd 12 292 292 293 293 294,  -- 294
  .set [14, 15] [.tr 30, .tr 31],  -- 295
  .set [16] [.mul (.buf (167, 25)) (.buf (148, 23))],  -- 296
  .eccMulAdd 12 295 295 296 296 297,  -- 297
  .set [14, 15] [.tr 36, .tr 37],  -- 298
  .set [16] [.buf (147, 21)],  -- 299
  .eccMulAdd 12 298 298 299 299 300]  -- 300

/-- When each cell is last written. -/
def wLit : List ℕ := [0, 0, 0, 0, 0, 0, 0, 0, 0, 0, 3, 3, 301, 301, 301, 301, 300, 286, 142, 146, 248, 147, 41, 148, 149, 167, 150, 151, 46, 205, 153, 168, 121, 111, 133, 69, 123, 134, 125, 126, 127, 89, 91]

theorem ssa_eq : ssaFrom 0 (List.replicate 43 0) prog = (ssaLit, wLit) := by decide +kernel

theorem prog_wf : prog.all Stmt.wf = true := by decide +kernel

/-- Field-level content of an assignment. -/
def SetFr (b : ℕ → ℕ → Fr) (t a : ℕ → Fr) (k : ℕ) : List ℕ → List (Expr (ℕ × ℕ)) → Prop
  | i :: is, e :: es => b (k + 1) i = e.val (fun r => b r.1 r.2) t a ∧ e.cond (fun r => b r.1 r.2) t a ∧ SetFr b t a k is es
  | _, _ => True

def SStmt.FrHolds (b : ℕ → ℕ → Fr) (t a : ℕ → Fr) (k : ℕ) : SStmt → Prop
  | .set ts es => SetFr b t a k ts es
  | _ => True

/-- The field equations of the first N statements of an accepted run: `b j i` is the value of `buf[i]` after `j` statements. -/
def FrRun (b : ℕ → ℕ → Fr) (t a : ℕ → Fr) (N : ℕ) : Prop := ∀ k, k < N → (ssaLit.getD k (.set [] [])).FrHolds b t a k

namespace Eqs
variable {b : ℕ → ℕ → Fr} {t a : ℕ → Fr} {N : ℕ}

theorem e1 (H : FrRun b t a N) (hN : 1 < N := by omega) : b 2 12 = 1 := by
  have h := (H 1 hN).1
  try rw [← Nat.cast_one (R := Fr)]
  exact h
theorem e3 (H : FrRun b t a N) (hN : 3 < N := by omega) : b 4 17 = (kωn6 : ℕ) * b 0 6 := by
  have h := (H 3 hN).1
  exact h
theorem e4 (H : FrRun b t a N) (hN : 4 < N := by omega) : b 5 18 = a 0 := by
  have h := (H 4 hN).1
  try rw [← Nat.cast_one (R := Fr)]
  exact h
theorem d0 (H : FrRun b t a N) (hN : 4 < N := by omega) : (b 4 17 + (-b 0 6)) * (a 0) = 1 := by
  have h := (H 4 hN).2.1
  try rw [← Nat.cast_one (R := Fr)]
  exact h.2.2.2
theorem e5 (H : FrRun b t a N) (hN : 5 < N := by omega) : b 6 19 = (kω1 : ℕ) * b 0 6 := by
  have h := (H 5 hN).1
  exact h
theorem e6 (H : FrRun b t a N) (hN : 6 < N := by omega) : b 7 20 = a 1 := by
  have h := (H 6 hN).1
  try rw [← Nat.cast_one (R := Fr)]
  exact h
theorem d1 (H : FrRun b t a N) (hN : 6 < N := by omega) : (b 4 17 + (-b 6 19)) * (a 1) = 1 := by
  have h := (H 6 hN).2.1
  try rw [← Nat.cast_one (R := Fr)]
  exact h.2.2.2
theorem e7 (H : FrRun b t a N) (hN : 7 < N := by omega) : b 8 21 = b 5 18 * b 7 20 := by
  have h := (H 7 hN).1
  exact h
theorem e8 (H : FrRun b t a N) (hN : 8 < N := by omega) : b 9 22 = a 2 := by
  have h := (H 8 hN).1
  try rw [← Nat.cast_one (R := Fr)]
  exact h
theorem d2 (H : FrRun b t a N) (hN : 8 < N := by omega) : (b 0 6 + (-b 4 17)) * (a 2) = 1 := by
  have h := (H 8 hN).2.1
  try rw [← Nat.cast_one (R := Fr)]
  exact h.2.2.2
theorem e9 (H : FrRun b t a N) (hN : 9 < N := by omega) : b 10 23 = a 3 := by
  have h := (H 9 hN).1
  try rw [← Nat.cast_one (R := Fr)]
  exact h
theorem d3 (H : FrRun b t a N) (hN : 9 < N := by omega) : (b 0 6 + (-b 6 19)) * (a 3) = 1 := by
  have h := (H 9 hN).2.1
  try rw [← Nat.cast_one (R := Fr)]
  exact h.2.2.2
theorem e10 (H : FrRun b t a N) (hN : 10 < N := by omega) : b 11 24 = b 9 22 * b 10 23 := by
  have h := (H 10 hN).1
  exact h
theorem e11 (H : FrRun b t a N) (hN : 11 < N := by omega) : b 12 25 = a 4 := by
  have h := (H 11 hN).1
  try rw [← Nat.cast_one (R := Fr)]
  exact h
theorem d4 (H : FrRun b t a N) (hN : 11 < N := by omega) : (b 6 19 + (-b 4 17)) * (a 4) = 1 := by
  have h := (H 11 hN).2.1
  try rw [← Nat.cast_one (R := Fr)]
  exact h.2.2.2
theorem e12 (H : FrRun b t a N) (hN : 12 < N := by omega) : b 13 26 = a 5 := by
  have h := (H 12 hN).1
  try rw [← Nat.cast_one (R := Fr)]
  exact h
theorem d5 (H : FrRun b t a N) (hN : 12 < N := by omega) : (b 6 19 + (-b 0 6)) * (a 5) = 1 := by
  have h := (H 12 hN).2.1
  try rw [← Nat.cast_one (R := Fr)]
  exact h.2.2.2
theorem e13 (H : FrRun b t a N) (hN : 13 < N := by omega) : b 14 27 = b 12 25 * b 13 26 := by
  have h := (H 13 hN).1
  exact h
theorem e14 (H : FrRun b t a N) (hN : 14 < N := by omega) : b 15 28 = -(b 5 18 * b 0 6) := by
  have h := (H 14 hN).1
  exact h
theorem e15 (H : FrRun b t a N) (hN : 15 < N := by omega) : b 16 29 = b 7 20 * b 6 19 := by
  have h := (H 15 hN).1
  exact h
theorem e16 (H : FrRun b t a N) (hN : 16 < N := by omega) : b 17 18 = (b 15 28 * b 7 20) + (-(b 5 18 * b 16 29)) := by
  have h := (H 16 hN).1
  exact h
theorem e17 (H : FrRun b t a N) (hN : 17 < N := by omega) : b 18 20 = -(b 9 22 * b 4 17) := by
  have h := (H 17 hN).1
  exact h
theorem e18 (H : FrRun b t a N) (hN : 18 < N := by omega) : b 19 30 = b 10 23 * b 6 19 := by
  have h := (H 18 hN).1
  exact h
theorem e19 (H : FrRun b t a N) (hN : 19 < N := by omega) : b 20 22 = (b 18 20 * b 10 23) + (-(b 9 22 * b 19 30)) := by
  have h := (H 19 hN).1
  exact h
theorem e20 (H : FrRun b t a N) (hN : 20 < N := by omega) : b 21 31 = -(b 12 25 * b 4 17) := by
  have h := (H 20 hN).1
  exact h
theorem e21 (H : FrRun b t a N) (hN : 21 < N := by omega) : b 22 32 = b 13 26 * b 0 6 := by
  have h := (H 21 hN).1
  exact h
theorem e22 (H : FrRun b t a N) (hN : 22 < N := by omega) : b 23 25 = (b 21 31 * b 13 26) + (-(b 12 25 * b 22 32)) := by
  have h := (H 22 hN).1
  exact h
theorem e23 (H : FrRun b t a N) (hN : 23 < N := by omega) : b 24 33 = ((((b 8 21 * t 81) + (b 11 24 * t 79)) + (b 14 27 * t 80)) * b 0 9) + (((b 17 18 * t 81) + (b 20 22 * t 79)) + (b 23 25 * t 80)) := by
  have h := (H 23 hN).1
  exact h
theorem e24 (H : FrRun b t a N) (hN : 24 < N := by omega) : b 25 28 = -(b 15 28 * b 16 29) := by
  have h := (H 24 hN).1
  exact h
theorem e25 (H : FrRun b t a N) (hN : 25 < N := by omega) : b 26 20 = -(b 18 20 * b 19 30) := by
  have h := (H 25 hN).1
  exact h
theorem e26 (H : FrRun b t a N) (hN : 26 < N := by omega) : b 27 29 = -(b 21 31 * b 22 32) := by
  have h := (H 26 hN).1
  exact h
theorem e27 (H : FrRun b t a N) (hN : 27 < N := by omega) : b 28 31 = b 0 7 * ((b 24 33 * b 0 9) + (((b 25 28 * t 81) + (b 26 20 * t 79)) + (b 27 29 * t 80))) := by
  have h := (H 27 hN).1
  exact h
theorem e28 (H : FrRun b t a N) (hN : 28 < N := by omega) : b 29 33 = ((((b 8 21 * t 84) + (b 11 24 * t 82)) + (b 14 27 * t 83)) * b 0 9) + (((b 17 18 * t 84) + (b 20 22 * t 82)) + (b 23 25 * t 83)) := by
  have h := (H 28 hN).1
  exact h
theorem e29 (H : FrRun b t a N) (hN : 29 < N := by omega) : b 30 31 = b 28 31 + ((b 29 33 * b 0 9) + (((b 25 28 * t 84) + (b 26 20 * t 82)) + (b 27 29 * t 83))) := by
  have h := (H 29 hN).1
  exact h
theorem e30 (H : FrRun b t a N) (hN : 30 < N := by omega) : b 31 18 = ((((b 8 21 * t 87) + (b 11 24 * t 85)) + (b 14 27 * t 86)) * b 0 9) + (((b 17 18 * t 87) + (b 20 22 * t 85)) + (b 23 25 * t 86)) := by
  have h := (H 30 hN).1
  exact h
theorem e31 (H : FrRun b t a N) (hN : 31 < N := by omega) : b 32 18 = (b 0 7 * b 30 31) + ((b 31 18 * b 0 9) + (((b 25 28 * t 87) + (b 26 20 * t 85)) + (b 27 29 * t 86))) := by
  have h := (H 31 hN).1
  exact h
theorem e32 (H : FrRun b t a N) (hN : 32 < N := by omega) : b 33 20 = (kωn1 : ℕ) * b 0 6 := by
  have h := (H 32 hN).1
  exact h
theorem e33 (H : FrRun b t a N) (hN : 33 < N := by omega) : b 34 21 = a 6 := by
  have h := (H 33 hN).1
  try rw [← Nat.cast_one (R := Fr)]
  exact h
theorem d6 (H : FrRun b t a N) (hN : 33 < N := by omega) : (b 33 20 + (-b 0 6)) * (a 6) = 1 := by
  have h := (H 33 hN).2.1
  try rw [← Nat.cast_one (R := Fr)]
  exact h.2.2.2
theorem e34 (H : FrRun b t a N) (hN : 34 < N := by omega) : b 35 22 = a 7 := by
  have h := (H 34 hN).1
  try rw [← Nat.cast_one (R := Fr)]
  exact h
theorem d7 (H : FrRun b t a N) (hN : 34 < N := by omega) : (b 0 6 + (-b 33 20)) * (a 7) = 1 := by
  have h := (H 34 hN).2.1
  try rw [← Nat.cast_one (R := Fr)]
  exact h.2.2.2
theorem e35 (H : FrRun b t a N) (hN : 35 < N := by omega) : b 36 24 = -(b 34 21 * b 0 6) := by
  have h := (H 35 hN).1
  exact h
theorem e36 (H : FrRun b t a N) (hN : 36 < N := by omega) : b 37 25 = -(b 35 22 * b 33 20) := by
  have h := (H 36 hN).1
  exact h
theorem e37 (H : FrRun b t a N) (hN : 37 < N := by omega) : b 38 27 = b 0 7 * ((((b 34 21 * t 93) + (b 35 22 * t 92)) * b 0 9) + ((b 36 24 * t 93) + (b 37 25 * t 92))) := by
  have h := (H 37 hN).1
  exact h
theorem e38 (H : FrRun b t a N) (hN : 38 < N := by omega) : b 39 21 = b 38 27 + ((((b 34 21 * t 98) + (b 35 22 * t 97)) * b 0 9) + ((b 36 24 * t 98) + (b 37 25 * t 97))) := by
  have h := (H 38 hN).1
  exact h
theorem e39 (H : FrRun b t a N) (hN : 39 < N := by omega) : b 40 17 = b 0 9 + (-b 4 17) := by
  have h := (H 39 hN).1
  exact h
theorem e40 (H : FrRun b t a N) (hN : 40 < N := by omega) : b 41 22 = b 0 9 + (-b 6 19) := by
  have h := (H 40 hN).1
  exact h
theorem e41 (H : FrRun b t a N) (hN : 41 < N := by omega) : b 42 24 = (kω2 : ℕ) * b 0 6 := by
  have h := (H 41 hN).1
  exact h
theorem e42 (H : FrRun b t a N) (hN : 42 < N := by omega) : b 43 25 = b 0 9 + (-b 42 24) := by
  have h := (H 42 hN).1
  exact h
theorem e43 (H : FrRun b t a N) (hN : 43 < N := by omega) : b 44 20 = b 0 9 + (-b 33 20) := by
  have h := (H 43 hN).1
  exact h
theorem e44 (H : FrRun b t a N) (hN : 44 < N := by omega) : b 45 27 = a 8 := by
  have h := (H 44 hN).1
  try rw [← Nat.cast_one (R := Fr)]
  exact h
theorem d8 (H : FrRun b t a N) (hN : 44 < N := by omega) : (b 44 20 * b 43 25) * (a 8) = 1 := by
  have h := (H 44 hN).2.1
  try rw [← Nat.cast_one (R := Fr)]
  exact h.2.2.2
theorem e45 (H : FrRun b t a N) (hN : 45 < N := by omega) : b 46 28 = ((b 40 17 * b 41 22) * b 43 25) * b 45 27 := by
  have h := (H 45 hN).1
  exact h
theorem e46 (H : FrRun b t a N) (hN : 46 < N := by omega) : b 47 29 = b 0 7 * ((b 0 7 * ((b 0 7 * t 44) + t 45)) + t 46) := by
  have h := (H 46 hN).1
  exact h
theorem e47 (H : FrRun b t a N) (hN : 47 < N := by omega) : b 48 29 = (b 0 7 * ((b 0 7 * (b 47 29 + t 47)) + t 48)) + t 51 := by
  have h := (H 47 hN).1
  exact h
theorem e48 (H : FrRun b t a N) (hN : 48 < N := by omega) : b 49 29 = b 0 7 * ((b 0 7 * ((b 0 7 * b 48 29) + t 94)) + t 99) := by
  have h := (H 48 hN).1
  exact h
theorem e49 (H : FrRun b t a N) (hN : 49 < N := by omega) : b 50 29 = (b 0 7 * ((b 0 7 * (b 49 29 + t 58)) + t 59)) + t 60 := by
  have h := (H 49 hN).1
  exact h
theorem e50 (H : FrRun b t a N) (hN : 50 < N := by omega) : b 51 29 = b 0 7 * ((b 0 7 * ((b 0 7 * b 50 29) + t 61)) + t 62) := by
  have h := (H 50 hN).1
  exact h
theorem e51 (H : FrRun b t a N) (hN : 51 < N := by omega) : b 52 29 = (b 0 7 * ((b 0 7 * (b 51 29 + t 63)) + t 64)) + t 65 := by
  have h := (H 51 hN).1
  exact h
theorem e52 (H : FrRun b t a N) (hN : 52 < N := by omega) : b 53 29 = b 0 7 * ((b 0 7 * ((b 0 7 * b 52 29) + t 66)) + t 67) := by
  have h := (H 52 hN).1
  exact h
theorem e53 (H : FrRun b t a N) (hN : 53 < N := by omega) : b 54 29 = (b 0 7 * ((b 0 7 * (b 53 29 + t 68)) + t 69)) + t 70 := by
  have h := (H 53 hN).1
  exact h
theorem e54 (H : FrRun b t a N) (hN : 54 < N := by omega) : b 55 29 = b 0 7 * ((b 0 7 * ((b 0 7 * b 54 29) + t 72)) + t 73) := by
  have h := (H 54 hN).1
  exact h
theorem e55 (H : FrRun b t a N) (hN : 55 < N := by omega) : b 56 29 = (b 0 7 * ((b 0 7 * (b 55 29 + t 74)) + t 75)) + t 76 := by
  have h := (H 55 hN).1
  exact h
theorem e56 (H : FrRun b t a N) (hN : 56 < N := by omega) : b 57 29 = b 0 7 * ((b 0 7 * ((b 0 7 * b 56 29) + t 77)) + t 78) := by
  have h := (H 56 hN).1
  exact h
theorem e57 (H : FrRun b t a N) (hN : 57 < N := by omega) : b 58 31 = (((t 58 + (t 50 * t 59)) + (t 45 * t 60)) + (t 46 * t 61)) + (t 47 * t 62) := by
  have h := (H 57 hN).1
  exact h
theorem e58 (H : FrRun b t a N) (hN : 58 < N := by omega) : b 59 31 = (((b 58 31 + (t 48 * t 63)) + (t 49 * t 64)) + ((t 45 * t 46) * t 65)) + ((t 47 * t 48) * t 66) := by
  have h := (H 58 hN).1
  exact h
theorem e59 (H : FrRun b t a N) (hN : 59 < N := by omega) : b 60 33 = t 70 + (krm2 : ℕ) := by
  have h := (H 59 hN).1
  exact h
theorem e60 (H : FrRun b t a N) (hN : 60 < N := by omega) : b 61 34 = t 70 + (krm3 : ℕ) := by
  have h := (H 60 hN).1
  exact h
theorem e61 (H : FrRun b t a N) (hN : 61 < N := by omega) : b 62 35 = (((t 51 + (-t 52)) * t 70) * b 60 33) * b 61 34 := by
  have h := (H 61 hN).1
  exact h
theorem e62 (H : FrRun b t a N) (hN : 62 < N := by omega) : b 63 36 = (t 51 + (-t 53)) + (-(t 54 * (262144 : ℕ))) := by
  have h := (H 62 hN).1
  exact h
theorem e63 (H : FrRun b t a N) (hN : 63 < N := by omega) : b 64 37 = ((b 63 36 + (-(t 52 * (kc0 : ℕ)))) + (-(t 55 * (kc1 : ℕ)))) * t 70 := by
  have h := (H 63 hN).1
  exact h
theorem e64 (H : FrRun b t a N) (hN : 64 < N := by omega) : b 65 38 = t 70 + (krm1 : ℕ) := by
  have h := (H 64 hN).1
  exact h
theorem e65 (H : FrRun b t a N) (hN : 65 < N := by omega) : b 66 31 = ((((b 59 31 * b 0 5) + b 62 35) * b 0 5) + ((b 64 37 * b 65 38) * b 61 34)) * b 0 5 := by
  have h := (H 65 hN).1
  exact h
theorem e66 (H : FrRun b t a N) (hN : 66 < N := by omega) : b 67 34 = ((b 63 36 + (-(t 56 * (kc0 : ℕ)))) + (-(t 52 * (kc1 : ℕ)))) + (-(t 55 * (kc2 : ℕ))) := by
  have h := (H 66 hN).1
  exact h
theorem e67 (H : FrRun b t a N) (hN : 67 < N := by omega) : b 68 34 = ((b 67 34 + (-(t 57 * (kc3 : ℕ)))) * t 70) * b 65 38 := by
  have h := (H 67 hN).1
  exact h
theorem e68 (H : FrRun b t a N) (hN : 68 < N := by omega) : b 69 35 = b 0 6 * b 0 6 ^ 8388607 := by
  have h := (H 68 hN).1
  exact h
theorem e69 (H : FrRun b t a N) (hN : 69 < N := by omega) : b 70 36 = b 69 35 + (-1) := by
  have h := (H 69 hN).1
  try rw [← Nat.cast_one (R := Fr)]
  exact h
theorem e70 (H : FrRun b t a N) (hN : 70 < N := by omega) : b 71 37 = a 9 := by
  have h := (H 70 hN).1
  try rw [← Nat.cast_one (R := Fr)]
  exact h
theorem d9 (H : FrRun b t a N) (hN : 70 < N := by omega) : (b 0 6 + (-1)) * (a 9) = (kl0 : ℕ) * b 70 36 := by
  have h := (H 70 hN).2.1
  try rw [← Nat.cast_one (R := Fr)]
  exact h.2.2.2
theorem e71 (H : FrRun b t a N) (hN : 71 < N := by omega) : b 72 31 = (((b 66 31 + (b 68 34 * b 60 33)) * b 0 5) + (b 71 37 * (1 + (-t 79)))) * b 0 5 := by
  have h := (H 71 hN).1
  try rw [← Nat.cast_one (R := Fr)]
  exact h
theorem e72 (H : FrRun b t a N) (hN : 72 < N := by omega) : b 73 33 = a 10 := by
  have h := (H 72 hN).1
  exact h
theorem d10 (H : FrRun b t a N) (hN : 72 < N := by omega) : (b 0 6 + (-(kωn6 : ℕ))) * (a 10) = (kl6 : ℕ) * b 70 36 := by
  have h := (H 72 hN).2.1
  exact h.2.2.2
theorem e73 (H : FrRun b t a N) (hN : 73 < N := by omega) : b 74 31 = (b 72 31 + (b 73 33 * ((t 88 * t 88) + (-t 88)))) * b 0 5 := by
  have h := (H 73 hN).1
  exact h
theorem e74 (H : FrRun b t a N) (hN : 74 < N := by omega) : b 75 31 = ((b 74 31 + ((t 82 + (-t 81)) * b 71 37)) * b 0 5) + ((t 85 + (-t 84)) * b 71 37) := by
  have h := (H 74 hN).1
  exact h
theorem e75 (H : FrRun b t a N) (hN : 75 < N := by omega) : b 76 34 = t 46 + b 0 4 := by
  have h := (H 75 hN).1
  exact h
theorem e76 (H : FrRun b t a N) (hN : 76 < N := by omega) : b 77 38 = t 45 + b 0 4 := by
  have h := (H 76 hN).1
  exact h
theorem e77 (H : FrRun b t a N) (hN : 77 < N := by omega) : b 78 39 = b 0 3 * b 0 6 := by
  have h := (H 77 hN).1
  exact h
theorem e78 (H : FrRun b t a N) (hN : 78 < N := by omega) : b 79 34 = ((b 76 34 + (b 0 3 * t 73)) * ((b 77 38 + (b 0 3 * t 72)) * t 80)) + (-((b 76 34 + ((kδ : ℕ) * b 78 39)) * ((b 77 38 + b 78 39) * t 79))) := by
  have h := (H 78 hN).1
  exact h
theorem e79 (H : FrRun b t a N) (hN : 79 < N := by omega) : b 80 38 = ((a 11 + a 12) + a 13) + a 14 := by
  have h := (H 79 hN).1
  exact h
theorem d11 (H : FrRun b t a N) (hN : 79 < N := by omega) : (b 0 6 + (-(kωn5 : ℕ))) * (a 11) = (kl5 : ℕ) * b 70 36 := by
  have h := (H 79 hN).2.1
  exact h.1.1.1.2.2.2
theorem d12 (H : FrRun b t a N) (hN : 79 < N := by omega) : (b 0 6 + (-(kωn4 : ℕ))) * (a 12) = (kl4 : ℕ) * b 70 36 := by
  have h := (H 79 hN).2.1
  exact h.1.1.2.2.2.2
theorem d13 (H : FrRun b t a N) (hN : 79 < N := by omega) : (b 0 6 + (-(kωn3 : ℕ))) * (a 13) = (kl3 : ℕ) * b 70 36 := by
  have h := (H 79 hN).2.1
  exact h.1.2.2.2.2
theorem d14 (H : FrRun b t a N) (hN : 79 < N := by omega) : (b 0 6 + (-(kωn2 : ℕ))) * (a 14) = (kl2 : ℕ) * b 70 36 := by
  have h := (H 79 hN).2.1
  exact h.2.2.2.2
theorem e80 (H : FrRun b t a N) (hN : 80 < N := by omega) : b 81 38 = 1 + (-(b 73 33 + (b 80 38 + a 15))) := by
  have h := (H 80 hN).1
  try rw [← Nat.cast_one (R := Fr)]
  exact h
theorem d15 (H : FrRun b t a N) (hN : 80 < N := by omega) : (b 0 6 + (-(kωn1 : ℕ))) * (a 15) = (kl1 : ℕ) * b 70 36 := by
  have h := (H 80 hN).2.1
  exact h.2.2.2.2.2.2
theorem e81 (H : FrRun b t a N) (hN : 81 < N := by omega) : b 82 31 = (((b 75 31 * b 0 5) + ((t 88 + (-t 87)) * b 71 37)) * b 0 5) + (b 79 34 * b 81 38) := by
  have h := (H 81 hN).1
  exact h
theorem e82 (H : FrRun b t a N) (hN : 82 < N := by omega) : b 83 34 = t 48 + b 0 4 := by
  have h := (H 82 hN).1
  exact h
theorem e83 (H : FrRun b t a N) (hN : 83 < N := by omega) : b 84 40 = t 47 + b 0 4 := by
  have h := (H 83 hN).1
  exact h
theorem e84 (H : FrRun b t a N) (hN : 84 < N := by omega) : b 85 41 = (kδ : ℕ) * (kδ : ℕ) ^ 1 := by
  have h := (H 84 hN).1
  exact h
theorem e85 (H : FrRun b t a N) (hN : 85 < N := by omega) : b 86 41 = b 78 39 * b 85 41 := by
  have h := (H 85 hN).1
  exact h
theorem e86 (H : FrRun b t a N) (hN : 86 < N := by omega) : b 87 34 = ((b 83 34 + (b 0 3 * t 75)) * ((b 84 40 + (b 0 3 * t 74)) * t 83)) + (-((b 83 34 + ((kδ : ℕ) * b 86 41)) * ((b 84 40 + b 86 41) * t 82))) := by
  have h := (H 86 hN).1
  exact h
theorem e87 (H : FrRun b t a N) (hN : 87 < N := by omega) : b 88 40 = t 51 + b 0 4 := by
  have h := (H 87 hN).1
  exact h
theorem e88 (H : FrRun b t a N) (hN : 88 < N := by omega) : b 89 41 = t 49 + b 0 4 := by
  have h := (H 88 hN).1
  exact h
theorem e89 (H : FrRun b t a N) (hN : 89 < N := by omega) : b 90 42 = (kδ : ℕ) * (kδ : ℕ) ^ 3 := by
  have h := (H 89 hN).1
  exact h
theorem e90 (H : FrRun b t a N) (hN : 90 < N := by omega) : b 91 42 = b 78 39 * b 90 42 := by
  have h := (H 90 hN).1
  exact h
theorem e91 (H : FrRun b t a N) (hN : 91 < N := by omega) : b 92 40 = ((b 88 40 + (b 0 3 * t 77)) * ((b 89 41 + (b 0 3 * t 76)) * t 86)) + (-((b 88 40 + ((kδ : ℕ) * b 91 42)) * ((b 89 41 + b 91 42) * t 85))) := by
  have h := (H 91 hN).1
  exact h
theorem e92 (H : FrRun b t a N) (hN : 92 < N := by omega) : b 93 31 = ((((b 82 31 * b 0 5) + (b 87 34 * b 81 38)) * b 0 5) + (b 92 40 * b 81 38)) * b 0 5 := by
  have h := (H 92 hN).1
  exact h
theorem e93 (H : FrRun b t a N) (hN : 93 < N := by omega) : b 94 34 = t 44 + b 0 4 := by
  have h := (H 93 hN).1
  exact h
theorem e94 (H : FrRun b t a N) (hN : 94 < N := by omega) : b 95 40 = (kδ : ℕ) * (kδ : ℕ) ^ 5 := by
  have h := (H 94 hN).1
  exact h
theorem e95 (H : FrRun b t a N) (hN : 95 < N := by omega) : b 96 34 = (((b 94 34 + (b 0 3 * t 78)) * t 89) + (-((b 94 34 + (b 78 39 * b 95 40)) * t 88))) * b 81 38 := by
  have h := (H 95 hN).1
  exact h
theorem e96 (H : FrRun b t a N) (hN : 96 < N := by omega) : b 97 31 = ((((b 93 31 + b 96 34) * b 0 5) + (b 71 37 * (1 + (-t 90)))) * b 0 5) + (b 73 33 * ((t 90 * t 90) + (-t 90))) := by
  have h := (H 96 hN).1
  try rw [← Nat.cast_one (R := Fr)]
  exact h
theorem e97 (H : FrRun b t a N) (hN : 97 < N := by omega) : b 98 34 = ((t 68 * b 0 2) + t 69) + b 0 4 := by
  have h := (H 97 hN).1
  exact h
theorem e98 (H : FrRun b t a N) (hN : 98 < N := by omega) : b 99 39 = (t 90 * (((t 67 * b 0 2) + t 52) + b 0 3)) * b 98 34 := by
  have h := (H 98 hN).1
  exact h
theorem e99 (H : FrRun b t a N) (hN : 99 < N := by omega) : b 100 39 = (((t 91 * (t 92 + b 0 3)) * (t 94 + b 0 4)) + (-b 99 39)) * b 81 38 := by
  have h := (H 99 hN).1
  exact h
theorem e100 (H : FrRun b t a N) (hN : 100 < N := by omega) : b 101 40 = t 92 + (-t 94) := by
  have h := (H 100 hN).1
  exact h
theorem e101 (H : FrRun b t a N) (hN : 101 < N := by omega) : b 102 31 = ((((b 97 31 * b 0 5) + b 100 39) * b 0 5) + (b 71 37 * b 101 40)) * b 0 5 := by
  have h := (H 101 hN).1
  exact h
theorem e102 (H : FrRun b t a N) (hN : 102 < N := by omega) : b 103 31 = (b 102 31 + ((b 101 40 * (t 92 + (-t 93))) * b 81 38)) * b 0 5 := by
  have h := (H 102 hN).1
  exact h
theorem e103 (H : FrRun b t a N) (hN : 103 < N := by omega) : b 104 31 = ((b 103 31 + (b 71 37 * (1 + (-t 95)))) * b 0 5) + (b 73 33 * ((t 95 * t 95) + (-t 95))) := by
  have h := (H 103 hN).1
  try rw [← Nat.cast_one (R := Fr)]
  exact h
theorem e104 (H : FrRun b t a N) (hN : 104 < N := by omega) : b 105 33 = (t 95 * ((((18 : ℕ) * b 0 2) + t 53) + b 0 3)) * b 98 34 := by
  have h := (H 104 hN).1
  exact h
theorem e105 (H : FrRun b t a N) (hN : 105 < N := by omega) : b 106 33 = (((t 96 * (t 97 + b 0 3)) * (t 99 + b 0 4)) + (-b 105 33)) * b 81 38 := by
  have h := (H 105 hN).1
  exact h
theorem e106 (H : FrRun b t a N) (hN : 106 < N := by omega) : b 107 34 = t 97 + (-t 99) := by
  have h := (H 106 hN).1
  exact h
theorem e107 (H : FrRun b t a N) (hN : 107 < N := by omega) : b 108 31 = ((((b 104 31 * b 0 5) + b 106 33) * b 0 5) + (b 71 37 * b 107 34)) * b 0 5 := by
  have h := (H 107 hN).1
  exact h
theorem e108 (H : FrRun b t a N) (hN : 108 < N := by omega) : b 109 31 = a 16 := by
  have h := (H 108 hN).1
  exact h
theorem d16 (H : FrRun b t a N) (hN : 108 < N := by omega) : (b 70 36) * (a 16) = b 108 31 + ((b 107 34 * (t 97 + (-t 98))) * b 81 38) := by
  have h := (H 108 hN).2.1
  exact h.2.2.2
theorem e109 (H : FrRun b t a N) (hN : 109 < N := by omega) : b 110 20 = b 40 17 * b 44 20 := by
  have h := (H 109 hN).1
  exact h
theorem e110 (H : FrRun b t a N) (hN : 110 < N := by omega) : b 111 33 = ((b 110 20 * b 41 22) * b 43 25) * b 45 27 := by
  have h := (H 110 hN).1
  exact h
theorem e111 (H : FrRun b t a N) (hN : 111 < N := by omega) : b 112 18 = (b 0 8 * ((b 0 8 * b 32 18) + (b 39 21 * b 46 28))) + (((b 0 7 * (b 57 29 + b 109 31)) + t 71) * b 111 33) := by
  have h := (H 111 hN).1
  exact h
theorem e112 (H : FrRun b t a N) (hN : 112 < N := by omega) : b 113 21 = -b 19 30 := by
  have h := (H 112 hN).1
  exact h
theorem e113 (H : FrRun b t a N) (hN : 113 < N := by omega) : b 114 29 = -b 22 32 := by
  have h := (H 113 hN).1
  exact h
theorem e114 (H : FrRun b t a N) (hN : 114 < N := by omega) : b 115 30 = b 0 7 * ((((b 10 23 * t 49) + (b 13 26 * t 50)) * b 0 9) + ((b 113 21 * t 49) + (b 114 29 * t 50))) := by
  have h := (H 114 hN).1
  exact h
theorem e115 (H : FrRun b t a N) (hN : 115 < N := by omega) : b 116 30 = b 115 30 + ((((b 10 23 * t 88) + (b 13 26 * t 89)) * b 0 9) + ((b 113 21 * t 88) + (b 114 29 * t 89))) := by
  have h := (H 115 hN).1
  exact h
theorem e116 (H : FrRun b t a N) (hN : 116 < N := by omega) : b 117 30 = (b 0 7 * b 116 30) + ((((b 10 23 * t 90) + (b 13 26 * t 91)) * b 0 9) + ((b 113 21 * t 90) + (b 114 29 * t 91))) := by
  have h := (H 116 hN).1
  exact h
theorem e117 (H : FrRun b t a N) (hN : 117 < N := by omega) : b 118 30 = (b 0 7 * b 117 30) + ((((b 10 23 * t 95) + (b 13 26 * t 96)) * b 0 9) + ((b 113 21 * t 95) + (b 114 29 * t 96))) := by
  have h := (H 117 hN).1
  exact h
theorem e118 (H : FrRun b t a N) (hN : 118 < N := by omega) : b 119 25 = (b 110 20 * b 43 25) * b 45 27 := by
  have h := (H 118 hN).1
  exact h
theorem e119 (H : FrRun b t a N) (hN : 119 < N := by omega) : b 120 31 = a 17 := by
  have h := (H 119 hN).1
  try rw [← Nat.cast_one (R := Fr)]
  exact h
theorem d17 (H : FrRun b t a N) (hN : 119 < N := by omega) : (b 0 6 + (-b 42 24)) * (a 17) = 1 := by
  have h := (H 119 hN).2.1
  try rw [← Nat.cast_one (R := Fr)]
  exact h.2.2.2
theorem e120 (H : FrRun b t a N) (hN : 120 < N := by omega) : b 121 32 = b 10 23 * b 120 31 := by
  have h := (H 120 hN).1
  exact h
theorem e121 (H : FrRun b t a N) (hN : 121 < N := by omega) : b 122 34 = a 18 := by
  have h := (H 121 hN).1
  try rw [← Nat.cast_one (R := Fr)]
  exact h
theorem d18 (H : FrRun b t a N) (hN : 121 < N := by omega) : (b 6 19 + (-b 42 24)) * (a 18) = 1 := by
  have h := (H 121 hN).2.1
  try rw [← Nat.cast_one (R := Fr)]
  exact h.2.2.2
theorem e122 (H : FrRun b t a N) (hN : 122 < N := by omega) : b 123 36 = b 13 26 * b 122 34 := by
  have h := (H 122 hN).1
  exact h
theorem e123 (H : FrRun b t a N) (hN : 123 < N := by omega) : b 124 37 = a 19 := by
  have h := (H 123 hN).1
  try rw [← Nat.cast_one (R := Fr)]
  exact h
theorem d19 (H : FrRun b t a N) (hN : 123 < N := by omega) : (b 42 24 + (-b 0 6)) * (a 19) = 1 := by
  have h := (H 123 hN).2.1
  try rw [← Nat.cast_one (R := Fr)]
  exact h.2.2.2
theorem e124 (H : FrRun b t a N) (hN : 124 < N := by omega) : b 125 38 = a 20 := by
  have h := (H 124 hN).1
  try rw [← Nat.cast_one (R := Fr)]
  exact h
theorem d20 (H : FrRun b t a N) (hN : 124 < N := by omega) : (b 42 24 + (-b 6 19)) * (a 20) = 1 := by
  have h := (H 124 hN).2.1
  try rw [← Nat.cast_one (R := Fr)]
  exact h.2.2.2
theorem e125 (H : FrRun b t a N) (hN : 125 < N := by omega) : b 126 39 = b 124 37 * b 125 38 := by
  have h := (H 125 hN).1
  exact h
theorem e126 (H : FrRun b t a N) (hN : 126 < N := by omega) : b 127 40 = b 120 31 * b 42 24 := by
  have h := (H 126 hN).1
  exact h
theorem e127 (H : FrRun b t a N) (hN : 127 < N := by omega) : b 128 23 = (b 113 21 * b 120 31) + (-(b 10 23 * b 127 40)) := by
  have h := (H 127 hN).1
  exact h
theorem e128 (H : FrRun b t a N) (hN : 128 < N := by omega) : b 129 24 = b 122 34 * b 42 24 := by
  have h := (H 128 hN).1
  exact h
theorem e129 (H : FrRun b t a N) (hN : 129 < N := by omega) : b 130 26 = (b 114 29 * b 122 34) + (-(b 13 26 * b 129 24)) := by
  have h := (H 129 hN).1
  exact h
theorem e130 (H : FrRun b t a N) (hN : 130 < N := by omega) : b 131 31 = -(b 124 37 * b 0 6) := by
  have h := (H 130 hN).1
  exact h
theorem e131 (H : FrRun b t a N) (hN : 131 < N := by omega) : b 132 19 = b 125 38 * b 6 19 := by
  have h := (H 131 hN).1
  exact h
theorem e132 (H : FrRun b t a N) (hN : 132 < N := by omega) : b 133 34 = (b 131 31 * b 125 38) + (-(b 124 37 * b 132 19)) := by
  have h := (H 132 hN).1
  exact h
theorem e133 (H : FrRun b t a N) (hN : 133 < N := by omega) : b 134 37 = ((((b 121 32 * t 52) + (b 123 36 * t 55)) + (b 126 39 * t 57)) * b 0 9) + (((b 128 23 * t 52) + (b 130 26 * t 55)) + (b 133 34 * t 57)) := by
  have h := (H 133 hN).1
  exact h
theorem e134 (H : FrRun b t a N) (hN : 134 < N := by omega) : b 135 21 = -(b 113 21 * b 127 40) := by
  have h := (H 134 hN).1
  exact h
theorem e135 (H : FrRun b t a N) (hN : 135 < N := by omega) : b 136 24 = -(b 114 29 * b 129 24) := by
  have h := (H 135 hN).1
  exact h
theorem e136 (H : FrRun b t a N) (hN : 136 < N := by omega) : b 137 19 = -(b 131 31 * b 132 19) := by
  have h := (H 136 hN).1
  exact h
theorem e137 (H : FrRun b t a N) (hN : 137 < N := by omega) : b 138 29 = b 0 7 * ((b 134 37 * b 0 9) + (((b 135 21 * t 52) + (b 136 24 * t 55)) + (b 137 19 * t 57))) := by
  have h := (H 137 hN).1
  exact h
theorem e138 (H : FrRun b t a N) (hN : 138 < N := by omega) : b 139 23 = ((((b 121 32 * t 53) + (b 123 36 * t 54)) + (b 126 39 * t 56)) * b 0 9) + (((b 128 23 * t 53) + (b 130 26 * t 54)) + (b 133 34 * t 56)) := by
  have h := (H 138 hN).1
  exact h
theorem e139 (H : FrRun b t a N) (hN : 139 < N := by omega) : b 140 19 = b 138 29 + ((b 139 23 * b 0 9) + (((b 135 21 * t 53) + (b 136 24 * t 54)) + (b 137 19 * t 56))) := by
  have h := (H 139 hN).1
  exact h
theorem e140 (H : FrRun b t a N) (hN : 140 < N := by omega) : b 141 20 = b 110 20 * b 45 27 := by
  have h := (H 140 hN).1
  exact h
theorem e141 (H : FrRun b t a N) (hN : 141 < N := by omega) : b 142 18 = (b 0 8 * ((b 0 8 * b 112 18) + (b 118 30 * b 119 25))) + (b 140 19 * b 141 20) := by
  have h := (H 141 hN).1
  exact h
theorem e143 (H : FrRun b t a N) (hN : 143 < N := by omega) : b 144 14 = b 142 18 := by
  have h := (H 143 hN).1
  exact h
theorem e145 (H : FrRun b t a N) (hN : 145 < N := by omega) : b 146 19 = b 0 8 * b 0 8 := by
  have h := (H 145 hN).1
  exact h
theorem e146 (H : FrRun b t a N) (hN : 146 < N := by omega) : b 147 21 = b 146 19 * b 111 33 := by
  have h := (H 146 hN).1
  exact h
theorem e147 (H : FrRun b t a N) (hN : 147 < N := by omega) : b 148 23 = b 0 7 * b 0 7 := by
  have h := (H 147 hN).1
  exact h
theorem e148 (H : FrRun b t a N) (hN : 148 < N := by omega) : b 149 24 = b 148 23 * b 148 23 := by
  have h := (H 148 hN).1
  exact h
theorem e149 (H : FrRun b t a N) (hN : 149 < N := by omega) : b 150 26 = b 149 24 * b 149 24 := by
  have h := (H 149 hN).1
  exact h
theorem e150 (H : FrRun b t a N) (hN : 150 < N := by omega) : b 151 27 = b 150 26 * b 150 26 := by
  have h := (H 150 hN).1
  exact h
theorem e151 (H : FrRun b t a N) (hN : 151 < N := by omega) : b 152 29 = b 151 27 * b 150 26 := by
  have h := (H 151 hN).1
  exact h
theorem e152 (H : FrRun b t a N) (hN : 152 < N := by omega) : b 153 30 = b 152 29 * b 149 24 := by
  have h := (H 152 hN).1
  exact h
theorem e154 (H : FrRun b t a N) (hN : 154 < N := by omega) : b 155 16 = b 147 21 * b 153 30 := by
  have h := (H 154 hN).1
  exact h
theorem e156 (H : FrRun b t a N) (hN : 156 < N := by omega) : b 157 31 = b 152 29 * b 148 23 := by
  have h := (H 156 hN).1
  exact h
theorem e158 (H : FrRun b t a N) (hN : 158 < N := by omega) : b 159 16 = b 147 21 * (b 157 31 * b 0 7) := by
  have h := (H 158 hN).1
  exact h
theorem e161 (H : FrRun b t a N) (hN : 161 < N := by omega) : b 162 16 = b 147 21 * b 157 31 := by
  have h := (H 161 hN).1
  exact h
theorem e164 (H : FrRun b t a N) (hN : 164 < N := by omega) : b 165 16 = b 147 21 * (b 152 29 * b 0 7) := by
  have h := (H 164 hN).1
  exact h
theorem e166 (H : FrRun b t a N) (hN : 166 < N := by omega) : b 167 25 = b 0 8 * b 119 25 := by
  have h := (H 166 hN).1
  exact h
theorem e167 (H : FrRun b t a N) (hN : 167 < N := by omega) : b 168 31 = b 148 23 * b 0 7 := by
  have h := (H 167 hN).1
  exact h
theorem e169 (H : FrRun b t a N) (hN : 169 < N := by omega) : b 170 16 = b 167 25 * b 168 31 := by
  have h := (H 169 hN).1
  exact h
theorem e172 (H : FrRun b t a N) (hN : 172 < N := by omega) : b 173 16 = b 147 21 * b 152 29 := by
  have h := (H 172 hN).1
  exact h
theorem e175 (H : FrRun b t a N) (hN : 175 < N := by omega) : b 176 16 = b 141 20 * b 0 7 := by
  have h := (H 175 hN).1
  exact h
theorem e178 (H : FrRun b t a N) (hN : 178 < N := by omega) : b 179 16 = b 141 20 := by
  have h := (H 178 hN).1
  exact h
theorem e180 (H : FrRun b t a N) (hN : 180 < N := by omega) : b 181 20 = b 151 27 * b 148 23 := by
  have h := (H 180 hN).1
  exact h
theorem e182 (H : FrRun b t a N) (hN : 182 < N := by omega) : b 183 16 = b 147 21 * (b 181 20 * b 0 7) := by
  have h := (H 182 hN).1
  exact h
theorem e185 (H : FrRun b t a N) (hN : 185 < N := by omega) : b 186 16 = b 147 21 * b 181 20 := by
  have h := (H 185 hN).1
  exact h
theorem e187 (H : FrRun b t a N) (hN : 187 < N := by omega) : b 188 20 = b 150 26 * b 149 24 := by
  have h := (H 187 hN).1
  exact h
theorem e189 (H : FrRun b t a N) (hN : 189 < N := by omega) : b 190 16 = b 147 21 * b 188 20 := by
  have h := (H 189 hN).1
  exact h
theorem e191 (H : FrRun b t a N) (hN : 191 < N := by omega) : b 192 29 = b 150 26 * b 148 23 := by
  have h := (H 191 hN).1
  exact h
theorem e193 (H : FrRun b t a N) (hN : 193 < N := by omega) : b 194 16 = b 147 21 * (b 192 29 * b 0 7) := by
  have h := (H 193 hN).1
  exact h
theorem e196 (H : FrRun b t a N) (hN : 196 < N := by omega) : b 197 16 = b 147 21 * b 192 29 := by
  have h := (H 196 hN).1
  exact h
theorem e199 (H : FrRun b t a N) (hN : 199 < N := by omega) : b 200 16 = b 147 21 * (b 151 27 * b 0 7) := by
  have h := (H 199 hN).1
  exact h
theorem e202 (H : FrRun b t a N) (hN : 202 < N := by omega) : b 203 16 = b 147 21 * b 151 27 := by
  have h := (H 202 hN).1
  exact h
theorem e204 (H : FrRun b t a N) (hN : 204 < N := by omega) : b 205 29 = b 188 20 * b 148 23 := by
  have h := (H 204 hN).1
  exact h
theorem e206 (H : FrRun b t a N) (hN : 206 < N := by omega) : b 207 16 = b 147 21 * (b 205 29 * b 0 7) := by
  have h := (H 206 hN).1
  exact h
theorem e209 (H : FrRun b t a N) (hN : 209 < N := by omega) : b 210 16 = b 147 21 * b 205 29 := by
  have h := (H 209 hN).1
  exact h
theorem e212 (H : FrRun b t a N) (hN : 212 < N := by omega) : b 213 16 = b 147 21 * (b 188 20 * b 0 7) := by
  have h := (H 212 hN).1
  exact h
theorem e214 (H : FrRun b t a N) (hN : 214 < N := by omega) : b 215 20 = b 151 27 * b 149 24 := by
  have h := (H 214 hN).1
  exact h
theorem e216 (H : FrRun b t a N) (hN : 216 < N := by omega) : b 217 16 = b 147 21 * b 215 20 := by
  have h := (H 216 hN).1
  exact h
theorem e219 (H : FrRun b t a N) (hN : 219 < N := by omega) : b 220 16 = b 147 21 * (b 215 20 * b 0 7) := by
  have h := (H 219 hN).1
  exact h
theorem e222 (H : FrRun b t a N) (hN : 222 < N := by omega) : b 223 16 = b 147 21 * (b 150 26 * b 0 7) := by
  have h := (H 222 hN).1
  exact h
theorem e225 (H : FrRun b t a N) (hN : 225 < N := by omega) : b 226 16 = -((b 40 17 * (b 0 9 + (-b 0 6))) * b 41 22) := by
  have h := (H 225 hN).1
  exact h
theorem e228 (H : FrRun b t a N) (hN : 228 < N := by omega) : b 229 16 = b 0 9 := by
  have h := (H 228 hN).1
  exact h
theorem e230 (H : FrRun b t a N) (hN : 230 < N := by omega) : b 231 17 = b 147 21 * b 0 7 := by
  have h := (H 230 hN).1
  exact h
theorem e232 (H : FrRun b t a N) (hN : 232 < N := by omega) : b 233 16 = b 231 17 * (b 69 35 * b 69 35) := by
  have h := (H 232 hN).1
  exact h
theorem e235 (H : FrRun b t a N) (hN : 235 < N := by omega) : b 236 16 = b 231 17 * b 69 35 := by
  have h := (H 235 hN).1
  exact h
theorem e238 (H : FrRun b t a N) (hN : 238 < N := by omega) : b 239 16 = b 231 17 := by
  have h := (H 238 hN).1
  exact h
theorem e241 (H : FrRun b t a N) (hN : 241 < N := by omega) : b 242 16 = b 147 21 * (b 153 30 * b 0 7) := by
  have h := (H 241 hN).1
  exact h
theorem e243 (H : FrRun b t a N) (hN : 243 < N := by omega) : b 244 17 = (b 146 19 * b 0 8) * b 46 28 := by
  have h := (H 243 hN).1
  exact h
theorem e245 (H : FrRun b t a N) (hN : 245 < N := by omega) : b 246 16 = b 244 17 * b 0 7 := by
  have h := (H 245 hN).1
  exact h
theorem e247 (H : FrRun b t a N) (hN : 247 < N := by omega) : b 248 20 = b 215 20 * b 148 23 := by
  have h := (H 247 hN).1
  exact h
theorem e249 (H : FrRun b t a N) (hN : 249 < N := by omega) : b 250 16 = b 147 21 * (b 248 20 * b 0 7) := by
  have h := (H 249 hN).1
  exact h
theorem e252 (H : FrRun b t a N) (hN : 252 < N := by omega) : b 253 16 = b 167 25 * b 0 7 := by
  have h := (H 252 hN).1
  exact h
theorem e255 (H : FrRun b t a N) (hN : 255 < N := by omega) : b 256 16 = b 244 17 := by
  have h := (H 255 hN).1
  exact h
theorem e258 (H : FrRun b t a N) (hN : 258 < N := by omega) : b 259 16 = b 147 21 * b 248 20 := by
  have h := (H 258 hN).1
  exact h
theorem e261 (H : FrRun b t a N) (hN : 261 < N := by omega) : b 262 16 = b 167 25 := by
  have h := (H 261 hN).1
  exact h
theorem e264 (H : FrRun b t a N) (hN : 264 < N := by omega) : b 265 16 = b 147 21 * b 150 26 := by
  have h := (H 264 hN).1
  exact h
theorem e266 (H : FrRun b t a N) (hN : 266 < N := by omega) : b 267 17 = b 149 24 * b 148 23 := by
  have h := (H 266 hN).1
  exact h
theorem e268 (H : FrRun b t a N) (hN : 268 < N := by omega) : b 269 16 = b 147 21 * (b 267 17 * b 0 7) := by
  have h := (H 268 hN).1
  exact h
theorem e271 (H : FrRun b t a N) (hN : 271 < N := by omega) : b 272 16 = b 147 21 * b 267 17 := by
  have h := (H 271 hN).1
  exact h
theorem e274 (H : FrRun b t a N) (hN : 274 < N := by omega) : b 275 16 = b 147 21 * (b 149 24 * b 0 7) := by
  have h := (H 274 hN).1
  exact h
theorem e277 (H : FrRun b t a N) (hN : 277 < N := by omega) : b 278 16 = b 147 21 * b 149 24 := by
  have h := (H 277 hN).1
  exact h
theorem e280 (H : FrRun b t a N) (hN : 280 < N := by omega) : b 281 16 = b 147 21 * b 168 31 := by
  have h := (H 280 hN).1
  exact h
theorem e283 (H : FrRun b t a N) (hN : 283 < N := by omega) : b 284 16 = b 147 21 * b 148 23 := by
  have h := (H 283 hN).1
  exact h
theorem e285 (H : FrRun b t a N) (hN : 285 < N := by omega) : b 286 17 = b 146 19 * b 146 19 := by
  have h := (H 285 hN).1
  exact h
theorem e287 (H : FrRun b t a N) (hN : 287 < N := by omega) : b 288 16 = b 286 17 * b 148 23 := by
  have h := (H 287 hN).1
  exact h
theorem e290 (H : FrRun b t a N) (hN : 290 < N := by omega) : b 291 16 = b 286 17 * b 0 7 := by
  have h := (H 290 hN).1
  exact h
theorem e293 (H : FrRun b t a N) (hN : 293 < N := by omega) : b 294 16 = b 286 17 := by
  have h := (H 293 hN).1
  exact h
theorem e296 (H : FrRun b t a N) (hN : 296 < N := by omega) : b 297 16 = b 167 25 * b 148 23 := by
  have h := (H 296 hN).1
  exact h
theorem e299 (H : FrRun b t a N) (hN : 299 < N := by omega) : b 300 16 = b 147 21 := by
  have h := (H 299 hN).1
  exact h

end Eqs

end Verif
