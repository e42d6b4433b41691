/-
The verifying key of the aggregation circuit: the commitments of the 13 fixed columns and of the 7 permutation
polynomials. These are data of the proof system (coordinates of points of the curve); the code has them as literals.
-/
import Verif.Math.Order

namespace Verif

/-- Commitments of the fixed columns f0 … f12, as coordinates. -/
def vkFixedCoords : List (ℕ × ℕ) := [
  (14938380413158645463746726818663993049411440720262319458512240364576743949172,
   612698444000497655149316219443956538920213548045757527589465098726453410217),
  (1602442613231540506062434465510844080484629772386483161935289973450738328411,
   8632200768118172237953570969696965645934378330803102067059028669153881824687),
  (7302810833326292183657845455542786945088085612690237136517265240120492143686,
   12265020872042776853325862543934338413628778238311540007481750568301839403357),
  (15714457855017303792793529634633875645702708944223275612000098593544931343989,
   15257349176403661815620892222123615612513039066905856829097618251943836626674),
  (6588502116763777047662055789514359601800459134197048587585162560883404012798,
   11714447983073049655392713639630119352182916653299642193786804830268642535746),
  (9125246457194062079192598275178850075343678690105278369118112655547944406336,
   294075161521838319967190643963225379772318561607769296285010787743709643736),
  (21619461572256759847460179508152708219554585855297084173283796582786124555803,
   4345524860916738024637605707697977254152854672257192099656709386158566955621),
  (17258678549324502889708499924818360135272319280666991023610380123832805047961,
   5334989116053542497869652553010890811115308152577125353854023583257775982812),
  (5308159394739710035241344480420553410175387652800783904684585252715061491340,
   3019131547261358901530790449779825851153791728474681515444029058543922522335),
  (15488644080723619432119612346004359086916581306660788742559926675716559909239,
   8754616038193501373921013994731307318251353370144049595366428636287857472101),
  (9621060932553241457331309181312468446375012848693562416915297961501104714797,
   18774224011527979955178720803820949077824414817387957068075380161701868796982),
  (7332275780326935691999111227339181700750973508937555651107089016408829877447,
   10101962784746658718602667114782992736503033294933308373536577801383886245995),
  (18180235640340843615912844522870848024440129915340282133294923228193557588624,
   16150223963193906991297402627411591966306440109235686551266596870812093013098)]

/-- Commitments of the permutation polynomials σ0 … σ6, as coordinates. -/
def vkSigmaCoords : List (ℕ × ℕ) := [
  (14330957265734295635487529150089503047509680887155412481838936779763595454159,
   11657029790297552620042403612079612021781553164410884915460958808861335447799),
  (3217632689962165131030083420553195932069690674124201615821228288158667916559,
   11279851209809827628209572028517900058696331891386803672043677236706605258017),
  (6052548824579324632823008857297151984962554125394528409163563861993455062230,
   5253299219790956244634070239415866732913146545893144333850618503587190167918),
  (20134811260136067172423268982757475565512657205230154765724273546621797752349,
   6892971650116630821526804754060441250258363920342589425839414580605638919318),
  (17209526517725877136177243553045588666670528061781328851527842192340596792007,
   673380535462416015709313880421335139519451950072360935904307055208109203957),
  (9973741392326192617521393709476164203221054644042980686853312098867551316157,
   9696890272060053851986158851707718469926088811173404342570425124396426957984),
  (14118917696035322873139367456503207319385222068825598680486765986706935215403,
   18580702656451937158771044279900207779359395181895031379070145857747412641911)]

/-- The point with given integer coordinates. -/
def ptOf (c : ℕ × ℕ) : G1 := dec ((c.1 : Fp), (c.2 : Fp))

/-- Commitment of the fixed column f_i. -/
def vkFixed (i : ℕ) : G1 := ptOf (vkFixedCoords.getD i (0, 0))
/-- Commitment of the permutation polynomial σ_i. -/
def vkSigma (i : ℕ) : G1 := ptOf (vkSigmaCoords.getD i (0, 0))

/-- Commitment of the first Lagrange basis polynomial, the base of the instance commitment, as coordinates. -/
def vkInstanceCoords : ℕ × ℕ :=
  (13534086339230182803823178260078315691269243572458753455438283544709107378988,
   9053077977614827188269653632534212501565186534180282672519599630892718179094)

/-- The base of the instance commitment. -/
def vkInstance : G1 := ptOf vkInstanceCoords

end Verif
