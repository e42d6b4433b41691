/-
The pairing equation of the shipped proof, evaluated in the kernel. Models nothing of /repo beyond its shipped data.
-/
import Verif.Lemmas.G2Order
import Verif.Lemmas.Shipped

namespace Verif
open Ate

/-- The second opening proof of the shipped proof, words 102 and 103. -/
def shippedWN : ℕ × ℕ :=
  (2920616387084030925907755037226454382846345550621956833249622258647667607078,
   16502678157049327323910877548707266122319935523346850792311342099791838736912)

/-- An r-th root of the product of the two Miller values, and its inverse (computed outside; only checked here). -/
def rootN : F12 :=
  ⟨4525934147707421216848248549406227109184129549733080827361654454173498664676,
   20782797759181940882122744981611286235329686967512160959708961452119804950887,
   14797498301390034729692356505732474123801050539861250224668988479845084586622,
   14392849112025332680258871832454991689207500189403414854936639546765282545402,
   16096053089572243251056468017153037703476948445663411763519954641010231601292,
   6491755110824703149334331654881509001347282155057630458011946255513366673979,
   5947105165820629797398977676315683589726161851908633195795945634419335280826,
   7561798219887874920596789148582033263336527631280003959542094952502689346913,
   20803748557868202475697319227959949818921420282981550731655500542463602162500,
   19241861667292417597774181519794602686428365828741121629955758771640544481932,
   6930311657734733327550909917154179982510139755334373312024237070681833068014,
   17561789360983049972775241717446167071828931772530059683812446128652750469919⟩
def rootInvN : F12 :=
  ⟨3627572457543294551955561311467738949339784665897370523235181389288057829603,
   5763340084298431244472406736461538482371754500098601080908446770593017029851,
   9004686376856020400130850928748346497179130519125757025649785391617766519683,
   20374584117870581553370454506523842237094655125725057709277403630415952096618,
   20789542354624726939311266910149155134701305637534871867062702251488835646546,
   15409750235254155343755818077329135348288022899003907937967882767196642547589,
   1648218672288469056939010580019225886972413138185512079120708425893807152484,
   5288802663339648959156118404357218761726924857542094232960716052134140488974,
   2813226027974896202943315187734745335602685659986376974010931971311030263143,
   1933390339835420665570129459519360409064327713402157366533013323479671777487,
   6226950531825522738060396023022104501281610084530916328410362361695487335171,
   11792147719792427897175500998891395408757071512932450814361586819629982382285⟩

theorem root_check : beq12 (mul12 (millerN shippedWN g20N) (millerN shippedOpening g21N)) (pow12 254 rootN rMod) = true := by
  decide +kernel

theorem root_inv : beq12 (mul12 rootN rootInvN) one12 = true := by decide +kernel

theorem nontrivial_check : Nat.beq ((pow12 2800 (millerN shippedWN g21N) ((pMod ^ 12 - 1) / rMod)).a1 % pMod) 0 = false := by
  decide +kernel

theorem nontrivial_pairing : (millerN shippedWN g21N).val ^ ((pMod ^ 12 - 1) / rMod) ≠ 1 := by
  rw [← pow12_val _ 2800 _ (by decide +kernel)]
  exact val_ne_one nontrivial_check

end Verif
