import Verif.Model.EFTUtil
import Verif.Model.FlavorRotation

/-!
# Dictionaries by name and dictionaries by coefficient

`EFTutil` (`Verif.Model.EFTUtil`) is modelled on dictionaries whose keys are strings and whose
values carry their shape; the tensor programs (`Verif.Gen.*`) on dictionaries whose keys are
the coefficient constants occurring in the code.  This file connects the two.  Simplification
(as in `Verif.Model.Tensor`): arrays handed to the tensor programs have three generations in
every index.
-/

set_option autoImplicit false

namespace Verif.Bridge
open Verif Verif.EFT Verif.Tens Verif.Beta Verif.Rotation

/-- the string a key constant stands for -/
def keyString : Key → String
  | .g => "g" | .gp => "gp" | .gs => "gs" | .Lambda => "Lambda" | .m2 => "m2" | .Gu => "Gu"
  | .Gd => "Gd" | .Ge => "Ge" | .G => "G" | .Gtilde => "Gtilde" | .W => "W" | .Wtilde => "Wtilde"
  | .phi => "phi" | .phiBox => "phiBox" | .phiD => "phiD" | .phiG => "phiG" | .phiB => "phiB"
  | .phiW => "phiW" | .phiWB => "phiWB" | .phiGtilde => "phiGtilde" | .phiBtilde => "phiBtilde"
  | .phiWtilde => "phiWtilde" | .phiWtildeB => "phiWtildeB" | .uphi => "uphi" | .dphi => "dphi"
  | .ephi => "ephi" | .eW => "eW" | .eB => "eB" | .uG => "uG" | .uW => "uW" | .uB => "uB"
  | .dG => "dG" | .dW => "dW" | .dB => "dB" | .phil1 => "phil1" | .phil3 => "phil3"
  | .phie => "phie" | .phiq1 => "phiq1" | .phiq3 => "phiq3" | .phiu => "phiu" | .phid => "phid"
  | .phiud => "phiud" | .llphiphi => "llphiphi" | .ll => "ll" | .qq1 => "qq1" | .qq3 => "qq3"
  | .lq1 => "lq1" | .lq3 => "lq3" | .ee => "ee" | .uu => "uu" | .dd => "dd" | .eu => "eu"
  | .ed => "ed" | .ud1 => "ud1" | .ud8 => "ud8" | .le => "le" | .lu => "lu" | .ld => "ld"
  | .qe => "qe" | .qu1 => "qu1" | .qd1 => "qd1" | .qu8 => "qu8" | .qd8 => "qd8" | .ledq => "ledq"
  | .quqd1 => "quqd1" | .quqd8 => "quqd8" | .lequ1 => "lequ1" | .lequ3 => "lequ3"
  | .duql => "duql" | .qque => "qque" | .qqql => "qqql" | .duue => "duue" | .Eta1 => "Eta1"
  | .Eta2 => "Eta2" | .Eta3 => "Eta3" | .Eta4 => "Eta4" | .Eta5 => "Eta5" | .GammaH => "GammaH"
  | .Gammaq => "Gammaq" | .Gammau => "Gammau" | .Gammad => "Gammad" | .Gammal => "Gammal"
  | .Gammae => "Gammae" | .XiB => "XiB" | .Xie => "Xie" | .Xid => "Xid" | .Xiu => "Xiu"
  | .HIGHSCALE => "HIGHSCALE"

/-- the string a JMS key constant stands for -/
def wkeyString : WKey → String
  | .G => "G" | .Gtilde => "Gtilde" | .egamma => "egamma" | .uG => "uG" | .dG => "dG"
  | .ugamma => "ugamma" | .dgamma => "dgamma" | .S1udRR => "S1udRR" | .S1udduRR => "S1udduRR"
  | .S8udRR => "S8udRR" | .S8udduRR => "S8udduRR" | .SedRL => "SedRL" | .SedRR => "SedRR"
  | .SeuRL => "SeuRL" | .SeuRR => "SeuRR" | .SnueduRL => "SnueduRL" | .SnueduRR => "SnueduRR"
  | .TedRR => "TedRR" | .TeuRR => "TeuRR" | .TnueduRR => "TnueduRR" | .V1udduLR => "V1udduLR"
  | .V8udduLR => "V8udduLR" | .VnueduLL => "VnueduLL" | .VnueduLR => "VnueduLR"
  | .SuddLL => "SuddLL" | .SduuLL => "SduuLL" | .SduuLR => "SduuLR" | .SduuRL => "SduuRL"
  | .SdudRL => "SdudRL" | .SduuRR => "SduuRR" | .VuuRR => "VuuRR" | .VddRR => "VddRR"
  | .VuuLL => "VuuLL" | .VddLL => "VddLL" | .S1ddRR => "S1ddRR" | .S1uuRR => "S1uuRR"
  | .S8uuRR => "S8uuRR" | .SeeRR => "SeeRR" | .S8ddRR => "S8ddRR" | .VnueLL => "VnueLL"
  | .VnuuLL => "VnuuLL" | .VnudLL => "VnudLL" | .VeuLL => "VeuLL" | .VedLL => "VedLL"
  | .V1udLL => "V1udLL" | .V8udLL => "V8udLL" | .VeuRR => "VeuRR" | .VedRR => "VedRR"
  | .V1udRR => "V1udRR" | .V8udRR => "V8udRR" | .VnueLR => "VnueLR" | .VeeLR => "VeeLR"
  | .VnuuLR => "VnuuLR" | .VnudLR => "VnudLR" | .VeuLR => "VeuLR" | .VedLR => "VedLR"
  | .VueLR => "VueLR" | .VdeLR => "VdeLR" | .V1uuLR => "V1uuLR" | .V8uuLR => "V8uuLR"
  | .V1udLR => "V1udLR" | .V8udLR => "V8udLR" | .V1duLR => "V1duLR" | .V8duLR => "V8duLR"
  | .V1ddLR => "V1ddLR" | .V8ddLR => "V8ddLR" | .VeeLL => "VeeLL" | .VeeRR => "VeeRR"
  | .VnunuLL => "VnunuLL" | .SuudLR => "SuudLR" | .SuudRL => "SuudRL" | .SdduRL => "SdduRL"

/-- the same as lists of characters -/
def keyName (k : Key) : Str := (keyString k).toList
def wkeyName (k : WKey) : Str := (wkeyString k).toList

/-- the array of a dictionary value -/
def toTen : AVal → Ten
  | .num z => fun _ => z
  | .arr a => fun ix => a.get (ix.map Fin.val)

/-- the dictionary value with the entries of `A` and the shape of `like` -/
noncomputable def ofTen (like : AVal) (A : Ten) : AVal :=
  match like with
  | .num _ => .num (A [])
  | .arr a => .arr (NDArr.ofFn a.shape fun idx => A (idx.map (Fin.ofNat 3)))

/-- the dictionary by constants -/
def typed (C : Dict Str AVal) : Dict Key Ten :=
  keys.filterMap fun k => (C.get? (keyName k)).map fun v => (k, toTen v)

/-- the dictionary by strings; each array of `D` has the shape of the one in `C` -/
noncomputable def untyped (C : Dict Str AVal) (D : Dict Key Ten) : Dict Str AVal :=
  D.map fun kv => (keyName kv.1, ofTen ((C.get? (keyName kv.1)).getD (.num 0)) kv.2)

/-- exceptions of `EFTutil` as general exceptions -/
def ofErr : Err → Exc
  | .keyError => .keyError
  | .indexError => .other 0
  | .valueError => .valueError
  | .typeError => .typeError

def lift {α : Type} : Except Err α → Except Exc α
  | .ok a => .ok a
  | .error e => .error (ofErr e)

/-- `flavor_rotation` on dictionaries by strings, /repo/wilson/util/smeft_warsaw.py lines 8-103;
a rotated array has the shape of the array it comes from -/
noncomputable def flavorRotationStr (C : Dict Str AVal) (Uq Uu Ud Ul Ue : Mat) :
    Except Exc (Dict Str AVal) :=
  (flavorRotation (typed C) Uq Uu Ud Ul Ue).map (untyped C)

end Verif.Bridge
