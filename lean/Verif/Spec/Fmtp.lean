import Verif.Spec.Num
import Verif.Model.Types
/-!
# What an fmtp parameter list means
-/

namespace Sdp

/-- The numeric fmtp parameters that do not depend on each other. -/
inductive FmtpField where
  | profileLevelId | packetizationMode | levelAsymmetryAllowed | maxMbps | maxFs | maxCpb | maxDpb
  | maxBr | maxFr | profile | levelIdx | tier | maxplaybackrate | maxaveragebitrate | ptime
  | maxptime | minptime | usedtx | stereo | useinbandfec | cbr | apt
  deriving DecidableEq

namespace FmtpField

/-- The name of the parameter in a line, upper case. -/
def text : FmtpField → Str
  | profileLevelId => c%"PROFILE-LEVEL-ID"
  | packetizationMode => c%"PACKETIZATION-MODE"
  | levelAsymmetryAllowed => c%"LEVEL-ASYMMETRY-ALLOWED"
  | maxMbps => c%"MAX-MBPS"
  | maxFs => c%"MAX-FS"
  | maxCpb => c%"MAX-CPB"
  | maxDpb => c%"MAX-DPB"
  | maxBr => c%"MAX-BR"
  | maxFr => c%"MAX-FR"
  | profile => c%"PROFILE"
  | levelIdx => c%"LEVEL-IDX"
  | tier => c%"TIER"
  | maxplaybackrate => c%"MAXPLAYBACKRATE"
  | maxaveragebitrate => c%"MAXAVERAGEBITRATE"
  | ptime => c%"PTIME"
  | maxptime => c%"MAXPTIME"
  | minptime => c%"MINPTIME"
  | usedtx => c%"USEDTX"
  | stereo => c%"STEREO"
  | useinbandfec => c%"USEINBANDFEC"
  | cbr => c%"CBR"
  | apt => c%"APT"

/-- The largest value the parameter may have. -/
def max : FmtpField → Nat
  | profileLevelId => 0xffffff
  | packetizationMode => 2
  | levelAsymmetryAllowed | usedtx | stereo | useinbandfec | cbr | tier => 1
  | profile => 2
  | levelIdx => 31
  | apt => 255
  | maxMbps | maxFs | maxCpb | maxDpb | maxBr | maxFr | maxplaybackrate | maxaveragebitrate | ptime
  | maxptime | minptime => 0xffffffff

/-- `v` is a notation of the number `n`: hexadecimal for profile-level-id, decimal otherwise. -/
def Notation (f : FmtpField) (v : Str) (n : Nat) : Prop :=
  if f = .profileLevelId then HexText v n else DecText v n

/-- The value of the parameter in a parsed fmtp, if it is there. -/
def get (f : FmtpField) (p : FmtpParams) : Option Nat :=
  match f with
  | profileLevelId => some p.profileLevelId.toNat
  | packetizationMode => some p.packetizationMode.toNat
  | levelAsymmetryAllowed => some p.levelAsymmetryAllowed.toNat
  | maxMbps => some p.maxMbps.toNat
  | maxFs => some p.maxFs.toNat
  | maxCpb => some p.maxCpb.toNat
  | maxDpb => some p.maxDpb.toNat
  | maxBr => some p.maxBr.toNat
  | maxFr => some p.maxFr.toNat
  | profile => p.profile.map (·.toNat)
  | levelIdx => p.levelIdx.map (·.toNat)
  | tier => p.tier.map (·.toNat)
  | maxplaybackrate => some p.maxplaybackrate.toNat
  | maxaveragebitrate => some p.maxaveragebitrate.toNat
  | ptime => some p.ptime.toNat
  | maxptime => some p.maxptime.toNat
  | minptime => some p.minptime.toNat
  | usedtx => some p.usedtx.toNat
  | stereo => some p.stereo.toNat
  | useinbandfec => some p.useinbandfec.toNat
  | cbr => some p.cbr.toNat
  | apt => p.rtx.map (·.apt.toNat)

/-- The value of the parameter when it is not given. -/
def absent : FmtpField → Option Nat
  | profileLevelId => some 0x42000a
  | maxplaybackrate => some 48000
  | profile | levelIdx | tier | apt => none
  | _ => some 0

/-- All of them. -/
def all : List FmtpField :=
  [profileLevelId, packetizationMode, levelAsymmetryAllowed, maxMbps, maxFs, maxCpb, maxDpb, maxBr,
   maxFr, profile, levelIdx, tier, maxplaybackrate, maxaveragebitrate, ptime, maxptime, minptime,
   usedtx, stereo, useinbandfec, cbr, apt]

end FmtpField

/-- The known parameter names, upper case. -/
def fmtpNames : List Str := c%"RTX-TIME" :: FmtpField.all.map FmtpField.text

/-- The name of a `name=value` parameter, upper-cased. -/
def paramName [Env] (t : Str) : Str := upper (t.takeWhile (fun c => decide (c ≠ '=')))

/-- The value of a `name=value` parameter. -/
def paramValue (t : Str) : Str := (t.dropWhile (fun c => decide (c ≠ '='))).drop 1

/-- `x` is the last element of `l` with the property `P`. -/
def LastWith {α : Type} (P : α → Prop) (l : List α) (x : α) : Prop :=
  ∃ pre post, l = pre ++ x :: post ∧ P x ∧ ∀ y ∈ post, ¬ P y

/-- One item of a telephone-event list: a number up to 100, or an ascending range of such. -/
def ToneItem (t : Str) : Prop :=
  (∃ n, DecText t n ∧ n ≤ 100) ∨
    ∃ a b m n, t = a ++ '-' :: b ∧ DecText a m ∧ DecText b n ∧ m < n ∧ n ≤ 100

/-- A telephone-event list: such items with commas between them. -/
def ToneList (s : Str) : Prop :=
  ∃ items, items ≠ [] ∧ s = joinS c%"," items ∧ ∀ t ∈ items, ToneItem t

end Sdp
