import Verif.Model.Reports

/-!
# Model of the report of an archive

`Archive.__str__` (io/data.py:132-179), as a whole and with `response_only`, which `locate` logs (signal/scan.py:396).
Numbers and corner frequencies are printed by functions given as parameters.
-/

namespace QM.ArchiveReport

open QM.Reports (unlines)
open QM.Compute (Str)

/-- The attributes of an `Archive` (io/data.py:102-130).  `format` is the path structure as printed; `upfactor` is `none`
if it is None. -/
structure Settings (N F : Type) where
  path : Str
  format : Str
  resample : Bool
  upfactor : Option ℕ
  stations : List Str
  inventory : Bool
  waterLevel : N
  preFilt : Option F
  fullResponse : Bool
  readAll : Bool
  interpolate : Bool

/-- Python's `str` of a truth value (io/data.py:158, 168). -/
def boolText : Bool → Str
  | true => "True".toList
  | false => "False".toList

/-- The lines of `response_str` (io/data.py:148-161). -/
def responseLines {N F : Type} (sh : N → Str) (shF : F → Str) (a : Settings N F) : List Str :=
  if a.inventory then
    ["\tResponse removal parameters:".toList, "\t\tWater level  = ".toList ++ sh a.waterLevel] ++
      (match a.preFilt with
        | some f => ["\t\tPre-filter   = ".toList ++ (shF f ++ " Hz".toList)]
        | none => []) ++
      ["\t\tRemove full response (inc. FIR stages) = ".toList ++ boolText a.fullResponse]
  else ["\tNo instrument response inventory provided!".toList]

/-- `Archive.__str__(response_only=True)` (io/data.py:148-161, 176-179). -/
def responseReport {N F : Type} (sh : N → Str) (shF : F → Str) (a : Settings N F) : Str :=
  unlines (responseLines sh shF a)

/-- `Archive.__str__()` (io/data.py:148-179); an upsampling factor of 0 is not shown. -/
def archiveReport {N F : Type} (sh : N → Str) (shF : F → Str) (shU : ℕ → Str) (a : Settings N F) : Str :=
  unlines (["QuakeMigrate Archive object".toList, "\tArchive path\t:\t".toList ++ a.path,
      "\tPath structure\t:\t".toList ++ a.format, "\tResampling\t:\t".toList ++ boolText a.resample] ++
    (match a.upfactor with
      | some u => if u = 0 then [] else ["\tUpfactor\t:\t".toList ++ shU u]
      | none => []) ++
    ["\tStations:".toList] ++ a.stations.map ("\t\t".toList ++ ·) ++ responseLines sh shF a)

end QM.ArchiveReport
