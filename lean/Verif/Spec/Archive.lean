import Verif.Model.Archive

/-!
# Specification: where the file of a station and day is in an archive
-/

namespace QM.Spec
open QM.Archive (Format Day)
open QM.EventId (padDigits)

abbrev Code := List Char

/-- A code holds none of the separators of file names. -/
def Plain (s : Code) : Prop := '.' ∉ s ∧ '_' ∉ s

instance (s : Code) : Decidable (Plain s) := by unfold Plain; infer_instance

/-- A day with a four-digit year and a three-digit day of the year. -/
structure Day.OK (d : Day) : Prop where
  year : d.year < 10000
  jday : d.jday < 1000
  month : d.month < 100
  day : d.day < 100

/-- `IsFileOf f st d path`: in an archive of format `f`, `path` is a file of station `st` and day
`d`. -/
inductive IsFileOf (st : Code) (d : Day) : Format → List Code → Prop
  | seisComp3 (net loc cha : Code) (hn : Plain net) (hl : Plain loc) (hc : Plain cha) :
      IsFileOf st d .seisComp3 [padDigits 4 d.year, net, st, cha ++ ['.', 'D'],
        net ++ '.' :: (st ++ '.' :: (loc ++ '.' :: (cha ++ '.' :: (['D'] ++ '.' ::
          (padDigits 4 d.year ++ '.' :: padDigits 3 d.jday)))))]
  | yearJdAnyStationAny (a b : Code) (ha : Plain a) (hb : '_' ∉ b) :
      IsFileOf st d .yearJdAnyStationAny [padDigits 4 d.year, padDigits 3 d.jday,
        a ++ '_' :: (st ++ '_' :: b)]
  | yearJdStation (b : Code) :
      IsFileOf st d .yearJdStation [padDigits 4 d.year, padDigits 3 d.jday, st ++ b]
  | stationYearJd (cha : Code) (hc : Plain cha) :
      IsFileOf st d .stationYearJd [st ++ '.' :: (cha ++ '.' ::
        (padDigits 4 d.year ++ '.' :: padDigits 3 d.jday))]
  | stationDate :
      IsFileOf st d .stationDate [st, st ++ '.' ::
        (padDigits 4 d.year ++ padDigits 2 d.month ++ padDigits 2 d.day)]
  | yearJdUStation (b : Code) :
      IsFileOf st d .yearJdUStation [padDigits 4 d.year ++ '_' :: padDigits 3 d.jday, st ++ b]
  | yearJdUStationU (b : Code) :
      IsFileOf st d .yearJdUStationU [padDigits 4 d.year ++ '_' :: padDigits 3 d.jday, st ++ '_' :: b]

end QM.Spec
