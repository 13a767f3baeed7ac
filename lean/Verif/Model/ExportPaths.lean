import Verif.Model.Paths

/-!
# Model of the places where the export to ObsPy looks for the files of an event

`read_quakemigrate` and `_read_single_event` (export/to_obspy.py:41-94, 97-322), as far as paths are concerned.  Paths are
lists of components below the parent of the run directory.  Simplification: `resolve()` of the paths of waveform files
(lines 153, 159, 165), which makes them absolute and follows links, is left out.
-/

namespace QM.ExportPaths

open QM.Paths

/-- `pathlib.Path(run_dir) / "locate" / run_subname` (export/to_obspy.py:71). -/
def locateDir (runDir runSubname : Str) : Path := join [runDir, "locate".toList] runSubname

/-- The directory whose `*.event` files are read (export/to_obspy.py:72-76). -/
def eventsDir (runDir runSubname : Str) : Path := locateDir runDir runSubname ++ ["events".toList]

/-- Does `glob("*.event")` in the directory list the file?  (export/to_obspy.py:76). -/
def globbed (dir : Path) (file : Path) : Bool :=
  decide (file.dropLast = dir) && (match file.getLast? with
    | some f => decide (".event".toList <:+ f)
    | none => false)

/-- The file read for the picks (export/to_obspy.py:216-218). -/
def picksFile (runDir runSubname uid : Str) : Option Path :=
  withSuffix (locateDir runDir runSubname ++ ["picks".toList]) uid ".picks".toList

/-- The file read for the amplitudes (export/to_obspy.py:244-246). -/
def ampsFile (runDir runSubname uid : Str) : Option Path :=
  withSuffix (locateDir runDir runSubname ++ ["amplitudes".toList]) uid ".amps".toList

/-- The file named as that of the cut waveforms (export/to_obspy.py:151-167). -/
def cutFile (runDir runSubname uid : Str) : WfType → Option Path
  | .raw => withSuffix (locateDir runDir runSubname ++ ["raw_cut_waveforms".toList]) uid ".m".toList
  | .real => withSuffix (locateDir runDir runSubname ++ ["real_cut_waveforms".toList]) uid ".m".toList
  | .wa => withSuffix (locateDir runDir runSubname ++ ["wa_cut_waveforms".toList]) uid ".m".toList

end QM.ExportPaths
