import Verif.Props.TriggerEvents
import Verif.Props.TriggerBatches
import Verif.Props.Threshold
import Verif.Props.TriggerMisc
import Verif.Props.Detect
import Verif.Props.ScanIO
import Verif.Props.Migrate
import Verif.Props.Compute
import Verif.Props.StaLta
import Verif.Props.Onset
import Verif.Props.Util
import Verif.Props.Lut
import Verif.Props.Locate
import Verif.Props.Picker
import Verif.Props.Data
import Verif.Props.Availability
import Verif.Props.Export
import Verif.Props.Archive
import Verif.Props.Amplitude
import Verif.Props.FindPeaks
import Verif.Props.AmplitudeTable
import Verif.Props.Magnitude
import Verif.Props.Attenuation
import Verif.Props.Waveforms
import Verif.Props.EventFile
import Verif.Props.Paths
import Verif.Props.StationMag
import Verif.Props.CutWaveforms
import Verif.Props.GauFit
import Verif.Props.Traveltimes
import Verif.Props.VModel
import Verif.Props.NllocRun
import Verif.Props.ScanObject
import Verif.Props.NllocRead
import Verif.Props.Catalog
import Verif.Props.AmpsWrite
import Verif.Props.Midnight
import Verif.Props.DetectRuns
import Verif.Props.Isolated
import Verif.Model.DetectTrigger
import Verif.Props.DetectTrigger
import Verif.Model.ComputeStep
import Verif.Props.ComputeStep
import Verif.Model.Pipeline
import Verif.Props.Pipeline
import Verif.Props.Source
import Verif.Model.EndToEnd
import Verif.Props.EndToEnd
import Verif.Model.Doubles
import Verif.Lemmas.Doubles
import Verif.Props.Doubles
import Verif.Model.Smooth
import Verif.Props.Smooth
import Verif.Model.GauFilt
import Verif.Props.GauFilt
import Verif.Model.StaLtaDoubles
import Verif.Lemmas.StaLtaDoubles
import Verif.Props.StaLtaDoubles
import Verif.Model.GapFill
import Verif.Props.GapFill
import Verif.Model.Filters
import Verif.Model.NoiseAmp
import Verif.Props.Filters
import Verif.Props.NoiseAmp
import Verif.Model.UpdateLut
import Verif.Props.UpdateLut
import Verif.Model.OnsetSettings
import Verif.Props.OnsetSettings
import Verif.Model.Mfast
import Verif.Props.Mfast
import Verif.Model.NllocLine
import Verif.Props.NllocLine
import Verif.Model.PickerSettings
import Verif.Props.PickerSettings
import Verif.Model.Extent
import Verif.Props.Extent
import Verif.Props.Dynamic
import Verif.Props.DetectDynamic
import Verif.Props.PipelineDynamic
import Verif.Model.PhaseStrings
import Verif.Props.PhaseStrings
import Verif.Model.MigrateDoubles
import Verif.Props.MigrateDoubles
import Verif.Props.TriggerTuning
import Verif.Props.Robust
import Verif.Props.EarthquakeNoise
import Verif.Props.Resume
import Verif.Props.ThresholdRobust
import Verif.Props.SummaryPlots
import Verif.Props.EarthquakeDynamic
import Verif.Model.AmplitudePlot
import Verif.Props.AmplitudePlot
import Verif.Model.PickPlot
import Verif.Props.PickPlot
import Verif.Model.MapPlot
import Verif.Props.MapPlot
import Verif.Model.EventSummary
import Verif.Props.EventSummary
import Verif.Props.EarthquakeMad
import Verif.Model.DecimatedScan
import Verif.Props.DecimatedScan
import Verif.Model.Reports
import Verif.Props.Reports
import Verif.Props.TriggerShift
import Verif.Model.CalcOnsets
import Verif.Lemmas.CalcOnsets
import Verif.Props.CalcOnsets
import Verif.Props.OnsetGain
import Verif.Props.BadChannels
import Verif.Props.ReadOrder
import Verif.Props.OnsetValue
import Verif.Props.Taper
import Verif.Props.Logging
import Verif.Props.BilinearDoubles
import Verif.Props.WaveScan
import Verif.Props.GridDoubles
import Verif.Props.DetectShift
import Verif.Props.WaveFiles
import Verif.Props.WaveLocate
import Verif.Props.LocateShift
import Verif.Props.ReadSamples
import Verif.Props.SameSamples
import Verif.Props.WaveEvent
import Verif.Props.WaveGain
import Verif.Props.WaveUnused
import Verif.Props.WaveSilent
import Verif.Props.WaveOrder
import Verif.Props.WaveDead
import Verif.Model.TriggerDoubles
import Verif.Props.TriggerDoubles
import Verif.Model.ScanDoubles
import Verif.Props.ScanDoubles
import Verif.Model.LocatePeriod
import Verif.Props.LocatePeriod
import Verif.Props.MagScale
import Verif.Props.AmplitudeScale
import Verif.Props.PickShift
import Verif.Model.ExportPaths
import Verif.Props.ExportPaths
import Verif.Props.Details
import Verif.Model.OnsetReport
import Verif.Props.OnsetReport
import Verif.Model.SnufflerFile
import Verif.Props.SnufflerFile
import Verif.Model.WoodAnderson
import Verif.Props.WoodAnderson
import Verif.Model.MapScale
import Verif.Props.MapScale
import Verif.Props.CleanSwing
import Verif.Model.ArchiveReport
import Verif.Props.ArchiveReport
import Verif.Model.TimeLabel
import Verif.Props.TimeLabel
