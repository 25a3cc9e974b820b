import Verif.Props.Blocks
import Verif.Props.Sources
import Verif.Props.Counter
import Verif.Props.Files
import Verif.Props.Recording
import Verif.Props.Processor
import Verif.Props.Signals
import Verif.Props.PassThrough
import Verif.Props.Causality
import Verif.Props.Sizes
import Verif.Props.OpenLoop
import Verif.Props.State
import Verif.Props.Power
import Verif.Props.Total
import Verif.Props.Array
import Verif.Props.Access
import Verif.Props.Session
import Verif.Props.SessionDemo
import Verif.Props.Shared
import Verif.Props.Region
import Verif.Props.RegionRound
import Verif.Props.RegionCombined
import Verif.Lemmas.Volume
import Verif.Lemmas.Uniform
import Verif.Lemmas.Rejection
import Verif.Props.RegionVolume
import Verif.Props.RegionUniform
import Verif.Props.Points
import Verif.Props.Rectangle
import Verif.Props.Layers
import Verif.Props.Trajectory
import Verif.Props.TrajectoryTime
import Verif.Props.Fill
import Verif.Props.Disc
import Verif.Props.Export
import Verif.Props.Imshow
import Verif.Props.Summary
import Verif.Props.Derived
import Verif.Props.Freq
import Verif.Props.RirInfo
import Verif.Props.Ar
import Verif.Props.AddArrays
import Verif.Props.Tikz
import Verif.Props.ArrayLog
import Verif.Props.SessionMatch
import Verif.Props.SharedSetup
import Verif.Props.PathTypes
import Verif.Props.ExportTimes
import Verif.Props.SizesDiag
import Verif.Model.SourcePower
import Verif.Lemmas.SourcePower
import Verif.Lemmas.TrigMean
import Verif.Props.SourcePower
import Verif.Props.SetPower
import Verif.Model.Room
import Verif.Spec.Room
import Verif.Lemmas.MapPos
import Verif.Lemmas.Room
import Verif.Props.Room
import Verif.Model.BandSource
import Verif.Spec.BandSource
import Verif.Lemmas.BandSource
import Verif.Props.BandSource
import Verif.Lemmas.Observe
import Verif.Lemmas.Hide
import Verif.Lemmas.HideColl
import Verif.Spec.Hide
import Verif.Lemmas.HideRun
import Verif.Props.Observe
import Verif.Lemmas.Perm
import Verif.Lemmas.PermColl
import Verif.Lemmas.PermRun
import Verif.Props.Order
import Verif.Model.Again
import Verif.Lemmas.Again
import Verif.Props.Again
import Verif.Model.Directional
import Verif.Props.Directional
import Verif.Model.SourceArray
import Verif.Props.AudioFile
import Verif.Props.SourceArray
import Verif.Model.Metadata
import Verif.Props.Metadata
import Verif.Model.SetupPlot
import Verif.Props.SetupPlot
import Verif.Model.ArrayMeta
import Verif.Props.ArrayMeta
import Verif.Props.Longer
import Verif.Props.Delay
import Verif.Props.SamePlace
import Verif.Lemmas.Alike
import Verif.Lemmas.AlikeBase
import Verif.Lemmas.PathRel
import Verif.Props.Contrib
import Verif.Props.ResponseLength
import Verif.Props.Still
import Verif.Model.RegionArray
import Verif.Spec.RegionArray
import Verif.Lemmas.Ungroup
import Verif.Props.RegionArray
import Verif.Spec.Mute
import Verif.Lemmas.MuteColl
import Verif.Lemmas.Mute
import Verif.Lemmas.MuteRun
import Verif.Props.Mute
import Verif.Spec.Given
import Verif.Lemmas.Given
import Verif.Props.Given
import Verif.Lemmas.GivenRun
import Verif.Lemmas.Reload
import Verif.Props.Reload
import Verif.Spec.Grouping
import Verif.Props.Grouping
import Verif.Model.Examples
import Verif.Spec.Blockwise
import Verif.Lemmas.Blockwise
import Verif.Props.Blockwise
import Verif.Props.ClosedLoop
import Verif.Props.Transfer
import Verif.Props.Fxlms
import Verif.Model.OldSummary
import Verif.Props.OldSummary
import Verif.Model.FourRect
import Verif.Props.FourRect
import Verif.Props.Config
import Verif.Props.Periodic
import Verif.Model.Adaptive
import Verif.Spec.Adaptive
import Verif.Lemmas.TapeProc
import Verif.Lemmas.Adaptive
import Verif.Lemmas.AdaptiveRun
import Verif.Props.Adaptive
import Verif.Props.Circles
import Verif.Props.EquivDelay
import Verif.Props.FastBlock
import Verif.Props.AdaptiveScene
import Verif.Props.Bounded
import Verif.Props.AdaptiveRecording
import Verif.Props.AdaptiveScale
import Verif.Props.OldRectangle
import Verif.Props.Prepared
import Verif.Props.FewerRectangle
import Verif.Props.AdaptiveRenumber
import Verif.Props.OpenRenumber
import Verif.Props.AdaptiveDelay
import Verif.Props.AdaptiveTotal
import Verif.Props.OrigRir
import Verif.Props.FastRun
import Verif.Props.FieldPlot
import Verif.Props.RoomTotal
import Verif.Props.AdaptiveLong
import Verif.Props.Anc
import Verif.Props.AncError
import Verif.Props.AncCreate
import Verif.Props.Scripts
import Verif.Props.ScriptProcs
import Verif.Props.ScriptDirectional
import Verif.Spec.Fast
import Verif.Lemmas.FastTape
import Verif.Lemmas.FastTotal
import Verif.Lemmas.FastExact
import Verif.Lemmas.FastMic
import Verif.Props.FastExact
import Verif.Lemmas.FastResize
import Verif.Props.FastResize
import Verif.Props.FastScene
import Verif.Spec.FastScale
import Verif.Lemmas.FastScale
import Verif.Props.FastScale
import Verif.Spec.FastLater
import Verif.Lemmas.FastDelay
import Verif.Props.FastDelay
import Verif.Lemmas.FastRenumber
import Verif.Props.FastRenumber
import Verif.Model.AncReal
import Verif.Spec.AncReal
import Verif.Lemmas.AncReal
import Verif.Props.AncReal
import Verif.Props.FastRecording
import Verif.Spec.TraceWith
import Verif.Lemmas.CallsWith
import Verif.Props.ProcessorWith
import Verif.Spec.HideWith
import Verif.Lemmas.HideWith
import Verif.Lemmas.ObserveWith
import Verif.Props.ObserveWith
import Verif.Lemmas.OrderWith
import Verif.Lemmas.StillWith
import Verif.Props.OrderWith
import Verif.Model.AgainWith
import Verif.Spec.AgainWith
import Verif.Lemmas.AgainWith
import Verif.Props.AgainWith
import Verif.Lemmas.CoordsWith
import Verif.Props.CoordsWith
import Verif.Lemmas.GivenWith
import Verif.Props.GivenWith
import Verif.Props.LongerWith
import Verif.Lemmas.LengthWith
import Verif.Props.LengthWith
import Verif.Props.SamePlaceWith
import Verif.Props.ReloadWith
import Verif.Props.RegionWith
import Verif.Props.CausalWith
import Verif.Props.Chirp
import Verif.Props.Level
import Verif.Props.HeardOnly
import Verif.Props.HeardFast
import Verif.Props.SequenceEnd
import Verif.Props.HeardRoom
