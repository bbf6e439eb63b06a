import Verif.Model.Adapter
import Verif.Model.Apply
import Verif.Model.Arr
import Verif.Model.ArrIx
import Verif.Model.Base
import Verif.Model.BaseInit
import Verif.Model.BatchSize
import Verif.Model.Bicubic
import Verif.Model.Changing
import Verif.Model.Checks
import Verif.Model.Command
import Verif.Model.Concurrent
import Verif.Model.Convert
import Verif.Model.Crash
import Verif.Model.Digits
import Verif.Model.Documented
import Verif.Model.Dtypes
import Verif.Model.Episodic
import Verif.Model.Exc
import Verif.Model.FileList
import Verif.Model.Finalizer
import Verif.Model.ForLoop
import Verif.Model.FormatInit
import Verif.Model.Formats
import Verif.Model.FromConfig
import Verif.Model.Generate
import Verif.Model.Geometry
import Verif.Model.Glob
import Verif.Model.Histogram
import Verif.Model.HistogramSingle
import Verif.Model.Interp
import Verif.Model.Interrupt
import Verif.Model.InterruptEpisodic
import Verif.Model.InterruptPrefetch
import Verif.Model.InterruptSampler
import Verif.Model.Iteration
import Verif.Model.Key
import Verif.Model.LeafDirs
import Verif.Model.Len
import Verif.Model.Make
import Verif.Model.MakeKeys
import Verif.Model.MatTree
import Verif.Model.Missing
import Verif.Model.MissingHistogram
import Verif.Model.MissingImage
import Verif.Model.Nearest
import Verif.Model.NonFinite
import Verif.Model.PackedFile
import Verif.Model.Pillow
import Verif.Model.Prefetch
import Verif.Model.PyVal
import Verif.Model.Racing
import Verif.Model.RacingReal
import Verif.Model.RacingSampler
import Verif.Model.ReadFlow
import Verif.Model.Render
import Verif.Model.Rounding
import Verif.Model.Sampler
import Verif.Model.Sanity
import Verif.Model.SanityConvert
import Verif.Model.SanityCrash
import Verif.Model.SanityMain
import Verif.Model.Saved
import Verif.Model.SavedCut
import Verif.Model.Scatter
import Verif.Model.Sched
import Verif.Model.Scripts
import Verif.Model.Several
import Verif.Model.Shared
import Verif.Model.Shutdown
import Verif.Model.Single
import Verif.Model.SingleAdapter
import Verif.Model.SpecCall
import Verif.Model.SplitCopy
import Verif.Model.Stack
import Verif.Model.Synthetic
import Verif.Model.TfRecord
import Verif.Model.Threads
import Verif.Model.Timed
import Verif.Model.Types
import Verif.Model.Whole
import Verif.Model.WholeEpisodes
import Verif.Proofs.Adapter
import Verif.Proofs.Append
import Verif.Proofs.Apply
import Verif.Proofs.Arr
import Verif.Proofs.ArrIx
import Verif.Proofs.Base
import Verif.Proofs.BaseBatch
import Verif.Proofs.BaseHist
import Verif.Proofs.BaseMore
import Verif.Proofs.BaseRun
import Verif.Proofs.Bicubic
import Verif.Proofs.Changing
import Verif.Proofs.Episodes
import Verif.Proofs.Episodic
import Verif.Proofs.Formats
import Verif.Proofs.Generate
import Verif.Proofs.Geometry
import Verif.Proofs.GeometryFloat
import Verif.Proofs.Glob
import Verif.Proofs.Histogram
import Verif.Proofs.Interp
import Verif.Proofs.Looks
import Verif.Proofs.Make
import Verif.Proofs.MakeKeys
import Verif.Proofs.Parametric
import Verif.Proofs.Pillow
import Verif.Proofs.PillowSums
import Verif.Proofs.Prefetch
import Verif.Proofs.PrefetchInv
import Verif.Proofs.Reader
import Verif.Proofs.Render
import Verif.Proofs.Rounding
import Verif.Proofs.RoundingScale
import Verif.Proofs.Sampler
import Verif.Proofs.SamplerMore
import Verif.Proofs.SamplerRun
import Verif.Proofs.Sanity
import Verif.Proofs.SanityConvert
import Verif.Proofs.Scripts
import Verif.Proofs.Single
import Verif.Proofs.SingleAdapter
import Verif.Proofs.SingleMove
import Verif.Proofs.Stack
import Verif.Proofs.StackBase
import Verif.Proofs.StackLive
import Verif.Proofs.StackLiveEpisodes
import Verif.Proofs.Synthetic
import Verif.Proofs.Timed
import Verif.Proofs.TimedCalls
import Verif.Proofs.TimedGoesOn
import Verif.Proofs.TimedShutdown
import Verif.Proofs.Types
import Verif.Proofs.Units
import Verif.Proofs.Unseen
import Verif.Proofs.Whole
import Verif.Proofs.WholeBack
import Verif.Proofs.WholeIff
import Verif.Props.Adapter
import Verif.Props.Append
import Verif.Props.Apply
import Verif.Props.Axes
import Verif.Props.Base
import Verif.Props.BaseExactly
import Verif.Props.BatchSize
import Verif.Props.Bicubic
import Verif.Props.BicubicSymmetry
import Verif.Props.Blocked
import Verif.Props.Buffered
import Verif.Props.BufferedEpisodes
import Verif.Props.Cases
import Verif.Props.Changing
import Verif.Props.Checks
import Verif.Props.Command
import Verif.Props.Complete
import Verif.Props.Concurrent
import Verif.Props.Convert
import Verif.Props.Crash
import Verif.Props.Deliverable
import Verif.Props.Density
import Verif.Props.Devices
import Verif.Props.DevicesExactly
import Verif.Props.Digits
import Verif.Props.Distinct
import Verif.Props.Documented
import Verif.Props.Dtypes
import Verif.Props.EpisodeFormats
import Verif.Props.Episodes
import Verif.Props.Episodic
import Verif.Props.EpisodicAligned
import Verif.Props.EvenExactly
import Verif.Props.FileList
import Verif.Props.Finalizer
import Verif.Props.ForLoop
import Verif.Props.ForLoopBuffered
import Verif.Props.FormatInit
import Verif.Props.Formats
import Verif.Props.FromConfig
import Verif.Props.Generate
import Verif.Props.Geometry
import Verif.Props.Glob
import Verif.Props.GlobH5
import Verif.Props.Hiding
import Verif.Props.Histogram
import Verif.Props.HistogramSingle
import Verif.Props.Interp
import Verif.Props.Interrupt
import Verif.Props.InterruptEpisodic
import Verif.Props.InterruptPrefetch
import Verif.Props.InterruptSampler
import Verif.Props.Isolation
import Verif.Props.Iteration
import Verif.Props.Keys
import Verif.Props.LeafDirs
import Verif.Props.Len
import Verif.Props.Looks
import Verif.Props.Make
import Verif.Props.MakeKeys
import Verif.Props.Margin
import Verif.Props.MaskExactly
import Verif.Props.MaskLength
import Verif.Props.MatExactly
import Verif.Props.MatTree
import Verif.Props.Missing
import Verif.Props.MissingHistogram
import Verif.Props.MissingImage
import Verif.Props.Nearest
import Verif.Props.Noise
import Verif.Props.NonFinite
import Verif.Props.NumpyPipeline
import Verif.Props.Options
import Verif.Props.OrderExactly
import Verif.Props.PackedDelivered
import Verif.Props.PackedGrid
import Verif.Props.PackedServed
import Verif.Props.PairMotion
import Verif.Props.PartitionExactly
import Verif.Props.Pillow
import Verif.Props.PillowSymmetry
import Verif.Props.Place
import Verif.Props.Playlist
import Verif.Props.Prefetch
import Verif.Props.Racing
import Verif.Props.RacingReal
import Verif.Props.RacingSampler
import Verif.Props.ReadFlow
import Verif.Props.Reader
import Verif.Props.RealPipeline
import Verif.Props.Render
import Verif.Props.Reported
import Verif.Props.RerunExactly
import Verif.Props.Resets
import Verif.Props.Sampler
import Verif.Props.SamplerUses
import Verif.Props.Sanity
import Verif.Props.SanityConvert
import Verif.Props.SanityCrash
import Verif.Props.SanityMain
import Verif.Props.SanitySpeeds
import Verif.Props.Saved
import Verif.Props.SavedCut
import Verif.Props.Scatter
import Verif.Props.Scripts
import Verif.Props.Several
import Verif.Props.Shared
import Verif.Props.Shutdown
import Verif.Props.Single
import Verif.Props.SingleAdapter
import Verif.Props.SingleUniform
import Verif.Props.SizesExactly
import Verif.Props.SpecCall
import Verif.Props.SpeedsExactly
import Verif.Props.SplitCopy
import Verif.Props.SplitExactly
import Verif.Props.Stack
import Verif.Props.StackReal
import Verif.Props.StepsExactly
import Verif.Props.StillPowers
import Verif.Props.Superposition
import Verif.Props.SynthAny
import Verif.Props.SynthMat
import Verif.Props.SynthPipeline
import Verif.Props.SynthRange
import Verif.Props.SynthUniform
import Verif.Props.Synthetic
import Verif.Props.TfRecord
import Verif.Props.Threads
import Verif.Props.Timed
import Verif.Props.TimedShutdown
import Verif.Props.Types
import Verif.Props.UnitNames
import Verif.Props.Units
import Verif.Props.UnpackExactly
import Verif.Props.Unreadable
import Verif.Props.Unseen
import Verif.Props.UpdateExactly
import Verif.Props.Variation
import Verif.Props.Whole
import Verif.Spec.Append
import Verif.Spec.Apply
import Verif.Spec.Axes
import Verif.Spec.Base
import Verif.Spec.BaseDemo
import Verif.Spec.Buffered
import Verif.Spec.BufferedEpisodes
import Verif.Spec.Changing
import Verif.Spec.Compare
import Verif.Spec.Complete
import Verif.Spec.Concurrent
import Verif.Spec.Distinct
import Verif.Spec.Dtypes
import Verif.Spec.Episodes
import Verif.Spec.Episodic
import Verif.Spec.ForLoop
import Verif.Spec.Glob
import Verif.Spec.HistogramSingle
import Verif.Spec.Interp
import Verif.Spec.Interrupt
import Verif.Spec.InterruptEpisodic
import Verif.Spec.InterruptPrefetch
import Verif.Spec.InterruptSampler
import Verif.Spec.Isolation
import Verif.Spec.Keys
import Verif.Spec.Looks
import Verif.Spec.Make
import Verif.Spec.MakeKeys
import Verif.Spec.MatTree
import Verif.Spec.Missing
import Verif.Spec.MissingImage
import Verif.Spec.NonFinite
import Verif.Spec.Playlist
import Verif.Spec.Prefetch
import Verif.Spec.Racing
import Verif.Spec.RacingReal
import Verif.Spec.RacingSampler
import Verif.Spec.Reader
import Verif.Spec.Remaining
import Verif.Spec.Render
import Verif.Spec.Reported
import Verif.Spec.Sampler
import Verif.Spec.Sanity
import Verif.Spec.SanityConvert
import Verif.Spec.SavedCut
import Verif.Spec.Scatter
import Verif.Spec.Several
import Verif.Spec.Shared
import Verif.Spec.Single
import Verif.Spec.SpeedsExactly
import Verif.Spec.Stack
import Verif.Spec.Superposition
import Verif.Spec.Synthetic
import Verif.Spec.Timed
import Verif.Spec.Types
import Verif.Spec.Units
import Verif.Spec.Unreadable
import Verif.Spec.Unseen
import Verif.Spec.Variation
import Verif.Spec.Whole
