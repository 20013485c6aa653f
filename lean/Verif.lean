import Verif.Box.Lemmas
import Verif.Box.Model
import Verif.Box.Props
import Verif.Box.Spec
import Verif.Domain.ApartLemmas
import Verif.Domain.AxisLemmas
import Verif.Domain.FoldLemmas
import Verif.Domain.Lemmas
import Verif.Domain.Model
import Verif.Domain.Props
import Verif.Domain.RegionLemmas
import Verif.Domain.Spec
import Verif.Domain.TotalLemmas
import Verif.Frontend.ArrangeExpr
import Verif.Frontend.ArrangeExprKeywords
import Verif.Frontend.ArrangeExprLemmas
import Verif.Frontend.ArrangeExprParts
import Verif.Frontend.ArrangeExprProps
import Verif.Frontend.ArrangeExprSpec
import Verif.Frontend.ArrangeExprWhole
import Verif.Frontend.Casino
import Verif.Frontend.CasinoEnv
import Verif.Frontend.CasinoEnvLemmas
import Verif.Frontend.CasinoEnvProps
import Verif.Frontend.CasinoLemmas
import Verif.Frontend.CasinoProps
import Verif.Frontend.Input
import Verif.Frontend.InputBasics
import Verif.Frontend.InputFiles
import Verif.Frontend.InputMoves
import Verif.Frontend.InputParams
import Verif.Frontend.InputProps
import Verif.Frontend.InputRuns
import Verif.Frontend.InputSpec
import Verif.Frontend.InputValues
import Verif.Frontend.InputWhole
import Verif.Frontend.Loader
import Verif.Frontend.LoaderLemmas
import Verif.Frontend.LoaderNamed
import Verif.Frontend.LoaderProps
import Verif.Frontend.LoaderSpec
import Verif.Frontend.Observ
import Verif.Frontend.ObservLemmas
import Verif.Frontend.ObservProps
import Verif.Frontend.ObservSpec
import Verif.Frontend.ObservWhole
import Verif.Frontend.Outputs
import Verif.Frontend.OutputsLemmas
import Verif.Frontend.OutputsProps
import Verif.Frontend.OutputsSpec
import Verif.Frontend.PreviewFile
import Verif.Frontend.PreviewFileProps
import Verif.Frontend.PreviewFileSpec
import Verif.Frontend.RelaxProps
import Verif.Frontend.ShapeClasses
import Verif.Frontend.ShapeClassesCustom
import Verif.Frontend.ShapeClassesLemmas
import Verif.Frontend.ShapeClassesParts
import Verif.Frontend.ShapeClassesProps
import Verif.Frontend.ShapeClassesReads
import Verif.Frontend.ShapeClassesSpec
import Verif.Frontend.ShapeExpr
import Verif.Frontend.ShapeExprLemmas
import Verif.Frontend.ShapeExprProps
import Verif.Frontend.ShapeExprSpec
import Verif.Frontend.StepsProps
import Verif.Frontend.WholeInput
import Verif.Frontend.WholeInputLemmas
import Verif.Frontend.WholeInputProps
import Verif.Frontend.WholeInputSpec
import Verif.Geometry.Mesh
import Verif.Geometry.MeshProps
import Verif.Geometry.MeshSpec
import Verif.Geometry.Rotation
import Verif.Geometry.RotationLemmas
import Verif.Geometry.RotationProps
import Verif.Geometry.RotationSpec
import Verif.Geometry.Segment
import Verif.Geometry.SegmentLemmas
import Verif.Geometry.SegmentProps
import Verif.Geometry.SegmentSpec
import Verif.Geometry.Xeno
import Verif.Geometry.XenoBodyLemmas
import Verif.Geometry.XenoBodySpec
import Verif.Geometry.XenoBuilder
import Verif.Geometry.XenoBuilderLemmas
import Verif.Geometry.XenoBuilderProps
import Verif.Geometry.XenoBuilderSpec
import Verif.Geometry.XenoFlatProps
import Verif.Geometry.XenoLemmas
import Verif.Geometry.XenoOperationProps
import Verif.Geometry.XenoPrimitiveProps
import Verif.Geometry.XenoProps
import Verif.Geometry.XenoSpec
import Verif.Geometry.XenoViolations
import Verif.Grid.GridLemmas
import Verif.Grid.IndexLemmas
import Verif.Grid.ListLemmas
import Verif.Grid.Model
import Verif.Grid.PairLemmas
import Verif.Grid.Props
import Verif.Grid.Spec
import Verif.Grid.SpecLemmas
import Verif.IO.Bytes
import Verif.IO.BytesLemmas
import Verif.IO.Collector
import Verif.IO.CollectorLemmas
import Verif.IO.CollectorProps
import Verif.IO.CollectorSpec
import Verif.IO.CrashLemmas
import Verif.IO.LinesLemmas
import Verif.IO.LinesProps
import Verif.IO.LinesSpec
import Verif.IO.ObsLemmas
import Verif.IO.PlayLemmas
import Verif.IO.Ramsnap
import Verif.IO.Ramtrj
import Verif.IO.SnapLemmas
import Verif.IO.SnapProps
import Verif.IO.SnapSpec
import Verif.IO.Text
import Verif.IO.TextFile
import Verif.IO.TextLemmas
import Verif.IO.TornLemmas
import Verif.IO.TrajLemmas
import Verif.IO.TrajMode
import Verif.IO.TrajModeLemmas
import Verif.IO.TrajModeProps
import Verif.IO.TrajModeSpec
import Verif.IO.TrajProps
import Verif.IO.TrajSpec
import Verif.IO.Wolfram
import Verif.IO.WolframProps
import Verif.IO.WolframSpec
import Verif.IO.Xyz
import Verif.IO.XyzLemmas
import Verif.Lattice.Arrange
import Verif.Lattice.ArrangeLemmas
import Verif.Lattice.ArrangePackProps
import Verif.Lattice.ArrangeProps
import Verif.Lattice.ArrangeSpec
import Verif.Lattice.BinLemmas
import Verif.Lattice.CellOpt
import Verif.Lattice.CellOptProps
import Verif.Lattice.ColumnProps
import Verif.Lattice.Distance
import Verif.Lattice.DistanceLemmas
import Verif.Lattice.DistanceProps
import Verif.Lattice.DistanceSpec
import Verif.Lattice.Factory
import Verif.Lattice.FactoryProps
import Verif.Lattice.LayerLemmas
import Verif.Lattice.LayerOpt
import Verif.Lattice.LayerOptDemo
import Verif.Lattice.LayerOptLemmas
import Verif.Lattice.LayerOptProps
import Verif.Lattice.LayerOptSpec
import Verif.Lattice.LayerProps
import Verif.Lattice.LegacyOrthorhombic
import Verif.Lattice.LegacyOrthorhombicProps
import Verif.Lattice.LegacyOrthorhombicSpec
import Verif.Lattice.Lemmas
import Verif.Lattice.Model
import Verif.Lattice.NormLemmas
import Verif.Lattice.Orthorhombic
import Verif.Lattice.OrthorhombicProps
import Verif.Lattice.OrthorhombicSpec
import Verif.Lattice.PopProps
import Verif.Lattice.Props
import Verif.Lattice.RandomProps
import Verif.Lattice.Spec
import Verif.Lattice.Transform
import Verif.Lattice.TransformSpec
import Verif.Observables.AveragedProps
import Verif.Observables.Bond
import Verif.Observables.BondProps
import Verif.Observables.BondSpec
import Verif.Observables.BondValue
import Verif.Observables.BuilderLemmas
import Verif.Observables.BuilderProps
import Verif.Observables.Correlation
import Verif.Observables.CorrelationProps
import Verif.Observables.CorrelationSpec
import Verif.Observables.Density
import Verif.Observables.DensityProps
import Verif.Observables.DensitySpec
import Verif.Observables.Evolution
import Verif.Observables.EvolutionProps
import Verif.Observables.EvolutionSpec
import Verif.Observables.Fourier
import Verif.Observables.FourierLemmas
import Verif.Observables.FourierPeaks
import Verif.Observables.FourierProps
import Verif.Observables.FourierSpace
import Verif.Observables.FourierSpec
import Verif.Observables.Histogram
import Verif.Observables.HistogramLemmas
import Verif.Observables.HistogramProps
import Verif.Observables.HistogramSpec
import Verif.Observables.Nematic
import Verif.Observables.NematicProps
import Verif.Observables.NematicSpec
import Verif.Observables.PairsAverage
import Verif.Observables.PairsProps
import Verif.Observables.ShapeFunctions
import Verif.Observables.Smectic
import Verif.Observables.SmecticProps
import Verif.Observables.SmecticSpec
import Verif.Observables.Thermo
import Verif.Observables.ThermoProps
import Verif.Observables.View
import Verif.Outcome
import Verif.OutcomeLemmas
import Verif.Packing.AcceptLemmas
import Verif.Packing.CountLemmas
import Verif.Packing.DeltaLemmas
import Verif.Packing.Demo
import Verif.Packing.History
import Verif.Packing.HistoryLemmas
import Verif.Packing.ImageLemmas
import Verif.Packing.InvLemmas
import Verif.Packing.LookLemmas
import Verif.Packing.Model
import Verif.Packing.ObsLemmas
import Verif.Packing.OrthoLemmas
import Verif.Packing.PropSpec
import Verif.Packing.Props
import Verif.Packing.RebuildLemmas
import Verif.Packing.RenormLemmas
import Verif.Packing.RenormProps
import Verif.Packing.RenormSpec
import Verif.Packing.ScaleLemmas
import Verif.Packing.Sched
import Verif.Packing.SchedLemmas
import Verif.Packing.Spec
import Verif.Packing.StateLemmas
import Verif.Packing.SumLemmas
import Verif.Packing.TotalLemmas
import Verif.Packing.TryLemmas
import Verif.Packing.UpscaleLemmas
import Verif.Packing.UpscaleProps
import Verif.Packing.UpscaleSpec
import Verif.Packing.Violations
import Verif.Packing.WallLemmas
import Verif.Packing.WallProps
import Verif.Packing.WallSpec
import Verif.Param.IndepLemmas
import Verif.Param.Lemmas
import Verif.Param.Model
import Verif.Param.Props
import Verif.Param.Spec
import Verif.Pyon.AlternativeLemmas
import Verif.Pyon.BindingLemmas
import Verif.Pyon.CanonicalLemmas
import Verif.Pyon.CompleteLemmas
import Verif.Pyon.FloatLemmas
import Verif.Pyon.LexLemmas
import Verif.Pyon.Matcher
import Verif.Pyon.MatcherLemmas
import Verif.Pyon.MatcherProps
import Verif.Pyon.MatcherSpec
import Verif.Pyon.NumberLemmas
import Verif.Pyon.Parser
import Verif.Pyon.ParserProps
import Verif.Pyon.ParserSpec
import Verif.Pyon.SoundLemmas
import Verif.Pyon.StepLemmas
import Verif.Shapes.Axes
import Verif.Shapes.AxesProps
import Verif.Shapes.AxesSpec
import Verif.Shapes.Banana
import Verif.Shapes.BananaLemmas
import Verif.Shapes.BananaProps
import Verif.Shapes.BananaRodLemmas
import Verif.Shapes.BananaRodProps
import Verif.Shapes.BananaRodVolume
import Verif.Shapes.BananaRods
import Verif.Shapes.BananaSector
import Verif.Shapes.BananaVolume
import Verif.Shapes.Composite
import Verif.Shapes.CompositeLemmas
import Verif.Shapes.CompositeProps
import Verif.Shapes.CompositeProps2
import Verif.Shapes.CompositeProps3
import Verif.Shapes.CompositeProps4
import Verif.Shapes.FillDemo
import Verif.Shapes.FillLemmas
import Verif.Shapes.FillProps
import Verif.Shapes.Hard
import Verif.Shapes.HardLemmas
import Verif.Shapes.HardProps
import Verif.Shapes.HardRangeProps
import Verif.Shapes.HardRodProps
import Verif.Shapes.HardSpec
import Verif.Shapes.HardWallProps
import Verif.Shapes.PlacedVolume
import Verif.Shapes.Soft
import Verif.Shapes.SoftProps
import Verif.Shapes.VolumeLemmas
import Verif.Shapes.VolumeRow
import Verif.Shapes.VolumeSpec
import Verif.Shapes.Wedge
import Verif.Shapes.WedgeLemmas
import Verif.Shapes.WedgeParts
import Verif.Shapes.WedgeProps
import Verif.Shapes.WedgeProps2
import Verif.Shapes.WedgeProps3
import Verif.Shapes.WedgeSpec
import Verif.Shapes.WedgeVolume
import Verif.Shapes.WedgeVolume2
import Verif.Shapes.Whole
import Verif.Sim.ChoiceProps
import Verif.Sim.ClearLemmas
import Verif.Sim.CompleteLemmas
import Verif.Sim.CycleLemmas
import Verif.Sim.Demo
import Verif.Sim.Direction
import Verif.Sim.DivideLemmas
import Verif.Sim.DivideProps
import Verif.Sim.DivideSpec
import Verif.Sim.EnvProps
import Verif.Sim.IntegrateLemmas
import Verif.Sim.KeepLemmas
import Verif.Sim.KeepProps
import Verif.Sim.LiveLemmas
import Verif.Sim.LiveSpec
import Verif.Sim.LogSpec
import Verif.Sim.MetroProps
import Verif.Sim.MetroSpec
import Verif.Sim.MirrorLemmas
import Verif.Sim.MirrorProps
import Verif.Sim.Model
import Verif.Sim.MoveLemmas
import Verif.Sim.OrientLemmas
import Verif.Sim.OrientSpec
import Verif.Sim.Par
import Verif.Sim.ParDemo
import Verif.Sim.ParLemmas
import Verif.Sim.ParLocal
import Verif.Sim.ParProps
import Verif.Sim.ParRun
import Verif.Sim.ParSeq
import Verif.Sim.ParSteps
import Verif.Sim.Random
import Verif.Sim.RelaxLemmas
import Verif.Sim.RelaxTotal
import Verif.Sim.ReportLemmas
import Verif.Sim.RunLemmas
import Verif.Sim.RunProps
import Verif.Sim.Sampler
import Verif.Sim.SamplerLemmas
import Verif.Sim.Scaler
import Verif.Sim.ScalerLemmas
import Verif.Sim.ScalerProps
import Verif.Sim.ScalerSpec
import Verif.Sim.ScheduleLemmas
import Verif.Sim.SoundLemmas
import Verif.Sim.StepProps
import Verif.Sim.ThermoLemmas
import Verif.Sim.ThermoSpec
import Verif.Sim.TotalLemmas
import Verif.Utils.Config
import Verif.Utils.ConfigLemmas
import Verif.Utils.ConfigProps
import Verif.Utils.ConfigSpec
import Verif.Utils.FoldLemmas
import Verif.Utils.FoldProps
import Verif.Utils.Strings
import Verif.Utils.StringsLemmas
import Verif.Utils.StringsProps
import Verif.Utils.StringsSpec
import Verif.Utils.VersionProps
import Verif.Vec3
