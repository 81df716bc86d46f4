import Verif.Aero.Aerodas
import Verif.Aero.AerodasProps
import Verif.Aero.Compress
import Verif.Aero.CompressProps
import Verif.Aero.Drag
import Verif.Aero.DragProps
import Verif.Aero.Friction
import Verif.Aero.FrictionProps
import Verif.Aero.HighLift
import Verif.Aero.HighLiftProps
import Verif.Aero.LiftChain
import Verif.Aero.LiftChainProps
import Verif.Aero.LiftingLine
import Verif.Aero.LiftingLineProps
import Verif.Aero.Parasite
import Verif.Aero.ParasiteProps
import Verif.Aero.Steps
import Verif.Aero.StepsProps
import Verif.Aero.Supersonic
import Verif.Aero.SupersonicProps
import Verif.Airfoil.BoundaryLayer
import Verif.Airfoil.BoundaryLayerProps
import Verif.Airfoil.Coordinates
import Verif.Airfoil.CoordinatesProps
import Verif.Airfoil.Extended
import Verif.Airfoil.ExtendedProps
import Verif.Airfoil.Figures
import Verif.Airfoil.FiguresProps
import Verif.Airfoil.Files
import Verif.Airfoil.FilesProps
import Verif.Airfoil.HeadStart
import Verif.Airfoil.HeadStartProps
import Verif.Airfoil.LoadProps
import Verif.Airfoil.Naca
import Verif.Airfoil.NacaProps
import Verif.Airfoil.Panel
import Verif.Airfoil.PanelField
import Verif.Airfoil.PanelProps
import Verif.Airfoil.Surfaces
import Verif.Airfoil.SurfacesProps
import Verif.Airfoil.Transition
import Verif.Avl.Deck
import Verif.Avl.DeckProps
import Verif.Avl.File
import Verif.Avl.FileProps
import Verif.Avl.Geometry
import Verif.Avl.GeometryProps
import Verif.Avl.Trim
import Verif.Avl.TrimProps
import Verif.Core.AppendProps
import Verif.Core.Attach
import Verif.Core.AttachProps
import Verif.Core.DeepProps
import Verif.Core.Extend
import Verif.Core.ExtendProps
import Verif.Core.Lemmas
import Verif.Core.Model
import Verif.Core.PackProps
import Verif.Core.Spec
import Verif.Core.TwoDim
import Verif.Core.TwoDimProps
import Verif.Core.UpdateLemmas
import Verif.Core.UpdateProps
import Verif.Costs.Industrial
import Verif.Costs.IndustrialProps
import Verif.Diffed.Lemmas
import Verif.Diffed.Model
import Verif.Diffed.Props
import Verif.Energy.AppendedOffTake
import Verif.Energy.AppendedOffTakeProps
import Verif.Energy.Battery
import Verif.Energy.BatteryProps
import Verif.Energy.BatteryVoltageProps
import Verif.Energy.Cells
import Verif.Energy.CellsProps
import Verif.Energy.Copper
import Verif.Energy.CopperProps
import Verif.Energy.Cryo
import Verif.Energy.CryoProps
import Verif.Energy.Deck
import Verif.Energy.DeckProps
import Verif.Energy.DuctedFan
import Verif.Energy.DuctedFanProps
import Verif.Energy.Electric
import Verif.Energy.ElectricProps
import Verif.Energy.GasTurbine
import Verif.Energy.GasTurbineProps
import Verif.Energy.MetalAir
import Verif.Energy.MetalAirProps
import Verif.Energy.NetworkProps
import Verif.Energy.NmcCell
import Verif.Energy.NmcCellProps
import Verif.Energy.Piston
import Verif.Energy.PistonProps
import Verif.Energy.Rocket
import Verif.Energy.RocketProps
import Verif.Energy.Scramjet
import Verif.Energy.ScramjetProps
import Verif.Energy.Sizing
import Verif.Energy.SizingProps
import Verif.Energy.Sun
import Verif.Energy.SunProps
import Verif.Energy.Wiring
import Verif.Energy.WiringProps
import Verif.Geometry.Layout
import Verif.Geometry.LayoutProps
import Verif.Geometry.Planform
import Verif.Geometry.PlanformProps
import Verif.Geometry.Sections
import Verif.Geometry.SectionsProps
import Verif.IO.Archive
import Verif.IO.ArchiveProps
import Verif.IO.AvlFolder
import Verif.IO.AvlFolderProps
import Verif.IO.AvlRun
import Verif.IO.AvlRunProps
import Verif.IO.Drawings
import Verif.IO.DrawingsProps
import Verif.IO.External
import Verif.IO.ExternalProps
import Verif.IO.FlightFigures
import Verif.IO.FlightFiguresProps
import Verif.IO.Folder
import Verif.IO.FolderProps
import Verif.IO.FreeMind
import Verif.IO.FreeMindProps
import Verif.IO.History
import Verif.IO.HistoryProps
import Verif.IO.MissionPanels
import Verif.IO.MissionPanelsProps
import Verif.IO.Plots
import Verif.IO.PlotsProps
import Verif.IO.Redirect
import Verif.IO.RedirectProps
import Verif.IO.Reports
import Verif.IO.ReportsProps
import Verif.IO.RotorPanels
import Verif.IO.RotorPanelsProps
import Verif.IO.SavedPressures
import Verif.IO.SavedPressuresProps
import Verif.IO.Tables
import Verif.IO.TablesProps
import Verif.IO.Vtk
import Verif.IO.VtkProps
import Verif.IO.VtkWakeProps
import Verif.IO.WakeFrames
import Verif.IO.WakeFramesProps
import Verif.IO.Xml
import Verif.IO.XmlProps
import Verif.Mission.AllAtOnce
import Verif.Mission.AllAtOnceProps
import Verif.Mission.AngleClimb
import Verif.Mission.AngleClimbProps
import Verif.Mission.Chain
import Verif.Mission.ChainProps
import Verif.Mission.Converge
import Verif.Mission.ConvergeProps
import Verif.Mission.Frames
import Verif.Mission.FramesProps
import Verif.Mission.Merge
import Verif.Mission.MergeProps
import Verif.Mission.PartProcess
import Verif.Mission.PartProcessProps
import Verif.Mission.Points
import Verif.Mission.PointsProps
import Verif.Mission.Process
import Verif.Mission.ProcessProps
import Verif.Mission.Profile
import Verif.Mission.ProfileProps
import Verif.Mission.ProfileProps2
import Verif.Mission.SegmentParameters
import Verif.Mission.SegmentParametersProps
import Verif.Mission.VehicleAnalyses
import Verif.Mission.VehicleAnalysesProps
import Verif.Nexus.Alias
import Verif.Nexus.AliasProps
import Verif.Nexus.Cache
import Verif.Nexus.CacheProps
import Verif.Nexus.Table
import Verif.Nexus.TableProps
import Verif.Noise.Airframe
import Verif.Noise.AirframeProps
import Verif.Noise.Certification
import Verif.Noise.EpnlProps
import Verif.Noise.Figures
import Verif.Noise.FiguresProps
import Verif.Noise.Flyover
import Verif.Noise.FlyoverProps
import Verif.Noise.Jet
import Verif.Noise.JetProps
import Verif.Noise.LevelProps
import Verif.Noise.MicrophoneProps
import Verif.Noise.Microphones
import Verif.Noise.PnlProps
import Verif.Noise.PropReport
import Verif.Noise.PropReportProps
import Verif.Noise.Propeller
import Verif.Noise.PropellerProps
import Verif.Noise.Report
import Verif.Noise.ReportProps
import Verif.Noise.RotorTotals
import Verif.Noise.RotorTotalsProps
import Verif.Noise.Segment
import Verif.Noise.ToneProps
import Verif.Noise.Tools
import Verif.Noise.WeightProps
import Verif.Noise.Weighted
import Verif.Noise.WeightedProps
import Verif.Num.Blend
import Verif.Num.BlendProps
import Verif.Num.Interp
import Verif.Num.Interp1
import Verif.Num.InterpProps
import Verif.Num.Lhs
import Verif.Num.Spectral
import Verif.Num.SpectralLemmas
import Verif.Num.SpectralProps
import Verif.Optim.Additive
import Verif.Optim.AdditiveProps
import Verif.Optim.Carpet
import Verif.Optim.CarpetProps
import Verif.Optim.Compare
import Verif.Optim.CompareProps
import Verif.Optim.Setups
import Verif.Optim.SetupsProps
import Verif.Optim.Snopt
import Verif.Optim.SnoptProps
import Verif.Optim.SurrogateFail
import Verif.Optim.SurrogateFailProps
import Verif.Optim.SurrogateFit
import Verif.Optim.SurrogateFitProps
import Verif.Optim.Swarm
import Verif.Optim.SwarmProps
import Verif.Optim.TrustRegion
import Verif.Optim.TrustRegionProps
import Verif.Ordered.Lemmas
import Verif.Ordered.Model
import Verif.Ordered.Props
import Verif.Ordered.Spec
import Verif.Performance.Estimates
import Verif.Performance.EstimatesProps
import Verif.Performance.Field
import Verif.Performance.FieldProps
import Verif.Performance.Gust
import Verif.Performance.GustProps
import Verif.Performance.PayloadRange
import Verif.Performance.PayloadRangeProps
import Verif.Performance.Vn
import Verif.Performance.VnProps
import Verif.Physics.AirGas
import Verif.Physics.AirGasProps
import Verif.Physics.Atmosphere
import Verif.Physics.AtmosphereProps
import Verif.Physics.Compositions
import Verif.Physics.CompositionsProps
import Verif.Physics.ConstTemp
import Verif.Physics.ConstTempProps
import Verif.Physics.ExitShock
import Verif.Physics.ExitShockProps
import Verif.Physics.Shock
import Verif.Physics.ShockProps
import Verif.Physics.SteamGas
import Verif.Physics.SteamGasProps
import Verif.Rotor.Blade
import Verif.Rotor.BladeDeriv
import Verif.Rotor.BladeDerivProps
import Verif.Rotor.BladeProps
import Verif.Rotor.DesignProps
import Verif.Rotor.Orientation
import Verif.Rotor.OrientationProps
import Verif.Rotor.PowerProps
import Verif.Rotor.SectionProps
import Verif.Rotor.Single
import Verif.Rotor.SingleProps
import Verif.Rotor.Upstream
import Verif.Rotor.UpstreamProps
import Verif.Rotor.VortexVelocityProps
import Verif.Rotor.VortexWake
import Verif.Rotor.VortexWakeProps
import Verif.Rotor.Wake
import Verif.Rotor.WakeProps
import Verif.Stability.FlightModes
import Verif.Stability.FlightModesProps
import Verif.Stability.ForceDerivProps
import Verif.Stability.Modes
import Verif.Stability.ModesProps
import Verif.Stability.Planform
import Verif.Stability.PlanformProps
import Verif.Stability.Static
import Verif.Stability.StaticProps
import Verif.Stability.SurfaceDerivatives
import Verif.Stability.SurfaceDerivativesProps
import Verif.Stability.ZeroDynamics
import Verif.Stability.ZeroDynamicsProps
import Verif.Units.Contexts
import Verif.Units.ContextsProps
import Verif.Units.Graph
import Verif.Units.GraphProps
import Verif.Units.Quantity
import Verif.Units.QuantityProps
import Verif.Vehicle.CgMap
import Verif.Vehicle.CgMapProps
import Verif.Vehicle.Mass
import Verif.Vehicle.MassProps
import Verif.Vlm.Analysis
import Verif.Vlm.AnalysisProps
import Verif.Vlm.BiotSavart
import Verif.Vlm.Body
import Verif.Vlm.BodyProps
import Verif.Vlm.Boundary
import Verif.Vlm.BoundaryProps
import Verif.Vlm.CopyWings
import Verif.Vlm.CopyWingsProps
import Verif.Vlm.Cuts
import Verif.Vlm.CutsProps
import Verif.Vlm.Deflect
import Verif.Vlm.DeflectProps
import Verif.Vlm.Edge
import Verif.Vlm.EdgeProps
import Verif.Vlm.Forces
import Verif.Vlm.ForcesProps
import Verif.Vlm.Horseshoe
import Verif.Vlm.HorseshoeProps
import Verif.Vlm.HorseshoeSym
import Verif.Vlm.Layout
import Verif.Vlm.LayoutProps
import Verif.Vlm.Panels
import Verif.Vlm.PanelsProps
import Verif.Vlm.PlainWing
import Verif.Vlm.PlainWingProps
import Verif.Vlm.Stations
import Verif.Vlm.StationsProps
import Verif.Vsp.Bem
import Verif.Vsp.BemProps
import Verif.Vsp.Body
import Verif.Vsp.BodyProps
import Verif.Vsp.FuselageExport
import Verif.Vsp.FuselageExportProps
import Verif.Vsp.Vehicle
import Verif.Vsp.VehicleProps
import Verif.Vsp.Wing
import Verif.Vsp.WingProps
import Verif.Weights.Bending
import Verif.Weights.BendingProps
import Verif.Weights.Buildup
import Verif.Weights.BuildupProps
import Verif.Weights.Common
import Verif.Weights.CommonProps
import Verif.Weights.Flops
import Verif.Weights.FlopsProps
import Verif.Weights.FlopsWing
import Verif.Weights.FlopsWingProps
import Verif.Weights.Light
import Verif.Weights.LightProps
import Verif.Weights.Materials
import Verif.Weights.MaterialsProps
import Verif.Weights.PartsProps
import Verif.Weights.Raymer
import Verif.Weights.RaymerItems
import Verif.Weights.RaymerItemsProps
import Verif.Weights.RaymerProps
import Verif.Weights.Solids
import Verif.Weights.SolidsProps
import Verif.Weights.TorsionBox
import Verif.Weights.TorsionBoxProps
import Verif.Weights.Transport
import Verif.Weights.TransportProps
import Verif.Weights.WebHeight
import Verif.Weights.WebHeightProps
