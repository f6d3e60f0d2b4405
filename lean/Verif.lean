import Verif.Props.Threshold
import Verif.Props.ProbManip
import Verif.Props.Rescale
import Verif.Props.ECC
import Verif.Props.Interp
import Verif.Props.ProbPerc
import Verif.Props.ExpectedValue
import Verif.Props.Weights
import Verif.Props.Blend
import Verif.Props.SpatialWeights
import Verif.Props.TimeLag
import Verif.Props.Nbhood
import Verif.Props.Pad
import Verif.Props.RecursiveFilter
import Verif.Props.ReliabilityManip
import Verif.Props.ReliabilityTables
import Verif.Props.ReliabilityApply
import Verif.Props.DecisionTree
import Verif.Props.ModalCode
import Verif.Props.CubeManip
import Verif.Props.Accumulation
import Verif.Props.Combine
import Verif.Props.TemporalInterp
import Verif.Props.PrecipType
import Verif.Props.Texture
import Verif.Props.Spatial
import Verif.Props.Times
import Verif.Props.Integration
import Verif.Props.LapseRate
import Verif.Props.Spot
import Verif.Props.NbhoodMore
import Verif.Props.NbhoodPerc
import Verif.Model.Nowcast
import Verif.Model.OpticalFlow
import Verif.Props.Nowcast
import Verif.Props.RadarHoles
import Verif.Props.Lightning
import Verif.Props.OpticalFlow
import Verif.Model.Regrid
import Verif.Model.LandSea
import Verif.Props.Regrid
import Verif.Props.RegridModes
import Verif.Props.RegridMask
import Verif.Props.LandSea
import Verif.Model.Wind
import Verif.Model.WindDown
import Verif.Props.WindDirection
import Verif.Props.Wind
import Verif.Props.WindDown
import Verif.Model.NormDist
import Verif.Model.Crps
import Verif.Model.Emos
import Verif.Props.NormDist
import Verif.Props.CrpsCore
import Verif.Props.Crps
import Verif.Props.Emos
import Verif.Props.EmosApply
import Verif.Model.CalUtil
import Verif.Model.EmosOutput
import Verif.Props.CalUtil
import Verif.Props.CalMatch
import Verif.Props.EmosOutput
import Verif.Props.EmosResult
import Verif.Model.Bias
import Verif.Model.Dz
import Verif.Model.ProbName
import Verif.Model.CalSplit
import Verif.Props.Bias
import Verif.Props.Dz
import Verif.Props.ProbName
import Verif.Props.CalSplit
import Verif.Model.Psychro
import Verif.Props.Psychro
import Verif.Props.WetBulb
import Verif.Model.PhaseLevel
import Verif.Props.PhaseLevel
import Verif.Model.Hail
import Verif.Props.Hail
import Verif.Model.FeelsLike
import Verif.Props.FeelsLike
import Verif.Model.TopoZones
import Verif.Props.TopoZones
import Verif.Model.Solar
import Verif.Props.Solar
import Verif.Props.OrogEnh
import Verif.Props.Convection
import Verif.Props.Compare
import Verif.Props.TimeExtract
import Verif.Props.SpotMeta
import Verif.Props.GenMeta
import Verif.Props.AdvectLayout
import Verif.Props.GridHalo
import Verif.Props.TableSum
import Verif.Props.LaggedRun
import Verif.Props.DistanceRun
import Verif.Props.OrogLevel
import Verif.Props.EmosSites
import Verif.Props.ModeRun
import Verif.Props.SiteCheck
import Verif.Props.OrogGradient
import Verif.Props.BlendCommand
import Verif.Props.SpatialBlend
import Verif.Props.DirectionInterp
import Verif.Props.CyclesBlend
import Verif.Props.FlowCommand
import Verif.Props.FurtherRuns
import Verif.Props.LandSeaRun
import Verif.Props.SolarRun
import Verif.Props.NightMask
import Verif.Props.DownscaleRun
import Verif.Props.SteeringFlow
import Verif.Props.StandardiseRun
import Verif.Props.NowcastAccum
import Verif.Props.Synthetic
import Verif.Props.EvRun
import Verif.Props.HaloRun
import Verif.Props.PercNbRun
import Verif.Props.FurtherPrecip
import Verif.Props.WindowRun
import Verif.Props.MoistRun
import Verif.Props.LinWeightsRun
import Verif.Props.NbRun
import Verif.Props.TableRun
import Verif.Props.ShowerRun
import Verif.Props.VicinityRun
import Verif.Props.ThresholdRun
import Verif.Props.CombineRun
import Verif.Props.WholeBlend
import Verif.Props.PhaseRun
import Verif.Props.Further
import Verif.Props.HailSizeRun
import Verif.Props.LevelRun
import Verif.Props.OrogCoeff
import Verif.Props.BiasRun
import Verif.Props.RfRun
import Verif.Props.PrecipRun
import Verif.Props.AdjRun
import Verif.Props.HeightRun
import Verif.Props.RefRun
import Verif.Props.LapseRun
import Verif.Props.HailRun
import Verif.Props.Merge
import Verif.Props.ReliabilityRun
import Verif.Props.SpotRun
import Verif.Props.EmosRun
import Verif.Props.EccRun
import Verif.Props.NbLandSea
import Verif.Props.Cli
import Verif.Props.TreePoints
import Verif.Props.TreeInputsMore
import Verif.Props.InterpreterRun
import Verif.Props.Rename
import Verif.Props.DataframeCubes
import Verif.Props.PystepsNowcast
import Verif.Props.SpotBuild
import Verif.Props.Standardise
import Verif.Props.RainForests
import Verif.Props.BlendRun
import Verif.Props.BlendRecord
import Verif.Props.BlendMeta
import Verif.Props.Checker
import Verif.Props.Amend
import Verif.Props.Attributes
import Verif.Props.Extraction
import Verif.Props.FillLevels
import Verif.Props.Lightning
import Verif.Props.Save
import Verif.Props.Standards
