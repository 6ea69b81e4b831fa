import Verif.Model.PyDict
import Verif.Props.Paths
import Verif.Props.HandlerDisk
import Verif.Props.SnapMeta
import Verif.Props.Format
import Verif.Props.GridGeometry
import Verif.Props.GridPad
import Verif.Props.GridCrop
import Verif.Props.GridScale
import Verif.Props.GridCopy
import Verif.Props.GridOps
import Verif.Props.GridAdd
import Verif.Props.GridSpec
import Verif.Props.GridFT
import Verif.Props.GridReduce
import Verif.Props.GridSphere
import Verif.Props.LightCone
import Verif.Props.LightConeEx
import Verif.Props.LightConeSky
import Verif.Props.LightConeBuild
import Verif.Props.LCAdd
import Verif.Props.LCFile
import Verif.Props.LCFileEx
import Verif.Props.LCSphere
import Verif.Props.LCSphereSky
import Verif.Props.LCSphereEx
import Verif.Props.LCVolume
import Verif.Props.LCEvo
import Verif.Props.LCIter
import Verif.Props.InstMap
import Verif.Props.InstNames
import Verif.Props.InstField
import Verif.Props.InstEx
import Verif.Props.SimAll
import Verif.Props.SimAllOps
import Verif.Props.SimAllUnits
import Verif.Props.SimAllEx
import Verif.Props.SimVolumes
import Verif.Props.FormatAlike
import Verif.Props.Loaders
import Verif.Props.RawLoaders
import Verif.Props.Tables
import Verif.Props.Match
import Verif.Props.Galprops
import Verif.Props.GalpropsCalls
import Verif.Props.LumFun
import Verif.Props.Schechter
import Verif.Props.Relation
import Verif.Props.RelationTable
import Verif.Props.RelationOptions
import Verif.Props.GalpropsExact
import Verif.Props.GridMake
import Verif.Props.GridAxes
import Verif.Props.HandlerGrid
import Verif.Props.LCGrid
import Verif.Props.LumFunEdge
import Verif.Props.RelationEdge
import Verif.Props.GridPsf
import Verif.Props.GridSpectral
import Verif.Props.GridConv
import Verif.Props.Response
import Verif.Props.GridConvChan
import Verif.Props.DetectorMap
import Verif.Props.Downloads
import Verif.Props.CleanRaw
import Verif.Props.Catalog
import Verif.Props.Behroozi
import Verif.Props.Ready
import Verif.Props.RawRead
import Verif.Props.Plots
import Verif.Props.Keys
import Verif.Props.Pictures
import Verif.Props.ConeMovie
import Verif.Props.InstPlots
import Verif.Props.GridStd
import Verif.Props.FormatRead
import Verif.Props.LCSource
import Verif.Props.LCSourceSphere
import Verif.Props.LCOpen
import Verif.Props.LCOpenSource
import Verif.Props.LCMap
import Verif.Props.LCMapEx
import Verif.Props.LCMapSource
import Verif.Props.LCCalls
import Verif.Props.LCCallsEx
import Verif.Props.BinFile
import Verif.Props.TextFile
import Verif.Props.SmfPars
import Verif.Props.Observe
import Verif.Props.LCEmpty
import Verif.Props.LosEnds
import Verif.Props.ConeObserve
import Verif.Props.ConeObserveEx
import Verif.Props.GridUnits
import Verif.Props.FormatCrash
import Verif.Props.PathsShared
import Verif.Props.PathsCrash
import Verif.Props.InstFit
import Verif.Props.HandlerShared
import Verif.Props.Places
import Verif.Props.HandlerKept
import Verif.Props.ConeLight
import Verif.Props.ConeLightEx
import Verif.Props.Spectrum
import Verif.Props.SpectrumSpace
import Verif.Props.SpectrumShells
import Verif.Props.LCSourceCrash
import Verif.Props.GalAverage
import Verif.Props.GalRelations
import Verif.Props.GalFractions
import Verif.Props.LumShapes
import Verif.Props.ReadyAverage
import Verif.Props.ReadyMap
import Verif.Props.ReadySpread
import Verif.Props.ReadyObserve
import Verif.Props.RawObserve
import Verif.Props.ReadyNoise
import Verif.Props.WhiteNoise
import Verif.Props.TotalNoise
import Verif.Props.ReadyTotal
import Verif.Props.SharedNoise
import Verif.Props.NoiseOnly
import Verif.Props.NoiseCalls
