import Verif.Basic
import Verif.CsrModel
import Verif.CsrSpec
import Verif.CsrLemmas
import Verif.CsrProps
import Verif.MeshModel
import Verif.MeshSpec
import Verif.MeshLemmas
import Verif.MeshUpdLemmas
import Verif.MeshWfLemmas
import Verif.MeshGetLemmas
import Verif.MeshProps
import Verif.ForestModel
import Verif.ForestSpec
import Verif.ForestLemmas
import Verif.ForestProps
import Verif.ActiveModel
import Verif.ActiveSpec
import Verif.ActiveLemmas
import Verif.ActiveProps
import Verif.GraphModel
import Verif.GraphSpec
import Verif.GraphLemmas
import Verif.GraphLemmas2
import Verif.GraphLemmas3
import Verif.GraphProps
import Verif.MetisModel
import Verif.MetisSpec
import Verif.MetisLemmas
import Verif.MetisLemmas2
import Verif.MetisProps
import Verif.StringModel
import Verif.StringLemmas
import Verif.StringProps
import Verif.ConfigModel
import Verif.ConfigSpec
import Verif.ConfigLemmas
import Verif.ConfigProps
import Verif.CompareModel
import Verif.CompareProps
import Verif.UnionModel
import Verif.UnionSpec
import Verif.UnionLemmas
import Verif.UnionProps
import Verif.GeomModel
import Verif.MapModel
import Verif.MapSpec
import Verif.MapLemmas
import Verif.MapProps
import Verif.PolygonModel
import Verif.PolygonSpec
import Verif.PolygonLemmas
import Verif.PolygonProps
import Verif.ConcatModel
import Verif.ConcatSpec
import Verif.ConcatLemmas
import Verif.ConcatProps
import Verif.EdgeModel
import Verif.EdgeSpec
import Verif.EdgeLemmas
import Verif.EdgeProps
import Verif.NeighModel
import Verif.NeighSpec
import Verif.NeighLemmas
import Verif.NeighLemmas2
import Verif.NeighProps
import Verif.CommonModel
import Verif.CommonSpec
import Verif.CommonLemmas
import Verif.CommonProps
import Verif.SplitModel
import Verif.SplitSpec
import Verif.SplitLemmas
import Verif.SplitProps
import Verif.Split3Model
import Verif.Split3Spec
import Verif.Split3Lemmas
import Verif.Split3Props
import Verif.DataSpec
import Verif.DataLemmas
import Verif.RectModel
import Verif.RectSpec
import Verif.RectLemmas
import Verif.RectLemmas2
import Verif.RectProps
import Verif.FillModel
import Verif.FillSpec
import Verif.FillLemmas
import Verif.FillProps
import Verif.ExtractModel
import Verif.ExtractSpec
import Verif.ExtractLemmas
import Verif.ExtractLemmas2
import Verif.ExtractProps
import Verif.QuadTabSegment
import Verif.QuadTabTriangle
import Verif.QuadTabSquare
import Verif.QuadTabTetra
import Verif.QuadTabTetraPos
import Verif.QuadTabHexa
import Verif.QuadModel
import Verif.QuadSpec
import Verif.QuadIntegrals
import Verif.QuadLemmas
import Verif.QuadFactsSegment
import Verif.QuadFactsTriangle
import Verif.QuadFactsTriangle2
import Verif.QuadFactsTetra
import Verif.QuadFactsTetraPos
import Verif.QuadFactsProduct
import Verif.QuadProps
import Verif.IntersectModel
import Verif.IntersectSpec
import Verif.IntersectLemmas
import Verif.IntersectProps
import Verif.PointPosModel
import Verif.PointPosSpec
import Verif.PointPosLemmas
import Verif.PointPosProps
import Verif.PointBoxLemmas
import Verif.PointBoxProps
import Verif.LPModel
import Verif.LPSpec
import Verif.LPLemmas
import Verif.LPLemmas2
import Verif.LPPrepLemmas
import Verif.LPPrepLemmas2
import Verif.LPPrepLemmas3
import Verif.LPPrepLemmas4
import Verif.LPProps
import Verif.ChebyshevLemmas
import Verif.ChebyshevProps
import Verif.OverlapModel
import Verif.OverlapSpec
import Verif.OverlapLemmas
import Verif.OverlapProps
import Verif.CoordsModel
import Verif.CoordsSpec
import Verif.CoordsLemmas
import Verif.CoordsProps
import Verif.PlaneModel
import Verif.PlaneSpec
import Verif.PlaneProps
import Verif.HullModel
import Verif.HullSpec
import Verif.HullLemmas
import Verif.HullScanLemmas
import Verif.HullScanLemmas2
import Verif.HullModelLemmas
import Verif.HullModelLemmas2
import Verif.HullProps
import Verif.OrientModel
import Verif.OrientProps
import Verif.EarModel
import Verif.EarSpec
import Verif.EarCycleLemmas
import Verif.EarThinLemmas
import Verif.EarModelLemmas
import Verif.EarWindLemmas
import Verif.EarRunLemmas
import Verif.EarRunLemmas2
import Verif.EarProps
import Verif.CutModel
import Verif.CutSpec
import Verif.CutLemmas
import Verif.CutProps
import Verif.BisectModel
import Verif.BisectSpec
import Verif.BisectLemmas
import Verif.BisectStepLemmas
import Verif.BisectConfLemmas
import Verif.BisectRunLemmas
import Verif.BisectAreaLemmas
import Verif.BisectProps
import Verif.CheckModel
import Verif.CheckSpec
import Verif.CheckLemmas
import Verif.CheckRunLemmas
import Verif.CheckConvexLemmas
import Verif.CheckAnswerLemmas
import Verif.CheckProps
import Verif.FromPolygonModel
import Verif.FromPolygonSpec
import Verif.FromPolygonLemmas
import Verif.FromPolygonProps
import Verif.MarkModel
import Verif.MarkSpec
import Verif.MarkLemmas
import Verif.MarkProps
import Verif.MomentProps
import Verif.GeoDataProps
import Verif.DualProps
import Verif.SolidProps
import Verif.VolumeModel
import Verif.VolumeSpec
import Verif.VolumeLemmas
import Verif.VolumeLemmas2
import Verif.VolumeProps
import Verif.NormalModel
import Verif.NormalSpec
import Verif.NormalLemmas
import Verif.NormalProps
import Verif.AlignModel
import Verif.AlignSpec
import Verif.AlignLemmas
import Verif.AlignLemmas2
import Verif.AlignLemmas3
import Verif.AlignLemmas4
import Verif.AlignLemmas5
import Verif.AlignProps
import Verif.FindModel
import Verif.FindSpec
import Verif.FindLemmas
import Verif.FindProps
import Verif.VtkModel
import Verif.VtkSpec
import Verif.VtkLemmas
import Verif.VtkProps
import Verif.CombModel
import Verif.CombSpec
import Verif.CombLemmas
import Verif.CombProps
import Verif.LinePosProps
import Verif.PolyMarkProps
import Verif.JoinModel
import Verif.JoinSpec
import Verif.JoinLemmas
import Verif.JoinProps
import Verif.MergeModel
import Verif.MergeSpec
import Verif.MergeLemmas
import Verif.MergeProps
import Verif.ChordModel
import Verif.ChordSpec
import Verif.ChordLemmas
import Verif.ChordPathLemmas
import Verif.ChordAreaLemmas
import Verif.ChordProps
import Verif.PassModel
import Verif.PassSpec
import Verif.PassLemmas
import Verif.PassProps
import Verif.SideCheckModel
import Verif.SideCheckSpec
import Verif.SideCheckLemmas
import Verif.SideCheckProps
import Verif.DirectionModel
import Verif.DirectionSpec
import Verif.DirectionLemmas
import Verif.DirectionProps
import Verif.DirCutSpec
import Verif.DirBackLemmas
import Verif.DirCutLemmas
import Verif.DirDefLemmas
import Verif.DirCutPathLemmas
import Verif.DirCutProps
import Verif.CheckRefProps
import Verif.FanProps
import Verif.FanMeshProps
import Verif.PlaneMarkProps
import Verif.CutLineProps
import Verif.EdgeLabelProps
import Verif.QuadMeshModel
import Verif.QuadMeshSpec
import Verif.QuadMeshLemmas
import Verif.QuadMeshLemmas2
import Verif.QuadMeshProps
import Verif.Pass3Model
import Verif.Pass3Spec
import Verif.Pass3Lemmas
import Verif.Pass3RunLemmas
import Verif.Pass3Props
import Verif.FilePathModel
import Verif.FilePathSpec
import Verif.FilePathLemmas
import Verif.FilePathProps
import Verif.OffModel
import Verif.OffSpec
import Verif.OffLemmas
import Verif.OffProps
import Verif.ObjModel
import Verif.ObjSpec
import Verif.ObjLemmas
import Verif.ObjProps
import Verif.OvmModel
import Verif.OvmSpec
import Verif.OvmLemmas
import Verif.OvmProps
import Verif.OvmTextModel
import Verif.OvmTextSpec
import Verif.OvmTextLemmas
import Verif.OvmTextProps
import Verif.FromPolyhedronModel
import Verif.FromPolyhedronSpec
import Verif.FromPolyhedronLemmas
import Verif.FromPolyhedronProps
import Verif.SegPairsModel
import Verif.SegPairsSpec
import Verif.SegPairsLemmas
import Verif.SegPairsProps
import Verif.VtpModel
import Verif.VtpSpec
import Verif.VtpLemmas
import Verif.VtpProps
import Verif.CutEndsModel
import Verif.CutEndsSpec
import Verif.CutEndsLemmas
import Verif.CutEndsProps
import Verif.ConformPointsModel
import Verif.ConformPointsSpec
import Verif.ConformPointsLemmas
import Verif.ConformPointsProps
import Verif.DropModel
import Verif.DropSpec
import Verif.DropLemmas
import Verif.DropProps
import Verif.UcdModel
import Verif.UcdSpec
import Verif.UcdLemmas
import Verif.UcdProps
