import Verif.Core.BodyModel
import Verif.Core.BodyProps
import Verif.Core.CloneModel
import Verif.Core.CloneProps
import Verif.Core.Closed
import Verif.Core.ComposeProps
import Verif.Core.ContentProps
import Verif.Core.Detach
import Verif.Core.DetachProps
import Verif.Core.EnvEffects
import Verif.Core.EnvLemmas
import Verif.Core.EnvModel
import Verif.Core.EventLog
import Verif.Core.EventModel
import Verif.Core.EventProps
import Verif.Core.FilterModel
import Verif.Core.FilterProps
import Verif.Core.FrameProps
import Verif.Core.IdProps
import Verif.Core.JacobianLemmas
import Verif.Core.JacobianModel
import Verif.Core.JacobianProps
import Verif.Core.LinkLemmas
import Verif.Core.LinkProps
import Verif.Core.ListLemmas
import Verif.Core.QueueLemmas
import Verif.Core.QueueProps
import Verif.Core.Reach
import Verif.Core.ReentryModel
import Verif.Core.ReentryProps
import Verif.Core.ReplicaProps
import Verif.Core.Safe
import Verif.Core.TransferProps
import Verif.Core.TransformModel
import Verif.Core.TransformProps
import Verif.Core.TypedModel
import Verif.Core.TypedProps
import Verif.Core.Witness
import Verif.Grid.FitModel
import Verif.Grid.FitProps
import Verif.Grid.GridModel
import Verif.Grid.GridProps
import Verif.Grid.ListGridLemmas
import Verif.Grid.ListGridModel
import Verif.Grid.ListGridMove
import Verif.Grid.ListGridProps
import Verif.Grid.MLSFile
import Verif.Grid.MLSModel
import Verif.Grid.MLSProps
import Verif.Grid.MLSWeight
import Verif.Grid.PatchModel
import Verif.Grid.PatchProps
import Verif.Grid.RectGeom
import Verif.Grid.RectLemmas
import Verif.Grid.RectModel
import Verif.Grid.RectProps
import Verif.Grid.RectRows
import Verif.Grid.RectsModel
import Verif.Grid.RectsProps
import Verif.Icp.AlignModel
import Verif.Icp.AlignProps
import Verif.Icp.EdgeModel
import Verif.Icp.EdgeProps
import Verif.Icp.GoldenEnds
import Verif.Icp.GoldenModel
import Verif.Icp.GoldenProps
import Verif.Icp.HistogramModel
import Verif.Icp.HistogramProps
import Verif.Icp.LocalizationModel
import Verif.Icp.LocalizationProps
import Verif.Icp.PairsLemmas
import Verif.Icp.PairsModel
import Verif.Icp.PairsProps
import Verif.Icp.RansacModel
import Verif.Icp.RansacProps
import Verif.Icp.StabilityModel
import Verif.Icp.StabilityProps
import Verif.Maps.AlignedModel
import Verif.Maps.AlignedProps
import Verif.Maps.CloudCopyModel
import Verif.Maps.CloudCopyProps
import Verif.Maps.CloudFilesModel
import Verif.Maps.CloudFilesProps
import Verif.Maps.CloudTextModel
import Verif.Maps.CloudTextProps
import Verif.Maps.CombinedModel
import Verif.Maps.CombinedProps
import Verif.Maps.DecimalModel
import Verif.Maps.DecimalProps
import Verif.Maps.DeepModel
import Verif.Maps.DeepProps
import Verif.Maps.ElevationGridModel
import Verif.Maps.ElevationGridProps
import Verif.Maps.GridSaveModel
import Verif.Maps.GridSaveProps
import Verif.Maps.HandleModel
import Verif.Maps.HandleProps
import Verif.Maps.ImageModel
import Verif.Maps.ImageProps
import Verif.Maps.ImportModel
import Verif.Maps.ImportProps
import Verif.Maps.KeyPointModel
import Verif.Maps.KeyPointProps
import Verif.Maps.MapSetModel
import Verif.Maps.MapSetProps
import Verif.Maps.MetaLemmas
import Verif.Maps.MetaModel
import Verif.Maps.MetaProps
import Verif.Maps.NormalModel
import Verif.Maps.NormalProps
import Verif.Maps.PlyModel
import Verif.Maps.PlyProps
import Verif.Maps.PolyLifeModel
import Verif.Maps.PolyLifeProps
import Verif.Maps.PolygonModel
import Verif.Maps.PolygonProps
import Verif.Maps.QueryModel
import Verif.Maps.QueryProps
import Verif.Maps.RasterLemmas
import Verif.Maps.RasterModel
import Verif.Maps.RasterProps
import Verif.Maps.ScanFileModel
import Verif.Maps.ScanFileProps
import Verif.Maps.SegmentModel
import Verif.Maps.SegmentProps
import Verif.Maps.TravCellModel
import Verif.Maps.TravCellProps
import Verif.Maps.TravModel
import Verif.Maps.TravProps
import Verif.Maps.TravRectModel
import Verif.Maps.TravRectProps
import Verif.Ops.CloudModel
import Verif.Ops.CloudProps
import Verif.Ops.ConvertModel
import Verif.Ops.ConvertProps
import Verif.Ops.DirtyModel
import Verif.Ops.DirtyProps
import Verif.Ops.ElevationModel
import Verif.Ops.ElevationProps
import Verif.Ops.FoldModel
import Verif.Ops.FoldProps
import Verif.Ops.GrassfireModel
import Verif.Ops.GrassfireProps
import Verif.Ops.GrowModel
import Verif.Ops.GrowProps
import Verif.Ops.IlluminationModel
import Verif.Ops.IlluminationProps
import Verif.Ops.InclineModel
import Verif.Ops.InclineProps
import Verif.Ops.InitModel
import Verif.Ops.InitProps
import Verif.Ops.KindleModel
import Verif.Ops.KindleProps
import Verif.Ops.MeshLemmas
import Verif.Ops.MeshModel
import Verif.Ops.MeshProps
import Verif.Ops.NarrowProps
import Verif.Ops.ProjectionModel
import Verif.Ops.ProjectionProps
import Verif.Ops.ScanModel
import Verif.Ops.ScanProps
import Verif.Ops.SettingsModel
import Verif.Ops.SettingsProps
import Verif.Ops.SimpleModel
import Verif.Ops.SimpleProps
import Verif.Ops.SimplifyModel
import Verif.Ops.SimplifyProps
import Verif.Ops.SlopeModel
import Verif.Ops.SlopeProps
import Verif.Ops.SurfaceModel
import Verif.Ops.SurfaceProps
import Verif.Ops.ToCloudModel
import Verif.Ops.ToCloudProps
import Verif.Ops.UpdateModel
import Verif.Ops.UpdateProps
import Verif.Serial.BinaryModel
import Verif.Serial.BinaryProps
import Verif.Serial.ClassModel
import Verif.Serial.ClassProps
import Verif.Serial.ContextProps
import Verif.Serial.FileLemmas
import Verif.Serial.FileModel
import Verif.Serial.FileProps
import Verif.Serial.LenientLemmas
import Verif.Serial.MatrixModel
import Verif.Serial.MatrixProps
import Verif.Serial.PullProps
import Verif.Serial.SyncModel
import Verif.Serial.SyncProps
import Verif.Tools.AccessModel
import Verif.Tools.AccessProps
import Verif.Tools.BoxProps
import Verif.Tools.BresenhamModel
import Verif.Tools.BresenhamProps
import Verif.Tools.CreateModel
import Verif.Tools.CreateProps
import Verif.Tools.DeleteModel
import Verif.Tools.DeleteProps
import Verif.Tools.DeriveModel
import Verif.Tools.DeriveProps
import Verif.Tools.DotModel
import Verif.Tools.DotProps
import Verif.Tools.GridArgsModel
import Verif.Tools.GridArgsProps
import Verif.Tools.IcpToolModel
import Verif.Tools.IcpToolProps
import Verif.Tools.KMeansModel
import Verif.Tools.KMeansProps
import Verif.Tools.LookupModel
import Verif.Tools.LookupProps
import Verif.Tools.MixtureModel
import Verif.Tools.MixtureProps
import Verif.Tools.MlsToolModel
import Verif.Tools.MlsToolProps
import Verif.Tools.NearCloudModel
import Verif.Tools.NearCloudProps
import Verif.Tools.NoiseModel
import Verif.Tools.NoiseProps
import Verif.Tools.OpToolModel
import Verif.Tools.OpToolProps
import Verif.Tools.RubyMapModel
import Verif.Tools.RubyMapProps
import Verif.Tools.SlamModel
import Verif.Tools.SlamProps
import Verif.Tools.ToolArgsModel
import Verif.Tools.ToolArgsProps
import Verif.Tools.ToolMapsModel
import Verif.Tools.ToolMapsProps
import Verif.Tools.VoxelLemmas
import Verif.Tools.VoxelModel
import Verif.Tools.VoxelProps
import Verif.Viz.AddModel
import Verif.Viz.AddProps
import Verif.Viz.BoxModel
import Verif.Viz.BoxProps
import Verif.Viz.CloudViewModel
import Verif.Viz.CloudViewProps
import Verif.Viz.DialModel
import Verif.Viz.DialProps
import Verif.Viz.DispatchModel
import Verif.Viz.DispatchProps
import Verif.Viz.DraggerModel
import Verif.Viz.DraggerProps
import Verif.Viz.GridViewModel
import Verif.Viz.GridViewProps
import Verif.Viz.HandlesModel
import Verif.Viz.HandlesProps
import Verif.Viz.HeightViewModel
import Verif.Viz.HeightViewProps
import Verif.Viz.HighlightModel
import Verif.Viz.HighlightProps
import Verif.Viz.PatchBoxProps
import Verif.Viz.PatchModel
import Verif.Viz.PatchProps
import Verif.Viz.RemoveModel
import Verif.Viz.RemoveProps
import Verif.Viz.ScanAddModel
import Verif.Viz.ScanAddProps
import Verif.Viz.ScanViewModel
import Verif.Viz.ScanViewProps
import Verif.Viz.ShownModel
import Verif.Viz.ShownProps
import Verif.Viz.TreeModel
import Verif.Viz.TreeProps
import Verif.Viz.ViewModel
import Verif.Viz.ViewProps
import Verif.Viz.WindowModel
import Verif.Viz.WindowProps
