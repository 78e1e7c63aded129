import Verif.Audit
import Verif.Base.Binary64
import Verif.Base.Res
import Verif.Base.Scalar
import Verif.Base.Special
import Verif.Base.Vec
import Verif.Lemmas.Cost
import Verif.Lemmas.Cut
import Verif.Lemmas.LineCut
import Verif.Lemmas.LineTouch
import Verif.Lemmas.Loader
import Verif.Lemmas.Mean
import Verif.Lemmas.Mesh
import Verif.Lemmas.NearMono
import Verif.Lemmas.ObjRead
import Verif.Lemmas.Order
import Verif.Lemmas.Planar
import Verif.Lemmas.Radius
import Verif.Lemmas.RdfRead
import Verif.Lemmas.RealVec
import Verif.Lemmas.RibReal
import Verif.Lemmas.Riemann
import Verif.Lemmas.RoadArea
import Verif.Lemmas.RoadLength
import Verif.Lemmas.Rounding
import Verif.Lemmas.SegmentRound
import Verif.Lemmas.Shell
import Verif.Lemmas.Text
import Verif.Lemmas.Tree
import Verif.Lemmas.TriangleCut
import Verif.Lemmas.YawedWheel
import Verif.Model.Aabb
import Verif.Model.AabbTree
import Verif.Model.Access
import Verif.Model.Collection
import Verif.Model.CollectionStore
import Verif.Model.Cost
import Verif.Model.Edit
import Verif.Model.Entity
import Verif.Model.Geometry
import Verif.Model.Ground
import Verif.Model.Intersection
import Verif.Model.IntersectionMore
import Verif.Model.Matlab
import Verif.Model.Mesh
import Verif.Model.Mex
import Verif.Model.Predicates
import Verif.Model.Print
import Verif.Model.Rib
import Verif.Model.Sfun
import Verif.Model.Shape
import Verif.Model.Shell
import Verif.Model.ShellPose
import Verif.Model.Text
import Verif.Model.TreeDistance
import Verif.Model.Uninit
import Verif.Props.AccurateProps
import Verif.Props.AgreeProps
import Verif.Props.AngleProps
import Verif.Props.AreaProps
import Verif.Props.BallProps
import Verif.Props.BiggerProps
import Verif.Props.BoxObjectProps
import Verif.Props.BoxProps
import Verif.Props.BridgeProps
import Verif.Props.BuildProps
import Verif.Props.BuildRadiusProps
import Verif.Props.CamberProps
import Verif.Props.ClipProps
import Verif.Props.CollectionProps
import Verif.Props.CollectionStoreProps
import Verif.Props.CompareProps
import Verif.Props.CoplanarProps
import Verif.Props.CostProps
import Verif.Props.CrossFlatProps
import Verif.Props.CrossProps
import Verif.Props.CutDemo
import Verif.Props.CutProps
import Verif.Props.DispatchProps
import Verif.Props.DoubleProps
import Verif.Props.DoubleSearchProps
import Verif.Props.EditProps
import Verif.Props.EquivProps
import Verif.Props.FarVolumeProps
import Verif.Props.FileTextProps
import Verif.Props.FiniteProps
import Verif.Props.FlatProps
import Verif.Props.FollowProps
import Verif.Props.FootCamberProps
import Verif.Props.FootProps
import Verif.Props.FootprintProps
import Verif.Props.FrameProps
import Verif.Props.GatewayProps
import Verif.Props.GeomMeshProps
import Verif.Props.GroundProps
import Verif.Props.GroundVolumeDemo
import Verif.Props.GroundVolumeProps
import Verif.Props.InPlaneProps
import Verif.Props.InsideProps
import Verif.Props.IntersectProps
import Verif.Props.LoaderProps
import Verif.Props.LowerSideProps
import Verif.Props.LowerSideSunkProps
import Verif.Props.MatlabProps
import Verif.Props.MeanProps
import Verif.Props.MeasureProps
import Verif.Props.MemberProps
import Verif.Props.MeshProps
import Verif.Props.MeshWitness
import Verif.Props.MexProps
import Verif.Props.MiddleProps
import Verif.Props.MirrorProps
import Verif.Props.MoveProps
import Verif.Props.MovedProps
import Verif.Props.NaNMeshDemo
import Verif.Props.NaNMeshProps
import Verif.Props.NearProps
import Verif.Props.NormalUpProps
import Verif.Props.OffAxisProps
import Verif.Props.OneFrictionProps
import Verif.Props.OrderProps
import Verif.Props.PaintProps
import Verif.Props.ParamProps
import Verif.Props.PierceProps
import Verif.Props.PlacedMeshProps
import Verif.Props.PoseCheckProps
import Verif.Props.PrintProps
import Verif.Props.ProfileProps
import Verif.Props.RecordProps
import Verif.Props.RelationProps
import Verif.Props.RelistCornerProps
import Verif.Props.RelistMeshProps
import Verif.Props.RelistProps
import Verif.Props.RelistWallProps
import Verif.Props.RepeatedProps
import Verif.Props.RetileProps
import Verif.Props.RideProps
import Verif.Props.RoadContactDemo
import Verif.Props.RoadContactProps
import Verif.Props.RoadCutProps
import Verif.Props.RoadDoubleProps
import Verif.Props.RoadProps
import Verif.Props.RollingProps
import Verif.Props.RoundProps
import Verif.Props.RunProps
import Verif.Props.SafetyProps
import Verif.Props.SameSetProps
import Verif.Props.SamplingProps
import Verif.Props.ScriptProps
import Verif.Props.SearchProps
import Verif.Props.SectionProps
import Verif.Props.SeenProps
import Verif.Props.SegmentRoundProps
import Verif.Props.SetupProps
import Verif.Props.SfunProps
import Verif.Props.ShapeProps
import Verif.Props.ShellMoveProps
import Verif.Props.ShellProps
import Verif.Props.ShiftProps
import Verif.Props.SizeProps
import Verif.Props.SlopeProps
import Verif.Props.SmoothProps
import Verif.Props.SpatialProps
import Verif.Props.SpinProps
import Verif.Props.SuperProps
import Verif.Props.TerrainProps
import Verif.Props.TyreProps
import Verif.Props.UninitProps
import Verif.Props.UnitMeshProps
import Verif.Props.UnitProps
import Verif.Props.UnitShellProps
import Verif.Props.UntouchedProps
import Verif.Props.UpProps
import Verif.Props.VolumeProps
import Verif.Props.WholeTyreDemo
import Verif.Props.WholeTyreProps
import Verif.Spec.Box
import Verif.Spec.Calm
import Verif.Spec.CalmTyre
import Verif.Spec.Close
import Verif.Spec.Collection
import Verif.Spec.CollectionStore
import Verif.Spec.Cost
import Verif.Spec.Cut
import Verif.Spec.Edit
import Verif.Spec.Entity
import Verif.Spec.Finite
import Verif.Spec.Footprint
import Verif.Spec.Frame
import Verif.Spec.Gateway
import Verif.Spec.Geometry
import Verif.Spec.GroundVolume
import Verif.Spec.History
import Verif.Spec.InPlane
import Verif.Spec.Mean
import Verif.Spec.MeshFile
import Verif.Spec.Mex
import Verif.Spec.Mirror
import Verif.Spec.Moved
import Verif.Spec.Profile
import Verif.Spec.Report
import Verif.Spec.Rib
import Verif.Spec.Rigid
import Verif.Spec.Road
import Verif.Spec.RoadCut
import Verif.Spec.Script
import Verif.Spec.Segment
import Verif.Spec.SegmentRecord
import Verif.Spec.Terrain
import Verif.Spec.Text
import Verif.Spec.Tree
import Verif.Spec.Turn
import Verif.Spec.Units
import Verif.Spec.Volume
