import Lean.Util.CollectAxioms
import Lean.Elab.Command
import Verif.Props.AccurateProps
import Verif.Props.AgreeProps
import Verif.Props.AngleProps
import Verif.Props.AreaProps
import Verif.Props.BallProps
import Verif.Props.BiggerProps
import Verif.Props.BoxObjectProps
import Verif.Props.BoxProps
import Verif.Props.BridgeProps
import Verif.Props.BuildProps
import Verif.Props.BuildRadiusProps
import Verif.Props.CamberProps
import Verif.Props.ClipProps
import Verif.Props.CollectionProps
import Verif.Props.CollectionStoreProps
import Verif.Props.CompareProps
import Verif.Props.CoplanarProps
import Verif.Props.CostProps
import Verif.Props.CrossFlatProps
import Verif.Props.CrossProps
import Verif.Props.CutDemo
import Verif.Props.CutProps
import Verif.Props.DispatchProps
import Verif.Props.DoubleProps
import Verif.Props.DoubleSearchProps
import Verif.Props.EditProps
import Verif.Props.EquivProps
import Verif.Props.FarVolumeProps
import Verif.Props.FileTextProps
import Verif.Props.FiniteProps
import Verif.Props.FlatProps
import Verif.Props.FollowProps
import Verif.Props.FootCamberProps
import Verif.Props.FootProps
import Verif.Props.FootprintProps
import Verif.Props.FrameProps
import Verif.Props.GatewayProps
import Verif.Props.GeomMeshProps
import Verif.Props.GroundProps
import Verif.Props.GroundVolumeDemo
import Verif.Props.GroundVolumeProps
import Verif.Props.InPlaneProps
import Verif.Props.InsideProps
import Verif.Props.IntersectProps
import Verif.Props.LoaderProps
import Verif.Props.LowerSideProps
import Verif.Props.LowerSideSunkProps
import Verif.Props.MatlabProps
import Verif.Props.MeanProps
import Verif.Props.MeasureProps
import Verif.Props.MemberProps
import Verif.Props.MeshProps
import Verif.Props.MeshWitness
import Verif.Props.MexProps
import Verif.Props.MiddleProps
import Verif.Props.MirrorProps
import Verif.Props.MoveProps
import Verif.Props.MovedProps
import Verif.Props.NaNMeshDemo
import Verif.Props.NaNMeshProps
import Verif.Props.NearProps
import Verif.Props.NormalUpProps
import Verif.Props.OffAxisProps
import Verif.Props.OneFrictionProps
import Verif.Props.OrderProps
import Verif.Props.PaintProps
import Verif.Props.ParamProps
import Verif.Props.PierceProps
import Verif.Props.PlacedMeshProps
import Verif.Props.PoseCheckProps
import Verif.Props.PrintProps
import Verif.Props.ProfileProps
import Verif.Props.RecordProps
import Verif.Props.RelationProps
import Verif.Props.RelistCornerProps
import Verif.Props.RelistMeshProps
import Verif.Props.RelistProps
import Verif.Props.RelistWallProps
import Verif.Props.RepeatedProps
import Verif.Props.RetileProps
import Verif.Props.RideProps
import Verif.Props.RoadContactDemo
import Verif.Props.RoadContactProps
import Verif.Props.RoadCutProps
import Verif.Props.RoadDoubleProps
import Verif.Props.RoadProps
import Verif.Props.RollingProps
import Verif.Props.RoundProps
import Verif.Props.RunProps
import Verif.Props.SafetyProps
import Verif.Props.SameSetProps
import Verif.Props.SamplingProps
import Verif.Props.ScriptProps
import Verif.Props.SearchProps
import Verif.Props.SectionProps
import Verif.Props.SeenProps
import Verif.Props.SegmentRoundProps
import Verif.Props.SetupProps
import Verif.Props.SfunProps
import Verif.Props.ShapeProps
import Verif.Props.ShellMoveProps
import Verif.Props.ShellProps
import Verif.Props.ShiftProps
import Verif.Props.SizeProps
import Verif.Props.SlopeProps
import Verif.Props.SmoothProps
import Verif.Props.SpatialProps
import Verif.Props.SpinProps
import Verif.Props.SuperProps
import Verif.Props.TerrainProps
import Verif.Props.TyreProps
import Verif.Props.UninitProps
import Verif.Props.UnitMeshProps
import Verif.Props.UnitProps
import Verif.Props.UnitShellProps
import Verif.Props.UntouchedProps
import Verif.Props.UpProps
import Verif.Props.VolumeProps
import Verif.Props.WholeTyreDemo
import Verif.Props.WholeTyreProps

/-! # Axioms

The build of this file fails if a declaration of the development depends on an axiom other than `propext`,
`Classical.choice` and `Quot.sound`. -/

open Lean Elab Command in
run_cmd do
  let env ← getEnv
  let allowed := [``propext, ``Classical.choice, ``Quot.sound]
  let ours (m : Option ModuleIdx) : Bool := match m with
    | some i => (`Verif).isPrefixOf (env.header.moduleNames[(i : Nat)]!)
    | none => false
  let mut count := 0
  for (name, info) in env.constants.map₁.toList do
    if ours (env.getModuleIdxFor? name) then
      if info matches .axiomInfo _ then throwError "axiom {name}"
      if info matches .thmInfo _ then
        count := count + 1
        for a in ← collectAxioms name do
          unless allowed.contains a do throwError "{name} depends on the axiom {a}"
  logInfo m!"{count} theorems checked"
