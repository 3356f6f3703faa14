import Verif.D8Model
import Verif.D8Spec
import Verif.D8Lemmas
import Verif.D8Props
import Verif.D8IdProps
import Verif.D8AreaProps
import Verif.FillModel
import Verif.FillSpec
import Verif.FillLemmas
import Verif.FillProps
import Verif.HeapModel
import Verif.HeapProps
import Verif.EmeliModel
import Verif.EmeliSpec
import Verif.EmeliLemmas
import Verif.EmeliRun
import Verif.EmeliProps
import Verif.TimeInterpModel
import Verif.TimeInterpProps
import Verif.BMIModel
import Verif.BMIProps
import Verif.DriverModel
import Verif.DriverProps
import Verif.ChannelModel
import Verif.ChannelLemmas
import Verif.ChannelSpec
import Verif.ChannelProps
import Verif.ChannelStateProps
import Verif.FloatGridModel
import Verif.FloatGridProps
import Verif.EvapModel
import Verif.EvapProps
import Verif.InfilModel
import Verif.InfilSpec
import Verif.InfilProps
import Verif.SnowModel
import Verif.SnowProps
import Verif.InputModel
import Verif.InputProps
import Verif.MetModel
import Verif.MetProps
import Verif.MetEnergyModel
import Verif.MetEnergyProps
import Verif.SatzoneModel
import Verif.SatzoneProps
import Verif.CanalModel
import Verif.CanalProps
import Verif.FilesModel
import Verif.FilesProps
import Verif.RtsModel
import Verif.RtsProps
import Verif.RtiModel
import Verif.RtiProps
import Verif.OutputModel
import Verif.OutputProps
import Verif.TimeUtilsModel
import Verif.TimeUtilsProps
import Verif.RichardsModel
import Verif.RichardsProps
import Verif.SolarModel
import Verif.SolarGeometry
import Verif.SolarSeason
import Verif.SolarRadiation
import Verif.SolarClock
import Verif.ChannelHydraulics
import Verif.PixelModel
import Verif.PixelProps
import Verif.CfgModel
import Verif.CfgProps
import Verif.CfgDirModel
import Verif.CfgDirProps
import Verif.InitDepthModel
import Verif.InitDepthProps
import Verif.SoilModel
import Verif.SoilProps
import Verif.D8GeomModel
import Verif.D8GeomProps
import Verif.TableModel
import Verif.TableProps
import Verif.TableMore
import Verif.TimeInfoModel
import Verif.TimeInfoProps
import Verif.RtgModel
import Verif.RtgProps
import Verif.RepoModel
import Verif.RepoSpec
import Verif.RepoProps
import Verif.MultiModel
import Verif.MultiProps
import Verif.MultiSetup
import Verif.FillMore
import Verif.MoreProps
import Verif.ErodeModel
import Verif.ErodeProps
import Verif.ErodeRun
import Verif.GridInfoModel
import Verif.GridInfoProps
import Verif.RegridModel
import Verif.RegridProps
import Verif.MoreProps2
import Verif.ChannelDiagModel
import Verif.ChannelDiagProps
import Verif.ParamModel
import Verif.ParamProps
import Verif.CalibModel
import Verif.CalibProps
import Verif.NcModel
import Verif.NcProps
import Verif.IceModel
import Verif.IceProps
import Verif.IceMore
import Verif.ProjModel
import Verif.ProjProps
import Verif.MetUtilsModel
import Verif.MetUtilsProps
import Verif.NewSlopeModel
import Verif.NewSlopeProps
import Verif.MultiValues
import Verif.D8LocalModel
import Verif.D8LocalProps
import Verif.D8LocalProps2
import Verif.D8LocalProps3
import Verif.IndicatorModel
import Verif.IndicatorProps
import Verif.IndicatorProps2
import Verif.ConflictModel
import Verif.ConflictProps
import Verif.ConflictProps2
import Verif.ErodeLocalModel
import Verif.ErodeLocalProps
import Verif.ErodeLocalProps2
import Verif.ErodeLocalProps3
import Verif.ClimateModel
import Verif.ClimateProps
import Verif.ClimateIndex
import Verif.ClimateHamon
import Verif.GlacierModel
import Verif.GlacierProps
import Verif.StretchModel
import Verif.StretchProps
import Verif.SeriesModel
import Verif.SeriesProps
import Verif.SoilBaseModel
import Verif.SoilBaseProps
import Verif.MctModel
import Verif.MctProps
import Verif.HamiltonModel
import Verif.HamiltonProps
import Verif.DisableModel
import Verif.DisableProps
import Verif.CoupleModel
import Verif.CoupleProps
import Verif.StartModel
import Verif.StartProps
import Verif.SystemModel
import Verif.SystemProps
import Verif.ReportModel
import Verif.ReportProps
import Verif.ClimateBasin
import Verif.TemplateModel
import Verif.TemplateProps
import Verif.BundleModel
import Verif.BundleProps
import Verif.ErodeInitModel
import Verif.ErodeInitProps
import Verif.PrepModel
import Verif.PrepProps
import Verif.DivertModel
import Verif.DivertProps
import Verif.MetCycleModel
import Verif.MetCycleProps
import Verif.OptionModel
import Verif.OptionProps
import Verif.LayerModel
import Verif.LayerProps
import Verif.RunModel
import Verif.RunProps
import Verif.FinishModel
import Verif.FinishProps
import Verif.SoilReadModel
import Verif.SoilReadProps
import Verif.ChanInModel
import Verif.ChanInProps
import Verif.FlowCodeModel
import Verif.FlowCodeProps
import Verif.Slope2Model
import Verif.Slope2Props
import Verif.RechargeModel
import Verif.RechargeProps
import Verif.SnowShapeModel
import Verif.SnowShapeProps
import Verif.RoundModel
import Verif.RoundFormat
import Verif.RoundProps
import Verif.RoundChanModel
import Verif.RoundChanProps
import Verif.ImportModel
import Verif.ImportProps
import Verif.SphereModel
import Verif.SphereProps
import Verif.CollateModel
import Verif.CollateProps
import Verif.CollateUse
import Verif.RoundTotalModel
import Verif.RoundTotalProps
import Verif.ConvertModel
import Verif.ConvertProps
import Verif.SmoothModel
import Verif.SmoothProps
import Verif.InfilCheckModel
import Verif.InfilCheckProps
import Verif.OutNameModel
import Verif.OutNameProps
import Verif.InfilShapeModel
import Verif.InfilShapeProps
import Verif.DefaultModel
import Verif.DefaultProps
import Verif.FinalReportModel
import Verif.FinalReportProps
import Verif.RfcModel
import Verif.RfcProps
import Verif.PlanModel
import Verif.PlanProps
import Verif.SiteIdModel
import Verif.SiteIdProps
import Verif.CatchModel
import Verif.CatchProps
import Verif.CalCfgModel
import Verif.CalCfgProps
import Verif.BovModel
import Verif.BovProps
import Verif.DialogModel
import Verif.DialogProps
import Verif.HcdnModel
import Verif.HcdnProps
import Verif.CamelsModel
import Verif.CamelsProps
import Verif.ArsModel
import Verif.ArsProps
import Verif.CenterModel
import Verif.CenterProps
import Verif.ClimTabModel
import Verif.ClimTabProps
