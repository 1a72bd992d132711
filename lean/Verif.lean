import Verif.Acc
import Verif.AccLemmas
import Verif.Bench
import Verif.Bicycle
import Verif.Cache
import Verif.CircleLemmas
import Verif.Comparison
import Verif.Config
import Verif.Demo
import Verif.Env
import Verif.Geom
import Verif.GeomLemmas
import Verif.Guidance
import Verif.GuideLemmas
import Verif.Harness
import Verif.MirrorLemmas
import Verif.MotionLemmas
import Verif.NTrailer
import Verif.PlanLemmas
import Verif.Planner
import Verif.Prim
import Verif.ProjLemmas
import Verif.Projection
import Verif.PropsAcc
import Verif.PropsAggregate
import Verif.PropsAlarm
import Verif.PropsBatch
import Verif.PropsBench
import Verif.PropsBest
import Verif.PropsBestAcc
import Verif.PropsBestTrain
import Verif.PropsBounds
import Verif.PropsCache
import Verif.PropsCacheGuide
import Verif.PropsChain
import Verif.PropsComparison
import Verif.PropsConfig
import Verif.PropsContinuous
import Verif.PropsContinuousAcc
import Verif.PropsContinuousTrain
import Verif.PropsCrowd
import Verif.PropsDefined
import Verif.PropsDemo
import Verif.PropsDescent
import Verif.PropsEndToEnd
import Verif.PropsEnv
import Verif.PropsExecute
import Verif.PropsExecuteTrain
import Verif.PropsFrame
import Verif.PropsFrameProj
import Verif.PropsFrames
import Verif.PropsGeom
import Verif.PropsGuidance
import Verif.PropsGuidanceAll
import Verif.PropsHarness
import Verif.PropsIdle
import Verif.PropsLocalAcc
import Verif.PropsManoeuvre
import Verif.PropsManoeuvreTrain
import Verif.PropsMargin
import Verif.PropsMirror
import Verif.PropsMotion
import Verif.PropsPenalty
import Verif.PropsPlan
import Verif.PropsPlanner
import Verif.PropsProjection
import Verif.PropsProjectionTT
import Verif.PropsReach
import Verif.PropsRender
import Verif.PropsReplay
import Verif.PropsReward
import Verif.PropsRobust
import Verif.PropsRobustTrain
import Verif.PropsRoundAcc
import Verif.PropsRoundAccuracy
import Verif.PropsRoundOrder
import Verif.PropsRoundPlan
import Verif.PropsRoundReward
import Verif.PropsRoundSteer
import Verif.PropsRoundTrain
import Verif.PropsRounded
import Verif.PropsSafe
import Verif.PropsSampling
import Verif.PropsScore
import Verif.PropsScoreForm
import Verif.PropsSettings
import Verif.PropsSetup
import Verif.PropsShape
import Verif.PropsShield
import Verif.PropsSpacing
import Verif.PropsStat
import Verif.PropsStop
import Verif.PropsStraighten
import Verif.PropsTemperature
import Verif.PropsTiming
import Verif.PropsTrailer
import Verif.PropsTrain
import Verif.PropsTransparent
import Verif.PropsTuner
import Verif.PropsTurns
import Verif.PropsUnits
import Verif.PropsUpdate
import Verif.PropsVideo
import Verif.PropsWeights
import Verif.PropsWheels
import Verif.PropsWiring
import Verif.Render
import Verif.Rollout
import Verif.RoundAcc
import Verif.RoundAccuracy
import Verif.RoundAlarm
import Verif.RoundCircle
import Verif.RoundLemmas
import Verif.RoundMotion
import Verif.RoundPlan
import Verif.RoundReward
import Verif.RoundSingle
import Verif.RoundTrain
import Verif.RoundWeights
import Verif.Rounded
import Verif.Spec
import Verif.SpecVehicle
import Verif.Stat
import Verif.StepLemmas
import Verif.SymLemmas
import Verif.SymSteps
import Verif.TT2d
import Verif.Timing
import Verif.Tuner
import Verif.Video
import Verif.Wiring
import Verif.Witness
import Verif.WrapLemmas
