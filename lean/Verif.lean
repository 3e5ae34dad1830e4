import Verif.Lemmas.Age
import Verif.Lemmas.Camera
import Verif.Lemmas.Edits
import Verif.Lemmas.Emb
import Verif.Lemmas.Errors
import Verif.Lemmas.Exact
import Verif.Lemmas.FilterLaws
import Verif.Lemmas.FilterPy
import Verif.Lemmas.Float32
import Verif.Lemmas.Frames
import Verif.Lemmas.Ids
import Verif.Lemmas.Inv
import Verif.Lemmas.Kalman
import Verif.Lemmas.KalmanStable
import Verif.Lemmas.Matching
import Verif.Lemmas.Micro
import Verif.Lemmas.OKF
import Verif.Lemmas.ObjFields
import Verif.Lemmas.Param
import Verif.Lemmas.ParamFilters
import Verif.Lemmas.Part
import Verif.Lemmas.PartLoop
import Verif.Lemmas.PartStage
import Verif.Lemmas.PartUpdate
import Verif.Lemmas.Past
import Verif.Lemmas.PastOrder
import Verif.Lemmas.Points
import Verif.Lemmas.PointsInv
import Verif.Lemmas.PointsUpdate
import Verif.Lemmas.Relations
import Verif.Lemmas.Rounds
import Verif.Lemmas.Shuffle
import Verif.Lemmas.Sim
import Verif.Lemmas.StageExact
import Verif.Lemmas.Stages
import Verif.Lemmas.SubMatching
import Verif.Lemmas.Sys
import Verif.Lemmas.Trace
import Verif.Lemmas.Twin
import Verif.Lemmas.Unseen
import Verif.Lemmas.Vectorized
import Verif.Lemmas.World
import Verif.Model.AlphaLoop
import Verif.Model.ByteLoop
import Verif.Model.CamDemo
import Verif.Model.CamFilm
import Verif.Model.CameraMotion
import Verif.Model.ColabLoop
import Verif.Model.Color
import Verif.Model.Convert
import Verif.Model.Decode
import Verif.Model.DemoDistances
import Verif.Model.DemoLoop
import Verif.Model.Demos
import Verif.Model.DeployDocs
import Verif.Model.DetLoop
import Verif.Model.Distances
import Verif.Model.Draw3d
import Verif.Model.Drawing
import Verif.Model.EvalOut
import Verif.Model.EyeLoop
import Verif.Model.Filter
import Verif.Model.FilterPy
import Verif.Model.FixedCamera
import Verif.Model.Float32
import Verif.Model.GenIndex
import Verif.Model.Grid
import Verif.Model.History
import Verif.Model.KeyLoop
import Verif.Model.Letterbox
import Verif.Model.Loops
import Verif.Model.Matching
import Verif.Model.Memory
import Verif.Model.Metrics
import Verif.Model.MotCam
import Verif.Model.MotLoop
import Verif.Model.MotVideo
import Verif.Model.Nms
import Verif.Model.OtherScript
import Verif.Model.Pixels
import Verif.Model.ReidLoop
import Verif.Model.RoadLoop
import Verif.Model.RunDir
import Verif.Model.Segment
import Verif.Model.SeqPaths
import Verif.Model.Sys
import Verif.Model.Tracker
import Verif.Model.Utils
import Verif.Model.Video
import Verif.Model.XyahLoop
import Verif.Model.XyahTracker
import Verif.Model.YoloDemo
import Verif.Props.AbsPaths
import Verif.Props.Accumulators
import Verif.Props.AlphaLoop
import Verif.Props.Assignment
import Verif.Props.Bounded
import Verif.Props.BoxLoop
import Verif.Props.ByteLoop
import Verif.Props.CamDemo
import Verif.Props.CamFilm
import Verif.Props.CameraMemory
import Verif.Props.CameraMotion
import Verif.Props.ColabLoop
import Verif.Props.Color
import Verif.Props.Colors
import Verif.Props.Convert
import Verif.Props.Cutout
import Verif.Props.Decode
import Verif.Props.DemoDistances
import Verif.Props.DemoLoop
import Verif.Props.DemoTrack
import Verif.Props.DeployDocs
import Verif.Props.Deprecated
import Verif.Props.DistanceNames
import Verif.Props.Draw3d
import Verif.Props.DrawDetections
import Verif.Props.DrawTracked
import Verif.Props.Drawing
import Verif.Props.Drift
import Verif.Props.Edits
import Verif.Props.EvalOut
import Verif.Props.EyeLoop
import Verif.Props.Fading
import Verif.Props.Film
import Verif.Props.Filters
import Verif.Props.FixedCamera
import Verif.Props.Gaps
import Verif.Props.GenIndex
import Verif.Props.Grid
import Verif.Props.InformationFile
import Verif.Props.Iou
import Verif.Props.IouSucceeds
import Verif.Props.KeyLoop
import Verif.Props.Labels
import Verif.Props.LastSeen
import Verif.Props.Letterbox
import Verif.Props.Loops
import Verif.Props.Matching
import Verif.Props.Memory
import Verif.Props.MotCam
import Verif.Props.MotFiles
import Verif.Props.MotLoop
import Verif.Props.MotVideo
import Verif.Props.NanVectorized
import Verif.Props.Nms
import Verif.Props.Occlusion
import Verif.Props.OtherScript
import Verif.Props.Parametric
import Verif.Props.Pixels
import Verif.Props.PointDistances
import Verif.Props.PointLoop
import Verif.Props.Projection
import Verif.Props.Reel
import Verif.Props.ReidDemo
import Verif.Props.ReidLoop
import Verif.Props.ReidLoops
import Verif.Props.ReidMore
import Verif.Props.ReidRound
import Verif.Props.ReidTold
import Verif.Props.Relations
import Verif.Props.RoadLoop
import Verif.Props.RunDir
import Verif.Props.Scored
import Verif.Props.Segment
import Verif.Props.Separated
import Verif.Props.SeqPaths
import Verif.Props.Shuffle
import Verif.Props.Stabilized
import Verif.Props.Succeeds
import Verif.Props.Swerve
import Verif.Props.Targets
import Verif.Props.TextPlace
import Verif.Props.TextSize
import Verif.Props.Told
import Verif.Props.Toy
import Verif.Props.TrackerCamera
import Verif.Props.TrackerCounters
import Verif.Props.TrackerIds
import Verif.Props.TrackerInv
import Verif.Props.TrackerLife
import Verif.Props.TrackerPoints
import Verif.Props.TrackerReid
import Verif.Props.TrackerRounds
import Verif.Props.TrackerStatic
import Verif.Props.TrackerSys
import Verif.Props.Twin
import Verif.Props.Unseen
import Verif.Props.Utils
import Verif.Props.VectorizedTracker
import Verif.Props.Video
import Verif.Props.VideoFiles
import Verif.Props.Xyah
import Verif.Props.XyahLoop
import Verif.Props.XyahTracker
import Verif.Props.YoloDemo
import Verif.Spec.Affine
import Verif.Spec.AlphaLoop
import Verif.Spec.Assignment
import Verif.Spec.Boxes
import Verif.Spec.CamFilm
import Verif.Spec.ColabLoop
import Verif.Spec.Colors
import Verif.Spec.DemoLoop
import Verif.Spec.Demos
import Verif.Spec.DetLoop
import Verif.Spec.Distances
import Verif.Spec.Drift
import Verif.Spec.Edits
import Verif.Spec.EvalOut
import Verif.Spec.EyeLoop
import Verif.Spec.Film
import Verif.Spec.Frames
import Verif.Spec.Interference
import Verif.Spec.Kalman
import Verif.Spec.KeyLoop
import Verif.Spec.Labels
import Verif.Spec.Matching
import Verif.Spec.MotCam
import Verif.Spec.MotLoop
import Verif.Spec.MotVideo
import Verif.Spec.OtherScript
import Verif.Spec.Parametric
import Verif.Spec.Points
import Verif.Spec.Reel
import Verif.Spec.ReidLoop
import Verif.Spec.ReidRound
import Verif.Spec.Relations
import Verif.Spec.RoadLoop
import Verif.Spec.Rounds
import Verif.Spec.Rowwise
import Verif.Spec.Shaped
import Verif.Spec.Shuffle
import Verif.Spec.Stabilized
import Verif.Spec.Strokes
import Verif.Spec.Targets
import Verif.Spec.Twin
import Verif.Spec.Unseen
import Verif.Spec.XyahLoop
import Verif.Spec.YoloDemo
