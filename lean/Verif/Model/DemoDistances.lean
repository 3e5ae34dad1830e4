import Verif.Model.Distances

/-!
Model of the distance functions that demos bring along: `demos/keypoints_bounding_boxes/src/demo.py` and
`demos/profiling/src/utils.py`. Numbers are real.
-/

namespace Norfair

open Finset

/-- the distance of the centroids, `d / (KEYPOINT_DIST_THRESHOLD + d)`
(`keypoints_bounding_boxes/src/demo.py` lines 128-136). Both sums are divided by the number of points of the detection; for
no points the centroids are `nan`. -/
noncomputable def centroidDistance (kthr : ℝ) (points est : Pts ℝ) : Option (Option ℝ) :=
  (bdim points.dim est.dim).map fun k =>
    if points.n = 0 ∧ 0 < k then none
    else
      let d := √(∑ j ∈ range k, ((∑ i ∈ range points.n, points.mat.val i (bidx points.dim j)) / points.n -
        (∑ i ∈ range est.n, est.mat.val i (bidx est.dim j)) / points.n) ^ 2)
      some (d / (kthr + d))

/-- `keypoints_distance` (`keypoints_bounding_boxes/src/demo.py` lines 126-145), with `KEYPOINT_DIST_THRESHOLD = kthr`. Poses
have label `-1`, boxes the class of the detector. The second branch is the voting distance of `distances.py` with
`DETECTION_THRESHOLD = 0.6`. -/
noncomputable def keypointsDistance (kthr : ℝ) (label : Int) (points : Pts ℝ) (scores : Option (List ℝ)) (est : Pts ℝ)
    (lastScores : Option (List ℝ)) : Option (Option ℝ) :=
  if label ≠ 0 then centroidDistance kthr points est else keypointsVoting kthr (3 / 5) points scores est lastScores

/-- `rescaled_keypoints_vote` (`profiling/src/utils.py` lines 168-180), with `KEYPOINT_DIST_SCALE_FACTOR = 1 / 3` and
`DETECTION_THRESHOLD = 0.01`. `estimate[15]` raises for less than 16 points. -/
noncomputable def rescaledVote (points : Pts ℝ) (scores : Option (List ℝ)) (est : Pts ℝ)
    (lastScores : Option (List ℝ)) : Option (Option ℝ) :=
  if est.n < 16 then none
  else
    keypointsVoting (1 / 3 * √(∑ j ∈ range est.dim, (est.mat.val 11 j - est.mat.val 15 j) ^ 2)) (1 / 100) points scores est
      lastScores

/-- what `get_distance_function("euclidean", video_width, video_height)` gives (`profiling/src/utils.py` lines 99-103): the
parameters of `create_normalized_mean_euclidean_distance` are `height, width` -/
noncomputable def profilingEuclidean (videoWidth videoHeight : Nat) : Pts ℝ → Pts ℝ → Option (Option ℝ) :=
  normalizedMeanEuclidean videoWidth videoHeight

end Norfair
