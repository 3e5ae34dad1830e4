# Formal model of norfair in Lean 4 — design

Layout (`/verif/lean/Verif`):

| directory | content |
|---|---|
| `Model/` | the model: total functions mirroring the Python code function by function, each citing file and lines |
| `Spec/`  | small specifications that do not use the model's helpers |
| `Lemmas/`| helper lemmas and invariants |
| `Props/` | the property theorems (one section per property `Cnn`), each with a non-vacuity `example` |

## Modelling decisions

* **Numbers.** Python ints are `Int`/`Nat`. Floating point coordinates are elements of an arbitrary
  ordered field (`ℚ`/`ℝ` for examples): rounding, overflow and NaN of coordinate arithmetic are not modelled (C100
  says which rounding does not matter for the decisions of the tracker).
  Distances are elements of an arbitrary linear order with a top element (`np.inf`); NaN is `none`.
  The one place where float32 rounding decides a property (C03: `threshold + 1` stored into a float32 matrix)
  has its own model of round-to-nearest-even with 24 significant bits.
* **Objects and aliasing.** `Detection` objects live in a heap (`ref → Detection`), since `update` mutates them
  (`age`, `absolute_points`) and the caller may reuse them. Tracked objects are identified by `initializing_id`
  (the factory hands out a fresh one per object); lists of objects inside `update` are lists of these keys.
  `filter` and `point_hit_counter` shared by a merged (removed) object and its target are not shared in the model;
  only a caller who keeps the removed object could see the difference.
* **Exceptions** are values; `update` returns the state reached when the exception was raised together with the error,
  so that "after an error" is a state like any other.
* **External code** (user distance functions, custom filters, cv2, coordinate transformations, file contents,
  numpy's unspecified orders) are parameters, quantified over in the theorems.
* **Threads**: one `update` call is atomic. Interleavings of calls on several trackers are modelled; data races inside
  one call are not.

* **Filters from `filterpy`.** The package is not in the repository; `Model/FilterPy.lean` states its predict and update
  equations from knowledge of version 1.4.5. C36 relies on them.
* **Strings** are lists of characters; `str.isdigit`, `int` and `float` follow Python for the characters that occur in
  the statements (see the comments in `Model/Metrics.lean`).

## Plan per property

| id | modelled | how it is proved |
|---|---|---|
| C01–C04 | `match_dets_and_objs` over index functions with argmin = first minimum in row-major order, loop with fuel | loop invariant (rows/cols already used hold `fill`); C03 measure = unused rows; nontermination witness with `round32`; C04 by uniqueness of greedy-stable matchings |
| C05 | `_update_objects_in_place` returns an error value | case analysis; for vectorized distances the rows of a stack are in bijection with the objects of a label |
| C06–C09, C12, C15, C17, C23, C28 | whole `Tracker.update` on heap + factory counters + objects | one invariant over all histories (`Inv`), and step relation between states |
| C10, C11 | `update` | characterisation of stages 1–3 as "each object is stepped, then hit at most once, then merged at most once" |
| C13, C14, C21, C22 | `update` seen from one object | per-object transition lemma + induction over run length; C22 is false with `reid_hit_counter_max`: counterexample + partial theorem |
| C16, C42 | `ScalarDistance`/`VectorizedDistance.get_distances` | entry is `inf` when labels differ, `inf < thr` never holds; invariant |
| C18, C19, C20 | `hit`, `merge`, `_conditionally_add_to_past_detections` | invariants |
| C24 | `update` | definitional for no transformation; false with one (TypeError), witness |
| C25 | system of trackers with a shared heap and global counter | simulation up to `global_id` |
| C26 | detection/object coordinate handling | direct |
| C27, C43 | constructor / name tables | direct, all strings |
| C29, C30, C33–C35 | `hit` on flattened vectors with both mask layouts; filters as list functions | pointwise lemmas; C29 is false for several points (mask layout), witness + partial |
| C31, C32 | `OptimizedKalmanFilter` per coordinate | field algebra, induction over histories |
| C36 | dense Kalman equations over `Matrix` (the filterpy side is an assumption about external code) | block-diagonal invariant |
| C37, C38 | `iou` on boxes over an ordered field, `none` for 0/0 | ordered-field algebra |
| C39–C41 | distances over ℝ | Mathlib norms/sqrt; C41 is false (bound is √2), witness + partial |
| C44–C48 | transformations, getters, `MotionEstimator`; cv2 results are parameters | algebra; induction over frames; C48 is false for the homography getter, witness + partial |
| C49 | `adjust_frame` with Python slices on pixel functions | integer arithmetic |
| C50, C70 | `AbsolutePaths.draw`, `Paths.draw` on histories of frames | induction over the calls |
| C51, C52 | hex parser, palettes, `choose_color` | case analysis over all strings / hashes; both have witnesses + partial |
| C53, C54, C69, C71 | drawing functions as lists of drawing commands | induction over the drawables; colors for every choice of arguments in `C53_colors`, `C69_colors` (`Spec/Colors.lean`) |
| C55–C58, C72 | information file, prediction file, detection parser, accumulators, evaluation as state machines | induction over the calls; C56–C58, C72 have witnesses + partial |
| C59, C62 | `Video` and `VideoFromFrames` as state machines with a log of external effects | induction over the events |
| C60, C61, C63, C73, C74 | output paths, codec, description, cut-outs, `warn_once`, `show` | string and integer reasoning; C60, C61, C63, C74 have witnesses + partial |
| C64–C67 | `update` | relation of two greedy rounds built from C01/C02; C66 has a witness + partial; C67 also for distances that need arrays of the agreed shapes (`C67_shaped`: frobenius, mean_euclidean, mean_manhattan, scipy metrics if `cdist` is defined), and for distances that read the scores of both detections (`C67_scored`, with `C67_voting` for the voting distance; shapes may depend on the label) |
| C75, C76 | `print_objects_as_table`, `__repr__`, `validate_points`, `Detection.__init__` | invariant over histories, case analysis; both have witnesses + partial |
| C77 | `_get_grid` over ℝ | trigonometry from Mathlib; witness + partial |
| C78 | drawing functions on what a tracker returns | invariant over histories combined with C53 and C69; `C78_where` says where the rectangles are |
| C79 | deprecated drawing functions | induction over the drawables; witness |
| C80–C82 | `update` of two trackers side by side (`Spec/Parametric.lean`, `Spec/Affine.lean`) | one relational (parametricity) theorem about `update`, instantiated with affine maps, renamings and monotone maps; induction over parallel histories |
| C83 | `update` of a tracker with and one without camera motion (`Spec/Stabilized.lean`) | the relational theorem of C80–C82 with a relation that changes during the call; induction over parallel histories; C83_zoom shows that it does not extend to homographies that zoom (thresholds are in pixels of the current frame) |
| C84 | `update`, counters of the objects (`Props/Bounded.lean`) | every object has a bounded remaining life (a function of its counters) that falls by one in each call in which it is not hit; only m objects can be hit or created in a call; induction over traces, counting objects by remaining life |
| C85 | `update` of two trackers, one with the detections of some labels only (`Spec/Labels.lean`) | greedy matching of a block of the matrix is the block of the greedy matching (`Lemmas/SubMatching.lean`); a correspondence of objects and ids is carried through every loop of `update`; induction over parallel histories; an example shows that a vectorized distance mixes labels that have the same text |
| C86 | `update` of two trackers with permuted detections (`Spec/Shuffle.lean`) | greedy matching without ties commutes with permutations of rows and columns; the correspondence of C85 carried through the call; induction over parallel histories; C86_ties and C86_period show that both restrictions are needed |
| C87 | `update`, `OptimizedKalmanFilter`, the filters of filterpy (`Spec/Drift.lean`) | the squared Mahalanobis norm of the error is a Lyapunov function of the filter (`Lemmas/KalmanStable.lean`): a prediction shrinks it by a factor, a correction adds at most W²/r; bounds of the covariance by induction; one matched call is one round of the filter of each coordinate; induction over traces |
| C88 | `update`, filters, distances (`Spec/Targets.lean`, `Spec/Shaped.lean`) | one call (`C88_one_call`): if the pairs below the threshold are one-to-one between detections and matchable objects, matching is this relation; with C120 the predictions stay within e of their targets, which may change their velocity, so the relation is "of the same target" (`C88_targets`, induction over traces); `C88_never_confused` adds that no call raises (`C67_trace`); conditions on thresholds for the three distances of points |
| C89 | `Drawer` and the drawing functions down to pixels (`Model/Pixels.lean`, `Spec/Strokes.lean`): which pixels OpenCV covers is a parameter | induction over pictures (range, untouched pixels, values between those of the frame and of the colors), loops of `draw_points`, `draw_boxes`, `Paths` (iteration of the attenuation with cut off), `AbsolutePaths` (blending), grid |
| C90 | `Drawer.text`, `text_size`, `label_size`, `text_thickness`; radius of the circles and place of the texts of `draw_points` | rounding by cases; induction over the drawables |
| C91 | `update` with `iou` and `NoFilter` (`Spec/Boxes.lean`) | invariant: objects are proper boxes, since with all points seen the filter holds the last detection, and with none the old one; then every distance is a number. False with a Kalman filter: concrete history with default arguments |
| C92 | `update` with `VectorizedDistance` and with `ScalarDistance` (`Spec/Rowwise.lean`) | the matrices are equal (position of an element among the elements with its label), everything else does not look at the distance; equality of calls, traces, reachable states |
| C93 | `update` with the filters of `filter.py` (`Spec/Relations.lean`) | the relation between positions and the homogeneous relation between velocities are kept by the filters, since coordinates that are measured together or not at all have equal gains (`RelationLaws`); invariant of reachable states; copies of a shape are a set of such relations; the condition on scores is needed (C93_scores_needed) |
| C94 | `update` without ReID, `TellsApart` (Props/Told.lean) speaks of the values of the distance function in each call | C88_one_call; invariant of traces: one object per target; the objects of the gap by induction over its calls; vectorized distances by C92 |
| C95 | the drawing functions again, on arrays in a memory (`Model/Memory.lean`): each numpy or OpenCV call writes to an array or makes a new one; a program that owns some arrays may write to them at any time | simulation: memory model against functional model (`Option.Rel`, also equality of raising); frame conditions (`OnlyArray`); induction over programs: the mask is never known to the program |
| C96 | `FixedCamera` on arrays in a memory | simulation; induction over programs with events (frames, drawings on the last result); C49 for the pixels; witness that drawings show up later |
| C97 | the whole of `update` with ReID; `Spec/ReidRound.lean` says what the third round is meant to do | `rounds_spec` for the call without ReID, which has the same first two rounds; `ReidSpec` for the third. `C97_third_round_any` is for any distance function, then without the distances of the first two rounds |
| C98 | `update` with ReID; `ConfusesNone` and `TellsAll` (Props/ReidTold.lean) speak of the values of the two distance functions in each call | C97 without positions (`ReidCall`); induction over traces; the two calls of the return one after the other |
| C99 | `Drawable(detection)`, `draw_points`, `draw_boxes` | C53, C69 and C54 for drawables whose points are all live; the rows of an array, one after the other, are its numbers |
| C100 | `update` of two trackers with different filters, distances and number types (`Spec/Twin.lean`: same arguments, same calls, comparisons alike) | the relational theorem of C80–C82 (`updateCore_rel_at`), generalised: distances need only agree below the threshold; invariant of pairs of histories. The tracker on one side satisfies `FilterLaws`, the other only keeps the lengths of arrays. Without ReID; a vectorized distance can be brought in with C92. Says when results about exact numbers carry over to floats |
| C101 | `match_dets_and_objs`, first round of `update` (`Spec/Assignment.lean`: any one-to-one assignment) | each pair of the assignment is blocked by a matched pair in its row or column that is at least as good, and each matched pair blocks at most two; sums over finite sets. Attained for all sizes: block matrices |
| C102 | `update` on two memories of detections (`Spec/Edits.lean`: which parts of a detection the distances look at) | simulation of each function of the model: the memories agree on ages, on what is looked at, and on the detections of the call; induction over programs with writes in between |
| C103 | `update` with transformations, `get_estimate`, `MotionEstimator.update` with translations (`Spec/Film.lean`: scene, pictures of it) | induction over the calls: filters are at rest at the places of their targets (C34), so distances in the picture tell targets apart, hence C94; the estimator part by C47. The general theorems are for any transformations that are inverse at the places, such as homographies (C45) |
| C104 | `update`, `get_active_objects` over histories (`Spec.Reported`) | an object with negative hit counter is dropped by the next call, so an id that is not returned is lost for ever (invariant `Lost`); identities by C06, C07 |
| C105 | `Model/MotLoop.lean`: the loop of `demos/motmetrics4norfair` over frames and sequences, from the classes of `metrics.py` and `update`; the transformations are given (`Spec/MotLoop.lean`: tracker alone) | the loop is the tracker followed by writing (induction over the calls; invariants of the memory of detections); then C55, C56, C57, C72 for the files, C06 and C104 for ids, C91 for `iou` |
| C106 (partial, false) | `Spec/Reel.lean`: as C103, with calls without transformation, and absolute coordinates that change there | false: three witnesses (`C106_false_estimate`, `C106_false_missed`, `C106_false_filter`); `NoFilter`: induction over the calls with the invariant of C103 and a scene per frame, C94, and C47 for the frame to which coordinates are relative |
| C107 (partial, false) | `Model/MotCam.lean`: `build_mask` with Python's slices, the loop with the estimator of `Model/CameraMotion.lean`; `Spec/MotCam.lean`: covered pixels, flows that respect masks | fold over the boxes; false at the left and top edge (`C107_false_mask`, `C107_false_points`); the points by induction over the frames (the reference frame and its points belong together); the loop by simulation with the one of C105, whose transformations are the outputs of the estimator |
| C108 (partial, false) | `Model/Demos.lean`: `PixelCoordinatesProjecter` for one point with third coordinate not 0, `scaled_euclidean` | algebra; false for columns (`C108_false_column`); the tracker with the parametricity of C80 |
| C109 | `Model/Demos.lean`: conversions and `iou_xyah`, as they are written | algebra; ranges from C37 |
| C110 | `Model/Demos.lean`: one step of `data_generator` and of `generate_video`, `position_at`, `embedding_distance`; correlation of histograms is a parameter. `Spec/Demos.lean`: overlapping, seen, covered | induction over the actors; last painted is first in the list |
| C111 | model of `Tracker.update` and both Kalman filters; targets as in C88 | `C111_coasts` by induction over the calls; `C111_hidden`, `C111_vanishes` with C87; `C111_alone`: the greedy rounds of C64 for one pair between which nothing comes; `C111_found` and `C111_through` put them together, the latter with C120 for targets that change their velocity. One run of detections followed by one run of hidden frames: after hidden frames the covariance of the optimized filter is not the textbook one (C31), so C87 does not apply again |
| C112 | model of `Tracker.update` with coordinate transformations and ReID, the three filters, the voting distance; a pair of programs (`Blurred`) | `C112_unseen_points_partial`: simulation of whole calls (`Lemmas/Unseen.lean`), the states differ in the memory of detections only; `C112_filters` from C33; `C112_keypoints_voting` with broadcasting; `C112_translation`, `C112_homography`. Objects with points never found at creation: `C112_leaks` |
| C113 | `Model/Loops.lean`: the loops of the sahi, ReID and profiling demos; model of `Tracker.update` | induction over the calls with the frames until the detector runs as lower bound of the hit counter; exact hit counters of new objects (`C113_initialized_partial`); `C113_lost` for all trackers with a small `hit_counter_max`; witnesses `C113_false`, `C113_false_reid`; with ReID: `C113_reid_partial` for initialized objects |
| C114 | `Model/Loops.lean`, with the loop of the openpose demo | `C114_every_frame_partial` and `C114_raises` by induction over the frames; `C114_openpose_partial`: the loop of the openpose demo is the other loop with some frames left out; witness `C114_false` |
| C115 | `Model/DemoDistances.lean`: `keypoints_distance` and its centroid distance; with the model of `create_keypoints_voting_distance` | closed forms of both branches, and when they are below the threshold of the demo; `C115_false_poses`, `C115_false_boxes` |
| C116 | `Model/DemoDistances.lean`: `rescaled_keypoints_vote` | counting votes (C40); `C116_any_size` for all scalings and translations; `C116_blind` for all estimates with points 11 and 15 at one place |
| C117 | `Model/DemoDistances.lean`: the normalized distance of `get_distance_function` | bound over the sum of coordinates; `C117_false` for every size with width ≠ height |
| C118 | `Model/Nms.lean`: `non_max_suppression`, with greedy suppression for `torchvision.ops.nms` and exact arithmetic | greedy suppression by induction over the sorted rows, against a specification of candidates (`Candidate`) and overlaps; class offsets compared with classes; witness `C118_false` |
| C119 | `Model/Letterbox.lean`: `letterbox`, `scale_coords`, `clip_coords` over rationals, with python's `round` | error of each direction as a linear form in the rounding errors of size and border, bounded for all sizes; witnesses `C119_false_scaleup`, `C119_false_stretched` |
| C120 | as C87; the path of a target is any function of the frame | the norm of the error weighted with the inverse covariance shrinks by `rate` per round (C87); the change of velocity is added with Young's inequality, where the weight of a velocity is at most 1 / q₂ after a round (`round_det`); `C120_settles` as a limit; `C120_lag` from a bound on the gain of the velocity |
| C121 | `Model/RunDir.lean`: `increment_path` over the set of existing paths, with `Path.stem`, the search for the number, `glob` of a prefix and `int` | the first match of the name with a number is the one at the end (`searchNumber_last`, by induction over the parent), so every existing number is found and the new one is larger; witnesses `C121_false_parent`, `C121_false_suffix` |
| C122 | `Model/Convert.lean`: the functions of ten demos that turn boxes and poses into detections, with the constructor of `Detection` | pointwise relation between the list of boxes and the list of detections (`List.Forall₂`), with a specification of a corner, a middle and a row of its own; the results have the shapes that C67 asks for; witnesses `C122_false_nas` (by induction over the frames the tracker never returns an object), `C122_false_detectron` |
| C123 | `Model/Decode.lean`: `split_for_trace_model`, `_make_grid` over ℝ with `Real.sigmoid` | index arithmetic of the concatenated grids; range of the sigmoid; its surjectivity for `C123_expressible`; `C123_suppression` discharges the range hypothesis of C118 |
| C124 | `Model/Segment.lean`: the masks cut and scaled to 1280 × 720, `show_seg_result`, `scale_coords` in `detect` | labels are given at the points of the network's image; the constants of the code agree with those of the letterbox of C119 for 640, so a pixel has the label of the point at which the network saw it; for any other size the shapes of mask and frame differ, by the rounding of C119 |
| C125 | `Model/ByteLoop.lean`: the loop of `motmetrics4bytetrack.py` over an arbitrary tracker (a state machine), with the parser, text file and accumulator of C55–C57 | induction over the frames; the objects shown in frame k are the last output of the tracker on the nonempty frames up to k; witness `C125_false_gap` |
| C126 | `Model/CamDemo.lean`: masks, motion estimator and tracker of the camera motion demo over several videos, with the variable `tracked_objects` that outlives a video | simulation up to `global_id` (`update_sim` of C25) with equal masks; the motions are `MotionEstimator.outputs` of the frames and masks; witness `C126_false_leftover` |
| C127 | `Model/Draw3d.lean`: `draw_3d_tracked_boxes` as a list of calls of `polylines` and `putText` | the connected indexes against a specification of edges by corner coordinates; a projected segment is the segment of the projected ends (explicit parameters both ways); truncation moves every point of it by less than a pixel |
| C128 | `Model/MotVideo.lean`: the loop of `motmetrics4norfair.py` that reads the pictures one by one and writes the video; OpenCV is assumed to write every frame it is given | the loop without drawing is the one of C107 (`videoFrames_cam`); drawing never raises since all boxes have two corners (C105), and renders to `framed`, a specification by pixels; witness `C128_false_ids` |
| C129 | `Model/YoloDemo.lean`: the loop of `demos/yolov5/src/demo.py`; the network is a parameter, all detections are in the memory before the loop begins | the loop is `trackAll` of C105 followed by drawing (`yoloLoop_track`), as drawing never raises on the shapes of C67; centers never raise by C67, boxes of constant size by C91; witnesses `C129_false_boxes`, `C129_false_hidden` |
| C130 | `Model/ReidLoop.lean`: the loop of `demos/reid/src/demo.py`; histograms and their correlation are parameters, the embedding of a detection is its `extra` | induction over the frames, with C67 for ReID (`C67_shaped_reid`), C53 for drawing and C63 for cutouts; `C97_third_round_any`, which is C97 for any distance function, and C110; witnesses `C130_false_border`, `C130_false_closest` |
| C131 | `Model/KeyLoop.lean`: the loop of `demos/keypoints_bounding_boxes/src/demo.py`; what the networks return is a parameter | induction over the frames, with C67 for shapes that depend on the label and distances that read scores (`C67_scored`), C53 for drawing; witness `C131_false_persons` |
| C132 | `Model/DemoLoop.lean`: a loop with calls, pictures and variables kept between frames, and as instances the loops of `demos/openpose/src/demo.py` and of `process_video` in `demos/profiling/src/demo.py`; what the networks return is a parameter, times are not modelled | `Props/DemoTrack.lean`: induction over the frames for any such loop (`demoRun_track`), C67 for distances that read scores, exact drawing of points; witnesses `C132_false_dropped`, `C132_false_empty` |
| C133 | `Model/DetLoop.lean`: the loops of the YOLOv4, Detectron2, MMDetection and YOLOv7 demos as instances of the loop of C132; what the detector sees is a parameter. scipy's `cdist` is a parameter, asked to give a number for each pair of points | `Props/PointLoop.lean`: `demoRun_track` for loops that look at every frame, conversions of C122, C67 for scipy distances |
| C134 | `Model/DetLoop.lean`: the loops of the YOLOv7, YOLO-NAS and SAHI demos; SAHI keeps the variable `detections` between frames | `Props/BoxLoop.lean`: `demoRun_track` with exact drawing of boxes, C91 for boxes of constant size, a tracker that never gets a detection (`idle`); witnesses `C134_false_boxes`, `C134_false_stale`, `C134_false_nas`, `C134_false_track` |
| C135 | `Model/EyeLoop.lean`: the loop of the 3D demo, with the variables `projecter` and `path_drawer` made at the first frame, detections, tracker, boxes (C127) and `Paths` (C70, C89), down to pixels. What the detector sees is a parameter. Simplifications: frames of one size, no projected `z` is 0, exact arithmetic | `Props/EyeLoop.lean`: the loop is the tracker and then the drawing (`eyeLoop_split`), the mask of the paths is the fading trail (`pathsDraw_trail`), induction over frames; `demoTrack_given` for distances that are numbers for detections with a property; witness `C135_false_flat` |
| C136 | `Model/RoadLoop.lean`: the loop of the yolopv2 demo: suppression (C118), scaling and rounding (C119), conversion (C122), tracker, area and lines (C124), tracked boxes, down to pixels. What the network sees (predictions after decoding, C123, and labels) and `cv2.resize` are parameters. Simplification: exact rational numbers before rounding | `Props/RoadLoop.lean`: corners and pixels in closed form (`demoCorner_eq`, `roadShow_eq`), then `eachRun_track`; `demoTrack_sized` for the end; witnesses `C136_false_size` (every other size), `C136_false_flat` |
| C137 | `Model/CamFilm.lean`: the camera motion demo with what it draws: objects, `draw_absolute_grid`, `AbsolutePaths` and `FixedCamera` over the loop of C126, down to pixels. Detector, optical flow and `_get_grid` are parameters | `Props/CamFilm.lean`: drawing does not influence tracking (`camFilm_split`); shapes, ids and motions of the objects by induction over the frames (`camDemo_fine`); histories of paths (`camPaths_eq`) and of the fixed camera (C49) along the frames (`camShots_eq`); witnesses `C137_false_paths`, `C137_false_fixed`, `C137_false_homography` (every video) |
| C138 | `Model/XyahLoop.lean`: the loop of `motmetrics4norfair_xyah.py`, with parser, text file, accumulator and tracker of the library. Simplification: no detection has height 0 (numpy would give inf or nan) | `Props/XyahLoop.lean`: the loop is the tracker, what is written, and the video (`xyahFrames_eq`, induction over the frames); shapes and ids from `demoTrack_shape` |
| C139 | `Model/XyahLoop.lean`: `--make-video` in `motmetrics4norfair_xyah.py` and `motmetrics4bytetrack.py`, down to pixels | `Props/XyahLoop.lean`: the video is independent of the rest (`xyahFrames_eq`, `byteVideoFrames_eq`) and is evaluated by induction over the frames (`filmAll_eq`); witness `C139_false_raises` |
| C140 | `Model/ColabLoop.lean`: the colab demo, `demos/colab/demo.py`, `yolo.py` and `draw.py`, down to pixels; estimator, tracker, `AbsolutePaths` and the drawing functions are those of C137, C133 and C134. What the network sees comes with the frame | `Props/ColabLoop.lean`: the objects are those of the tracker with the motions of the images (`camDemo_plain`), the pictures by induction over the frames with the state of the paths as invariant (`colabFrames_eq`); witness `C140_false_paths` |
| C141 | `Model/EvalOut.lean`: `compute_metrics`, `save_metrics`, `print_metrics`, the files of `PredictionsTextFile` and the script `motmetrics4norfair.py` around them, with a file system of paths, directories and texts; what `motmetrics` computes is a parameter | `Props/EvalOut.lean`: induction over the parts of a path (`makedirs_ok`), over the sequences (`writePreds_ok`, `evalAll_eq`) with C105, and over the calls (`C141_last`); witnesses `C141_false_kept`, `C141_false_stale`, `C141_false_slash` |
| C142 | `Model/AlphaLoop.lean`: the part of `demos/alphapose/writer.py` that uses norfair; AlphaPose, its queues and the json results are not modelled | `Props/AlphaLoop.lean`: induction over the frames (`alphaRun_fillIn`) with the exact drawing of C132 and C67; votes by C40 (`C142_close`); witness `C142_false_age` |
| C143 | `Model/XyahTracker.lean`: `iou_xyah` as distance function and the arguments of the tracker of `motmetrics4norfair_xyah.py` (real numbers, filter of `filterpy`) | `Props/XyahTracker.lean`: `C143_nan` from C109 and C91; the ratio of sides is a linear relation that the filters keep (C93), so that all estimates have the ratio of the detections; the loop by C138; witness `C143_false_nan` |
| C144 | `Model/OtherScript.lean`: `motmetrics4norfair_xyah.py` and `motmetrics4bytetrack.py` over all sequences, with the metrics and the disk of C141, without `--make-video`. Each ByteTrack tracker is an arbitrary state machine of its own | `Props/OtherScript.lean`: the loop over the sequences is independent of the disk (`otherAll_eq`, induction), one sequence by C138 and C125, the comparison by C72, the disk by C141; witness `C144_false_one` |
| C145 | `Model/SeqPaths.lean`: `sequences_paths` of the three scripts, and the scripts from their arguments on; how the files of one sequence are read is a parameter | `Props/SeqPaths.lean`: `os.path.split` after `os.path.join` by cases; induction over the lists; witnesses `C145_false_selected`, `C145_false_default` |
| C146 | `Model/DeployDocs.lean`: `docs/deploy_docs.py`. Versions are three numbers and a mark for pre-releases; `mike list` and `mike deploy -u` are modelled as far as the script uses them (mike is not in the repository: its behavior is an assumption, made without its source at hand) | `Props/DeployDocs.lean`: invariant `SiteOk`, kept by each deployment, induction over the deployments; witnesses `C146_false_source`, `C146_false_alias` |
| C147 | `Model/GenIndex.lean`: `docs/gen_index.py`; `re.sub` with its two patterns as a function from left to right over the text (the regular expressions are not parsed); files are their content | `Props/GenIndex.lean`: induction over the text; the relation `Relinked` says what may change, independent of the order of the search; witness `C147_false_links` |
| C68 | `iou` as Jaccard distance of areas | ordered-field algebra |

## Where the code does not do what is claimed

Each line is a theorem with a concrete witness; the matching `_partial` theorem says what does hold.

* **C03.** The unbounded statement is false of the code: C03_float32_threshold_diverges is a concrete threshold whose stored fill value rounds below the threshold. Proved: exact characterisation of divergence, termination for every threshold in (-2^24-1, 2^24-1) and for every float32 threshold.
* **C19.** Bounds, exact values and expiry are proved. 'Live right after a match with the point over the threshold' is false when the counter ran below zero during missed frames (C19_seen_but_not_live); proved when the counter before was at least 2 - 2*period, as an equivalence, in C19_live_after_match_partial.
* **C22.** With reid_hit_counter_max the statement is false when the object's hit counter is 0 (C22_reid_destroyed); proved without it, and with it for positive counters.
* **C24.** False with a coordinate transformation: update() raises TypeError (C24_none_with_transformation). Proved without one.
* **C26.** A detection listed twice in one call is converted twice (C26_repeated_detection); proved for lists without repetition. The rest is proved without restriction.
* **C29.** False for several points of dimension > 1: the sensor mask is laid out differently from the state (C29_unseen_point_moved, C29_first_seen_not_snapped). Proved for the layouts where both agree (all points seen, none unseen, one point or one coordinate), as stated in the _partial theorems.
* **C35.** Velocity 0 and 'the position of the last detection in which the point was over the threshold' are proved without restriction (over calls in which the point is not seen: without ReID; for points over the threshold in the last detection of the object: with ReID and failed calls, C35_last_detection). 'Or the initial position' is false for never seen points of objects with several points (C35_initial_position_lost), because of the mask layout of C29; proved for points seen before and for single points in C35_not_seen_partial.
* **C41.** False as stated (and as documented): the bound is sqrt(2), attained exactly for opposite corners (C41_not_bounded_by_one).
* **C48.** Proved for every getter that raises (C48_getter_raises) and for the translation getter, with failing flow or no points (C48_translation). False for the homography getter after a first estimate: with failing optical flow or fewer than 4 points it does not raise but returns the old transformation (C48_homography_few_points, C48_homography_not_reset).
* **C51.** False as stated in one point: '$' in the regular expression also accepts a trailing newline (C51_newline). Proved: the accepted strings are exactly the formats of the statement, with or without that newline (C51_accepts_partial), the values, and the inverse of formatting.
* **C52.** An empty palette is accepted by Palette.set and choose_color then raises ZeroDivisionError (C52_empty). Proved for palettes that are not empty.
* **C56.** A det.txt with exactly one row cannot be read (np.loadtxt returns a one-dimensional array), nor an empty one (C56_single_row). Proved for files with at least two rows, in exact arithmetic.
* **C57.** Further updates store the matrix again (C57_extra_updates), and a single prediction is stored as a plain list instead of a matrix with one row (C57_video_partial says which). Proved otherwise.
* **C58.** A value made of digits that are not decimal, such as a superscript two, makes search raise ValueError although the line exists (C58_superscript). Proved otherwise.
* **C60.** 'Different cameras get different files' is false: line 261 is not an f-string (C60_cameras); inputs that differ only after the first dot of their names also share a file (C60_same_output). The rest is proved.
* **C61.** False for terminals with fewer than 32 columns (C61_narrow_terminal); proved for all others in C61_fits_partial.
* **C63.** False for negative coordinates, which count from the other end of the image (C63_negative); proved for coordinates greater than -1.
* **C66.** False when all distances of the round are 0 or there are no detections: the old value is kept (C66_stale). False with ReID: the value of an initialized object without detection is overwritten by its ReID distance, even above distance_threshold, and a recognized object takes the value of the new object (C66_false_reid). Proved when some distance to the object is nonzero, without ReID or when no alive object is initializing (C66_reid_partial).
* **C72.** False for videos with exactly one prediction (C72_single_prediction), for videos with the same name in different folders (C72_same_name) and after superfluous updates (C72_shifted). Proved otherwise.
* **C74.** False for floats, the documented type of the argument, other than 1: the sizes are floats, which OpenCV rejects (C74_float). Proved for positive integers.
* **C75.** Printing is false for objects that were never matched: with initialization_delay=0 the first update returns such an object and print_objects_as_table raises TypeError (C75_new_object). Proved for calls with a period of at most initialization_delay: without ReID for well-formed calls, with ReID for calls that return (C75_reid_returned_partial); texts are proved without restriction.
* **C76.** Arrays without axes are accepted as well (C76_rank_zero). Proved otherwise.
* **C77.** 'Pairwise different' is false for the polar grid of odd size from 3 on: the middle is repeated (C77_polar_repeats). Proved for the default grid, and for the polar grid except for this middle row. The size must be positive (C77_zero).
* **C79.** Circles, rectangles, texts, radii, sizes and raising are proved. By default draw_tracked_boxes writes no ids, unlike draw_boxes (C79_ids_missing, C79_no_ids).
* **C91.** False with a Kalman filter: it extrapolates a shrinking box until it is inverted, and then iou may be 0 / 0 (C91_kalman_counterexample, default arguments). Proved for NoFilter (C91_noFilter_partial), and with every filter of `filter.py` for boxes of constant size (C91_constant_size_partial, by C93); the condition on scores is needed (C91_scores_needed).
* **C95.** `AbsolutePaths` "works just like `Paths`", which does not draw in place, but it draws on the given frame: all
  circles if there are no paths yet, else the circles up to the first object with a path (C95_absolute_paths_witness).
* **C96.** The returned picture is the background itself, so drawings on it show up in later pictures (C96_witness). The
  documentation warns that other drawers on the returned frame "will not work as expected".
* **C106.** False: if `MotionEstimator.update` returns `None` in a moving film, detections are taken to be in absolute
  coordinates while objects keep the old transformation. The estimates of that call are off by the movement of the camera
  (C106_false_estimate), targets not detected in it are lost (C106_false_missed), and Kalman filters take the change of
  coordinates for a movement and lose targets (C106_false_filter). Proved for `NoFilter`.
* **C107.** False: `build_mask` of the MOTChallenge demo uses box corners as limits of slices. A negative limit counts from
  the end, so a box that begins left of or above the picture is not masked, or pixels at the other side are (C107_false_mask),
  and its points are used for the movement of the camera (C107_false_points). Proved for boxes that begin inside.
* **C108.** False: in `PixelCoordinatesProjecter` of the 3D demo, `eye_2_pixel` and `ndc_2_pixel(eye_2_ndc(..))` give columns
  that differ by the width times the first coordinate of the principal point (C108_false_column): the principal point in
  pixels is at `(1 - p) / 2` of the width, a point of NDC `p` at `(1 + p) / 2`. Rows agree.
* **C112.** False: if a point is not found in the first detection of an object, the coordinates that the detector puts
  there (often zeros) are in the estimate of the point after it has been found: `hit` builds the mask of the
  first-detection assignment in the wrong order (C29), so only one of the coordinates is overwritten and the other is
  moved by the gain of the filter (`C112_leaks`). Proved if all points were found at creation.
* **C113.** False: each frame with detector adds `skip_period` to the hit counter, but not beyond `hit_counter_max`; if
  `hit_counter_max < skip_period - 1`, an object that gets a detection each time is dropped in between and the target gets
  another id (`C113_lost`, `C113_false`). With `reid_hit_counter_max` this already happens for
  `hit_counter_max = skip_period - 1`: the hit counter gets to 0 before each detection, the ReID counter starts and is not
  stopped by detections (`C113_false_reid`). Nothing in the demos relates the options.
* **C114.** False of the openpose demo: `continue` after `tracker.update(period=...)` when the detector finds nobody skips
  `video.write`, so the video is shorter than the input (`C114_false`).
* **C115.** False: poses get label -1 and boxes the class number, but `keypoints_distance` takes the voting distance for label
  0 and centroids for the rest. Poses with the same centroid are at distance 0 (`C115_false_poses`), and boxes of persons
  with a score of at most 0.6 are never matched (`C115_false_boxes`). Objects with label 0 are not drawn either: the filters
  of the loop are `== -1` and `> 0`.
* **C116.** False: the threshold is a third of the distance of points 11 and 15 of the estimate; both are `(0, 0)` when not
  found, and then nothing is within the threshold (`C116_blind`).
* **C117.** False for every video that is not square: `create_normalized_mean_euclidean_distance(input_width, input_height)`,
  whose parameters are `(height, width)` (`C117_false`).
* **C118.** False for coordinates beyond 4096 in range: the offset `4096 * class` does not keep boxes of different classes
  apart (`C118_false`).
* **C119.** False with `scaleup=False` and shapes only, where an image of 600 by 600 comes back 18 pixels off
  (`C119_false_scaleup`), and with `scaleFill`, since `scale_coords` uses one gain for both directions
  (`C119_false_stretched`). The demo uses neither.
* **C121.** False: the number is searched for in the whole path, from the left, so `runs/exp2/exp` gives `runs/exp2/exp3`
  even if it exists (`C121_false_parent`); and the name is searched for without its suffix, so `runs/v1.0` gives
  `runs/v1.02` even if it exists (`C121_false_suffix`).
* **C122.** False for two demos: with `--track_points centroid` YOLO-NAS builds the list but the `return` is inside the other
  branch, so it returns `None` and the tracker never returns an object (`C122_false_nas`); Detectron2 does not select classes
  although the demo is described as tracking cars (`C122_false_detectron`).
* **C124.** False for every `--img-size` other than 640: the cut of the masks is written for 640, and showing them raises
  (`C124_false_size`).
* **C125.** False: in a frame without detections the tracker is not called, and the boxes of the last frame with detections
  are written for it again (`C125_false_gap`). The tracker's own clock stands still in these frames.
* **C126.** False with `--mask-detections` and `--track-boxes`: `tracked_objects` is set to `[]` once, before the loop over the
  videos, so the first mask of a video covers the objects of the last frame of the video before; the motion can get lost
  (`C126_false_leftover`).
* **C128.** False for the ids: `draw_tracked_boxes` is called without `id_size`, so it writes no ids, and the colors repeat after
  ten ids (`C128_false_ids`).
* **C129.** False with boxes: the width of an estimate can become negative while the object is not seen, then `iou` divides by
  zero and the tracker raises (`C129_false_boxes`). False with centers: `draw_points` draws only live points, so an object that
  is returned, but was not seen in the last frames, is not drawn (`C129_false_hidden`).
* **C130.** False for `border_size=0`: the slice `[0:-0]` is empty, and assigning the frame to it raises (`C130_false_border`).
  False for the object that looks most alike: `embedding_distance` returns the distance of the first similar past detection of
  the new object, not the smallest one, so another lost object can be closer (`C130_false_closest`).
* **C131.** False for persons found by the detector: boxes are drawn for objects with `label > 0`, poses have label -1, and class 0
  of the detector is a person, so these objects are tracked, take ids and are never drawn (`C131_false_persons`).
* **C132.** False of the OpenPose demo for frames in which OpenPose returns `None`: they are not written, though the tracker
  returns objects for them (`C132_false_dropped`, see C114). `process_video` of the profiling demo divides by the number of frames,
  so it raises for a video without frames (`C132_false_empty`).
* **C134.** False of boxes that change their size: the width of the estimate of an object not seen can become negative, and then a
  distance can be NaN and the tracker raises (`C134_false_boxes`, see C91). SAHI draws in the frames it skips the boxes of the last
  frame it looked at (`C134_false_stale`). `--track_points centroid` of the YOLO-NAS demo tracks and draws nothing, since the
  converter returns `None` (`C134_false_nas`, see C122); YOLOv7 does the same for any value but its two (`C134_false_track`).
* **C135.** False of objects without extent: if corners 1 and 8 coincide and the object is seen again where it is expected, the
  distance is `0 / 0` and the 3D demo raises (`C135_false_flat`).
* **C136.** The yolopv2 demo raises in the first frame for every `--img-size` but 640 (`C136_false_size`). With 640, what the network
  sees in the border that `letterbox` adds is clipped to a box without area; if it is seen in two frames, the distance is `0 / 0` and
  the tracker raises (`C136_false_flat`).
* **C137.** With `--draw-paths` the camera motion demo raises at the first live object in a frame without motion: if a mask covers
  all points, or always with `--transformation none` (`C137_false_paths`). With `--fixed-camera-scale` it raises in every frame without
  motion (`C137_false_fixed`), and with a homography, the default, in the first frame of every video (`C137_false_homography`; the help
  text says that it only works for translations).
* **C139.** With `--make-video` the evaluations of ByteTrack and of boxes by center raise a `ValueError` as soon as an object is
  returned: `draw_tracked_boxes` does not take objects of their classes `PartialStaticTracker` and `CartesianTrack`
  (`C139_center_raises`, `C139_byte_raises`, `C139_false_raises`).
* **C140.** The colab demo ends with an exception at the first frame with a live object for which no motion of the camera was found,
  for example because the picture has no corners: `AbsolutePaths.draw` calls `get_estimate(absolute=True)` or uses the motion, which
  is `None` (`C140_false_paths`).
* **C141.** `save_metrics` opens the file before it reads `summary_text`: called before `compute_metrics` it raises, and the metrics of
  an earlier run are lost (`C141_false_kept`). Sequences that are given with a slash at the end (`--select-sequences A/ B/`, as shells
  complete them) all have the empty name: their predictions go to the same file `.txt`, and only the last one is in the metrics
  (`C141_false_slash`).
* **C142.** Frames in which AlphaPose finds no boxes do not reach the tracker (`writer.py` lines 166-171): tracked poses do not age in
  them and are not drawn in them. Someone who left 40 frames ago is drawn again as soon as there is another box
  (`C142_false_age`).
* **C143.** `iou_xyah` divides by an area that can be 0 although all boxes have positive width and height: the estimate of a box that got
  narrower has a negative ratio of sides after a frame without it (`C143_false_nan`). Then `Tracker.update` raises, and the evaluation ends.
* **C144.** In the two other scripts too, one sequence with exactly one box makes `compute_metrics` raise after all sequences were
  evaluated (`C144_center_raises`, `C144_byte_raises`, `C144_false_one`; for `motmetrics4norfair.py` `C141_script_raises`; the reason is that of C72).
* **C145.** `dataset_path` is optional, and without it the current folder is evaluated, but together with `--select-sequences` the scripts
  raise (`C145_raises`). Every folder in the folder of the dataset must be a sequence, else the script raises (`C145_script`): a second
  run fails if the first one saved its predictions there.
* **C146.** `deploy_docs.py` compares with the `major.minor` of the latest documentation, so a deployment of 2.1.1 after 2.1.5 replaces what
  is under `latest` (`C146_false_source`). It finds the latest one only if `latest` is its only alias (`C146_false_alias`).
* **C147.** `gen_index.py` does not look again at what it has replaced, and finds only two forms of links (`C147_false_links`).

Further behaviour met while modelling (no property is false because of it):

* **C98.** A target that comes back need not get its old id at its second detection if there is another dead object of it:
  one started by a single detection, never returned, takes it if it is nearer (C98_glimpse_witness).
* `hit_counter_max=0` is accepted with the default delay although an explicit delay 0 is rejected (C27).
* Labels are compared by `str` in vectorized distances, so `1` and `"1"` are the same label there (C42).
* A dead object that was never initialized can be the target of a ReID merge (C20).
* A new object starts its point counters at 1 whatever the period (C19).
* `OptimizedKalmanFilter` propagates its covariance in `update` only (C31).
* The FilterPy factory multiplies the velocity block by `P`; its documentation says the position block (C36).
* `FixedCamera.adjust_frame(frame, None)` and `AbsolutePaths.draw` with its default `coord_transform=None` raise (C49, C50).
* Upper case hex digits are rejected although the documentation uses them (C51).
* `hide_dead_points=False` with no live point asks for a text at a NaN position (C53).
* The text size of `draw_tracked_objects` is never `id_size`, since `label_size` always gets a value from 1 on (C79_id_size).
* MMDetection never draws an object whose detections all have scores of at most 0.6, though it gets an id (C133_faint).
* `draw_tracked_boxes` draws no ids by default, so the SAHI and YOLOv7 demos do not show them (C134).
* Breaking out of a `Video` loop releases nothing (C59_break).

## What is not modelled

* Rounding, overflow and NaN of coordinate arithmetic (exception: C03). Times, progress bars, the terminal itself.
* Which pixels cv2 covers when it draws a circle, a line, a rectangle or a text, and the values it gives to the pixels of a text (parameters of `Raster`). Blending and attenuation of pixels are modelled in exact arithmetic.
* cv2's optical flow, corner detection and homography search; `motmetrics`' computation of metrics; `np.loadtxt` beyond
  "rows of numbers". They are parameters, with the failures that the code handles.
* The dummy imports of `utils.py`; markup and line breaks of `rich.print`; links and rights of the file system.
* User callbacks that mutate the tracker or its objects; data races inside one call.

## Trusted base

* The Lean 4.33.0 kernel.
* The axioms `propext`, `Classical.choice` and `Quot.sound`, and no others. `AXIOMS.md` lists them per theorem.
* The faithfulness of the definitions in `Model/`. Each cites the code it models and states its simplifications.
* The reading of each property in `Props/`, together with the small specifications in `Spec/`.

## Test of the theorems with wrong programs

`seeded/LOG.jsonl` has one line per attempt: a definition of the model is edited in a scratch copy like a realistic bug and
everything that depends on it is elaborated again. A theorem counts as failed if its proof, or the proof of a lemma it uses,
no longer goes through. This shows that the proof depends on the edited code. It does not by itself show that the statement
became false, since a proof script can also break for other reasons. A surviving theorem is the informative case: its
statement is true of the wrong program.
