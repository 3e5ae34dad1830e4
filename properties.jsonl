{"id": "C01", "title": "Matching is one-to-one and below threshold", "statement": "Tracker.match_dets_and_objs returns two index lists of equal length such that no detection index and no object index is repeated, all indices are in range, and the distance of every returned pair is strictly below the threshold.", "quantifier": "every distance matrix of every shape, every threshold", "why_tests_cant": "The set of matrices is infinite; tests sample a handful of 1x1 or 2x2 ones.", "anchors": ["norfair/tracker.py:Tracker.match_dets_and_objs"]}
{"id": "C02", "title": "Matching is greedy, maximal and stable", "statement": "Pairs come out in order of non-decreasing distance; any pair whose distance is below the threshold shares its row or its column with a returned pair whose distance is no larger, so nothing matchable is left over and no two parties would both prefer each other.", "quantifier": "every distance matrix and threshold", "why_tests_cant": "Greedy optimality is a relation between the output and every entry of an arbitrary matrix.", "anchors": ["norfair/tracker.py:Tracker.match_dets_and_objs"]}
{"id": "C03", "title": "Matching always terminates", "statement": "match_dets_and_objs terminates on every matrix after at most min(rows, cols) rounds, whatever the distances are (ties, negatives, infinities).", "quantifier": "every matrix and every threshold, including thresholds so large that threshold + 1 rounds down in the float32 matrix", "why_tests_cant": "A test that does not terminate is not a test; termination at every threshold cannot be sampled, and the failing thresholds are sparse.", "anchors": ["norfair/tracker.py:Tracker.match_dets_and_objs", "norfair/distances.py:ScalarDistance.get_distances"]}
{"id": "C04", "title": "Matching does not depend on the order of the detections", "statement": "If the below-threshold distances are pairwise different, permuting the detections (or the tracked objects) permutes the matching and changes nothing else.", "quantifier": "every matrix with distinct below-threshold entries, every permutation of rows and columns", "why_tests_cant": "Needs all permutations of all matrices.", "anchors": ["norfair/tracker.py:Tracker.match_dets_and_objs"]}
{"id": "C05", "title": "NaN distances are rejected, never matched", "statement": "If a distance function returns NaN for a pair that is compared, update raises ValueError and no object gets a match in that comparison; if no NaN occurs update does not raise that error.", "quantifier": "every state, every distance function, every detections list", "why_tests_cant": "NaN can be produced at any position of any matrix at any point of a history.", "anchors": ["norfair/tracker.py:Tracker._update_objects_in_place"]}
{"id": "C06", "title": "Ids are unique and never reused", "statement": "Within one tracker two different tracked objects never carry the same id, at any two moments of the tracker's life, including after objects die, are merged by ReID or after update raised; ids are positive.", "quantifier": "every history of updates with any detections, periods, distance functions and coordinate transformations", "why_tests_cant": "Uniqueness over unbounded histories.", "anchors": ["norfair/tracker.py:_TrackedObjectFactory.get_ids", "norfair/tracker.py:TrackedObject._acquire_ids"]}
{"id": "C07", "title": "Identity is stable", "statement": "Once an object has an id it keeps the same id, global_id, initializing_id and label as long as the tracker holds it, and it never goes back to initializing; being revived by ReID keeps the identity of the old object.", "quantifier": "every history, every object", "why_tests_cant": "Stability must hold between any two moments of any history.", "anchors": ["norfair/tracker.py:TrackedObject.hit", "norfair/tracker.py:TrackedObject.merge"]}
{"id": "C08", "title": "global_id is unique across trackers", "statement": "For any number of trackers in the process and any interleaving of their updates, no two tracked objects of the same or different trackers ever carry the same global_id.", "quantifier": "every set of trackers and every interleaving of their update calls (each update call atomic)", "why_tests_cant": "Interleavings are unbounded.", "anchors": ["norfair/tracker.py:_TrackedObjectFactory.global_count", "norfair/tracker.py:_TrackedObjectFactory.get_ids"]}
{"id": "C09", "title": "update returns exactly the active objects", "statement": "update returns, without repetition and in order of creation, exactly the tracked objects that are not initializing and whose hit counter is not negative; each of them has an id and a global_id; an object has an id if and only if it is not initializing; current_object_count is the length of that list.", "quantifier": "every history and every update", "why_tests_cant": "The set of reachable states is infinite.", "anchors": ["norfair/tracker.py:Tracker.update", "norfair/tracker.py:Tracker.get_active_objects", "norfair/tracker.py:Tracker.current_object_count"]}
{"id": "C10", "title": "Every detection is used exactly once", "statement": "After a successful update each detection in the list has either been given to exactly one existing object or has started exactly one new object: for fresh distinct detections exactly one tracked object has it as last_detection, and no detection is dropped.", "quantifier": "every state, every list of detections", "why_tests_cant": "Conservation for lists of any length in any state.", "anchors": ["norfair/tracker.py:Tracker.update", "norfair/tracker.py:Tracker._update_objects_in_place"]}
{"id": "C11", "title": "Counters move by the documented amounts", "statement": "In one successful update an object that is not matched loses exactly 1 from its hit counter, a matched object goes to min(old - 1 + 2*period, hit_counter_max), a new object starts at period; no object is matched by two detections in one update.", "quantifier": "every state, object, period and detections list", "why_tests_cant": "Effect of update on an arbitrary state.", "anchors": ["norfair/tracker.py:TrackedObject.tracker_step", "norfair/tracker.py:TrackedObject.hit"]}
{"id": "C12", "title": "hit_counter is bounded", "statement": "The hit counter of any tracked object never exceeds max(hit_counter_max, 2*the largest period ever passed to update); with period 1 throughout and hit_counter_max >= 1 it never exceeds hit_counter_max. Tracked objects held without ReID never have a hit counter below -1.", "quantifier": "every history", "why_tests_cant": "Invariant over unbounded histories.", "anchors": ["norfair/tracker.py:TrackedObject.hit", "norfair/tracker.py:TrackedObject.merge", "norfair/tracker.py:TrackedObject.__init__"]}
{"id": "C13", "title": "Inertia is exact", "statement": "Without ReID, an initialized object whose hit counter is h when update returns, and that no detection matches afterwards, is returned by exactly the next h updates and by none after them; it is dropped from the tracker two updates later and its id never shows up again.", "quantifier": "every h, every state, every continuation in which it is not matched", "why_tests_cant": "h and the continuation are unbounded.", "anchors": ["norfair/tracker.py:Tracker.update", "norfair/tracker.py:TrackedObject.tracker_step"]}
{"id": "C14", "title": "initialization_delay is exact", "statement": "With period 1, an object that is matched on every update after its creation is first returned by the update that gives it its (initialization_delay + 1)-th detection, and by every later one; an object never matched again after its creation is never returned when period <= initialization_delay.", "quantifier": "every initialization_delay < hit_counter_max, every run length", "why_tests_cant": "All delays and all run lengths.", "anchors": ["norfair/tracker.py:TrackedObject.hit", "norfair/tracker.py:TrackedObject.__init__"]}
{"id": "C15", "title": "age counts frames", "statement": "The age of a tracked object is exactly the number of update calls since the one that created it, whatever was matched, skipped or merged.", "quantifier": "every history (including updates that raised after the objects advanced)", "why_tests_cant": "Unbounded histories.", "anchors": ["norfair/tracker.py:TrackedObject.tracker_step"]}
{"id": "C16", "title": "Labels are never mixed", "statement": "With a scalar distance, and with a vectorized distance whenever str() tells the labels apart, a detection is only ever matched to an object with the same label, and ReID only merges objects with the same label: every tracked object's label equals the label of its last_detection and of all its past_detections.", "quantifier": "every history, every labelling, every distance function", "why_tests_cant": "All labels, all histories.", "anchors": ["norfair/distances.py:ScalarDistance.get_distances", "norfair/distances.py:VectorizedDistance.get_distances"]}
{"id": "C17", "title": "Matched distances are below the threshold", "statement": "last_distance of every tracked object is None or strictly below distance_threshold, at every moment of every history.", "quantifier": "every history and distance function", "why_tests_cant": "Unbounded histories, arbitrary distance functions.", "anchors": ["norfair/tracker.py:Tracker._update_objects_in_place"]}
{"id": "C18", "title": "past_detections is bounded and ordered", "statement": "past_detections never holds more than past_detections_length detections (none if it is 0); if detections are not reused it is ordered by the age at which they were seen and no age exceeds the age of the object; when full, a detection is replaced only if age >= past_detections_length * age of the oldest.", "quantifier": "every history", "why_tests_cant": "Invariant over unbounded histories, with mutable shared Detection objects.", "anchors": ["norfair/tracker.py:TrackedObject._conditionally_add_to_past_detections"]}
{"id": "C19", "title": "Point counters and live_points", "statement": "After a match every point counter lies in [0, max(pointwise_hit_counter_max, period)], a point over the detection threshold is live right after a match, and a point not seen again stays live for at most pointwise_hit_counter_max - 1 further updates; live_points always has one entry per point.", "quantifier": "every history, scores, thresholds and periods", "why_tests_cant": "All score vectors and histories.", "anchors": ["norfair/tracker.py:TrackedObject.hit", "norfair/tracker.py:TrackedObject.live_points", "norfair/tracker.py:TrackedObject.tracker_step"]}
{"id": "C20", "title": "ReID merge keeps the old identity and drops the new object", "statement": "When an unmatched or dead object is merged with an initializing object, the old object keeps id, global_id, age and label, takes over the position filter, last detection and point counters of the new one, becomes alive with hit counter 2*initial_period, and the new object is no longer tracked; each object takes part in at most one merge per update.", "quantifier": "every state in which a merge can happen", "why_tests_cant": "All states and all ReID distance functions.", "anchors": ["norfair/tracker.py:TrackedObject.merge", "norfair/tracker.py:Tracker.update"]}
{"id": "C21", "title": "Dead objects live exactly reid_hit_counter_max more frames", "statement": "With reid_hit_counter_max = r, an object that gets no match any more is kept for ReID for exactly the documented number of updates after dying, is never returned while dead, and is then dropped for ever.", "quantifier": "every r, every state, every continuation without a match", "why_tests_cant": "Unbounded r and continuations.", "anchors": ["norfair/tracker.py:TrackedObject.tracker_step", "norfair/tracker.py:Tracker.update"]}
{"id": "C22", "title": "An object matched on every frame is never destroyed", "statement": "An object that gets matched to a detection on every update stays tracked and, once initialized, is returned by every update.", "quantifier": "every configuration (with and without reid_hit_counter_max) and every run length", "why_tests_cant": "The failure needs a specific hit-counter history followed by an arbitrarily long run.", "anchors": ["norfair/tracker.py:Tracker.update", "norfair/tracker.py:TrackedObject.tracker_step", "norfair/tracker.py:TrackedObject.hit"]}
{"id": "C23", "title": "total_object_count counts initialized objects", "statement": "total_object_count never decreases, equals the number of ids handed out so far, and is an upper bound for current_object_count; without ReID every id handed out by an update belongs to an object that this same update returns, so it is the number of distinct objects ever returned.", "quantifier": "every history", "why_tests_cant": "Unbounded histories.", "anchors": ["norfair/tracker.py:Tracker.total_object_count", "norfair/tracker.py:_TrackedObjectFactory.get_ids"]}
{"id": "C24", "title": "Skipping a frame is the same as an empty detection list", "statement": "update() with no detections has the same effect and result as update([]), with or without a coordinate transformation.", "quantifier": "every state, period and transformation", "why_tests_cant": "Every reachable state.", "anchors": ["norfair/tracker.py:Tracker.update"]}
{"id": "C25", "title": "Trackers do not interfere", "statement": "Apart from the values of global_id, the behaviour of a tracker depends only on its own calls: interleaving calls on other trackers that use other Detection objects changes neither its results nor its state.", "quantifier": "every set of trackers, every interleaving", "why_tests_cant": "Unbounded interleavings.", "anchors": ["norfair/tracker.py:Tracker.update", "norfair/tracker.py:_TrackedObjectFactory"]}
{"id": "C26", "title": "Estimates follow the camera", "statement": "When a coordinate transformation is passed, detections are converted to absolute coordinates once, all objects use that transformation for their relative estimate, get_estimate(absolute=True) returns the filter position and estimate returns abs_to_rel of it; without a transformation absolute estimates raise ValueError; a detection just taken over by a new object is reported back at its own relative position when the transformation is invertible.", "quantifier": "every transformation, every state", "why_tests_cant": "All transformations and histories.", "anchors": ["norfair/tracker.py:TrackedObject.get_estimate", "norfair/tracker.py:Tracker.update", "norfair/tracker.py:Detection.update_coordinate_transformation"]}
{"id": "C27", "title": "Constructor validation", "statement": "Tracker(...) succeeds if and only if the distance is valid, past_detections_length >= 0 and initialization_delay is None or 0 <= initialization_delay < hit_counter_max; the default delay is hit_counter_max / 2 truncated and, for hit_counter_max >= 1, it is a valid delay.", "quantifier": "every argument combination", "why_tests_cant": "All integers.", "anchors": ["norfair/tracker.py:Tracker.__init__", "norfair/distances.py:get_distance_by_name"]}
{"id": "C28", "title": "The tracker survives errors", "statement": "If update raises (NaN distance in any of the three matching stages, detections=None with a transformation), all consistency guarantees (unique ids, active list, counter and label invariants) still hold and the tracker can go on.", "quantifier": "every state and every failing call, at any point of a history", "why_tests_cant": "Failures at every point of every history.", "anchors": ["norfair/tracker.py:Tracker.update", "norfair/tracker.py:Tracker._update_objects_in_place"]}
{"id": "C29", "title": "A keypoint seen for the first time starts at its detected position with zero velocity", "statement": "When a point of an object is over the detection threshold for the first time, after the match its estimate is exactly the detected position and its velocity is 0; points not over the threshold are not moved by the detection.", "quantifier": "every number of points, every dimension, every score pattern", "why_tests_cant": "All masks for all numbers of points; the error only shows for partially detected multi-point objects.", "anchors": ["norfair/tracker.py:TrackedObject.hit"]}
{"id": "C30", "title": "Never-detected points never drift", "statement": "As long as a point has never been over the detection threshold, its velocity estimate is 0.", "quantifier": "every history, every filter provided by norfair", "why_tests_cant": "Unbounded histories.", "anchors": ["norfair/tracker.py:TrackedObject.hit", "norfair/filter.py:OptimizedKalmanFilter"]}
{"id": "C31", "title": "The optimized filter is a Kalman filter", "statement": "After every sequence of predict+update rounds, with any pattern of observed coordinates and any measurements, OptimizedKalmanFilter has exactly (in exact arithmetic) the state and covariance of the textbook constant-velocity Kalman filter with process noise Q and measurement noise R.", "quantifier": "every number of coordinates, every history, every mask and all valid parameters (R > 0, Q >= 0, valid initial covariance)", "why_tests_cant": "Unbounded histories over the reals.", "anchors": ["norfair/filter.py:OptimizedKalmanFilter.predict", "norfair/filter.py:OptimizedKalmanFilter.update"]}
{"id": "C32", "title": "The filter never divides by zero and never overshoots", "statement": "With R > 0, Q >= 0 and a valid initial covariance, along every history the variances stay valid (positive semi-definite), the denominators stay >= R, and the position estimate after an update lies between the prediction and the measurement.", "quantifier": "every history of predict/update calls in any order and every mask", "why_tests_cant": "Unbounded histories over the reals.", "anchors": ["norfair/filter.py:OptimizedKalmanFilter.update"]}
{"id": "C33", "title": "Coordinates not observed are not touched by a measurement", "statement": "filter.update with a mask changes position and velocity only of observed coordinates, and the result does not depend on the measured values of the unobserved ones; coordinates do not influence each other.", "quantifier": "every filter state, measurement and mask", "why_tests_cant": "All vectors of all lengths.", "anchors": ["norfair/filter.py:OptimizedKalmanFilter.update", "norfair/filter.py:NoFilter.update"]}
{"id": "C34", "title": "A static object is estimated exactly", "statement": "If all detections of an object are at the same position the estimate stays exactly at this position and the velocity at 0, through any pattern of matched and skipped frames.", "quantifier": "every position, dimension, history length and matching pattern", "why_tests_cant": "Unbounded histories.", "anchors": ["norfair/filter.py:OptimizedKalmanFilter", "norfair/filter.py:NoFilter", "norfair/tracker.py:TrackedObject.hit"]}
{"id": "C35", "title": "NoFilter reports the last detected position", "statement": "With NoFilterFactory the estimate of each point is the position of the last matched detection in which it was over the threshold (or the initial position), and the velocity is always 0.", "quantifier": "every history", "why_tests_cant": "Unbounded histories.", "anchors": ["norfair/filter.py:NoFilter", "norfair/filter.py:NoFilterFactory"]}
{"id": "C36", "title": "FilterPy factory builds independent constant-velocity filters", "statement": "The filter made by FilterPyKalmanFilterFactory, run by the standard Kalman equations, decouples into one two-state constant-velocity filter per coordinate (initial variances 1 and P, process noise 1 and Q, measurement noise R) along every history and with every observation mask.", "quantifier": "every number of coordinates, every history", "why_tests_cant": "Dense matrix recursion over unbounded histories.", "anchors": ["norfair/filter.py:FilterPyKalmanFilterFactory.create_filter"]}
{"id": "C37", "title": "iou is a distance between 0 and 1", "statement": "For well-formed boxes iou is in [0, 1], symmetric, 0 exactly for equal boxes, 1 exactly for boxes whose interiors do not overlap, and never NaN; it equals 1 - |A∩B|/|A∪B|.", "quantifier": "every pair of boxes with x_min < x_max and y_min < y_max", "why_tests_cant": "Real-valued inputs.", "anchors": ["norfair/distances.py:iou", "norfair/distances.py:_boxes_area"]}
{"id": "C38", "title": "iou does not depend on the choice of coordinates", "statement": "iou is invariant under translating both boxes by the same vector and under scaling by positive factors per axis, and under swapping axes.", "quantifier": "every pair of boxes, every translation and scale", "why_tests_cant": "Real-valued inputs.", "anchors": ["norfair/distances.py:iou"]}
{"id": "C39", "title": "frobenius, mean_euclidean and mean_manhattan are metrics", "statement": "They are non-negative, symmetric, zero exactly when detection and estimate coincide, and satisfy the triangle inequality; mean_euclidean <= mean_manhattan.", "quantifier": "every number of points and dimension", "why_tests_cant": "Real-valued inputs of every shape.", "anchors": ["norfair/distances.py:frobenius", "norfair/distances.py:mean_euclidean", "norfair/distances.py:mean_manhattan"]}
{"id": "C40", "title": "Keypoint voting distance", "statement": "The distance is 1/(1+k) with k the number of keypoints that are close and over the threshold in both; it is in (0, 1], 1 exactly if no keypoint matches, and decreases when more keypoints match.", "quantifier": "every pair of poses, every threshold", "why_tests_cant": "Real-valued inputs of every length.", "anchors": ["norfair/distances.py:create_keypoints_voting_distance"]}
{"id": "C41", "title": "Normalized mean euclidean distance is bounded by 1", "statement": "For points inside a width x height image the distance created by create_normalized_mean_euclidean_distance is in [0, 1], where 1 means opposite corners.", "quantifier": "every image size, every pair of point sets inside the image", "why_tests_cant": "Real-valued inputs.", "anchors": ["norfair/distances.py:create_normalized_mean_euclidean_distance"]}
{"id": "C42", "title": "Vectorized and scalar distances agree", "statement": "A vectorized distance that computes the pairwise distance f fills the matrix exactly like the scalar distance f would (inf where labels differ), whenever str() tells the labels apart.", "quantifier": "every list of objects and candidates, every labelling", "why_tests_cant": "All labellings of lists of all lengths.", "anchors": ["norfair/distances.py:VectorizedDistance.get_distances", "norfair/distances.py:ScalarDistance.get_distances"]}
{"id": "C43", "title": "Distances by name", "statement": "get_distance_by_name succeeds exactly for the documented names, and gives each name its documented distance; everything else raises ValueError.", "quantifier": "every string", "why_tests_cant": "All strings.", "anchors": ["norfair/distances.py:get_distance_by_name"]}
{"id": "C44", "title": "Translation transformations round-trip and accumulate", "statement": "abs_to_rel and rel_to_abs of a translation are inverse to each other.", "quantifier": "every movement vector and point list", "why_tests_cant": "Real-valued inputs.", "anchors": ["norfair/camera_motion.py:TranslationTransformation"]}
{"id": "C45", "title": "Homography transformations round-trip", "statement": "abs_to_rel(rel_to_abs(p)) = p and rel_to_abs(abs_to_rel(p)) = p for every invertible homography and every point that is not sent to infinity.", "quantifier": "every invertible 3x3 matrix and every point", "why_tests_cant": "Real-valued inputs.", "anchors": ["norfair/camera_motion.py:HomographyTransformation"]}
{"id": "C46", "title": "Translation estimation picks the mode", "statement": "The movement found by TranslationTransformationGetter (first call) is a most frequent rounded flow, ties are broken towards the lexicographically smallest, and the reference frame update is requested exactly if its share is below the threshold.", "quantifier": "every non-empty set of point pairs", "why_tests_cant": "All point sets.", "anchors": ["norfair/camera_motion.py:TranslationTransformationGetter.__call__"]}
{"id": "C47", "title": "Camera motion is always relative to the first frame", "statement": "If every measured flow is the true camera displacement between the reference frame and the current frame, the transformation returned by MotionEstimator.update is the true displacement relative to the first frame, whatever pattern of reference frame changes happened.", "quantifier": "every camera path, every pattern of reference updates", "why_tests_cant": "Unbounded videos.", "anchors": ["norfair/camera_motion.py:MotionEstimator.update", "norfair/camera_motion.py:TranslationTransformationGetter", "norfair/camera_motion.py:HomographyTransformationGetter"]}
{"id": "C48", "title": "The motion estimator recovers from failures", "statement": "If optical flow or the transformation estimation raises, MotionEstimator.update does not raise, returns None, restarts from the current frame as new reference with an estimator in its initial state.", "quantifier": "every history and failure point", "why_tests_cant": "Failure at any point of any history.", "anchors": ["norfair/camera_motion.py:MotionEstimator.update"]}
{"id": "C49", "title": "FixedCamera never fails and places every pixel correctly", "statement": "For every frame size, scale and camera position, the slice of the background and the slice of the frame have the same shape (no broadcasting error), and each background pixel shows the frame pixel at the displaced position if there is one, and the attenuated old background otherwise.", "quantifier": "every frame size, background size, displacement (also completely outside)", "why_tests_cant": "All integer offsets and sizes.", "anchors": ["norfair/drawing/fixed_camera.py:FixedCamera.adjust_frame"]}
{"id": "C50", "title": "AbsolutePaths keeps the last max_history points", "statement": "For every object the stored path is exactly the last max_history drawn point lists, newest first, and the alpha table is never indexed out of range.", "quantifier": "every drawing history", "why_tests_cant": "Unbounded histories.", "anchors": ["norfair/drawing/path.py:AbsolutePaths.draw"]}
{"id": "C51", "title": "Hex colors", "statement": "hex_to_bgr accepts '#rrggbb' and '#rgb' with lower-case hex digits and returns the BGR values (each 0..255), is the inverse of hex formatting, and raises ValueError for other strings.", "quantifier": "every string", "why_tests_cant": "All strings.", "anchors": ["norfair/drawing/color.py:hex_to_bgr"]}
{"id": "C52", "title": "Palette colors", "statement": "choose_color is the default color for None and otherwise always a color of the current palette; objects with ids that differ by less than the palette size get different palette slots; setting an unknown palette name raises ValueError and leaves the palette unchanged, and so does a list with a color that cannot be parsed; set_default_color changes the color of None and no other, or raises and changes nothing.", "quantifier": "every palette, every id", "why_tests_cant": "All palettes and ids.", "anchors": ["norfair/drawing/color.py:Palette"]}
{"id": "C53", "title": "Dead points are not drawn", "statement": "draw_points with hide_dead_points draws a circle for exactly the live points of each object and nothing at all for an object without live points.", "quantifier": "every list of drawables", "why_tests_cant": "All lists and masks.", "anchors": ["norfair/drawing/draw_points.py:draw_points"]}
{"id": "C54", "title": "Text labels", "statement": "The text drawn for an object is its label, id and mean score (those requested and available) joined by '-', with no leading, trailing or doubled separators.", "quantifier": "every drawable and flag combination", "why_tests_cant": "All strings and flags.", "anchors": ["norfair/drawing/utils.py:_build_text"]}
{"id": "C55", "title": "MOT prediction files", "statement": "PredictionsTextFile writes one line per prediction, in order, numbered by frame 1, 2, ... (or the given number), and closes the file exactly when seqLength updates were made; width/height are the differences of the box corners so that DetectionFileParser's corner conversion gives the box back.", "quantifier": "every sequence of predictions", "why_tests_cant": "Unbounded sequences.", "anchors": ["norfair/metrics.py:PredictionsTextFile.update", "norfair/metrics.py:DetectionFileParser.__init__"]}
{"id": "C56", "title": "Detection files", "statement": "Iterating a DetectionFileParser yields exactly seqLength lists; the k-th contains exactly the rows of frame k (in sorted file order), each once; every row with frame number in 1..seqLength is delivered exactly once; iterating again starts over.", "quantifier": "every file content and seqLength", "why_tests_cant": "All files.", "anchors": ["norfair/metrics.py:DetectionFileParser"]}
{"id": "C57", "title": "Accumulators store a video exactly once", "statement": "Accumulators.update appends the predictions of a video to the list of results exactly at the seqLength-th update after create_accumulator, and the stored matrix has one row per prediction, with the right frame numbers.", "quantifier": "every sequence of updates and videos", "why_tests_cant": "Unbounded sequences.", "anchors": ["norfair/metrics.py:Accumulators.update", "norfair/metrics.py:Accumulators.create_accumulator"]}
{"id": "C58", "title": "Information files", "statement": "InformationFile.search returns the value of the first line that begins with the variable name (as an int exactly when it consists of digits) and raises ValueError if there is none.", "quantifier": "every file content and name", "why_tests_cant": "All strings.", "anchors": ["norfair/metrics.py:InformationFile.search"]}
{"id": "C59", "title": "Video reads every frame once and cleans up", "statement": "Iterating a Video yields exactly the frames up to the first failed read, in order; after the loop ran to the end the writer (if any) and the capture are released; the writer is opened once, with the size of the first written frame; exactly one of camera and input_path must be given.", "quantifier": "every sequence of reads and every consumer behaviour (including breaking out of the loop)", "why_tests_cant": "All frame sequences and all points at which a consumer stops.", "anchors": ["norfair/video.py:Video.__iter__", "norfair/video.py:Video.write", "norfair/video.py:Video.__init__"]}
{"id": "C60", "title": "Output paths and codecs", "statement": "get_output_file_path returns output_path itself unless it is a folder, otherwise a file in the folder named after the input; different cameras get different files; the codec is mp4v for mp4, XVID for avi, the user's choice if given, an error otherwise.", "quantifier": "every path, camera and extension", "why_tests_cant": "All strings.", "anchors": ["norfair/video.py:Video.get_output_file_path", "norfair/video.py:Video.get_codec_fourcc"]}
{"id": "C61", "title": "Descriptions fit the terminal", "statement": "abbreviate_description returns a string shorter than the room left by the progress bar, keeping short descriptions unchanged.", "quantifier": "every description and terminal width", "why_tests_cant": "All strings and widths.", "anchors": ["norfair/video.py:Video.abbreviate_description"]}
{"id": "C62", "title": "Frame sequences", "statement": "Iterating VideoFromFrames reads exactly the frames 1..seqLength in order, each from a distinct file name, and releases the video exactly when the last frame was written.", "quantifier": "every length", "why_tests_cant": "All lengths.", "anchors": ["norfair/video.py:VideoFromFrames"]}
{"id": "C63", "title": "get_cutout returns the bounding rectangle", "statement": "get_cutout returns exactly the pixels inside the bounding rectangle of the points (clipped to the image).", "quantifier": "every point set and image", "why_tests_cant": "All coordinates, including partially outside the image.", "anchors": ["norfair/utils.py:get_cutout"]}
{"id": "C64", "title": "Two rounds of greedy matching", "statement": "A successful update first matches all detections greedily with the alive initialized objects, then the detections left over with the alive initializing objects, by the distances to the predicted objects; each matched object ends the call with its detection as last_detection and the pair's distance as last_distance; the detections still left over start new objects, in order.", "quantifier": "every state of a tracker and every call", "why_tests_cant": "All matrices, objects and histories.", "anchors": ["norfair/tracker.py:Tracker.update", "norfair/tracker.py:Tracker._update_objects_in_place"]}
{"id": "C65", "title": "No match is missed", "statement": "If a detection starts a new object although an alive initialized object is closer than the threshold, that object was matched in the same call with a detection at least as close.", "quantifier": "every state of a tracker and every call", "why_tests_cant": "All distance configurations.", "anchors": ["norfair/tracker.py:Tracker.update", "norfair/tracker.py:Tracker._update_objects_in_place"]}
{"id": "C66", "title": "current_min_distance", "statement": "After a successful update, current_min_distance of an alive initialized object is its smallest distance to the detections of this call if that is below the threshold, otherwise None.", "quantifier": "every state and call", "why_tests_cant": "Boundary cases such as all-zero distance matrices.", "anchors": ["norfair/tracker.py:Tracker._update_objects_in_place"]}
{"id": "C67", "title": "update gets through", "statement": "With distance functions that neither raise nor return NaN on well-formed input, and well-formed detections in all calls, no update ever raises or loops.", "quantifier": "every history of well-formed calls", "why_tests_cant": "Unbounded histories.", "anchors": ["norfair/tracker.py:Tracker.update", "norfair/tracker.py:Tracker._update_objects_in_place", "norfair/tracker.py:TrackedObject.hit"]}
{"id": "C68", "title": "iou is a metric", "statement": "For well-formed boxes iou satisfies the triangle inequality, so together with C37 it is a metric.", "quantifier": "every three boxes", "why_tests_cant": "Real-valued inputs.", "anchors": ["norfair/distances.py:iou"]}
{"id": "C69", "title": "draw_boxes draws every box", "statement": "draw_boxes draws for every object, in order, one rectangle between the first two points (in whole pixels) and, if there is a text, the text just above the first point, all in the color chosen for the object; it does not raise for objects with at least two points; without drawables the frame is returned unchanged.", "quantifier": "every list of drawables and every choice of arguments", "why_tests_cant": "All combinations of arguments and all coordinates.", "anchors": ["norfair/drawing/draw_boxes.py:draw_boxes", "norfair/drawing/utils.py:_build_text"]}
{"id": "C70", "title": "Paths fade by one factor per frame", "statement": "After any number of frames the mask of Paths holds the circles of all frames, each with weight (1 - attenuation) to the number of later frames, with the radius and thickness fixed in the first frame; the returned frame is the mask added to the frame.", "quantifier": "every sequence of frames and objects", "why_tests_cant": "Unbounded sequences of frames.", "anchors": ["norfair/drawing/path.py:Paths.draw"]}
{"id": "C71", "title": "The absolute grid is drawn at the visible points", "statement": "draw_absolute_grid draws a cross at exactly those points of the grid whose relative coordinates are inside the frame.", "quantifier": "every grid, frame size and transformation", "why_tests_cant": "All transformations.", "anchors": ["norfair/drawing/absolute_grid.py:draw_absolute_grid"]}
{"id": "C72", "title": "Every video is compared with its own ground truth", "statement": "compute_metrics compares every accumulated video, in order and under its own name, with the ground truth of this video; the compared rows are exactly the predictions of its frames (frame number, id, box moved by one pixel as in the ground truth), none missing.", "quantifier": "every sequence of videos and predictions", "why_tests_cant": "Unbounded numbers of videos, frames and predictions, and corner cases such as a single prediction or equal folder names.", "anchors": ["norfair/metrics.py:eval_motChallenge", "norfair/metrics.py:load_motchallenge", "norfair/metrics.py:compare_dataframes", "norfair/metrics.py:Accumulators.compute_metrics"]}
{"id": "C73", "title": "Warnings are given once", "statement": "warn_once gives every message exactly once, at the first call with it, whatever other messages come in between.", "quantifier": "every sequence of calls", "why_tests_cant": "Unbounded sequences of messages.", "anchors": ["norfair/utils.py:warn_once"]}
{"id": "C74", "title": "Frames are shown at the reduced size", "statement": "Video.show resizes a frame to its width and height divided by downsample_ratio, rounded down, and leaves it as it is for the ratio 1.", "quantifier": "every ratio and frame size", "why_tests_cant": "All ratios, of both numeric types.", "anchors": ["norfair/video.py:Video.show"]}
{"id": "C75", "title": "Tables and texts of tracked objects", "statement": "What update returns can be printed with print_objects_as_table, one row per object in order; the texts (repr) of different objects of a tracker are different.", "quantifier": "every history of well-formed calls", "why_tests_cant": "Unbounded histories, and corner cases such as objects that were never matched.", "anchors": ["norfair/utils.py:print_objects_as_table", "norfair/tracker.py:TrackedObject.__repr__"]}
{"id": "C76", "title": "Detections hold the points they were given", "statement": "Detection accepts exactly the arrays with one or two axes; one axis of length d gives one point with d coordinates, shape (n, d) gives n points; the numbers keep their order and the absolute points start as the points; making a detection from these points again changes nothing.", "quantifier": "every array, scores, label and data", "why_tests_cant": "All shapes.", "anchors": ["norfair/utils.py:validate_points", "norfair/tracker.py:Detection.__init__"]}
{"id": "C77", "title": "The grid is a grid on the sphere", "statement": "The points of _get_grid are the projections, from the center of the unit sphere to the plane z=1, of the points of the sphere at size x size equally spaced angles strictly inside (-pi/2, pi/2), scaled by the larger side and moved to the middle of the frame; they are pairwise different and symmetric about the middle.", "quantifier": "every size, frame size and both kinds of grid", "why_tests_cant": "Real-valued angles, all sizes.", "anchors": ["norfair/drawing/absolute_grid.py:_get_grid"]}
{"id": "C78", "title": "What a tracker returns can be drawn", "statement": "After any history of well-formed calls with transformations that keep shapes, every object has one row of coordinates and one live flag per point of its label; draw_points and draw_boxes (for boxes) do not raise for any of the objects and draw all their points (by default exactly those with a positive counter) or one rectangle each, at the current estimates in frame coordinates.", "quantifier": "every history and every selection of objects", "why_tests_cant": "Unbounded histories, with ReID merges and moving cameras.", "anchors": ["norfair/tracker.py:Tracker.update", "norfair/drawing/drawer.py:Drawable", "norfair/drawing/draw_boxes.py:draw_boxes", "norfair/drawing/draw_points.py:draw_points"]}
{"id": "C79", "title": "Deprecated drawing functions draw the same", "statement": "draw_tracked_objects and draw_tracked_boxes draw, for the same color and thickness, the circles and rectangles that draw_points and draw_boxes draw, raise in the same cases, and by default write the ids as these do.", "quantifier": "every list of objects and every choice of arguments", "why_tests_cant": "All combinations of arguments.", "anchors": ["norfair/drawing/draw_points.py:draw_tracked_objects", "norfair/drawing/draw_boxes.py:draw_tracked_boxes"]}
{"id": "C80", "title": "Units and origin do not matter", "statement": "If all coordinates are given in other units and from another origin, update raises in the same calls and returns the same objects (ids, counters, labels, live points, matched detections) with estimates and velocities in the new units: for iou with any positive scale per axis and the same thresholds; for frobenius, mean_euclidean and mean_manhattan with any factor c != 0 and thresholds multiplied by |c|; with each of the three filters.", "quantifier": "every scale, origin, history, corresponding camera motions", "why_tests_cant": "A relation between two unbounded histories, for all real scales and shifts.", "anchors": ["norfair/tracker.py:Tracker.update", "norfair/distances.py:iou", "norfair/distances.py:frobenius", "norfair/distances.py:mean_euclidean", "norfair/distances.py:mean_manhattan", "norfair/filter.py"]}
{"id": "C81", "title": "Names of labels do not matter", "statement": "If the labels are renamed one to one (None included, other types allowed), update raises in the same calls and returns the same objects with the renamed labels, for distances that do not look at the labels.", "quantifier": "every injective renaming, history and distance function", "why_tests_cant": "A relation between two unbounded histories.", "anchors": ["norfair/tracker.py:Tracker.update", "norfair/distances.py:ScalarDistance.get_distances", "norfair/distances.py:VectorizedDistance.get_distances"]}
{"id": "C82", "title": "Only the order of distances matters", "statement": "If distances and thresholds are transformed by a strictly increasing function that fixes 0 and infinity (for example squared), update raises in the same calls and returns the same objects with the same estimates; last_distance is transformed.", "quantifier": "every strictly increasing function, history and distance function", "why_tests_cant": "A relation between two unbounded histories, for all monotone functions.", "anchors": ["norfair/tracker.py:Tracker.update", "norfair/tracker.py:Tracker.match_dets_and_objs"]}
{"id": "C83", "title": "Translations of the camera are compensated exactly", "statement": "A tracker that is given detections of a moving camera together with the translations works like a tracker without camera motion that is given the stabilized detections (converted to the absolute frame): the same calls raise, the objects have the same ids, counters, filters and matches, and their estimates are the estimates of the other tracker converted to the current frame; for iou, frobenius, mean_euclidean, mean_manhattan and normalized mean_euclidean, and for every distance that is invariant under the transformations used.", "quantifier": "every history of translations and detections", "why_tests_cant": "A relation between two unbounded histories.", "anchors": ["norfair/tracker.py:Tracker.update", "norfair/camera_motion.py:TranslationTransformation", "norfair/tracker.py:TrackedObject.get_estimate", "norfair/tracker.py:TrackedObject.update_coordinate_transformation", "norfair/distances.py:iou"]}
{"id": "C84", "title": "A tracker needs bounded memory", "statement": "If every call succeeds with at most m detections and 0 <= period <= pmax, then the tracker never holds more than m * (max(hit_counter_max, 2*pmax) + 2) objects, and with reid_hit_counter_max = R never more than m * (max(hit_counter_max, 2*pmax) + 2 + R + 1), no matter how long it runs.", "quantifier": "every history, distance function, filter and number of calls", "why_tests_cant": "A bound over unbounded histories.", "anchors": ["norfair/tracker.py:Tracker.update", "norfair/tracker.py:TrackedObject.tracker_step", "norfair/tracker.py:TrackedObject.hit_counter_is_positive", "norfair/tracker.py:TrackedObject.reid_hit_counter_is_positive"]}
{"id": "C85", "title": "Other labels do not matter", "statement": "A tracker that is given only the detections with some of the labels holds, after any number of calls, exactly those objects of the tracker with all detections that have these labels, in the same order and equal in everything (filter, estimate, counters, past detections, age) but their numbers, and the ids are given in the same order; if a call with all detections returns, the call with these detections returns, and returns the corresponding objects. For every distance that does not look at the numbers of objects; with ReID.", "quantifier": "every set of labels, history, distance function and filter", "why_tests_cant": "A relation between two unbounded histories, for all sets of labels.", "anchors": ["norfair/tracker.py:Tracker.update", "norfair/distances.py:ScalarDistance.get_distances", "norfair/distances.py:VectorizedDistance.get_distances", "norfair/tracker.py:Tracker.match_dets_and_objs"]}
{"id": "C86", "title": "The order of detections does not matter", "statement": "Two trackers that are given the same detections in different orders at every call hold the same objects with the same ids, estimates, counters and detections, and if a call returns with one order, it returns with the other; only the order of the list of objects and their initializing_id differ. This is for different detections without ties of distances below the threshold, period <= initialization_delay and no ReID; with ties or a longer period the order matters.", "quantifier": "every history, filter and every distance function that does not look at numbers of objects or ages of detections", "why_tests_cant": "A relation between two unbounded histories, for all permutations.", "anchors": ["norfair/tracker.py:Tracker.update", "norfair/tracker.py:Tracker.match_dets_and_objs", "norfair/tracker.py:TrackedObject._acquire_ids"]}
{"id": "C87", "title": "Targets of constant velocity are followed", "statement": "If an object is created and then matched in every frame with a point whose absolute coordinate is within W of t + k*u in frame k, then the squared errors of its estimated position and velocity are at most constants of the filter times (rate^k * initial error + const * W^2), where rate < 1 and the constants are explicit functions of the noises; so with exact detections the errors of position and velocity vanish. For the default filter and for FilterPyKalmanFilterFactory, with positive R and Q and a positive definite initial covariance, with camera motion, without ReID.", "quantifier": "every target, noise of the measurements, number of frames and history before", "why_tests_cant": "A limit over unbounded histories with real numbers.", "anchors": ["norfair/tracker.py:Tracker.update", "norfair/filter.py:OptimizedKalmanFilter.update", "norfair/filter.py:OptimizedKalmanFilter.predict", "norfair/filter.py:FilterPyKalmanFilterFactory.create_filter", "norfair/tracker.py:TrackedObject.hit"]}
{"id": "C88", "title": "Separated targets are never confused", "statement": "If no target changes its velocity by more than A per frame, every call gets exactly one new detection of each of them (off by at most W, in any order, all points over the detection threshold, possibly with camera translations), and in every frame targets with equal labels are far enough apart compared to the errors of the filter and the threshold, then no call raises, the tracker holds exactly one object per target from the first call on, each target keeps its object (and so its id) and each object is matched to the detection of its target in every call and stays within a fixed error of it. Explicit conditions for frobenius, mean_euclidean and mean_manhattan. No ReID.", "quantifier": "every set of targets, number of frames, noise, order of detections", "why_tests_cant": "Unbounded histories with real numbers and any number of objects.", "anchors": ["norfair/tracker.py:Tracker.update", "norfair/tracker.py:Tracker.match_dets_and_objs", "norfair/distances.py:frobenius", "norfair/distances.py:mean_euclidean", "norfair/distances.py:mean_manhattan", "norfair/filter.py:OptimizedKalmanFilter"]}
{"id": "C89", "title": "Drawing changes only the pixels it covers; paths fade", "statement": "draw_points, draw_boxes, AbsolutePaths.draw and draw_absolute_grid change no pixel that is not covered by the shape or text of something that is to be drawn, however pictures are blended; a pixel covered by a box that nothing covers later has the color of its object; all values stay between 0 and 255, and where no text is written between those of the frame and of the colors drawn there. Paths.draw returns the frame plus the mask, up to 255; on the mask a pixel over which no path goes is multiplied by 1 - attenuation and cut off in every frame, so with positive attenuation it is gone after at most 255 frames (168 with the default), and without attenuation it stays.", "quantifier": "every frame, pixel, history of objects, attenuation, way to rasterize shapes", "why_tests_cant": "Unbounded histories, all pictures and all rasterizations.", "anchors": ["norfair/drawing/draw_points.py:draw_points", "norfair/drawing/draw_boxes.py:draw_boxes", "norfair/drawing/path.py:Paths.draw", "norfair/drawing/path.py:AbsolutePaths.draw", "norfair/drawing/absolute_grid.py:draw_absolute_grid", "norfair/drawing/drawer.py:Drawer.alpha_blend"]}
{"id": "C90", "title": "Size and place of texts", "statement": "Drawer.text writes the text twice with the same size and thickness, first the shadow in black, one pixel right and down, then the text in its color at the given place moved right and up by half of the thickness. By default the size is from 0.5 to 1.5 and the thickness 1 (up to 2000 pixels), 2 (up to 5999) or 3. draw_points and draw_boxes write all texts in the given size and thickness, where label_size wins over text_size. The text of a box starts above its upper line. The text of draw_points is at the middle of the live points, moved by the radius of the circles to the left and up; this radius is the given one or 2/1000 of the longest side of the frame, rounded, at least 1.", "quantifier": "every frame shape, text, position, arguments and list of drawables", "why_tests_cant": "All frame sizes and arguments, including halves that Python rounds to even.", "anchors": ["norfair/drawing/drawer.py:Drawer.text", "norfair/drawing/draw_points.py:draw_points", "norfair/drawing/draw_boxes.py:draw_boxes"]}
{"id": "C91", "title": "A tracker with iou and proper boxes does not raise", "statement": "If all detections are proper boxes (x_min < x_max, y_min < y_max, each with both corners over the detection threshold, or none, or without scores), and the coordinate transformations take proper boxes to proper boxes, then a tracker with the distance iou never raises and all its objects are proper boxes.", "quantifier": "every history of calls, camera motion and labels", "why_tests_cant": "Unbounded histories with real numbers; the counterexample needs an exact coincidence of areas.", "anchors": ["norfair/tracker.py:Tracker.update", "norfair/distances.py:iou", "norfair/distances.py:_validate_bboxes", "norfair/tracker.py:Tracker.match_dets_and_objs", "norfair/filter.py:NoFilter"]}
{"id": "C92", "title": "A tracker with a vectorized distance is a tracker with a scalar one", "statement": "If a vectorized distance compares the rows of the stacks one by one, as iou does, and different labels have different texts, then every call of update does exactly the same (objects, ids, errors) as with the scalar distance of a detection and an object that is applied to their flattened points; so iou is matched in two rounds of greedy matching on the pairwise values.", "quantifier": "every state, history, detections, camera motion, ReID and filter", "why_tests_cant": "Equality of two programs on all states.", "anchors": ["norfair/tracker.py:Tracker.update", "norfair/distances.py:VectorizedDistance.get_distances", "norfair/distances.py:ScalarDistance.get_distances", "norfair/distances.py:iou"]}
{"id": "C93", "title": "Objects keep the shape of their detections", "statement": "If a linear relation between the absolute coordinates holds for all detections with a label (for example width = 2 * height, or a fixed distance between two points), in each detection all points being over the detection threshold, or none, or there being no scores, and with camera motions that keep the relation (translations do for relations that do not depend on the place), then it holds for the filtered positions and the estimates of all objects with that label, always, also while they are not detected; so objects whose detections are moved copies of a fixed shape are moved copies of that shape. For the default filter, FilterPyKalmanFilterFactory and NoFilterFactory.", "quantifier": "every linear relation, history, distance function, camera motion, noises of the filter", "why_tests_cant": "Unbounded histories with real numbers, an equality that rounding hides.", "anchors": ["norfair/tracker.py:Tracker.update", "norfair/filter.py:OptimizedKalmanFilter.update", "norfair/filter.py:OptimizedKalmanFilter.predict", "norfair/filter.py:FilterPyKalmanFilterFactory.create_filter", "norfair/filter.py:NoFilter", "norfair/tracker.py:TrackedObject.hit"]}
{"id": "C94", "title": "Targets that come and go are not confused if distances tell them apart", "statement": "Suppose that in every call the distance of a detection and an object that can be matched is below the threshold exactly if the last detection of the object shows the same target, and no call gets two detections of one target; targets may appear, disappear and be missed in any calls. Then there are never two matchable objects of one target, all detections ever matched to an object or an id are of one target, and a target that is missed in n calls after its object had hit counter h >= 0 is given to the same object with the same id if n <= h, and to a new object if n > h. For any filter, camera motion, and distance (scalar, or vectorized row by row); without ReID.", "quantifier": "every history, pattern of visibility, distance function and filter", "why_tests_cant": "Unbounded histories, any number of targets and any pattern of misses.", "anchors": ["norfair/tracker.py:Tracker.update", "norfair/tracker.py:Tracker.match_dets_and_objs", "norfair/tracker.py:Tracker._update_objects_in_place", "norfair/tracker.py:TrackedObject.tracker_step"]}
{"id": "C95", "title": "Which pictures are drawn on", "statement": "draw_points, draw_boxes and draw_absolute_grid write to the array of the frame and to no other one. Paths.draw writes to none of the arrays a program has and returns a new one, and whatever the program does with its arrays (draw on frames and on results, between any calls), it gets the pictures of a drawer that shares no arrays: the mask is never an array of the program. AbsolutePaths.draw writes to the given frame and to no other array of the program: if no object has a path it draws in place and returns the frame, else it returns a new array and the frame keeps exactly the circles of the objects up to the first one with a path. In all cases the returned picture is the one that the functional model computes from the pixels of the frame at the time of the call.", "quantifier": "every memory, program that draws on its own arrays in between, history of objects and frames", "why_tests_cant": "Sharing of arrays in unbounded histories, with any writes in between.", "anchors": ["norfair/drawing/path.py:Paths.draw", "norfair/drawing/path.py:AbsolutePaths.draw", "norfair/drawing/draw_points.py:draw_points", "norfair/drawing/draw_boxes.py:draw_boxes", "norfair/drawing/absolute_grid.py:draw_absolute_grid", "norfair/drawing/drawer.py:Drawer"]}
{"id": "C96", "title": "The fixed camera and drawings on its pictures", "statement": "FixedCamera.adjust_frame changes no array of the program and returns a new array, which it keeps as its background. So its pictures depend on the frames at the time of the calls, the movements, and on what the program draws on the array that was returned last, and on nothing else: drawings on frames afterwards and on older results have no effect, and a program that does not draw on the last result gets the pictures of C49. What is drawn on the last result is still there in the next one, attenuated, wherever the frame does not cover it.", "quantifier": "every memory, program that draws on its own arrays in between, history of frames and movements", "why_tests_cant": "Sharing of arrays in unbounded histories, with any writes in between.", "anchors": ["norfair/drawing/fixed_camera.py:FixedCamera.adjust_frame"]}
{"id": "C97", "title": "Which objects ReID merges", "statement": "With a ReID distance, update has a third round of matching. It compares the initializing objects that got a detection in the second round, in the order in which they were matched, with the initialized alive objects that got none in the first round followed by the dead objects that are kept for ReID, all in their state after the two rounds. The merged pairs are a greedy matching: only pairs of equal label with a ReID distance below reid_distance_threshold, smallest distances first, and no pair below the threshold is left if both could be merged. The old object of a pair keeps its identity, age and label and takes over the rest of the new object, which disappears; all other objects are as after the same call without ReID.", "quantifier": "every state reached, scalar distance, ReID distance, detections and camera motion", "why_tests_cant": "All states of the tracker with any number of objects and any distances.", "anchors": ["norfair/tracker.py:Tracker.update", "norfair/tracker.py:Tracker._update_objects_in_place", "norfair/tracker.py:Tracker.match_dets_and_objs", "norfair/tracker.py:TrackedObject.merge"]}
{"id": "C98", "title": "With ReID ids are not switched, and targets that come back get their ids back", "statement": "If no distance below its threshold is one of different targets, neither of a detection and an object nor of two objects for ReID, then all detections ever given to an object or to an id are of one target, however detections are missing, doubled or spurious. If also the distances of one target are below the thresholds and no two detections of a call are of one target, then a dead object that is the only object of its target and is kept for at least two more calls gets its target back: when the target is detected in two calls in a row, the first starts a new object, and in the second the dead object takes it over, with the old id, is returned again if it ever was, and is the only object of the target.", "quantifier": "every history, distance functions, filter and camera motion", "why_tests_cant": "Unbounded histories, any number of targets and any pattern of misses.", "anchors": ["norfair/tracker.py:Tracker.update", "norfair/tracker.py:Tracker._update_objects_in_place", "norfair/tracker.py:TrackedObject.merge", "norfair/tracker.py:TrackedObject.tracker_step"]}
{"id": "C99", "title": "Detections can be drawn as they are", "statement": "draw_points and draw_boxes, given Detections, do not raise. They draw every point of every detection (whatever its score, whatever hide_dead_points), one circle per point or one rectangle per box, at the coordinates the user gave (not at the absolute ones), in whole pixels; with color='by_id' in the default color of the palette, as detections have no id. The texts of boxes consist of the label and the mean score, as wanted and available, never of an id.", "quantifier": "every list of detections, frame, palette that is not empty", "why_tests_cant": "All detections, points and scores; the difference to tracked objects shows only with camera motion and dead points.", "anchors": ["norfair/drawing/drawer.py:Drawable", "norfair/drawing/draw_points.py:draw_points", "norfair/drawing/draw_boxes.py:draw_boxes"]}
{"id": "C100", "title": "Rounding that flips no comparison changes no decision", "statement": "Take two trackers with the same arguments (without ReID) but with other arithmetic: filters, estimates and distances may be computed differently, even on other kinds of numbers (say float64 and exact reals). If in every call the comparisons that decide something come out alike (each distance with the threshold, and two distances below it with each other; exceptions and NaN at the same places), then the trackers raise at the same calls and return in the same order objects with the same ids, counters, ages, labels, matched detections, histories and live points, however different the estimates are. It is enough that the distances of a call are known up to an error e, none is within e of the threshold, and those below it are equal on both sides or more than 2e apart. If rounding makes two distances equal, another object may be matched.", "quantifier": "every history, pair of filters, pair of distances and of number types, camera motion, labels", "why_tests_cant": "Two computations with different arithmetic compared over all unbounded histories; the arithmetic of floating point cannot be varied in a test.", "anchors": ["norfair/tracker.py:Tracker.update", "norfair/tracker.py:Tracker.match_dets_and_objs", "norfair/tracker.py:Tracker._update_objects_in_place", "norfair/distances.py:ScalarDistance.get_distances"]}
{"id": "C101", "title": "Greedy matching compared with all other assignments", "statement": "Compare the result of match_dets_and_objs with any one-to-one assignment of detections to objects. For every distance t up to the threshold, no assignment with distances below t has more than twice as many pairs as the matching has below t; and counting for each pair by how much it is below the threshold, no assignment gains more than twice as much. If in an assignment below the threshold detections and objects are mutually nearest, the matching contains it. In a call of update, if n initialized objects could be given detections of their own below the threshold, at least n/2 of them are matched. The bound is attained for any number of objects, and the sum of distances is not bounded by the smallest possible one.", "quantifier": "every matrix, threshold, assignment; every call in every reachable state", "why_tests_cant": "All matrices of all sizes against all assignments.", "anchors": ["norfair/tracker.py:Tracker.match_dets_and_objs", "norfair/tracker.py:Tracker._update_objects_in_place", "norfair/tracker.py:Tracker.update"]}
{"id": "C102", "title": "Writing to detections after they were given to the tracker", "statement": "A program may write to detections that it passed to update in earlier calls (for example because their points share one array that it fills again for each frame). If the distance functions look at the detections of tracked objects (last_detection, past_detections) only through parts that are not written to, and age is not written to, then all later calls do exactly the same as without the writes: same objects, filters, ids, errors. Distances given by name look at no part of them; the keypoints voting distance looks at the scores only. If the distance looks at what is written, objects can be lost.", "quantifier": "every history, pattern of writes between calls, distance, ReID distance, filter and camera motion", "why_tests_cant": "All programs that write to any detections between any calls.", "anchors": ["norfair/tracker.py:Tracker.update", "norfair/tracker.py:Detection", "norfair/tracker.py:TrackedObject.hit", "norfair/tracker.py:TrackedObject._conditionally_add_to_past_detections", "norfair/tracker.py:TrackedObject.merge", "norfair/distances.py:create_keypoints_voting_distance"]}
{"id": "C103", "title": "A still scene filmed by a moving camera", "statement": "The targets do not move, the camera does. If every call gets new detections of any of the targets (not two of one) at the places where the camera sees them, with any scores, and the camera sees targets of equal label at distances not below the threshold from each other, then no call raises; each object belongs to one target for ever and so does its id; no two matchable objects are of one target; the absolute estimate of every object is exactly the place of its target, with velocity 0, and its relative estimate is exactly where the camera sees this place now, even if it is not detected; a target that leaves the picture for no more calls than the hit counter of its object gets its id back. With the MotionEstimator (translations, the true flow is the most frequent one) it is enough that the targets are apart in the first frame, and the estimates are the positions of the targets in the first and in the current frame. For any filter of norfair; without ReID.", "quantifier": "every scene, pattern of visibility, camera movement, history", "why_tests_cant": "Unbounded histories of all scenes, and three parts of the library together (motion estimator, coordinate transformations, tracker).", "anchors": ["norfair/tracker.py:Tracker.update", "norfair/tracker.py:TrackedObject.get_estimate", "norfair/camera_motion.py:MotionEstimator.update", "norfair/camera_motion.py:TranslationTransformation", "norfair/camera_motion.py:TranslationTransformationGetter.__call__"]}
{"id": "C104", "title": "The calls that return an id have no gaps", "statement": "Without reid_hit_counter_max: if an id is returned by two calls of update, all calls between them that do not raise return it too, detected or not, whatever the detections, scores, periods and transformations are. With reid_hit_counter_max this is false: an id may disappear and come back.", "quantifier": "every history, configuration, three calls", "why_tests_cant": "Every pattern of hits and misses of unbounded length.", "anchors": ["norfair/tracker.py:Tracker.update", "norfair/tracker.py:Tracker.get_active_objects", "norfair/tracker.py:TrackedObject.tracker_step", "norfair/tracker.py:TrackedObject.hit_counter_is_positive"]}
{"id": "C105", "title": "The evaluation on MOTChallenge data, from the file of detections to the comparison", "statement": "The loop of the demo motmetrics4norfair, with files of at least two detections in rows of equal length (at least 7) and one transformation (or none) per frame: it raises exactly if the tracker raises. The tracker gets the detections of each frame, each one a new one. The text file is closed at the end and has exactly one line for each object the tracker returned, frame by frame, with its id and its estimate in frame coordinates; read back it gives the rows of the accumulator. No two rows have the same frame and id; without reid_hit_counter_max the frames of an id have no gaps. Each sequence is compared with its own ground truth, unless two sequences have the same name or one has exactly one row. With iou, NoFilter, boxes of positive size and translations nothing raises.", "quantifier": "every file of detections, sequence length, filter, distance, transformation, number of sequences", "why_tests_cant": "All files and configurations, and five classes of the library together.", "anchors": ["norfair/metrics.py:DetectionFileParser", "norfair/metrics.py:PredictionsTextFile.update", "norfair/metrics.py:Accumulators.update", "norfair/metrics.py:eval_motChallenge", "norfair/tracker.py:Tracker.update", "demos/motmetrics4norfair/src/motmetrics4norfair.py"]}
{"id": "C106", "title": "A frame without motion estimate does no harm", "statement": "A still scene is filmed by a camera that is moved, and the tracker gets what the MotionEstimator returns (the true flow is the most frequent one). If for some frame the estimator returns None, the objects still keep their ids, and their estimates are where their targets are in the picture. This is false: in such a frame the relative estimates are wrong by the movement of the camera up to then; a target that is not detected in that frame is lost; and with the Kalman filters targets that are detected in every frame lose their ids as well. It is true with NoFilter, in all frames with an estimate, if every tracked target is detected in the frame without estimate (not the first one, and not two in a row) and the camera moves little between this frame and the one before: then ids are kept and estimates are exact from the next frame on; absolute coordinates are those of the last frame without estimate.", "quantifier": "every scene, video, pattern of failures, history", "why_tests_cant": "Three parts of the library together over unbounded histories; the tests never let the estimator fail.", "anchors": ["norfair/tracker.py:Tracker.update", "norfair/tracker.py:TrackedObject.get_estimate", "norfair/tracker.py:TrackedObject.update_coordinate_transformation", "norfair/tracker.py:Detection.update_coordinate_transformation", "norfair/camera_motion.py:MotionEstimator.update"]}
{"id": "C107", "title": "The evaluation with camera motion: masks and movement", "statement": "In the evaluation on MOTChallenge data the mask for the motion estimator is 0 exactly on the pixels of the frame that are covered by the box of a detection or of an estimate, so the movement of the camera is found from points outside all of them. The mask part is false for boxes that are partly outside the picture at the left or at the top: nothing of them is masked, or pixels elsewhere, and their points are used for the movement. If all boxes begin inside the picture it is true: in every frame the points passed to the getter lie in pixels that the mask of the reference frame allows. The tracker gets in every frame what the estimator returns for this frame and this mask, a new estimator for each sequence; apart from that the evaluation is the one without camera motion.", "quantifier": "every detection file, video, getter, configuration", "why_tests_cant": "Negative slices and the interplay of masks, reference frames and tracker over unbounded videos; the demo is not tested at all.", "anchors": ["demos/motmetrics4norfair/src/motmetrics4norfair.py:16-26", "demos/motmetrics4norfair/src/motmetrics4norfair.py:113-138", "norfair/camera_motion.py:MotionEstimator.update", "norfair/camera_motion.py:_get_sparse_flow"]}
{"id": "C108", "title": "Projection and distance of the 3D demo", "statement": "PixelCoordinatesProjecter: parameters in NDC and in pixels describe the same projecter, whichever are given; both ways from a point to its pixel (eye_2_pixel, and eye_2_ndc followed by ndc_2_pixel) agree; two points have the same pixel exactly if they are on a line through the eye; without parameters exactly the points of the pyramid of the picture are in the picture. The second part is false: the columns differ by the width times the first coordinate of the principal point. scaled_euclidean does not depend on the unit of length and the origin, so a tracker with it makes the same decisions in any unit, with the same threshold.", "quantifier": "every camera, point, unit, history", "why_tests_cant": "A sign that is wrong only if the principal point is not in the middle; relations between whole runs.", "anchors": ["demos/3d_track/src/utils.py:PixelCoordinatesProjecter", "demos/3d_track/src/utils.py:scaled_euclidean", "norfair/tracker.py:Tracker.update"]}
{"id": "C109", "title": "Boxes by center, ratio and height are the same boxes", "statement": "In the evaluation with boxes given by center, ratio of sides and height, the two conversions are inverse to each other for boxes whose height is not 0, and iou_xyah is iou of the boxes, for all values including those where it is not a number. So it is a number from 0 to 1 for positive ratio and height, 0 exactly for equal boxes; for estimates whose ratio or height is not positive it is 1 or not a number.", "quantifier": "all boxes", "why_tests_cant": "Exact agreement of two formulas for all numbers, including negative heights.", "anchors": ["demos/motmetrics4norfair/src/motmetrics4norfair_xyah.py:iou_xyah", "demos/motmetrics4norfair/src/motmetrics4norfair_xyah.py:150-184", "norfair/distances.py:iou"]}
{"id": "C110", "title": "Detections of the artificial video are of what can be seen", "statement": "In the ReID demo, in every step exactly those actors are detected whose true box has no inner point in common with the one of an actor before them; no two detected boxes overlap; every pixel of the picture has the color of the first actor that covers it; so every pixel of the true box of a detected actor has its color. Boxes begin on the canvas at every step. embedding_distance is below the threshold 1/2 exactly if the newest known embedding of the lost object is closer than 1/2 to some past detection of the new one, else 1; it is the distance to the oldest such detection, not to the closest one.", "quantifier": "any number of actors, positions, steps; any embeddings", "why_tests_cant": "All arrangements of actors; order of painting against order of the collision test.", "anchors": ["demos/reid/src/utils.py:collision_detected", "demos/reid/src/video_generator.py:data_generator", "demos/reid/src/video_generator.py:generate_video", "demos/reid/src/video_generator.py:Actor.position_at", "demos/reid/src/demo.py:embedding_distance"]}
{"id": "C111", "title": "Hidden targets are extrapolated and found again", "statement": "Without ReID and with a Kalman filter, an object that gets no detection in n calls has moved by exactly n times its velocity and keeps the velocity. So if a target of constant velocity was followed as in C87 and is then hidden for n frames, the error in the n-th hidden frame is bounded by the one of C87 for the last detection times a constant that depends on n and the noises; with exact detections the errors of all hidden frames are as small as wanted after enough detections. When the target, which may also change its velocity by up to A per frame, is detected again before the hit counter is used up, and such errors (with A n (n+1) / 2 for the changes in the hidden frames) are below the threshold for the distance, and no other detection is close to the object and no other object close to the detection, then the object gets the detection and keeps its id.", "quantifier": "every history, number of detected and hidden frames, target, camera translation", "why_tests_cant": "Extrapolation over any number of frames and a bound for all noises; what other detections do in the same calls.", "anchors": ["norfair/tracker.py:Tracker.update", "norfair/tracker.py:TrackedObject.tracker_step", "norfair/filter.py:OptimizedKalmanFilter", "norfair/filter.py:FilterPyKalmanFilterFactory"]}
{"id": "C112", "title": "What is in points below the detection threshold does not matter", "statement": "If the distances do not look at points that are not over the detection threshold and the filter does not look at masked measurements, two programs that make the same calls with detections that differ in the coordinates of such points only have the same objects (estimates, filters, ids, counters) in every state and get the same results and exceptions from every call. The voting distance does not look at such points if its threshold is not below that of the tracker; none of the three filters looks at masked measurements; translations and homographies do not mix points.", "quantifier": "every two programs, any calls, transformations, edits and new detections between calls, shapes, ReID", "why_tests_cant": "Garbage in the unseen points could leak through filter, masks, first-detection fix or distances in any later frame.", "anchors": ["norfair/tracker.py:Tracker.update", "norfair/tracker.py:TrackedObject.hit", "norfair/distances.py:create_keypoints_voting_distance", "norfair/filter.py:OptimizedKalmanFilter"]}
{"id": "C113", "title": "A target seen whenever the detector runs keeps its id", "statement": "In loops that run the detector only in every n-th frame (with period=n), an object that gets a detection in every frame in which the detector runs is never dropped, keeps its id and is returned and drawn in every frame; a new object is initialized after the detections that the initialization delay asks for, counted in frames.", "quantifier": "every skip period, tracker, video, number of frames", "why_tests_cant": "The hit counter saturates in processed frames and decreases in the others; whether it lasts depends on all parameters together.", "anchors": ["norfair/tracker.py:Tracker.update", "demos/sahi/src/demo.py", "demos/reid/src/demo.py", "demos/profiling/src/demo.py"]}
{"id": "C114", "title": "Loops that skip frames write every frame once and in order", "statement": "The loops of the demos that run the detector in some frames only write every frame of the video exactly once and in order, drawn with the objects of the call of this frame and with the detections of the last frame in which the detector ran.", "quantifier": "every video, detector, skip period, tracker", "why_tests_cant": "A frame can be dropped or drawn with stale objects in cases that a sample video does not have (nobody in view).", "anchors": ["demos/sahi/src/demo.py", "demos/openpose/src/demo.py", "demos/profiling/src/demo.py"]}
{"id": "C115", "title": "Poses are compared by keypoints and boxes by centers in the keypoints and boxes demo", "statement": "In the demo that tracks poses and boxes together, a pose is compared with an estimate by its keypoints (those found, within a distance) and a box by its center, so that a detection of either kind at the place of the estimate is matched and poses at other places are not.", "quantifier": "every pose, box, label, score, size of video", "why_tests_cant": "It depends on how labels of the two detectors are mapped to the two distances, and on all coordinates.", "anchors": ["demos/keypoints_bounding_boxes/src/demo.py:keypoints_distance"]}
{"id": "C116", "title": "A pose seen again at its place is matched, at any size", "statement": "With the rescaled voting distance of the profiling demo, a pose at the estimated place with at least five points found in both is under the threshold, and the distance does not depend on how large the person is in the video.", "quantifier": "every pose, estimate, scores, scale", "why_tests_cant": "The threshold is measured on the pose itself; degenerate poses are a null set for samples.", "anchors": ["demos/profiling/src/utils.py:rescaled_keypoints_vote"]}
{"id": "C117", "title": "The normalized distance of the profiling demo is bounded", "statement": "With the normalized distance that the profiling demo builds for a video, two boxes in the image are at most sqrt(2) apart, whatever the size of the video.", "quantifier": "every size of video, all points", "why_tests_cant": "Depends on the order in which width and height are passed on; equal for square videos.", "anchors": ["demos/profiling/src/utils.py:get_distance_function", "norfair/distances.py:create_normalized_mean_euclidean_distance"]}
{"id": "C118", "title": "Suppression of overlapping boxes keeps the right ones", "statement": "The detections that non-maximum suppression of the yolopv2 demo leaves are boxes of predictions over the confidence threshold and of wanted classes, at most 300 in descending order; two of the same class (of any class if agnostic) overlap at most by the threshold, and every other candidate overlaps a better one of its class that is left, unless 300 better ones are left.", "quantifier": "every list of predictions, thresholds, classes, modes", "why_tests_cant": "Boxes are moved apart by class with a fixed offset; whether classes stay apart depends on the range of all coordinates.", "anchors": ["demos/yolopv2/src/utils.py:non_max_suppression"]}
{"id": "C119", "title": "Boxes come back from the network's image to their place", "statement": "letterbox fits an image into the shape of the network (exactly, or up to a multiple of the stride) with borders that differ by at most a pixel, and scale_coords brings every point back to its place in the image up to rounding, within the image.", "quantifier": "every image size, network shape, stride, mode, point", "why_tests_cant": "Rounding of the resized size and of half borders varies with all sizes.", "anchors": ["demos/yolopv2/src/utils.py:letterbox", "demos/yolopv2/src/utils.py:scale_coords", "demos/yolopv2/src/utils.py:clip_coords"]}
{"id": "C120", "title": "Targets that change their velocity are followed with a lag", "statement": "If an object is created and then matched in every frame with a point whose absolute coordinate is within W of p(k) in frame k, where p is any path whose velocity changes by at most A per frame, then the squared errors of its estimated position and velocity are at most constants of the filter times (slow^k * initial error + const * (W^2 + A^2)), where slow < 1, with explicit constants for which a choice exists for all noises; so after some frames the initial error is forgotten. The errors of position and velocity do not vanish if the velocity changes, even with exact detections: in some of two consecutive frames one is at least a fixed part of the change. For both Kalman filters, with camera motion, without ReID.", "quantifier": "every path, noise of the measurements, number of frames and history before", "why_tests_cant": "Bounds over unbounded histories and all paths.", "anchors": ["norfair/tracker.py:Tracker.update", "norfair/filter.py:OptimizedKalmanFilter.update", "norfair/filter.py:OptimizedKalmanFilter.predict", "norfair/filter.py:FilterPyKalmanFilterFactory.create_filter", "norfair/tracker.py:TrackedObject.hit"]}
{"id": "C121", "title": "A new run gets a directory of its own", "statement": "increment_path gives the path itself if it does not exist or may be used again; otherwise the path with the separator and a number that is larger than that of all existing runs, so a directory that does not exist yet.", "quantifier": "every set of existing paths, path, separator, numbers", "why_tests_cant": "It depends on all existing paths, and on what else in the path looks like the name with a number.", "anchors": ["demos/yolopv2/src/utils.py:increment_path"]}
{"id": "C122", "title": "The demos hand every detection of the network to the tracker as it is", "statement": "In each demo every detection that the network made becomes exactly one Detection, in the same order: the corners or the middle of its box (or its keypoints), its score for each point, and its class; a demo that is meant for vehicles follows exactly the vehicles.", "quantifier": "every list of boxes or poses, class names, image size", "why_tests_cant": "The converters differ per demo, and which branch returns nothing or filters nothing is not visible in an example.", "anchors": ["demos/yolov5/src/demo.py:yolo_detections_to_norfair_detections", "demos/yolov7/src/demo.py:yolo_detections_to_norfair_detections", "demos/camera_motion/src/demo.py:yolo_detections_to_norfair_detections", "demos/yolo_nas/src/demo.py:yolo_detections_to_norfair_detections", "demos/sahi/src/demo.py:get_detections", "demos/yolov4/src/demo.py:get_centroid", "demos/profiling/src/utils.py:get_postprocesser", "demos/yolopv2/src/utils.py:yolop_detections_to_norfair_detections"]}
{"id": "C123", "title": "The decoding of the network's output has one prediction per anchor and cell", "statement": "split_for_trace_model gives for each output, anchor and cell one prediction, in this order, whose center is less than one cell away from its cell and whose size is between 0 and 4 times its anchor; every such prediction can be told; and with it suppression leaves no box out without a reason.", "quantifier": "every output of the network (real numbers), grid sizes, anchors", "why_tests_cant": "All real outputs of the network are quantified over.", "anchors": ["demos/yolopv2/src/utils.py:split_for_trace_model", "demos/yolopv2/src/utils.py:_make_grid", "demos/yolopv2/src/utils.py:non_max_suppression"]}
{"id": "C124", "title": "The driving area, the lane lines and the boxes are shown where the network saw them", "statement": "For every image size the driving area is mixed with green and the lane lines, over it, with red, other pixels keep their color; the point of a mask shown at a point of the frame is the one where the network saw it; corners of boxes come back within half a pixel.", "quantifier": "every frame, mask, point, image size", "why_tests_cant": "The cut of the mask is a constant that only fits one image size.", "anchors": ["demos/yolopv2/src/utils.py:show_seg_result", "demos/yolopv2/src/utils.py:driving_area_mask", "demos/yolopv2/src/utils.py:lane_line_mask", "demos/yolopv2/src/demo.py:detect"]}
{"id": "C125", "title": "The evaluation of ByteTrack writes what the tracker returned for each frame", "statement": "motmetrics4bytetrack.py calls the tracker once per frame and writes for each frame, to the text file and to the accumulator, exactly the boxes and ids that the tracker returned for this frame.", "quantifier": "every tracker (any state machine), every detection file, every number of frames", "why_tests_cant": "The tracker is arbitrary, and the behaviour in frames without detections depends on all frames before.", "anchors": ["demos/motmetrics4norfair/src/motmetrics4bytetrack.py"]}
{"id": "C126", "title": "The camera motion demo processes every video as if it were the only one", "statement": "With several videos, the motions estimated and the objects returned for the frames of a video are, up to global_id, those of a run with this video alone; within a video the mask of a frame is made of the boxes of this frame and the objects of the frame before.", "quantifier": "every list of videos, all options, all optical flows", "why_tests_cant": "It is a relation between two runs, for all videos.", "anchors": ["demos/camera_motion/src/demo.py:run", "norfair/camera_motion.py:MotionEstimator.update"]}
{"id": "C127", "title": "The 3D demo draws the edges of each box and nothing else", "statement": "draw_3d_tracked_boxes draws, for exactly the objects with a live point (all if asked for), in order and color, the twelve edges of the box and no other lines, and the id at its center; every point of the picture of an edge is less than a pixel from the drawn line and vice versa, if the box is on one side of the eye.", "quantifier": "every list of objects, projecter, options, all points of the edges", "why_tests_cant": "All points of all boxes under all projections.", "anchors": ["demos/3d_track/src/utils.py:draw_3d_tracked_boxes", "demos/3d_track/src/utils.py:PixelCoordinatesProjecter.eye_2_pixel"]}
{"id": "C128", "title": "The video of the evaluation shows the detections and the tracked objects with their ids", "statement": "With --make-video, motmetrics4norfair.py writes for every frame, in order, exactly one picture: the frame with the boxes of its detections and of the objects that the tracker returned for it, each object recognisable by its id. The text file and the accumulator are the same as without --make-video.", "quantifier": "every detection file, number of frames, pictures, optical flow, drawing of rectangles", "why_tests_cant": "It is a relation between two runs and speaks about all pixels of all frames.", "anchors": ["demos/motmetrics4norfair/src/motmetrics4norfair.py", "norfair/video.py:VideoFromFrames", "norfair/drawing/draw_boxes.py:draw_tracked_boxes"]}
{"id": "C129", "title": "The YOLOv5 demo processes every video to its end and draws every object the tracker returns", "statement": "Whatever boxes the network gives, the loop of the YOLOv5 demo reaches the end of the video: no call of the tracker raises, and every frame is written exactly once, in order, with every object the tracker returned for it: a disc and label-id at its center, or a rectangle and its id.", "quantifier": "every video, boxes, number of frames, filter, way of drawing", "why_tests_cant": "It speaks about all videos of any length; the calls depend on everything that came before.", "anchors": ["demos/yolov5/src/demo.py", "norfair/drawing/draw_points.py:draw_points", "norfair/drawing/draw_boxes.py:draw_boxes", "norfair/tracker.py:Tracker.update"]}
{"id": "C130", "title": "The ReID demo processes every video and gives a lost id only to the object that looks most alike", "statement": "For every border_size and skip_period the loop of the ReID demo reaches the end of the video and writes one picture per frame: the frame with the detections and the objects, inside a border of 254. The embedding of a detection is the histogram of its pixels in the frame before anything is drawn. A dead object is alive again only when a new object is recognized as it, which disappears, and it is the lost object that looks most alike.", "quantifier": "every video, detections, border, skip period, distance function, similarity of histograms, filter", "why_tests_cant": "It speaks about all videos of any length; which objects can be recognized depends on everything that came before.", "anchors": ["demos/reid/src/demo.py:main", "demos/reid/src/demo.py:embedding_distance", "norfair/utils.py:get_cutout", "norfair/tracker.py:Tracker.update"]}
{"id": "C131", "title": "The demo with keypoints and boxes processes every video and shows every tracked object", "statement": "The loop of the demo with keypoints and bounding boxes reaches the end of every video and writes one picture per frame, in order: the frame with every pose and every box that the tracker returned. A pose is never matched with a box, so an estimate of a pose has 25 points and an estimate of a box two corners.", "quantifier": "every video, poses and boxes the networks can return, filter, drawing primitives", "why_tests_cant": "It speaks about all videos of any length and about all outputs of two networks; whether a call raises depends on the shapes of everything tracked before.", "anchors": ["demos/keypoints_bounding_boxes/src/demo.py:__main__", "demos/keypoints_bounding_boxes/src/demo.py:keypoints_distance", "norfair/drawing/draw_points.py:draw_tracked_objects", "norfair/drawing/draw_boxes.py:draw_tracked_boxes", "norfair/tracker.py:Tracker.update"]}
{"id": "C132", "title": "The pose demos process every video and write every frame with the detections and the tracked poses", "statement": "The loops of the OpenPose demo and of process_video in the profiling demo reach the end of every video, whatever the network sees: no call of the tracker raises. Every frame is written, in order: with a disc for every keypoint of the detections of this frame (OpenPose only), and a disc for every live point of every object the tracker returned for it, in the color of its id, with the id at the center of its live points. Frames that are skipped get the objects alone; the period passed there does not matter.", "quantifier": "every video of any length, every set of poses, every frame skip period, filter, drawing primitives", "why_tests_cant": "It speaks about all videos of any length and about all outputs of the network; whether a call raises depends on the shapes and scores of everything tracked before.", "anchors": ["demos/openpose/src/demo.py:__main__", "demos/profiling/src/demo.py:process_video", "demos/profiling/src/utils.py:get_postprocesser", "norfair/drawing/draw_points.py:draw_points", "norfair/drawing/draw_points.py:draw_tracked_objects", "norfair/tracker.py:Tracker.update"]}
{"id": "C133", "title": "The demos that track centers process every video and write every frame with its detections and tracked objects", "statement": "The loops of the YOLOv4, Detectron2, MMDetection and YOLOv7 (centroid) demos reach the end of every video, whatever the detector sees: no call of the tracker raises. Every frame is written, in order: with a disc for each detection of this frame (YOLOv4, YOLOv7), and a disc and the id of each object with a live point that the tracker returned for it, in the color of its id. YOLOv4 tracks the centers of the boxes of cars, Detectron2 and YOLOv7 those of all boxes, MMDetection those of cars, motorcycles, buses and trucks.", "quantifier": "every video of any length, every set of boxes, every filter, drawing primitives", "why_tests_cant": "It speaks about all videos of any length and about all outputs of the detector; whether a call raises depends on the shapes of everything tracked before.", "anchors": ["demos/yolov4/src/demo.py:__main__", "demos/detectron2/src/demo.py:__main__", "demos/mmdetection/src/demo.py:__main__", "demos/yolov7/src/demo.py:__main__", "norfair/drawing/draw_points.py:draw_points", "norfair/drawing/draw_points.py:draw_tracked_objects", "norfair/tracker.py:Tracker.update"]}
{"id": "C134", "title": "The demos that track boxes process every video and write every frame with its detections and tracked boxes", "statement": "The loops of the YOLOv7 (bbox), YOLO-NAS and SAHI demos reach the end of every video with proper boxes: no call of the tracker raises. Every frame is written, in order: with the boxes that were detected in this frame, and the box of every object the tracker returned for it, in the color of its id (YOLO-NAS: with the id). Each value of the options tracks what was detected.", "quantifier": "every video of any length, every set of proper boxes, every skip period, tracker, filter, drawing primitives", "why_tests_cant": "It speaks about all videos of any length and about all outputs of the detector; whether a call raises depends on the estimates of everything tracked before.", "anchors": ["demos/yolov7/src/demo.py:__main__", "demos/yolo_nas/src/demo.py:__main__", "demos/sahi/src/demo.py:main", "norfair/drawing/draw_boxes.py:draw_boxes", "norfair/drawing/draw_boxes.py:draw_tracked_boxes", "norfair/distances.py:iou", "norfair/tracker.py:Tracker.update"]}
{"id": "C135", "title": "The 3D demo processes every video and writes every frame with the boxes, ids and fading paths of the tracked objects", "statement": "The loop of the 3D demo reaches the end of every video, whatever objects the detector sees: no call of the tracker raises. Every frame is written once and in order: with the twelve edges of the box and the id of every object that the tracker returned for it and that has a live point (of every returned object with --draw-unalive), where a pinhole camera sees them, in the color of its id. With --draw-paths the path of the centers of all objects returned so far is added to the picture, and each frame dims what was there by a hundredth.", "quantifier": "every video of any length, every set of seen objects, all options, every filter, drawing primitives", "why_tests_cant": "It speaks about all videos of any length, whose pictures depend on all objects returned before; a division of zero by zero in the distance happens only for particular positions.", "anchors": ["demos/3d_track/src/demo.py:__main__", "demos/3d_track/src/utils.py:scaled_euclidean", "demos/3d_track/src/utils.py:draw_3d_tracked_boxes", "demos/3d_track/src/utils.py:PixelCoordinatesProjecter", "norfair/drawing/path.py:Paths.draw", "norfair/tracker.py:Tracker.update"]}
{"id": "C136", "title": "The yolopv2 demo processes every video and writes every frame with the road, the lines and the tracked boxes", "statement": "The loop of the yolopv2 demo reaches the end of every video, whatever the network sees and for every image size of the network. What is tracked of a frame are exactly the boxes that non-maximum suppression keeps: at most 300, each over the threshold and of a class that was asked for, with the corners brought back to the frame of 1280 x 720 pixels, rounded and within it. Every frame is written once and in order in this size: with the lines in red and the driving area in green where the network saw them, and over them the boxes of the objects that the tracker returned for it.", "quantifier": "every video of any length and size, all predictions and labels of the network, all arguments, every filter, drawing primitives", "why_tests_cant": "It speaks about all videos and all outputs of a network, through letterbox, suppression, scaling, tracker and drawing together; the sizes and positions for which it raises are particular.", "anchors": ["demos/yolopv2/src/demo.py:detect", "demos/yolopv2/src/utils.py:non_max_suppression", "demos/yolopv2/src/utils.py:scale_coords", "demos/yolopv2/src/utils.py:show_seg_result", "demos/yolopv2/src/utils.py:yolop_detections_to_norfair_detections", "norfair/tracker.py:Tracker.update"]}
{"id": "C137", "title": "The camera motion demo writes every frame with objects, grid, paths and fixed camera as asked for", "statement": "The camera motion demo writes every frame of a video, once and in order: with a rectangle and id (or disc, label and id) for each tracked object, black crosses at the points of the grid that are visible from where the camera is now, the path of each live object through the places where it was in at most the last path-history frames, seen from where the camera is now and fading with age; and with the fixed camera the picture of the whole scene, in which each pixel shows the last frame that covered it, a twentieth darker for each frame since. Drawing does not change what is tracked.", "quantifier": "all videos of any length, all detections, every motion estimator, translations and homographies, every filter, all drawing arguments and drawing primitives", "why_tests_cant": "It speaks about whole videos: what is drawn on a frame depends on the objects and motions of all frames before it. Whether a run raises depends on the motion of every frame.", "anchors": ["demos/camera_motion/src/demo.py:run", "norfair/drawing/absolute_grid.py:draw_absolute_grid", "norfair/drawing/path.py:AbsolutePaths.draw", "norfair/drawing/fixed_camera.py:FixedCamera.adjust_frame", "norfair/tracker.py:Tracker.update", "norfair/tracker.py:TrackedObject.get_estimate"]}
{"id": "C138", "title": "The evaluation with boxes by center, ratio and height writes the boxes of the tracked objects", "statement": "The evaluation with boxes by center, ratio of sides and height gives the tracker each detection of the file once, in its frame, as center, width / height and height, and it raises only if the tracker does. Otherwise the text file has for every frame exactly the boxes of the objects that the tracker returned for this frame, with the center of the estimate, ratio times height as width, and its height; an estimate that equals a detection is written as the box of this detection. The metrics are computed from the same boxes.", "quantifier": "all sequences of any length, all detections with a height that is not zero, every filter and distance function, every tracker configuration", "why_tests_cant": "It speaks about sequences of every length and every tracker configuration; the boxes that are written depend on all frames before, and two changes of coordinates have to fit together.", "anchors": ["demos/motmetrics4norfair/src/motmetrics4norfair_xyah.py", "norfair/metrics.py:PredictionsTextFile.update", "norfair/metrics.py:Accumulators.update", "norfair/metrics.py:DetectionFileParser.__next__", "norfair/tracker.py:Tracker.update"]}
{"id": "C139", "title": "With --make-video the evaluations of ByteTrack and of boxes by center write one picture per frame", "statement": "With --make-video the evaluations of ByteTrack and of boxes by center write one picture for each frame, with frames around the detections and around the tracked objects, and release the video once; the text file and metrics are the same as without.", "quantifier": "all sequences of any length, every tracker, every palette and every drawing primitive", "why_tests_cant": "Whether it raises depends on whether a tracker returns an object in any of the frames; the pictures depend on all frames before.", "anchors": ["demos/motmetrics4norfair/src/motmetrics4bytetrack.py", "demos/motmetrics4norfair/src/motmetrics4norfair_xyah.py", "norfair/drawing/draw_boxes.py:draw_boxes", "norfair/drawing/draw_boxes.py:draw_tracked_boxes", "norfair/drawing/drawer.py:Drawable.__init__", "norfair/video.py:VideoFromFrames"]}
{"id": "C140", "title": "The colab demo writes every frame with detections, objects and paths that follow the camera", "statement": "The colab demo gives the tracker the boxes of each frame as corners (bbox) or as the center twice (centroid), together with the motion that the estimator finds in the images alone, and writes every frame of the video with its detections, the tracked objects and the paths of the last 40 places of each live object, drawn where they are now seen; with any other value of --track-points the frames are written unchanged.", "quantifier": "all videos of any length with frames of one size, everything the network sees, every filter, every distance that is defined for two points, every motion estimator whose transformations move each point on its own, every drawing primitive", "why_tests_cant": "The pictures depend on all frames before and on the motions found so far; whether it raises depends on a frame with a live object for which no motion was found, at any place in a video.", "anchors": ["demos/colab/demo.py:inference", "demos/colab/yolo.py:yolo_detections_to_norfair_detections", "demos/colab/draw.py:draw", "norfair/drawing/path.py:AbsolutePaths.draw", "norfair/camera_motion.py:MotionEstimator.update", "norfair/tracker.py:Tracker.update"]}
{"id": "C141", "title": "The evaluation prints and saves the metrics of what was tracked, and nothing else", "statement": "The evaluation script prints the metrics of the comparison of every sequence with its ground truth, writes the same text to metrics.txt if asked for and the lines of each sequence to its own file if asked for, and changes nothing else on the disk; what print_metrics and save_metrics give is the result of the last compute_metrics that succeeded, whatever other calls come before and after; a call that raises leaves the disk as it was.", "quantifier": "all lists of sequences, all detections and motions, every filter and distance, all contents of the disk, every order of the calls of Accumulators, every computation of metrics", "why_tests_cant": "Tests call compute_metrics once at the end and compare one number; what happens to files that were there before, with other orders of the calls, or with other names of the sequences depends on the disk and on the arguments.", "anchors": ["norfair/metrics.py:Accumulators.compute_metrics", "norfair/metrics.py:Accumulators.save_metrics", "norfair/metrics.py:Accumulators.print_metrics", "norfair/metrics.py:PredictionsTextFile.__init__", "demos/motmetrics4norfair/src/motmetrics4norfair.py"]}
{"id": "C142", "title": "The AlphaPose demo tracks the poses of every frame and writes every frame with them", "statement": "The writer of the AlphaPose demo calls the tracker once for every frame with the poses of that frame, and writes every frame, in order, with the tracked poses; a pose is taken for a tracked one only if at least three of its keypoints are near and well seen; every video of frames of one height is processed to its end.", "quantifier": "all videos, all poses with any number of keypoints, every filter, all frames without boxes at any place", "why_tests_cant": "Tests would need AlphaPose and a GPU; how long nobody is seen is unbounded, and what is drawn after such a gap depends on the whole history.", "anchors": ["demos/alphapose/writer.py:DataWriter.update", "demos/alphapose/writer.py:keypoints_distance", "norfair/tracker.py:Tracker.update"]}
{"id": "C143", "title": "The evaluation with boxes by center does not raise", "statement": "The tracker of the evaluation with boxes given by center, ratio of sides and height uses the intersection over union of the boxes, and an evaluation of boxes with positive width and height goes to the end of every sequence: no distance is NaN.", "quantifier": "all sequences, all boxes with positive width and height, all lengths of the sequences, the Kalman filter with its noise", "why_tests_cant": "The distance is NaN only if an extrapolated estimate has exactly the opposite area of a new box; the sequences where this does or cannot happen are infinitely many and no test meets them by chance.", "anchors": ["demos/motmetrics4norfair/src/motmetrics4norfair_xyah.py:iou_xyah", "demos/motmetrics4norfair/src/motmetrics4norfair_xyah.py", "norfair/tracker.py:Tracker._update_objects_in_place", "norfair/filter.py:FilterPyKalmanFilterFactory"]}
{"id": "C144", "title": "The other two evaluation scripts print and save the metrics of what is shown", "statement": "The scripts for boxes by center and for ByteTrack print, over all sequences, the metrics of the boxes that are shown, with all metrics and an overall row; with --save-metrics the same text is in metrics.txt, with --save-pred each sequence has its file of predictions, and nothing else on the disk is changed.", "quantifier": "all lists of sequences with different names, all trackers, all disks, with and without the options", "why_tests_cant": "The results of one sequence depend on the counters and the accumulator left by those before, and on what is already on the disk; tests run one sequence and look at the printed text only.", "anchors": ["demos/motmetrics4norfair/src/motmetrics4norfair_xyah.py", "demos/motmetrics4norfair/src/motmetrics4bytetrack.py", "norfair/metrics.py:Accumulators.compute_metrics", "norfair/metrics.py:Accumulators.save_metrics", "norfair/metrics.py:PredictionsTextFile"]}
{"id": "C145", "title": "Which sequences are evaluated, and under which names", "statement": "Without --select-sequences the evaluation scripts evaluate exactly the folders in the folder of the dataset, each once and under its own name; with it they evaluate exactly the given ones, in this order and under the given names, all of them in the folder of the dataset; the folder of the dataset can be left out.", "quantifier": "all folders, all lists of names, all ways to write the path of the dataset", "why_tests_cant": "The names are parts of paths that are joined and split again; slashes at the ends, absolute paths and missing arguments give combinations that no test of the scripts lists.", "anchors": ["demos/motmetrics4norfair/src/motmetrics4norfair.py", "demos/motmetrics4norfair/src/motmetrics4norfair_xyah.py", "demos/motmetrics4norfair/src/motmetrics4bytetrack.py", "norfair/metrics.py:eval_motChallenge", "norfair/metrics.py:PredictionsTextFile"]}
{"id": "C146", "title": "The alias latest of the published documentation", "statement": "After any deployments of the documentation, in any order, the alias latest is on exactly one of the published documentations, that with the highest major.minor deployed; it never goes back to a lower one, and what it shows is the documentation of the highest version.", "quantifier": "all sequences of deployed versions, with pre-releases, all published documentations", "why_tests_cant": "The script runs against a live site; which alias it sets depends on everything deployed before, so that a wrong rule shows only after particular orders of releases.", "anchors": ["docs/deploy_docs.py", "docs/deploy_docs.py:get_latest_version", "docs/deploy_docs.py:truncate_version"]}
{"id": "C147", "title": "The links of the first page of the documentation", "statement": "The first page of the documentation is the README with the folder docs taken out of the links, and nothing else changed: after that no link of the page goes to docs, and a README without such links stays as it is.", "quantifier": "all texts of the README", "why_tests_cant": "The script runs only when the documentation is built, on the one README of the day; a link that is missed or a text that is damaged shows only as a dead picture on the site.", "anchors": ["docs/gen_index.py"]}
