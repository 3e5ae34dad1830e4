import Verif.Model.Matching
import Mathlib.Order.BoundedOrder.Basic

/-!
Model of `norfair/tracker.py` (and of `ScalarDistance` / `VectorizedDistance` in
`norfair/distances.py`, which decide what `Tracker.update` compares).

Type parameters
* `K` coordinates and scores (any linear order; a field where arithmetic matters),
* `L` labels,
* `X` whatever the user stores in `Detection.data` / `Detection.embedding`,
* `D` distances (linear order with top `np.inf`),
* `F` state of a predictive filter.
-/

namespace Norfair

/-- Identity of a `Detection` object (Python reference). -/
abbrev Ref := Nat

/-- Rank 2 numpy array of shape `(n, dim)`; `data` is its row-major flattening
(`absolute_points.flatten()`, `tracker.py` lines 659, 673). -/
structure Pts (K : Type) where
  n : Nat
  dim : Nat
  data : List K
deriving DecidableEq, Repr

/-- `Detection` (`tracker.py` lines 743-792).  `extra` stands for `data` and `embedding`. Scores are
rank 1 (the code asserts this at line 639). -/
structure Det (K L X : Type) where
  points : Pts K
  scores : Option (List K)
  label : L
  extra : X
  absPoints : Pts K
  age : Option Int

/-- `CoordinatesTransformation` (`norfair/camera_motion.py` lines 25-43): two functions on points.
Simplification: they do not raise. -/
structure CoordTrans (K : Type) where
  relToAbs : Pts K → Pts K
  absToRel : Pts K → Pts K

/-- The interface of the predictive filters as used by `TrackedObject`
(`tracker.py` lines 530, 547, 597, 658, 672-682).  `getX`/`setX` read and write the state array `x`
(positions first, then velocities); `update f z mask` is `filter.update(z, None, H)` where
`H = [diag(mask) | 0]`; `dimZ` is the number of sensors the filter was created for.
Simplification: a filter does not raise when the shapes fit. -/
structure FilterOps (K F : Type) where
  create : Pts K → F
  dimZ : F → Nat
  predict : F → F
  update : F → List K → List Bool → F
  getX : F → List K
  setX : F → List K → F

/-- `TrackedObject` (`tracker.py` lines 472-535).  The constructor arguments that are the same for all
objects of a tracker (`hit_counter_max`, `initialization_delay`, `detection_threshold`,
`past_detections_length`, `reid_hit_counter_max`) are read from the configuration instead.
`initId` (`initializing_id`) doubles as the identity of the Python object: the factory never hands out
the same one twice (line 423-425). -/
structure Obj (K L D F : Type) where
  initId : Nat
  id : Option Nat
  globalId : Option Nat
  numPoints : Nat
  dimPoints : Nat
  hitCounter : Int
  reidHitCounter : Option Int
  lastDistance : Option D
  curMin : Option D
  lastDet : Ref
  age : Int
  isInit : Bool
  pwMax : Int
  initialPeriod : Int
  once : List Bool
  pointHits : List Int
  past : List Ref
  filter : F
  label : L
  absToRel : Option (Pts K → Pts K)

/-- What a distance function can see of a tracked object: the object and the detections it refers to. -/
structure ObjView (K L D F X : Type) where
  obj : Obj K L D F
  last : Det K L X
  past : List (Det K L X)

/-- Errors that end `update`.
`nan`: `tracker.py` lines 296-299; `distance`: an exception raised by a distance function;
`typeError`: Python `TypeError` (iterating over `None` in line 180, `None * int` in line 712);
`shape`: numpy shape/index error in `hit` (lines 641-674); `diverges`: not an exception, the
matching loop (lines 373-381) never ends. -/
inductive Err
  | nan | distance | typeError | shape | diverges
deriving DecidableEq, Repr

/-- The distance of a tracker: `ScalarDistance` of a function of two arguments or
`VectorizedDistance` of a function on two stacks of flattened points (`distances.py` lines 45-207).
The outer `none` means that the function raises, an inner `none` is NaN.
`str` is Python's `str()` on labels. -/
inductive DistFn (K L D F X : Type)
  | scalar (f : Det K L X → ObjView K L D F X → Option (Option D))
  | vectorized (str : L → String) (f : List (List K) → List (List K) → Option (Mat (Option D)))

/-- Arguments of a constructed `Tracker` (`tracker.py` lines 97-142) that stay fixed afterwards.
`fill`/`reidFill` are the values numpy stores for `distance_threshold + 1`
(lines 379-380). -/
structure Cfg (K L D F X : Type) where
  dist : DistFn K L D F X
  thr : D
  fill : D
  hitCounterMax : Int
  initDelay : Int
  pwMax : Int
  detThr : K
  flt : FilterOps K F
  pastLen : Nat
  reid : Option (ObjView K L D F X → ObjView K L D F X → Option (Option D))
  reidThr : D
  reidFill : D
  reidMax : Option Int

/-- Everything one `update` call can read or change: all `Detection` objects, the process-wide
`_TrackedObjectFactory.global_count`, the tracker's factory counters (lines 388-393) and its
`tracked_objects`. -/
structure World (K L D F X : Type) where
  heap : Ref → Det K L X
  gcount : Nat
  count : Nat
  initCount : Nat
  objs : List (Obj K L D F)

variable {K L D F X : Type}

/-! ### Object properties -/

namespace Obj

/-- `hit_counter_is_positive` (`tracker.py` lines 549-551) -/
def hcPos (o : Obj K L D F) : Bool := decide (0 ≤ o.hitCounter)

/-- `reid_hit_counter_is_positive` (`tracker.py` lines 553-555) -/
def reidPos (o : Obj K L D F) : Bool :=
  match o.reidHitCounter with
  | none => true
  | some r => decide (0 ≤ r)

/-- `dim_z` (`tracker.py` line 531) -/
def dimZ (o : Obj K L D F) : Nat := o.dimPoints * o.numPoints

/-- `live_points` (`tracker.py` lines 611-613) -/
def livePoints (o : Obj K L D F) : List Bool := o.pointHits.map (fun c => decide (0 < c))

/-- the `positions` of `get_estimate` (`tracker.py` line 597) -/
def positions (fo : FilterOps K F) (o : Obj K L D F) : Pts K :=
  ⟨o.numPoints, o.dimPoints, (fo.getX o.filter).take o.dimZ⟩

/-- `estimate_velocity` (`tracker.py` lines 557-566) -/
def velocity (fo : FilterOps K F) (o : Obj K L D F) : Pts K :=
  ⟨o.numPoints, o.dimPoints, (fo.getX o.filter).drop o.dimZ⟩

/-- `get_estimate` (`tracker.py` lines 579-609); `none` is the `ValueError`. -/
def getEstimate (fo : FilterOps K F) (o : Obj K L D F) (absolute : Bool) : Option (Pts K) :=
  match o.absToRel with
  | none => if !absolute then some (o.positions fo) else none
  | some g => if absolute then some (o.positions fo) else some (g (o.positions fo))

/-- `estimate` (`tracker.py` lines 568-577): never raises. -/
def estimate (fo : FilterOps K F) (o : Obj K L D F) : Pts K :=
  match o.absToRel with
  | none => o.positions fo
  | some g => g (o.positions fo)

/-- `update_coordinate_transformation` (`tracker.py` lines 733-737) -/
def updateCT (ct : Option (CoordTrans K)) (o : Obj K L D F) : Obj K L D F :=
  match ct with
  | none => o
  | some c => { o with absToRel := some c.absToRel }

/-- `tracker_step` (`tracker.py` lines 537-547) -/
def trackerStep (cfg : Cfg K L D F X) (o : Obj K L D F) : Obj K L D F :=
  { o with
    reidHitCounter :=
      match o.reidHitCounter with
      | none => if o.hitCounter ≤ 0 then cfg.reidMax else none
      | some r => some (r - 1)
    hitCounter := o.hitCounter - 1
    pointHits := o.pointHits.map (fun c => c - 1)
    age := o.age + 1
    filter := cfg.flt.predict o.filter }

/-- the view that a distance function gets -/
def view (heap : Ref → Det K L X) (o : Obj K L D F) : ObjView K L D F X :=
  ⟨o, heap o.lastDet, o.past.map heap⟩

end Obj

/-! ### Detections -/

/-- `detection.age = age` -/
def setAge (heap : Ref → Det K L X) (r : Ref) (age : Int) : Ref → Det K L X :=
  fun r' => if r' = r then { heap r with age := some age } else heap r'

/-- `Detection.update_coordinate_transformation` (`tracker.py` lines 786-792) -/
def transformDet (c : CoordTrans K) (heap : Ref → Det K L X) (r : Ref) : Ref → Det K L X :=
  fun r' => if r' = r then { heap r with absPoints := c.relToAbs (heap r).absPoints } else heap r'

/-- `_conditionally_add_to_past_detections` (`tracker.py` lines 700-715) for an object of age `age`
with the given `past_detections`; `none` is the `TypeError` of `None * int`. -/
def condAdd (pastLen : Nat) (age : Int) (heap : Ref → Det K L X) (past : List Ref) (r : Ref) :
    Option ((Ref → Det K L X) × List Ref) :=
  if pastLen = 0 then some (heap, past)
  else if past.length < pastLen then some (setAge heap r age, past ++ [r])
  else
    match past with
    | [] => some (heap, past) -- impossible: the length test above succeeds
    | p :: rest =>
      match (heap p).age with
      | none => none
      | some a =>
        if a * pastLen ≤ age then some (setAge heap r age, rest ++ [r]) else some (heap, past)

/-- the loop at the end of `merge` (`tracker.py` lines 730-731); the `Bool` tells whether it raised -/
def condAddAll (pastLen : Nat) (age : Int) :
    (Ref → Det K L X) → List Ref → List Ref → (Ref → Det K L X) × List Ref × Bool
  | heap, past, [] => (heap, past, false)
  | heap, past, r :: rs =>
    match condAdd pastLen age heap past r with
    | none => (heap, past, true)
    | some (heap', past') => condAddAll pastLen age heap' past' rs

/-- `[(m,) * dim for m in mask]` flattened (`tracker.py` lines 641-643, 662-664) -/
def repeatMask (dim : Nat) (mask : List Bool) : List Bool :=
  (mask.map (fun m => List.replicate dim m)).flatten

/-- `np.hstack((mask,) * dim).flatten()` (`tracker.py` lines 665-667) -/
def tileMask (dim : Nat) (mask : List Bool) : List Bool :=
  (List.replicate dim mask).flatten

/-- `a[mask] = b[mask]` for arrays of the same length -/
def maskAssign : List Bool → List K → List K → List K
  | m :: ms, a :: as, b :: bs => (if m then b else a) :: maskAssign ms as bs
  | _, as, _ => as

/-- `points_over_threshold_mask` (`tracker.py` lines 638-650) -/
def overThreshold [LinearOrder K] (detThr : K) (numPoints : Nat) (d : Det K L X) : List Bool :=
  match d.scores with
  | some s => s.map (fun x => decide (detThr < x))
  | none => List.replicate numPoints true

/-- lines 647, 651: add `2 * period` to the counters of the seen points -/
def bumpPoints (inc : Int) : List Bool → List Int → List Int
  | m :: ms, c :: cs => (if m then c + inc else c) :: bumpPoints inc ms cs
  | _, cs => cs

/-- lines 652-655: clamp the point counters -/
def clampPoints (pwMax : Int) (cs : List Int) : List Int :=
  (cs.map (fun c => if pwMax ≤ c then pwMax else c)).map (fun c => if c < 0 then 0 else c)

/-! ### TrackedObject.hit, merge, creation -/

/-- Result of a method of one object: the object, everything else it changed, and the error if it
raised. -/
structure ObjOut (K L D F X : Type) where
  heap : Ref → Det K L X
  gcount : Nat
  count : Nat
  obj : Obj K L D F
  err : Option Err

/-- lines 665-685: the state corrections after `filter.update` -/
def firstDetectionFix (fo : FilterOps K F) [Zero K] (mask : List Bool) (z : List K)
    (o : Obj K L D F) : Obj K L D F :=
  let onceMask := repeatMask o.dimPoints o.once
  let nowMask := tileMask o.dimPoints mask
  let first := List.zipWith (fun a b => a && !b) nowMask onceMask
  let x := fo.getX o.filter
  let pos := maskAssign first (x.take o.dimZ) z
  let vel := maskAssign (onceMask.map (!·)) (x.drop o.dimZ) (List.replicate o.dimZ 0)
  { o with
    filter := fo.setX o.filter (pos ++ vel)
    once := List.zipWith (· || ·) o.once mask }

/-- `TrackedObject.hit`, second half (`tracker.py` lines 634-685): point counters and filter.
`mask` is `points_over_threshold_mask`. The shape tests say when numpy raises:
indexing `point_hit_counter` with a mask of another length (line 647), `filter.update` with arrays of
another size (658-660), combining masks of different lengths / writing `filter.x` (668-674).
Simplification: a detection with exactly one coordinate is broadcast by `filter.update` before the
error of line 674; here that filter is left alone. -/
def hitSensors [LinearOrder K] [Zero K] (cfg : Cfg K L D F X) (d : Det K L X)
    (period : Int) (o : Obj K L D F) : Obj K L D F × Option Err :=
  let mask := overThreshold cfg.detThr o.numPoints d
  if d.scores.isSome ∧ mask.length ≠ o.pointHits.length then (o, some .shape)
  else
    let bumped := match d.scores with
      | some _ => bumpPoints (2 * period) mask o.pointHits
      | none => o.pointHits.map (fun c => c + 2 * period)
    let o1 := { o with pointHits := clampPoints o.pwMax bumped }
    let z := d.absPoints.data
    if mask.length * o.dimPoints ≠ cfg.flt.dimZ o.filter ∨ z.length ≠ cfg.flt.dimZ o.filter then
      (o1, some .shape)
    else
      let o2 := { o1 with filter := cfg.flt.update o.filter z (repeatMask o.dimPoints mask) }
      if mask.length ≠ o.once.length ∨ mask.length ≠ o.numPoints then (o2, some .shape)
      else (firstDetectionFix cfg.flt mask z o2, none)

/-- `TrackedObject.hit` (`tracker.py` lines 615-685) -/
def hitObj [LinearOrder K] [Zero K] (cfg : Cfg K L D F X)
    (heap : Ref → Det K L X) (gcount count : Nat) (o : Obj K L D F) (r : Ref) (period : Int) :
    ObjOut K L D F X :=
  match condAdd cfg.pastLen o.age heap o.past r with
  | none => ⟨heap, gcount, count, o, some .typeError⟩
  | some (heap', past') =>
    let hc := min (o.hitCounter + 2 * period) cfg.hitCounterMax
    let o1 := { o with past := past', lastDet := r, hitCounter := hc }
    if o1.isInit = true ∧ cfg.initDelay < hc then
      let o2 := { o1 with isInit := false, id := some (count + 1), globalId := some (gcount + 1) }
      let res := hitSensors cfg (heap' r) period o2
      ⟨heap', gcount + 1, count + 1, res.1, res.2⟩
    else
      let res := hitSensors cfg (heap' r) period o1
      ⟨heap', gcount, count, res.1, res.2⟩

/-- `TrackedObject.merge` (`tracker.py` lines 717-731): `o` takes over the state of `c`.
The arrays and the filter that Python shares between the two objects are copied here; `c` is dropped
by the caller right away (line 337). -/
def mergeObj (cfg : Cfg K L D F X) (heap : Ref → Det K L X) (o c : Obj K L D F) :
    (Ref → Det K L X) × Obj K L D F × Option Err :=
  let res := condAddAll cfg.pastLen o.age heap o.past c.past
  (res.1,
    { o with
      reidHitCounter := none
      hitCounter := o.initialPeriod * 2
      pointHits := c.pointHits
      lastDistance := c.lastDistance
      curMin := c.curMin
      lastDet := c.lastDet
      once := c.once
      filter := c.filter
      past := res.2.1 },
    if res.2.2 then some .typeError else none)

/-- `TrackedObject.__init__` through `_TrackedObjectFactory.create` (`tracker.py` lines 395-430,
472-535). Simplification: the element of the list is a `Detection` (line 486 checks it). -/
def createObj [LinearOrder K] (cfg : Cfg K L D F X) (w : World K L D F X) (r : Ref)
    (period : Int) (ct : Option (CoordTrans K)) : World K L D F X :=
  let d := w.heap r
  let isInit := decide (period ≤ cfg.initDelay)
  let once := match d.scores with
    | none => List.replicate d.absPoints.n true
    | some s => s.map (fun x => decide (cfg.detThr < x))
  let o : Obj K L D F :=
    { initId := w.initCount + 1
      id := if isInit then none else some (w.count + 1)
      globalId := if isInit then none else some (w.gcount + 1)
      numPoints := d.absPoints.n
      dimPoints := d.absPoints.dim
      hitCounter := period
      reidHitCounter := none
      lastDistance := none
      curMin := none
      lastDet := r
      age := 0
      isInit := isInit
      pwMax := max cfg.pwMax period
      initialPeriod := period
      once := once
      pointHits := once.map (fun b => if b then 1 else 0)
      past := if 0 < cfg.pastLen then [r] else []
      filter := cfg.flt.create d.absPoints
      label := d.label
      absToRel := none }
  { heap := setAge w.heap r 0
    gcount := if isInit then w.gcount else w.gcount + 1
    count := if isInit then w.count else w.count + 1
    initCount := w.initCount + 1
    objs := w.objs ++ [o.updateCT ct] }

/-! ### Distances -/

/-- `ScalarDistance.get_distances` (`distances.py` lines 66-102): entries with different labels stay
`np.inf` and the function is not called for them; `none` if the function raises for some pair.
Simplification: labels are compared with a decidable equality (Python `!=`). -/
def scalarDistances [Top D] [DecidableEq L] {C O : Type} (labC : C → L) (labO : O → L)
    (f : C → O → Option (Option D)) (objects : List O) (cands : List C) : Option (Mat (Option D)) :=
  let entry : C → O → Option (Option D) := fun c o => if labC c = labO o then f c o else some (some ⊤)
  if cands.any (fun c => objects.any (fun o => (entry c o).isNone)) then none
  else some ⟨cands.length, objects.length, fun i j =>
    match cands[i]?, objects[j]? with
    | some c, some o => (entry c o).getD (some ⊤)
    | _, _ => some ⊤⟩

/-- `VectorizedDistance.get_distances` (`distances.py` lines 125-207): for every label (as a string)
present on both sides the function is called on the stacked points, and its matrix is written at the
rows and columns of that label. Simplifications: numpy's conversion of the label array to strings
agrees with `str()`; the returned matrix has the expected shape. -/
def vectorizedDistances [Top D] {C O : Type} (strC : C → String) (strO : O → String)
    (ptsC : C → List K) (ptsO : O → List K)
    (f : List (List K) → List (List K) → Option (Mat (Option D)))
    (objects : List O) (cands : List C) : Option (Mat (Option D)) :=
  let call : String → Option (Mat (Option D)) := fun s =>
    f ((cands.filter (fun c => strC c = s)).map ptsC) ((objects.filter (fun o => strO o = s)).map ptsO)
  if cands.any (fun c => objects.any (fun o => strC c = strO o && (call (strC c)).isNone)) then none
  else some ⟨cands.length, objects.length, fun i j =>
    match cands[i]?, objects[j]? with
    | some c, some o =>
      if strC c = strO o then
        match call (strC c) with
        | some M => M.val ((cands.take i).countP (fun c' => strC c' = strC c))
            ((objects.take j).countP (fun o' => strO o' = strC c))
        | none => some ⊤
      else some ⊤
    | _, _ => some ⊤⟩

/-- `self.distance_function.get_distances(objects, detections)` -/
def detDistances [Top D] [DecidableEq L] (cfg : Cfg K L D F X) (heap : Ref → Det K L X)
    (objects : List (Obj K L D F)) (dets : List Ref) : Option (Mat (Option D)) :=
  match cfg.dist with
  | .scalar f => scalarDistances (fun r => (heap r).label) (fun o : Obj K L D F => o.label)
      (fun r o => f (heap r) (o.view heap)) objects dets
  | .vectorized str f => vectorizedDistances (fun r => str (heap r).label)
      (fun o : Obj K L D F => str o.label) (fun r => (heap r).points.data)
      (fun o => (o.estimate cfg.flt).data) f objects dets

/-- `self.reid_distance_function.get_distances(objects, candidates)` -/
def reidDistances [Top D] [DecidableEq L]
    (f : ObjView K L D F X → ObjView K L D F X → Option (Option D)) (heap : Ref → Det K L X)
    (objects cands : List (Obj K L D F)) : Option (Mat (Option D)) :=
  scalarDistances (fun o : Obj K L D F => o.label) (fun o : Obj K L D F => o.label)
    (fun c o => f (c.view heap) (o.view heap)) objects cands

/-! ### _update_objects_in_place -/

namespace World

/-- the tracked object with the given identity -/
def find (w : World K L D F X) (k : Nat) : Option (Obj K L D F) :=
  w.objs.find? (fun o => o.initId = k)

/-- write an object back -/
def put (w : World K L D F X) (o : Obj K L D F) : World K L D F X :=
  { w with objs := w.objs.map (fun p => if p.initId = o.initId then o else p) }

/-- the objects of a list of identities -/
def objects (w : World K L D F X) (keys : List Nat) : List (Obj K L D F) :=
  keys.filterMap w.find

/-- `[o for o in objects if p o]` on identities -/
def keysWhere (w : World K L D F X) (keys : List Nat) (p : Obj K L D F → Bool) : List Nat :=
  keys.filter (fun k => match w.find k with
    | some o => p o
    | none => false)

end World

/-- `np.isnan(distance_matrix).any()` (line 296) -/
def Mat.hasNan (M : Mat (Option D)) : Bool :=
  (List.range M.rows).any fun i => (List.range M.cols).any fun j => (M.val i j).isNone

/-- `distance_matrix.any()`: some entry is not zero (line 302) -/
def Mat.anyNonzero [Zero D] [DecidableEq D] (M : Mat D) : Bool :=
  (List.range M.rows).any fun i => (List.range M.cols).any fun j => decide (M.val i j ≠ 0)

/-- `distance_matrix.min(axis=0)[j]` (line 303) -/
def Mat.colMin [LinearOrder D] (M : Mat D) (j : Nat) : D :=
  M.val (argmin (fun i => M.val i j) M.rows) j

/-- lines 301-306: `current_min_distance` of the objects at positions `j, j+1, ...` -/
def setMins [LinearOrder D] (thr : D) (M : Mat D) :
    Nat → List Nat → World K L D F X → World K L D F X
  | _, [], w => w
  | j, k :: ks, w =>
    let w' := match w.find k with
      | some o => w.put { o with curMin := if M.colMin j < thr then some (M.colMin j) else none }
      | none => w
    setMins thr M (j + 1) ks w'

/-- Elements of `l` whose position is not in `idx` (lines 312-317). -/
def unmatchedOf {α : Type} (l : List α) (idx : List Nat) : List α :=
  (l.zipIdx.filter (fun p => !(idx.contains p.2))).map Prod.fst

/-- What `_update_objects_in_place` returns (line 350). -/
structure StageOut (C : Type) where
  unmatchedC : List C
  matchedO : List Nat
  unmatchedO : List Nat

/-- lines 321-340 for detections: `hit` the matched objects one after the other -/
def hitLoop [LinearOrder K] [Zero K] [LinearOrder D] (cfg : Cfg K L D F X) (thr : D)
    (period : Int) (M : Mat D) (dets : List Ref) (keys : List Nat) :
    List (Nat × Nat) → World K L D F X → StageOut Ref → World K L D F X × Except Err (StageOut Ref)
  | [], w, out => (w, .ok out)
  | (i, j) :: ps, w, out =>
    match dets[i]?, keys[j]? with
    | some r, some k =>
      if M.val i j < thr then
        match w.find k with
        | some o =>
          let res := hitObj cfg w.heap w.gcount w.count o r period
          let w' : World K L D F X :=
            { w with heap := res.heap, gcount := res.gcount, count := res.count }
          match res.err with
          | some e => (w'.put res.obj, .error e)
          | none =>
            hitLoop cfg thr period M dets keys ps
              (w'.put { res.obj with lastDistance := some (M.val i j) })
              { out with matchedO := out.matchedO ++ [k] }
        | none => hitLoop cfg thr period M dets keys ps w out -- impossible, see `Lemmas`
      else
        hitLoop cfg thr period M dets keys ps w
          { out with unmatchedC := out.unmatchedC ++ [r], unmatchedO := out.unmatchedO ++ [k] }
    | _, _ => hitLoop cfg thr period M dets keys ps w out -- impossible: indices are in range

/-- lines 321-340 for tracked objects: merge, then remove the candidate -/
def mergeLoop [LinearOrder D] (cfg : Cfg K L D F X) (thr : D) (M : Mat D)
    (cands keys : List Nat) :
    List (Nat × Nat) → World K L D F X → StageOut Nat → World K L D F X × Except Err (StageOut Nat)
  | [], w, out => (w, .ok out)
  | (i, j) :: ps, w, out =>
    match cands[i]?, keys[j]? with
    | some c, some k =>
      if M.val i j < thr then
        match w.find c, w.find k with
        | some oc, some o =>
          let res := mergeObj cfg w.heap o oc
          let w' : World K L D F X := { w with heap := res.1 }
          match res.2.2 with
          | some e => (w'.put res.2.1, .error e)
          | none =>
            let w'' := w'.put res.2.1
            mergeLoop cfg thr M cands keys ps
              { w'' with objs := w''.objs.filter (fun p => decide (p.initId ≠ c)) } out
        | _, _ => mergeLoop cfg thr M cands keys ps w out -- impossible, see `Lemmas`
      else
        mergeLoop cfg thr M cands keys ps w
          { out with unmatchedC := out.unmatchedC ++ [c], unmatchedO := out.unmatchedO ++ [k] }
    | _, _ => mergeLoop cfg thr M cands keys ps w out -- impossible: indices are in range

/-- `_update_objects_in_place` with the tracker's distance and detections as candidates
(`tracker.py` lines 286-350). -/
def stageDet [LinearOrder K] [Zero K] [LinearOrder D] [Top D] [Zero D] [DecidableEq L]
    (cfg : Cfg K L D F X) (period : Int) (w : World K L D F X) (keys : List Nat)
    (dets : List Ref) : World K L D F X × Except Err (StageOut Ref) :=
  if dets.length = 0 then (w, .ok ⟨[], [], keys⟩)
  else
    match detDistances cfg w.heap (w.objects keys) dets with
    | none => (w, .error .distance)
    | some M =>
      if M.hasNan then (w, .error .nan)
      else
        let M' : Mat D := M.map (fun x => x.getD ⊤)
        let w1 := if M'.anyNonzero then setMins cfg.thr M' 0 keys w else w
        match matchDetsAndObjs cfg.thr cfg.fill M' with
        | none => (w1, .error .diverges)
        | some pairs =>
          if 0 < pairs.length then
            hitLoop cfg cfg.thr period M' dets keys pairs w1
              ⟨unmatchedOf dets (pairs.map Prod.fst), [], unmatchedOf keys (pairs.map Prod.snd)⟩
          else (w1, .ok ⟨dets, [], keys⟩)

/-- `_update_objects_in_place` with the ReID distance and tracked objects as candidates
(`tracker.py` lines 286-350). -/
def stageReid [LinearOrder D] [Top D] [Zero D] [DecidableEq L] (cfg : Cfg K L D F X)
    (f : ObjView K L D F X → ObjView K L D F X → Option (Option D)) (w : World K L D F X)
    (keys cands : List Nat) : World K L D F X × Except Err (StageOut Nat) :=
  if cands.length = 0 then (w, .ok ⟨[], [], keys⟩)
  else
    match reidDistances f w.heap (w.objects keys) (w.objects cands) with
    | none => (w, .error .distance)
    | some M =>
      if M.hasNan then (w, .error .nan)
      else
        let M' : Mat D := M.map (fun x => x.getD ⊤)
        let w1 := if M'.anyNonzero then setMins cfg.reidThr M' 0 keys w else w
        match matchDetsAndObjs cfg.reidThr cfg.reidFill M' with
        | none => (w1, .error .diverges)
        | some pairs =>
          if 0 < pairs.length then
            mergeLoop cfg cfg.reidThr M' cands keys pairs w1
              ⟨unmatchedOf cands (pairs.map Prod.fst), [], unmatchedOf keys (pairs.map Prod.snd)⟩
          else (w1, .ok ⟨cands, [], keys⟩)

/-- lines 233-241: the ReID stage, skipped without a ReID distance -/
def reidStage [LinearOrder D] [Top D] [Zero D] [DecidableEq L] (cfg : Cfg K L D F X)
    (w : World K L D F X) (keys cands : List Nat) : World K L D F X × Except Err (StageOut Nat) :=
  match cfg.reid with
  | none => (w, .ok ⟨[], [], []⟩)
  | some f => stageReid cfg f w keys cands

/-! ### Tracker.update -/

/-- `get_active_objects` (`tracker.py` lines 272-284) -/
def activeObjects (w : World K L D F X) : List (Obj K L D F) :=
  w.objs.filter (fun o => !o.isInit && o.hcPos)

/-- `current_object_count` (`tracker.py` lines 262-265) -/
def currentObjectCount (w : World K L D F X) : Nat := (activeObjects w).length

/-- `total_object_count` (`tracker.py` lines 267-270) -/
def totalObjectCount (w : World K L D F X) : Nat := w.count

/-- lines 184-200: drop stale objects. Result: `tracked_objects`. -/
def survivors (cfg : Cfg K L D F X) (objs : List (Obj K L D F)) : List (Obj K L D F) :=
  match cfg.reidMax with
  | none => objs.filter (fun o => o.hcPos)
  | some _ => objs.filter (fun o => o.reidPos)

/-- lines 184-200: `alive_objects` (evaluated before the objects are advanced) -/
def aliveKeys (cfg : Cfg K L D F X) (objs : List (Obj K L D F)) : List Nat :=
  match cfg.reidMax with
  | none => (survivors cfg objs).map (·.initId)
  | some _ => ((survivors cfg objs).filter (fun o => o.hcPos)).map (·.initId)

/-- lines 184-200: `dead_objects` -/
def deadKeys (cfg : Cfg K L D F X) (objs : List (Obj K L D F)) : List Nat :=
  match cfg.reidMax with
  | none => []
  | some _ => ((survivors cfg objs).filter (fun o => !o.hcPos)).map (·.initId)

/-- lines 184-205: drop stale objects and advance the others -/
def advance (cfg : Cfg K L D F X) (ct : Option (CoordTrans K)) (w : World K L D F X) :
    World K L D F X :=
  { w with objs := (survivors cfg w.objs).map (fun o => (o.trackerStep cfg).updateCT ct) }

/-- `Tracker.update` after the detections have been transformed (`tracker.py` lines 183-260). -/
def updateCore [LinearOrder K] [Zero K] [LinearOrder D] [Top D] [Zero D] [DecidableEq L]
    (cfg : Cfg K L D F X) (w : World K L D F X) (dets : List Ref) (period : Int)
    (ct : Option (CoordTrans K)) : World K L D F X × Except Err (List (Obj K L D F)) :=
  let alive := aliveKeys cfg w.objs
  let dead := deadKeys cfg w.objs
  let w0 := advance cfg ct w
  match stageDet cfg period w0 (w0.keysWhere alive (fun o => !o.isInit)) dets with
  | (w1, .error e) => (w1, .error e)
  | (w1, .ok out1) =>
    match stageDet cfg period w1 (w1.keysWhere alive (fun o => o.isInit)) out1.unmatchedC with
    | (w2, .error e) => (w2, .error e)
    | (w2, .ok out2) =>
      match reidStage cfg w2 (out1.unmatchedO ++ dead) out2.matchedO with
      | (w3, .error e) => (w3, .error e)
      | (w3, .ok _) =>
        let w4 := out2.unmatchedC.foldl (fun w r => createObj cfg w r period ct) w3
        (w4, .ok (activeObjects w4))

/-- `Tracker.update` after line 182 for `detections=None`: the first `_update_objects_in_place` takes the
branch of line 348 because `candidates is None` (line 294); otherwise like `updateCore`
(`tracker.py` lines 183-260). -/
def updateCoreNone [LinearOrder K] [Zero K] [LinearOrder D] [Top D] [Zero D] [DecidableEq L]
    (cfg : Cfg K L D F X) (w : World K L D F X) (period : Int) (ct : Option (CoordTrans K)) :
    World K L D F X × Except Err (List (Obj K L D F)) :=
  let alive := aliveKeys cfg w.objs
  let dead := deadKeys cfg w.objs
  let w1 := advance cfg ct w
  let out1 : StageOut Ref := ⟨[], [], w1.keysWhere alive (fun o => !o.isInit)⟩
  match stageDet cfg period w1 (w1.keysWhere alive (fun o => o.isInit)) out1.unmatchedC with
  | (w2, .error e) => (w2, .error e)
  | (w2, .ok out2) =>
    match reidStage cfg w2 (out1.unmatchedO ++ dead) out2.matchedO with
    | (w3, .error e) => (w3, .error e)
    | (w3, .ok _) =>
      let w4 := out2.unmatchedC.foldl (fun w r => createObj cfg w r period ct) w3
      (w4, .ok (activeObjects w4))

/-- `Tracker.update` (`tracker.py` lines 144-260).  `dets = none` is `detections=None`. -/
def update [LinearOrder K] [Zero K] [LinearOrder D] [Top D] [Zero D] [DecidableEq L]
    (cfg : Cfg K L D F X) (w : World K L D F X) (dets : Option (List Ref)) (period : Int)
    (ct : Option (CoordTrans K)) : World K L D F X × Except Err (List (Obj K L D F)) :=
  match ct, dets with
  | some _, none => (w, .error .typeError)
  | some c, some l =>
    updateCore cfg { w with heap := l.foldl (transformDet c) w.heap } l period ct
  | none, none => updateCoreNone cfg w period none
  | none, some l => updateCore cfg w l period none

/-- no detections and an empty list of detections are treated alike -/
theorem updateCoreNone_eq [LinearOrder K] [Zero K] [LinearOrder D] [Top D] [Zero D] [DecidableEq L]
    (cfg : Cfg K L D F X) (w : World K L D F X) (period : Int) (ct : Option (CoordTrans K)) :
    updateCoreNone cfg w period ct = updateCore cfg w [] period ct := rfl

end Norfair
