import Verif.Model.Metrics
import Verif.Model.FixedCamera
import Verif.Model.Drawing

/-!
Model of `norfair/video.py` and of the functions of `norfair/utils.py` that are not part of the model of the
tracker. OpenCV and the file system are parameters; what is asked of them is recorded in a log. Not
modelled: the contents of the progress bar, the time, what is printed.
-/

namespace Norfair

variable {K Fr Px : Type}

/-! ### `utils.py` -/

/-- `get_terminal_size` (`utils.py` lines 50-58); `size fd` is `os.get_terminal_size(fd)`, `none` if it raises
`OSError` -/
def getTerminalSize (size : Nat → Option (ℤ × ℤ)) (default : ℤ × ℤ) : ℤ × ℤ :=
  match size 0 with
  | some s => s
  | none =>
    match size 1 with
    | some s => s
    | none => (size 2).getD default

/-- the column `points[:, k]` of an array; `none` is an `IndexError` -/
def column (k : Nat) (points : List (List K)) : Option (List K) := points.mapM fun p => p[k]?

/-- `int(max(l))`, `int(min(l))` are `truncInt` of these; `none` is the `ValueError` for an empty array -/
def listMax [LinearOrder K] : List K → Option K
  | [] => none
  | x :: xs => some (xs.foldl max x)

/-- see `listMax` -/
def listMin [LinearOrder K] : List K → Option K
  | [] => none
  | x :: xs => some (xs.foldl min x)

/-- `get_cutout` (`utils.py` lines 61-67); `none` if it raises -/
def getCutout [Ring K] [LinearOrder K] [FloorRing K] (points : List (List K)) (image : Image Px) :
    Option (Image Px) := do
  let xs ← column 0 points
  let maxX ← listMax xs
  let minX ← listMin xs
  let ys ← column 1 points
  let maxY ← listMax ys
  let minY ← listMin ys
  return image.slice (truncInt minY) (truncInt maxY) (truncInt minX) (truncInt maxX)

/-- `warn_once` (`utils.py` lines 89-94): `lru_cache` keeps the messages of earlier calls; the result are the
messages kept and whether there is a warning -/
def warnOnce (cache : List Str) (message : Str) : List Str × Bool :=
  if message ∈ cache then (cache, false) else (message :: cache, true)

/-! ### Output paths -/

/-- `s.split(sep)` for a single character -/
def pySplit (sep : Char) : Str → List Str
  | [] => [[]]
  | c :: s =>
    if c = sep then [] :: pySplit sep s
    else match pySplit sep s with
      | [] => [[c]]
      | l :: ls => (c :: l) :: ls

/-- `os.path.join(a, b)` -/
def pathJoin (a b : Str) : Str :=
  if b.head? = some '/' then b
  else if a = [] ∨ a.getLast? = some '/' then a ++ b
  else a ++ '/' :: b

/-- the attributes of a `Video` -/
structure VideoCfg where
  camera : Option ℤ
  inputPath : Option Str
  outputPath : Str
  outputFourcc : Option Str
  outputExtension : Str

/-- `Video.get_output_file_path` (`video.py` lines 244-264). Line 261 is a plain string, not an f-string. -/
def VideoCfg.outputFilePath (isdir : Str → Bool) (v : VideoCfg) : Str :=
  if !isdir v.outputPath then v.outputPath
  else
    let fileName := match v.inputPath with
      | some p => (pySplit '.' ((pySplit '/' p).getLastD [])).headD []
      | none => "camera_{self.camera}".toList
    let fileName := fileName ++ "_out.".toList ++ v.outputExtension
    pathJoin v.outputPath fileName

/-- `s.lower()` for the letters that matter in line 271: no character outside ASCII has a lower case form
that is one of the characters of `avi` and `mp4` -/
def asciiLower (s : Str) : Str := s.map fun c => if 'A' ≤ c ∧ c ≤ 'Z' then Char.ofNat (c.toNat + 32) else c

/-- `Video.get_codec_fourcc` (`video.py` lines 266-284); `none` is the `RuntimeError` -/
def VideoCfg.codecFourcc (v : VideoCfg) (filename : Str) : Option Str :=
  match v.outputFourcc with
  | some c => some c
  | none =>
    let extension := asciiLower (filename.drop (filename.length - 3))
    if "avi".toList = extension then some "XVID".toList
    else if "mp4".toList = extension then some "mp4v".toList
    else none

/-! ### `Video.__init__` -/

/-- the argument `camera`: an integer or an object of another type -/
inductive CameraArg
  | int (n : ℤ)
  | other

/-- the exceptions of `Video` -/
inductive VideoErr
  | value
  | runtime
  deriving DecidableEq

/-- what `Video.__init__` asks the system -/
structure VideoEnv where
  expanduser : Str → Str
  isfile : Str → Bool
  frameCount : Str → ℤ

/-- `os.path.basename` -/
def basename (p : Str) : Str := pathTail p

/-- `Video.__init__` (`video.py` lines 65-150): the attributes, and the text for the progress bar before it
is abbreviated -/
def videoInit (env : VideoEnv) (camera : Option CameraArg) (inputPath : Option Str) (outputPath label : Str)
    (fourcc : Option Str) (extension : Str) : Except VideoErr (VideoCfg × Str) :=
  match camera, inputPath with
  | none, none => .error .value
  | some _, some _ => .error .value
  | some .other, none => .error .value
  | some (.int n), none =>
    .ok (⟨some n, none, outputPath, fourcc, extension⟩,
      "Camera(".toList ++ intStr n ++ ")".toList ++ if label = [] then [] else " | ".toList ++ label)
  | none, some p =>
    let p := if '~' ∈ p then env.expanduser p else p
    if !env.isfile p then .error .runtime
    else if env.frameCount p = 0 then .error .runtime
    else .ok (⟨none, some p, outputPath, fourcc, extension⟩,
      basename p ++ if label = [] then [] else " | ".toList ++ label)

/-- `Video.abbreviate_description` (`video.py` lines 286-298) -/
def abbreviate (terminalColumns : ℤ) (description : Str) : Str :=
  let space := terminalColumns - 25
  if (description.length : ℤ) < space then description
  else
    description.take (sliceLimit description.length (space / 2 - 3)) ++ " ... ".toList ++
      description.drop (sliceLimit description.length (-space / 2 + 3))

/-! ### Reading and writing -/

/-- what a `Video` asks of OpenCV and of the progress bar -/
inductive VEffect (Fr : Type)
  | startBar
  | stopBar
  | read
  | openWriter (path codec : Str) (size : Nat × Nat)
  | write (f : Fr)
  | releaseWriter
  | releaseCapture
  | destroyWindows
  deriving DecidableEq

/-- a generator made by `__iter__` -/
inductive GenState
  | fresh
  | suspended
  | finished
  deriving DecidableEq

/-- the state of a `Video` with the generators over it; `hasWriter` is `output_video is not None` -/
structure VideoState (Fr : Type) where
  frameCounter : Nat
  captureOpen : Bool
  hasWriter : Bool
  gens : List GenState
  log : List (VEffect Fr)

/-- a new `Video` -/
def VideoState.init : VideoState Fr := ⟨0, true, false, [], []⟩

/-- what a program can do with a `Video` -/
inductive VEvent (Fr : Type)
  | iter
  | next (g : Nat)
  | close (g : Nat)
  | write (f : Fr)

/-- the answers to these events -/
inductive VAnswer (Fr : Type)
  | unit
  | frame (f : Fr)
  | stop
  | raise
  deriving DecidableEq

/-- `Video.__iter__` (`video.py` lines 153-176) from the start or from the `yield` up to the next `yield` or to
the end. `cap k` is the `k`-th frame of the capture, `none` if the read fails or gives no frame; a released
capture gives no frames. -/
def VideoState.advance (cap : Nat → Option Fr) (s : VideoState Fr) (g : Nat) (fresh : Bool) :
    VideoState Fr × VAnswer Fr :=
  let log := s.log ++ (if fresh then [.startBar] else []) ++ [.read]
  match (if s.captureOpen then cap s.frameCounter else none) with
  | some f => ({ s with frameCounter := s.frameCounter + 1, gens := s.gens.set g .suspended, log := log }, .frame f)
  | none =>
    ({ s with
        frameCounter := s.frameCounter + 1
        captureOpen := false
        gens := s.gens.set g .finished
        log := log ++ [.stopBar] ++ (if s.hasWriter then [.releaseWriter] else []) ++
          [.releaseCapture, .destroyWindows] }, .stop)

/-- one event. `close` is what happens to a generator that is not used any more (a loop that is left by
`break`): the `with` block of line 154 ends, but not the code after it. `size` is `(shape[1], shape[0])` of a
frame. The writing of a frame is lines 181-212. -/
def VideoState.step (cap : Nat → Option Fr) (cfg : VideoCfg) (isdir : Str → Bool) (size : Fr → Nat × Nat)
    (s : VideoState Fr) : VEvent Fr → VideoState Fr × VAnswer Fr
  | .iter => ({ s with gens := s.gens ++ [.fresh] }, .unit)
  | .next g =>
    match s.gens[g]? with
    | none => (s, .raise)
    | some .finished => (s, .stop)
    | some .fresh => s.advance cap g true
    | some .suspended => s.advance cap g false
  | .close g =>
    match s.gens[g]? with
    | some .suspended => ({ s with gens := s.gens.set g .finished, log := s.log ++ [.stopBar] }, .unit)
    | some .fresh => ({ s with gens := s.gens.set g .finished }, .unit)
    | _ => (s, .unit)
  | .write f =>
    if s.hasWriter then ({ s with log := s.log ++ [.write f] }, .unit)
    else
      let path := cfg.outputFilePath isdir
      match cfg.codecFourcc path with
      | none => (s, .raise)
      | some codec =>
        ({ s with hasWriter := true, log := s.log ++ [.openWriter path codec (size f), .write f] }, .unit)

/-- the argument `downsample_ratio`: an integer or a float -/
inductive Ratio (K : Type)
  | int (n : ℤ)
  | float (x : K)

/-- the size given to `cv2.resize` by `Video.show` (`video.py` lines 214-242), `some none` if there is no resizing
and `none` if it raises: OpenCV accepts only integers as sizes, and `//` with a float gives a float -/
def showSize [One K] [DecidableEq K] (ratio : Ratio K) (shape : Nat × Nat) : Option (Option (ℤ × ℤ)) :=
  match ratio with
  | .int n =>
    if n = 1 then some none
    else if n = 0 then none
    else some (some (Int.fdiv shape.2 n, Int.fdiv shape.1 n))
  | .float x => if x = 1 then some none else none

/-! ### `VideoFromFrames` -/

/-- `s.zfill(6)` for a string without sign -/
def zfill6 (s : Str) : Str := List.replicate (6 - s.length) '0' ++ s

/-- `VideoFromFrames`: `released` counts the calls of `release`; `written` are the frames written -/
structure FrameSeq (Fr : Type) where
  length : InfoValue
  inputPath : Str
  imageDirectory : InfoValue
  imageExtension : InfoValue
  hasVideo : Bool
  frameNumber : Nat
  written : List Fr
  released : Nat

/-- `VideoFromFrames.__iter__` (`video.py` lines 338-340) -/
def FrameSeq.iter (s : FrameSeq Fr) : FrameSeq Fr := { s with frameNumber := 1 }

/-- `VideoFromFrames.__next__` (`video.py` lines 342-352): the path that is read -/
def FrameSeq.next (s : FrameSeq Fr) : FrameSeq Fr × Step Str :=
  match s.length with
  | .str _ => (s, .raise)
  | .int n =>
    if s.frameNumber ≤ n then
      match s.imageDirectory, s.imageExtension with
      | .str dir, .str ext =>
        ({ s with frameNumber := s.frameNumber + 1 },
          .item (pathJoin (pathJoin s.inputPath dir) (zfill6 (natStr s.frameNumber) ++ ext)))
      | _, _ => (s, .raise)
    else (s, .stop)

/-- `VideoFromFrames.update` (`video.py` lines 354-360); the second component tells if it raised (there is no
`video` with `make_video=False`, or the length is a string) -/
def FrameSeq.update (s : FrameSeq Fr) (f : Fr) : FrameSeq Fr × Bool :=
  if !s.hasVideo then (s, true)
  else
    let s := { s with written := s.written ++ [f] }
    match s.length with
    | .str _ => (s, true)
    | .int n => (if s.frameNumber > n then { s with released := s.released + 1 } else s, false)

end Norfair
