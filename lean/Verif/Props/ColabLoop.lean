import Verif.Spec.ColabLoop
import Verif.Props.CamFilm
import Verif.Props.BoxLoop
import Verif.Props.PointLoop
import Verif.Props.PointDistances

/-! C140: the colab demo. -/

set_option linter.unusedSectionVars false

namespace Norfair.Props

open Norfair Norfair.Spec

variable {K D F H Img G T : Type}

/-! ### Detections -/

section
variable [Field K] [LinearOrder K] [IsStrictOrderedRing K] [FloorRing K]

theorem colabConvert_eq (track : Str) (frames : List (ColabFrame K Img)) :
    (frames.mapM fun f => (colabConvert track f.boxes).bind fun ds => ds.mapM RawDet.toDet) =
      some (frames.map fun f => colabDets track f.boxes) := by
  refine mapM_some_map fun f _ => ?_
  unfold colabConvert colabDets
  split
  · exact mapM_bind_map fun b _ => ⟨_, rfl, rfl⟩
  · split
    · exact mapM_bind_map fun b _ => ⟨_, rfl, rfl⟩
    · rfl

theorem colabDets_shaped (track : Str) (bs : List (YoloBox K)) : ∀ d ∈ colabDets track bs, DetShaped (2, 2) d := by
  intro d hd
  unfold colabDets at hd
  split at hd
  · obtain ⟨b, -, rfl⟩ := List.mem_map.mp hd
    exact ⟨⟨rfl, rfl, rfl⟩, ⟨rfl, rfl, rfl⟩, fun x h => by cases h; rfl⟩
  · split at hd
    · obtain ⟨b, -, rfl⟩ := List.mem_map.mp hd
      exact ⟨⟨rfl, rfl, rfl⟩, ⟨rfl, rfl, rfl⟩, fun x h => by cases h; rfl⟩
    · cases hd

/-- marks do not depend on where the detections are in absolute coordinates, nor on their ages -/
theorem colabMarks_eq (dr : EvalDraw K Unit H) (hpal : dr.env.palette.colors ≠ []) (flt : FilterOps K F) (track : Str)
    (size : Nat × Nat) (hsize : track = "centroid".toList → 0 < size.1) {h h' : Ref → Det K Unit Unit}
    (hh : ∀ r, Drawable.ofDet dr.lab (h' r) = Drawable.ofDet dr.lab (h r)) {refs : List Ref} {bs : List (YoloBox K)}
    (hr : Holds h refs (colabDets track bs)) (act : List (Obj K Unit D F)) (ho : FineObjs flt 2 act) (pic : Pic) :
    colabMarks dr flt track [size.1, size.2, 3] h' refs act pic =
      some (if track = "centroid".toList then withObjs dr flt 2 [size.1, size.2, 3] act
          (withDets dr [size.1, size.2, 3] (colabDets track bs) pic)
        else if track = "bbox".toList then shownBoxes dr flt [size.1, size.2, 3] (colabDets track bs) act pic else pic) := by
  have hs : ∀ d ∈ colabDets track bs, HasShape (2, 2) d.points := fun d hd => (colabDets_shaped track bs d hd).1
  unfold colabMarks
  split
  · rename_i ht
    have e : putPoints dr [size.1, size.2, 3] h' (some refs) pic = putPoints dr [size.1, size.2, 3] h (some refs) pic := by
      unfold putPoints
      simp only [hh]
    rw [e, putPoints_eq dr hpal (n := 2) (by decide) _ hr hs, Option.bind_some]
    exact putObjects_eq dr hpal flt (n := 2) (shape := [size.1, size.2, 3]) (hsize ht) none act (fun o hm => by
      obtain ⟨h1, -, h2, h3⟩ := ho.shape o hm
      exact ⟨h1, h2, h3⟩) _
  · split
    · have e : putBoxes dr [size.1, size.2, 3] h' refs pic = putBoxes dr [size.1, size.2, 3] h refs pic := by
        unfold putBoxes
        simp only [hh]
      rw [e, putBoxes_eq dr _ hr hs, Option.bind_some, putTracked_eq dr hpal flt _ (fun o hm => (ho.shape o hm).1), framed_append]
      rfl
    · rfl

/-! ### The loop -/

variable [LinearOrder D] [OrderTop D] [Zero D]

/-- the frames as the camera motion demo has them, without boxes for the mask -/
def plainFrame (x : ColabFrame K Img × List Ref) : CamFrame K Img := ⟨x.1.img, x.2, []⟩

/-- the objects and motions of the frames: those of the tracker with the motions that the estimator finds -/
theorem camDemo_plain (cfg : Cfg K Unit D F Unit) (cam : MotCam K Img G T) (fs : List (ColabFrame K Img × List Ref)) :
    ∀ (w : World K Unit D F Unit) (e : MotionEstimator K Img (Image Bool) G) (objs : List (Obj K Unit D F)),
    (camDemoFrames cfg cam ⟨true, false, true⟩ w e objs (fs.map plainFrame)).err = none →
    (camDemoFrames cfg cam ⟨true, false, true⟩ w e objs (fs.map plainFrame)).shown.map (·.motion) =
      e.outputs cam.flow cam.g0 cam.call (fs.map fun x => (x.1.img, some (onesMask (cam.size x.1.img)))) ∧
    ∃ w', trackAll cfg w ((fs.map (·.2)).zip ((e.outputs cam.flow cam.g0 cam.call
        (fs.map fun x => (x.1.img, some (onesMask (cam.size x.1.img))))).map (Option.map cam.ct))) =
      some (w', (camDemoFrames cfg cam ⟨true, false, true⟩ w e objs (fs.map plainFrame)).shown.map (·.objs)) := by
  induction fs with
  | nil => intro w e objs _; exact ⟨rfl, w, rfl⟩
  | cons x fs ih =>
    intro w e objs herr
    have hm : camMask cfg cam ⟨true, false, true⟩ objs (plainFrame x) = some (onesMask (cam.size x.1.img)) := rfl
    rw [List.map_cons, camDemoFrames] at herr ⊢
    simp only [hm, if_true] at herr ⊢
    rw [List.map_cons, List.map_cons, MotionEstimator.outputs, List.map_cons, List.zip_cons_cons, trackAll]
    simp only [plainFrame] at herr ⊢
    cases hu : update cfg w (some x.2) 1
        (Option.map cam.ct (e.update cam.flow cam.g0 cam.call x.1.img (some (onesMask (cam.size x.1.img)))).2) with
    | mk w' res =>
      rw [hu] at herr
      cases res with
      | error err => cases herr
      | ok act =>
        simp only at herr ⊢
        obtain ⟨h1, w'', h2⟩ := ih w' _ act herr
        refine ⟨?_, w'', ?_⟩
        · rw [List.map_cons]
          exact congrArg _ h1
        · rw [List.map_cons]
          have h2' := congrArg (Option.map fun r => (r.1, act :: r.2)) h2
          exact h2'

/-- the pictures; `old` are the objects of the frames before, newest first -/
def colabPics (dr : EvalDraw K Unit H) (flt : FilterOps K F) (see : T → K × K → K × K) (track : Str) (size : Nat × Nat) :
    List (List (Obj K Unit D F)) → List (ColabFrame K Img × CamShown K Unit D F T) → List Pic
  | _, [] => []
  | old, x :: xs => colabPic dr flt see track size x.1 x.2.motion x.2.objs old :: colabPics dr flt see track size (x.2.objs :: old) xs

theorem colabPics_eq (dr : EvalDraw K Unit H) (flt : FilterOps K F) (see : T → K × K → K × K) (track : Str) (size : Nat × Nat)
    (xs : List (ColabFrame K Img × CamShown K Unit D F T)) : ∀ old : List (List (Obj K Unit D F)),
    colabPics dr flt see track size old xs = xs.zipIdx.map fun x =>
      colabPic dr flt see track size x.1.1 x.1.2.motion x.1.2.objs (((xs.take x.2).map (·.2.objs)).reverse ++ old) := by
  induction xs with
  | nil => intro old; rfl
  | cons x xs ih =>
    intro old
    rw [colabPics, ih, List.zipIdx_cons, List.map_cons, Nat.zero_add, List.zipIdx_succ, List.map_map]
    refine congrArg₂ List.cons (by simp) (List.map_congr_left fun y _ => ?_)
    simp

theorem colabFrames_eq [DecidableEq H] (cfg : Cfg K Unit D F Unit) (cam : MotCam K Img G T) (dr : EvalDraw K Unit H)
    (hpal : dr.env.palette.colors ≠ []) (hid : Function.Injective dr.idOf) {see : T → K × K → K × K}
    (hsee : ∀ t, SeesBy (see t) (cam.ct t)) (track : Str) {size : Nat × Nat} (hpos : track = "centroid".toList → 0 < size.1)
    (h : Ref → Det K Unit Unit) (fs : List (ColabFrame K Img × List Ref)) (hsize : ∀ x ∈ fs, cam.size x.1.img = size)
    (hdets : ∀ x ∈ fs, Holds h x.2 (colabDets track x.1.boxes)) :
    ∀ (w : World K Unit D F Unit) (e : MotionEstimator K Img (Image Bool) G) (objs : List (Obj K Unit D F)) (st : AbsPaths K H)
      (old : List (List (Obj K Unit D F))), Inv w → (∀ r, Drawable.ofDet dr.lab (w.heap r) = Drawable.ofDet dr.lab (h r)) →
    (camDemoFrames cfg cam ⟨true, false, true⟩ w e objs (fs.map plainFrame)).err = none →
    (∀ s ∈ (camDemoFrames cfg cam ⟨true, false, true⟩ w e objs (fs.map plainFrame)).shown, FineShown cfg.flt cam.ct 2 s) →
    PathsAre dr cfg.flt 2 size.1 40 st old →
    ∀ ys, ((fs.map (·.1)).zip (camDemoFrames cfg cam ⟨true, false, true⟩ w e objs (fs.map plainFrame)).shown).takeWhile (fun x =>
      !stuck x.2.motion x.2.objs) = ys →
    colabFrames cfg cam dr track w e st fs = (colabPics dr cfg.flt see track size old ys, decide (ys.length = fs.length)) := by
  induction fs with
  | nil => rintro w e objs st old _ _ _ _ _ _ rfl; rfl
  | cons x fs ih =>
    intro w e objs st old hI hh herr hfine hst ys hys
    have hsz := hsize x List.mem_cons_self
    have ih := ih (fun x hx => hsize x (List.mem_cons_of_mem _ hx)) (fun x hx => hdets x (List.mem_cons_of_mem _ hx))
    have hm : camMask cfg cam ⟨true, false, true⟩ objs (plainFrame x) = some (onesMask (cam.size x.1.img)) := rfl
    rw [List.map_cons (f := plainFrame), camDemoFrames] at herr hfine hys
    simp only [hm, if_true] at herr hfine hys
    obtain ⟨f, refs⟩ := x
    rw [colabFrames]
    simp only [plainFrame] at herr hfine hsz hys ⊢
    generalize hmo : e.update cam.flow cam.g0 cam.call f.img (some (onesMask (cam.size f.img))) = m at herr hfine hys ⊢
    cases hu : update cfg w (some refs) 1 (Option.map cam.ct m.2) with
    | mk w' res =>
      rw [hu] at herr hfine hys
      cases res with
      | error err => cases herr
      | ok act =>
        simp only at herr hfine hys ⊢
        have hI' : Inv w' := by
          have := (update_inv (cfg := cfg) hI (some refs) 1 (Option.map cam.ct m.2)).1
          rwa [hu] at this
        have hh' : ∀ r, Drawable.ofDet dr.lab (w'.heap r) = Drawable.ofDet dr.lab (h r) := fun r =>
          heap_keeps (Q := fun d => Drawable.ofDet dr.lab d = Drawable.ofDet dr.lab (h r)) (fun _ _ e => e) (fun _ _ _ e => e) hI hu r
            (hh r)
        obtain ⟨fobj, fmo⟩ := hfine _ List.mem_cons_self
        rw [hsz, colabMarks_eq dr hpal cfg.flt track size hpos hh' (hdets _ List.mem_cons_self) act fobj, Option.bind_some]
        have hp := camPaths_eq dr hpal hid cfg.flt (n := 2) (by decide) (colabPens K) size.1 size.2 hsee st old (fun _ => hst)
          ⟨m.2, act⟩ fobj fmo (if track = "centroid".toList then withObjs dr cfg.flt 2 [size.1, size.2, 3] act
            (withDets dr [size.1, size.2, 3] (colabDets track f.boxes) f.pic)
            else if track = "bbox".toList then shownBoxes dr cfg.flt [size.1, size.2, 3] (colabDets track f.boxes) act f.pic
            else f.pic)
        rw [List.map_cons, List.zip_cons_cons, List.takeWhile_cons] at hys
        simp only at hp hys
        have hsk : ((colabPens K).paths && m.2.isNone && act.any alive) = stuck m.2 act := rfl
        rw [hsk] at hp
        cases hk : stuck m.2 act with
        | true =>
          rw [hk, if_pos rfl] at hp
          rw [hp]
          rw [hk] at hys
          subst hys
          rfl
        | false =>
          rw [hk, if_neg (by decide)] at hp
          obtain ⟨st', hp1, hp2⟩ := hp
          rw [hp1]
          rw [hk] at hys
          subst hys
          simp only [Bool.not_false, if_true]
          rw [ih w' m.1 act st' (act :: old) hI' hh' herr (fun s hs => hfine s (List.mem_cons_of_mem _ hs)) (hp2 rfl) _ rfl]
          refine Prod.ext rfl ?_
          simp

/-- **C140** The demo tracks what a new tracker tracks with the motions that the estimator makes of the images alone. A frame is
written with its detections, the objects and their paths, to the end or to the first frame with a live object and without motion.
Missing: that this does not happen, which is false, see below. The frames have one size; distances do not raise for arrays with two
points; different ids have different hashable values; transformations move each point on its own. -/
theorem C140_pictures_partial [DecidableEq H] {cfg : Cfg K Unit D F Unit} {Ok : F → Prop} (hL : FilterLaws cfg.flt Ok)
    (hdist : ShapedDist cfg.flt (fun _ => (2, 2)) cfg.dist) (hre : cfg.reid = none) (hfill : cfg.thr ≤ cfg.fill)
    (cam : MotCam K Img G T) (dr : EvalDraw K Unit H) (hpal : dr.env.palette.colors ≠ []) (hid : Function.Injective dr.idOf)
    {see : T → K × K → K × K} (hsee : ∀ t, SeesBy (see t) (cam.ct t)) (track : Str) {size : Nat × Nat}
    (hpos : track = "centroid".toList → 0 < size.1) (frames : List (ColabFrame K Img))
    (hsize : ∀ f ∈ frames, cam.size f.img = size) (g : Nat) :
    ∃ w' acts, colabTrack cfg cam track g frames = some (w', acts) ∧ acts.length = frames.length ∧
      (colabMotions cam frames).length = frames.length ∧
      let good := (frames.zip ((colabMotions cam frames).zip acts)).takeWhile fun x => !stuck x.2.1 x.2.2
      colabRun cfg cam dr track g frames =
        (good.zipIdx.map fun x => colabPic dr cfg.flt see track size x.1.1 x.1.2.1 x.1.2.2 (acts.take x.2).reverse,
          decide (good.length = frames.length)) := by
  set dets := frames.map fun f => colabDets track f.boxes with hdd
  set w0 : World K Unit D F Unit := ⟨detHeap () () dets.flatten, g, 0, 0, []⟩ with hw0
  have h0 : w0.Initial := ⟨rfl, rfl, rfl⟩
  set fs := frames.zip (refsFrom 0 dets) with hfs
  have hlen : (refsFrom 0 dets).length = frames.length := by rw [refsFrom_length, hdd, List.length_map]
  have hfs1 : fs.map (·.1) = frames := List.map_fst_zip (by rw [hlen])
  have hfs2 : fs.map (·.2) = refsFrom 0 dets := List.map_snd_zip (by rw [hlen])
  have hhold : ∀ x ∈ fs, Holds w0.heap x.2 (colabDets track x.1.boxes) := by
    intro x hx
    have := refsFrom_holds (K := K) () () dets [] (colabDets track x.1.boxes, x.2) (by
      rw [hdd, List.zip_map_left]
      exact List.mem_map.mpr ⟨x, hx, rfl⟩)
    exact this
  have hshape : ∀ f ∈ fs.map plainFrame, ∀ r ∈ f.dets, DetShaped (2, 2) (w0.heap r) := by
    intro f hf r hr
    obtain ⟨x, hx, rfl⟩ := List.mem_map.mp hf
    have hl := hhold x hx
    obtain ⟨i, hi, rfl⟩ := List.getElem_of_mem (show r ∈ x.2 from hr)
    have hi' : i < (colabDets track x.1.boxes).length := hl.length_eq ▸ hi
    obtain ⟨a, e⟩ := (List.forall₂_iff_get.mp hl).2 i hi hi'
    simp only [List.get_eq_getElem] at e
    rw [e]
    have hs := colabDets_shaped track x.1.boxes _ (List.getElem_mem hi')
    exact ⟨hs.1, hs.2.1, hs.2.2⟩
  obtain ⟨c1, k⟩ := camDemo_fine hL cam ⟨true, false, true⟩ hsee 2 h0 (fs.map plainFrame) w0 (MotionEstimator.create cam.g0) [] (.refl _)
    hshape
  obtain ⟨c2, c3⟩ := k hdist hre hfill
  set shown := (camDemoFrames cfg cam ⟨true, false, true⟩ w0 (MotionEstimator.create cam.g0) [] (fs.map plainFrame)).shown with hsh
  have hfl : fs.length = frames.length := by rw [← hfs1, List.length_map]
  rw [List.length_map, hfl] at c3
  obtain ⟨d1, w', d2⟩ := camDemo_plain cfg cam fs w0 (MotionEstimator.create cam.g0) [] c2
  rw [← hsh] at d1 d2
  have hmo : (MotionEstimator.create cam.g0).outputs cam.flow cam.g0 cam.call
      (fs.map fun x => (x.1.img, some (onesMask (cam.size x.1.img)))) = colabMotions cam frames := by
    unfold colabMotions
    rw [← hfs1, List.map_map]
    rfl
  rw [hmo] at d1 d2
  rw [hfs2] at d2
  refine ⟨w', List.map (fun s : CamShown K Unit D F T => s.objs) shown, d2, by rw [List.length_map, c3], by rw [← d1, List.length_map, c3], ?_⟩
  intro good
  have hrun : colabRun cfg cam dr track g frames = colabFrames cfg cam dr track w0 (MotionEstimator.create cam.g0) colabPaths fs := by
    unfold colabRun
    rw [colabConvert_eq]
  have hz : (colabMotions cam frames).zip (shown.map (·.objs)) = shown.map fun s => (s.motion, s.objs) := by
    rw [← d1, List.zip_map']
  have hgood : good = (((fs.map (·.1)).zip shown).takeWhile fun x => !stuck x.2.motion x.2.objs).map fun x =>
      (x.1, (x.2.motion, x.2.objs)) := by
    show List.takeWhile _ _ = _
    rw [hz, hfs1, List.zip_map_right, List.takeWhile_map]
    rfl
  rw [hrun, colabFrames_eq cfg cam dr hpal hid hsee track hpos w0.heap fs (fun x hx => hsize x.1 (by
      rw [← hfs1]; exact List.mem_map_of_mem hx)) hhold w0 (MotionEstimator.create cam.g0) [] colabPaths [] (Inv.initial h0)
      (fun _ => rfl) c2 c1 ⟨.inl rfl, rfl, fun i => by simp [colabPaths, placesOf]⟩ _ rfl, ← hsh, colabPics_eq, hgood, List.length_map, hfl,
    List.zipIdx_map, List.map_map]
  refine Prod.ext (List.map_congr_left fun x hx => ?_) rfl
  simp only [Function.comp_apply, List.append_nil]
  obtain ⟨y, i⟩ := x
  simp only [Prod.map, id]
  congr 1
  congr 1
  set ys := ((fs.map (·.1)).zip shown).takeWhile fun x => !stuck x.2.motion x.2.objs with hys
  have hpre : ys.map (·.2) <+: shown := by
    have := (List.takeWhile_prefix (l := (fs.map (·.1)).zip shown) fun x => !stuck x.2.motion x.2.objs).map (·.2)
    rwa [List.map_snd_zip (by rw [hfs1, c3])] at this
  obtain ⟨rest, hrest⟩ := hpre
  have hi : i < ys.length := by
    have := List.mem_zipIdx hx
    omega
  rw [← hrest, List.map_append, List.take_append_of_le_length (by simp; omega), List.map_map, List.map_take]
  rfl

/-- **C140** The demo gets to its end, and writes as many frames as there were, exactly if no frame with a live object is without
motion. Missing: that this does not happen, which is false, see below. -/
theorem C140_to_the_end [DecidableEq H] {cfg : Cfg K Unit D F Unit} {Ok : F → Prop} (hL : FilterLaws cfg.flt Ok)
    (hdist : ShapedDist cfg.flt (fun _ => (2, 2)) cfg.dist) (hre : cfg.reid = none) (hfill : cfg.thr ≤ cfg.fill)
    (cam : MotCam K Img G T) (dr : EvalDraw K Unit H) (hpal : dr.env.palette.colors ≠ []) (hid : Function.Injective dr.idOf)
    {see : T → K × K → K × K} (hsee : ∀ t, SeesBy (see t) (cam.ct t)) (track : Str) {size : Nat × Nat}
    (hpos : track = "centroid".toList → 0 < size.1) (frames : List (ColabFrame K Img))
    (hsize : ∀ f ∈ frames, cam.size f.img = size) (g : Nat) :
    ((colabRun cfg cam dr track g frames).2 = true ↔ (colabRun cfg cam dr track g frames).1.length = frames.length) ∧
    ((∀ t ∈ colabMotions cam frames, t ≠ none) → (colabRun cfg cam dr track g frames).2 = true) := by
  obtain ⟨w', acts, h1, h2, h3, h4⟩ := C140_pictures_partial hL hdist hre hfill cam dr hpal hid hsee track hpos frames hsize g
  rw [h4]
  refine ⟨by simp, fun h => ?_⟩
  rw [decide_eq_true_eq, List.takeWhile_eq_self_iff.mpr]
  · simp [h2, h3]
  · intro x hx
    have := h _ (List.of_mem_zip (List.of_mem_zip hx).2).1
    cases hm : x.2.1 with
    | none => exact absurd hm this
    | some t => rfl

/-- without detections, there are no objects -/
theorem trackAll_none (cfg : Cfg K Unit D F Unit) (cs : List (List Ref × Option (CoordTrans K))) :
    ∀ (w : World K Unit D F Unit), Inv w → w.objs = [] → (∀ c ∈ cs, c.1 = []) →
    ∀ w' acts, trackAll cfg w cs = some (w', acts) → ∀ act ∈ acts, act = [] := by
  induction cs with
  | nil => intro w _ _ _ w' acts h; cases h; simp
  | cons c cs ih =>
    intro w hI hw hc w' acts h
    rw [trackAll, hc c List.mem_cons_self] at h
    cases hu : update cfg w (some []) 1 c.2 with
    | mk w1 res =>
      rw [hu] at h
      cases res with
      | error e => cases h
      | ok act =>
        simp only [Option.map_eq_some_iff] at h
        obtain ⟨⟨w2, acts'⟩, h1, h2⟩ := h
        cases h2
        have hI1 : Inv w1 := by
          have := (update_inv (cfg := cfg) hI (some []) 1 c.2).1
          rwa [hu] at this
        have hQ : ObjInv cfg ([] : List Ref) 1 c.2 (fun _ => True) (fun _ (_ : Obj K Unit D F) => False) :=
          ⟨fun _ _ _ h => h, fun _ _ _ _ _ h => h, fun _ _ _ _ h => h, fun _ _ _ _ _ _ h => h, fun _ _ _ h => h,
            fun _ _ _ _ h => h, fun _ _ _ _ _ _ _ _ _ _ h _ => h, fun _ _ _ _ _ _ _ _ h _ => h, fun _ _ _ _ _ h _ => h,
            fun _ _ _ h => by cases h⟩
        have h0 : w1.objs = [] := by
          have := ((update_micros cfg w hI.nodup (some []) 1 c.2).objInv hQ trivial (by rw [hw]; simp)).2
          rw [hu] at this
          exact List.eq_nil_iff_forall_not_mem.mpr this
        have ha : act = [] := by
          rw [(update_ok hI.nodup hu).1]
          refine List.eq_nil_iff_forall_not_mem.mpr fun o ho => ?_
          have := (mem_activeObjects.mp ho).1
          rw [h0] at this
          cases this
        intro a hm
        rcases List.mem_cons.mp hm with rfl | hm
        · exact ha
        · exact ih w1 hI1 h0 (fun c hc' => hc c (List.mem_cons_of_mem _ hc')) _ _ h1 a hm

/-- **C140** With another value of `--track-points`, nothing is tracked, and the frames are written as they were. -/
theorem C140_other [DecidableEq H] {cfg : Cfg K Unit D F Unit} {Ok : F → Prop} (hL : FilterLaws cfg.flt Ok)
    (hdist : ShapedDist cfg.flt (fun _ => (2, 2)) cfg.dist) (hre : cfg.reid = none) (hfill : cfg.thr ≤ cfg.fill)
    (cam : MotCam K Img G T) (dr : EvalDraw K Unit H) (hpal : dr.env.palette.colors ≠ []) (hid : Function.Injective dr.idOf)
    {see : T → K × K → K × K} (hsee : ∀ t, SeesBy (see t) (cam.ct t)) (track : Str) (hc : track ≠ "centroid".toList)
    (hb : track ≠ "bbox".toList) {size : Nat × Nat} (frames : List (ColabFrame K Img))
    (hsize : ∀ f ∈ frames, cam.size f.img = size) (g : Nat) :
    colabRun cfg cam dr track g frames = (frames.map (·.pic), true) := by
  obtain ⟨w', acts, h1, h2, h3, h4⟩ := C140_pictures_partial hL hdist hre hfill cam dr hpal hid hsee track (fun h => absurd h hc)
    frames hsize g
  have hd : ∀ bs : List (YoloBox K), colabDets track bs = [] := fun bs => by rw [colabDets, if_neg hc, if_neg hb]
  have hnil : ∀ act ∈ acts, act = [] := by
    refine trackAll_none cfg _ _ (Inv.initial ⟨rfl, rfl, rfl⟩) rfl (fun c hm => ?_) w' acts h1
    have hr := (List.of_mem_zip hm).1
    simp only [hd] at hr
    rw [List.eq_nil_iff_forall_not_mem]
    intro r hr'
    have := (refsFrom_get _ 0 c.1 hr r hr').2
    simp at this
  rw [h4]
  have hgood : (frames.zip ((colabMotions cam frames).zip acts)).takeWhile (fun x => !stuck x.2.1 x.2.2) =
      frames.zip ((colabMotions cam frames).zip acts) := by
    rw [List.takeWhile_eq_self_iff]
    intro x hx
    rw [hnil x.2.2 (List.of_mem_zip (List.of_mem_zip hx).2).2]
    simp [stuck]
  rw [hgood]
  generalize hzs : frames.zip ((colabMotions cam frames).zip acts) = zs
  have hfst : zs.map (·.1) = frames := by
    rw [← hzs]
    exact List.map_fst_zip (by rw [List.length_zip, h2, h3, min_self])
  have hlen : zs.length = frames.length := by rw [← hfst, List.length_map]
  have hpics : (zs.zipIdx.map fun x => colabPic dr cfg.flt see track size x.1.1 x.1.2.1 x.1.2.2 (acts.take x.2).reverse) =
      zs.zipIdx.map fun x => x.1.1.pic := by
    refine List.map_congr_left fun x hx => ?_
    have hm : x.1 ∈ frames.zip ((colabMotions cam frames).zip acts) := hzs ▸ List.fst_mem_of_mem_zipIdx hx
    rw [hnil x.1.2.2 (List.of_mem_zip (List.of_mem_zip hm).2).2]
    unfold colabPic withPaths
    simp only [if_neg hc, if_neg hb, List.filter_nil, List.foldl_nil]
  have hfst' : (zs.zipIdx.map fun x => x.1.1.pic) = frames.map (·.pic) := by
    rw [← hfst, List.map_map]
    conv_rhs => rw [← List.zipIdx_map_fst 0 zs, List.map_map]
    rfl
  rw [hpics, hfst', hlen, decide_eq_true rfl]

end

/-- **C140** The tracker of the demo can be made, and fits the theorems above. Its threshold is 0.08, and its distance is the mean of
the distances of the two points, relative to width and height. -/
theorem C140_tracker {flt : FilterOps ℝ F} (str : Unit → String)
    (cdist : String → List (List ℝ) → List (List ℝ) → Option (Mat (Option (WithTop ℝ)))) (height width : Nat) :
    ∃ cfg : Cfg ℝ Unit (WithTop ℝ) F Unit, mkTracker str cdist (colabArgs flt height width) = some cfg ∧ cfg.flt = flt ∧
      ShapedDist flt (fun _ => (2, 2)) cfg.dist ∧ cfg.reid = none ∧ cfg.thr ≤ cfg.fill ∧ cfg.thr = ((8 / 100 : ℝ) : WithTop ℝ) ∧
      ∃ f, cfg.dist = .scalar f ∧ ∀ d v x0 y0 x1 y1 a0 b0 a1 b1, d.points = ⟨2, 2, [x0, y0, x1, y1]⟩ →
        v.obj.estimate flt = ⟨2, 2, [a0, b0, a1, b1]⟩ →
        f d v = some (some (((√(((x0 - a0) / width) ^ 2 + ((y0 - b0) / height) ^ 2) +
          √(((x1 - a1) / width) ^ 2 + ((y1 - b1) / height) ^ 2)) / 2 : ℝ) : WithTop ℝ)) := by
  have hd : ShapedDist flt (fun _ => (2, 2)) (ptsDistance flt (normalizedMeanEuclidean height width) :
      DistFn ℝ Unit (WithTop ℝ) F Unit) := shapedDist_pts fun a p q hp hq =>
    ⟨_, normalized_eq (hp.same hq) hp.2.1 (by rw [hp.1]; exact Nat.two_pos)⟩
  obtain ⟨cfg, h1, h2, h3, h4, h5, h6⟩ : ∃ cfg : Cfg ℝ Unit (WithTop ℝ) F Unit,
      mkTracker str cdist (colabArgs flt height width) = some cfg ∧ cfg.flt = flt ∧
      cfg.dist = ptsDistance flt (normalizedMeanEuclidean height width) ∧ cfg.reid = none ∧
      cfg.thr = ((2 / 25 : ℝ) : WithTop ℝ) ∧ cfg.fill = ((2 / 25 : ℝ) : WithTop ℝ) + 1 := ⟨_, rfl, rfl, rfl, rfl, rfl, rfl⟩
  refine ⟨cfg, h1, h2, h3 ▸ hd, h4, ?_, by rw [h5]; norm_num, _, h3, fun d v x0 y0 x1 y1 a0 b0 a1 b1 hp hq => ?_⟩
  · rw [h5, h6]
    exact WithTop.coe_le_coe.mpr (by norm_num)
  · simp only [hp, hq]
    rw [normalized_eq (p := ⟨2, 2, [x0, y0, x1, y1]⟩) (q := ⟨2, 2, [a0, b0, a1, b1]⟩) ⟨rfl, rfl⟩ rfl Nat.two_pos]
    simp [Finset.sum_range_succ, coord]

/-! ### Examples -/

/-- the sum of the differences of all coordinates -/
def colabCfg : Cfg ℚ Unit (WithTop ℚ) (NoFilter ℚ) Unit where
  dist := .scalar fun d v => some (some (((d.points.data.zip (v.obj.estimate noFilterOps).data).map fun p => |p.1 - p.2|).sum : ℚ))
  thr := 5
  fill := 6
  hitCounterMax := 4
  initDelay := 1
  pwMax := 4
  detThr := 0
  flt := noFilterOps
  pastLen := 2
  reid := none
  reidThr := 0
  reidFill := 1
  reidMax := none

theorem colabCfg_shaped : ShapedDist colabCfg.flt (fun _ : Unit => (2, 2)) colabCfg.dist := fun _ _ _ _ _ => ⟨_, rfl⟩

/-- four frames with a box; the camera moves after the second one, and the box moves once in the scene -/
def colabRide : List (ColabFrame ℚ ℤ) :=
  [⟨0, fun _ _ => 9, [⟨1, 0, 3, 2, 1, 0⟩]⟩, ⟨0, fun _ _ => 9, [⟨1, 0, 3, 2, 1, 0⟩]⟩, ⟨1, fun _ _ => 9, [⟨3, 0, 5, 2, 1, 0⟩]⟩,
    ⟨2, fun _ _ => 9, [⟨4, 0, 6, 2, 1, 0⟩]⟩]

/-- a camera that sees no corners: all pixels have one color -/
def blankCam : MotCam ℚ ℤ (Option (ℚ × ℚ)) (ℚ × ℚ) := { pixelCam with flow := { pixelFlow with corners := fun _ _ => none } }

/-- the first channel of these rows -/
def grayRows (rows : List Nat) (pic : Pic) : List (List Nat) := rows.map fun i => (List.range 9).map fun j => pic ((j : ℤ), (i : ℤ)) 0

set_option synthInstance.maxSize 2000 in
/-- C140_pictures_partial, C140_to_the_end and C140_other: the hypotheses hold, with boxes, with centers and with something else.
Detections have the color 7, objects and their paths 200. -/
example : FilterLaws colabCfg.flt NoFilter.Ok ∧ ShapedDist colabCfg.flt (fun _ : Unit => (2, 2)) colabCfg.dist ∧
    colabCfg.reid = none ∧ colabCfg.thr ≤ colabCfg.fill ∧ (camDraw Unit).env.palette.colors ≠ [] ∧
    Function.Injective (camDraw Unit).idOf ∧ (∀ t, SeesBy (fun p => (p.1 + t.1, p.2 + t.2)) (pixelCam.ct t)) ∧
    (∀ f ∈ colabRide, pixelCam.size f.img = (4, 9)) ∧ (∀ t ∈ colabMotions pixelCam colabRide, t ≠ none) ∧
    ((colabRun colabCfg pixelCam (camDraw Unit) "bbox".toList 0 colabRide).1.map (grayRows [0, 1]),
      (colabRun colabCfg pixelCam (camDraw Unit) "bbox".toList 0 colabRide).2) =
      ([[[9, 7, 9, 9, 9, 9, 9, 9, 9], [9, 9, 9, 9, 9, 9, 9, 9, 9]], [[9, 200, 9, 9, 9, 9, 9, 9, 9], [9, 9, 200, 9, 9, 9, 9, 9, 9]],
        [[9, 9, 9, 200, 9, 9, 9, 9, 9], [9, 9, 9, 198, 200, 9, 9, 9, 9]],
        [[9, 9, 9, 9, 200, 9, 9, 9, 9], [9, 9, 9, 9, 193, 200, 9, 9, 9]]], true) ∧
    ((colabRun colabCfg pixelCam (camDraw Unit) "centroid".toList 0 colabRide).1.map (grayRows [0, 1]),
      (colabRun colabCfg pixelCam (camDraw Unit) "centroid".toList 0 colabRide).2) =
      ([[[9, 9, 9, 9, 9, 9, 9, 9, 9], [9, 9, 7, 9, 9, 9, 9, 9, 9]], [[9, 9, 9, 9, 9, 9, 9, 9, 9], [9, 9, 200, 9, 9, 9, 9, 9, 9]],
        [[9, 9, 9, 9, 9, 9, 9, 9, 9], [9, 9, 9, 198, 200, 9, 9, 9, 9]], [[9, 9, 9, 9, 9, 9, 9, 9, 9], [9, 9, 9, 9, 193, 200, 9, 9, 9]]], true) ∧
    ((colabRun colabCfg pixelCam (camDraw Unit) "box".toList 0 colabRide).1.map (grayRows [0, 1]),
      (colabRun colabCfg pixelCam (camDraw Unit) "box".toList 0 colabRide).2) =
      (List.replicate 4 (List.replicate 2 (List.replicate 9 9)), true) := by
  refine ⟨noFilter_laws, colabCfg_shaped, rfl, by decide +kernel, by decide, fun a b h => h, sees_translation, fun _ _ => rfl,
    by decide +kernel, by decide +kernel, by decide +kernel, by decide +kernel⟩

set_option synthInstance.maxSize 2000 in
/-- **C140** is false where nothing in the picture can be followed: the demo ends at the second frame, in which there is a live
object, because its path needs a motion. The tracker would go on. -/
theorem C140_false_paths :
    (colabRun colabCfg blankCam (camDraw Unit) "bbox".toList 0 colabRide).1.length = 1 ∧
    (colabRun colabCfg blankCam (camDraw Unit) "bbox".toList 0 colabRide).2 = false ∧
    ((colabTrack colabCfg blankCam "bbox".toList 0 colabRide).map fun r => r.2.map List.length) = some [0, 1, 1, 1] := by
  refine ⟨?_, ?_, ?_⟩ <;> decide +kernel

/-- C140_tracker: for a video of 720 x 1280 pixels with the optimized Kalman filter -/
example : ∃ cfg, mkTracker (fun _ => "None") (fun _ _ _ => none) (colabArgs (okfOps realOkf) 720 1280) = some cfg ∧
    cfg.thr ≤ cfg.fill := by
  obtain ⟨cfg, h1, -, -, -, h2, -⟩ := C140_tracker (flt := okfOps realOkf) (fun _ => "None") (fun _ _ _ => none) 720 1280
  exact ⟨cfg, h1, h2⟩

end Norfair.Props
