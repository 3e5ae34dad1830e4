import Verif.Spec.MotVideo
import Verif.Props.MotCam
import Verif.Props.Colors
import Verif.Props.VideoFiles
import Verif.Props.Fading

/-! C128: the video of the evaluation. -/

set_option linter.unusedSectionVars false

namespace Norfair.Props

open Norfair Norfair.Spec

variable {K L D F X H Img G T : Type}

/-! ### The picture -/

section
variable [Field K] [LinearOrder K] [FloorRing K]

/-- frames around boxes -/
def frameAll (t : ℤ) (boxes : List (List K × Color)) (c : Canvas K) : Canvas K :=
  boxes.foldl (fun c b => c.rectangle (corners b.1).1 (corners b.1).2 t b.2) c

theorem frameAll_render (ras : Raster K) (shape : List Nat) (pic : Pic) (t : ℤ) (boxes : List (List K × Color)) :
    ∀ c : Canvas K, (frameAll t boxes c).render ras shape pic = framed ras t boxes (c.render ras shape pic) := by
  induction boxes with
  | nil => intro c; rfl
  | cons b bs ih =>
    intro c
    rw [frameAll, List.foldl_cons]
    refine (ih _).trans ?_
    funext p ch
    simp only [framed, List.reverse_cons, List.find?_append]
    cases bs.reverse.find? fun b => ras.rectangle (corners b.1).1 (corners b.1).2 t p with
    | some b' => rfl
    | none =>
      simp only [Option.none_or, List.find?_cons, List.find?_nil, Canvas.render, paint]
      cases ras.rectangle (corners b.1).1 (corners b.1).2 t p <;> rfl

theorem framed_append (ras : Raster K) (t : ℤ) (as bs : List (List K × Color)) (pic : Pic) :
    framed ras t bs (framed ras t as pic) = framed ras t (as ++ bs) pic := by
  funext p ch
  simp only [framed, List.reverse_append, List.find?_append]
  cases bs.reverse.find? fun b => ras.rectangle (corners b.1).1 (corners b.1).2 t p <;> rfl

/-- a drawable that is a box with these coordinates -/
def IsBox (d : Drawable K H) (b : List K) : Prop := ∃ x0 y0 x1 y1, b = [x0, y0, x1, y1] ∧ d.points = [[x0, y0], [x1, y1]]

/-- boxes without texts, in the colors of their ids -/
theorem drawBoxesLoop_plain (env : DrawEnv K H) (a : DrawBoxesArgs K) (hb : a.drawBox = true) (t : ℤ) (tc : Option Color)
    (ds : List (Drawable K H)) : ∀ (boxes : List (List K × Color)) (k : Nat) (c : Canvas K),
    List.Forall₂ (fun d b => IsBox d b.1 ∧ env.palette.choose (d.id.map env.hash) = some b.2 ∧
      buildText env.str env.fmt d a.drawLabels a.drawIds a.drawScores = []) ds boxes →
    drawBoxesLoop env a (.str "by_id".toList) t tc k ds c = some (frameAll t boxes c) := by
  induction ds with
  | nil => intro boxes k c h; cases h; rfl
  | cons d ds ih =>
    intro boxes k c h
    cases h with
    | @cons _ b _ bs h hs =>
      obtain ⟨⟨x0, y0, x1, y1, e1, e2⟩, e3, e4⟩ := h
      have ho : objColor env (.str "by_id".toList) d k = some b.2 := by rw [objColor, if_pos rfl]; exact e3
      rw [drawBoxesLoop]
      simp only [ho, hb, e2, e4, List.map_cons, List.map_nil, if_true]
      rw [ih bs (k + 1) _ hs]
      simp [frameAll, corners, e1]

theorem Pts.rows_box {p : Pts K} (h : HasShape (2, 2) p) : ∃ x0 y0 x1 y1, p.data = [x0, y0, x1, y1] ∧
    p.rows = [[x0, y0], [x1, y1]] := by
  obtain ⟨e1, e2, e3⟩ := h
  match hd : p.data, e3 with
  | [a, b, c, d], _ =>
    exact ⟨a, b, c, d, rfl, by simp [Pts.rows, hd, e1, e2, List.range_succ]⟩

/-- the picture: frames around the detections, then around the objects -/
theorem evalPicture_eq (dr : EvalDraw K L H) (hpal : dr.env.palette.colors ≠ []) (flt : FilterOps K F) (f : EvalFrame Img)
    (heap : Ref → Det K L X) (dets : List Ref) (objs : List (Obj K L D F))
    (hd : ∀ r ∈ dets, HasShape (2, 2) (heap r).points) (ho : ∀ o ∈ objs, HasShape (2, 2) (o.estimate flt)) :
    evalPicture dr flt f heap dets objs = some (framed dr.ras (truncInt (((f.shape.foldl max 0 : Nat) : K) / 500))
      (dets.map (fun r => ((heap r).points.data, dr.env.palette.default)) ++ objs.map (objBox dr flt)) f.pic) := by
  let t : ℤ := truncInt (((f.shape.foldl max 0 : Nat) : K) / 500)
  have h1 : drawBoxes dr.env f.shape {} (some (dets.map fun r => Drawable.ofDet dr.lab (heap r))) =
      some (frameAll t (dets.map fun r => ((heap r).points.data, dr.env.palette.default)) .base) := by
    refine drawBoxesLoop_plain dr.env {} rfl t none _ _ 0 .base ?_
    rw [List.forall₂_map_left_iff, List.forall₂_map_right_iff, List.forall₂_same]
    intro r hr
    obtain ⟨x0, y0, x1, y1, e1, e2⟩ := Pts.rows_box (hd r hr)
    exact ⟨⟨x0, y0, x1, y1, e1, e2⟩, rfl, rfl⟩
  have h2 : drawTrackedBoxes dr.env f.shape (some (objs.map (Drawable.ofObj flt dr.idOf dr.lab))) =
      some (frameAll t (objs.map (objBox dr flt)) .base) := by
    refine drawBoxesLoop_plain dr.env _ rfl t none _ _ 0 .base ?_
    rw [List.forall₂_map_left_iff, List.forall₂_map_right_iff, List.forall₂_same]
    intro o hmem
    obtain ⟨x0, y0, x1, y1, e1, e2⟩ := Pts.rows_box (ho o hmem)
    refine ⟨⟨x0, y0, x1, y1, e1, e2⟩, ?_, by simp [buildText]⟩
    simp only [Drawable.ofObj, objBox, Option.map_map, Function.comp_def]
    cases o.id with
    | none => rfl
    | some i =>
      obtain ⟨c, -, hc⟩ := C52_member_partial dr.env.palette hpal (dr.env.hash (dr.idOf i))
      simp [hc]
  simp only [evalPicture, h1, h2, Option.bind_some, Option.map_some]
  rw [frameAll_render, frameAll_render, ← framed_append]
  rfl

end

/-! ### The loop -/

section
variable [Field K] [LinearOrder K] [FloorRing K] [LinearOrder D] [OrderTop D] [Zero D] [DecidableEq L]

/-- a sequence of frames of which those before frame `k` have been read -/
structure SeqAt (seq : FrameSeq Pic) (path dir ext : Str) (n k : Nat) : Prop where
  length : seq.length = .int n
  path : seq.inputPath = path
  dir : seq.imageDirectory = .str dir
  ext : seq.imageExtension = .str ext
  number : seq.frameNumber = k + 1

theorem SeqAt.stop {seq : FrameSeq Pic} {path dir ext : Str} {n k : Nat} (h : SeqAt seq path dir ext n k) (hk : n ≤ k) :
    seq.next = (seq, .stop) := by
  unfold FrameSeq.next
  simp only [h.length, h.number, if_neg (show ¬ k + 1 ≤ n by omega)]

theorem SeqAt.item {seq : FrameSeq Pic} {path dir ext : Str} {n k : Nat} (h : SeqAt seq path dir ext n k) (hk : k < n) :
    seq.next = ({ seq with frameNumber := k + 2 },
      .item (pathJoin (pathJoin path dir) (zfill6 (natStr (k + 1)) ++ ext))) := by
  unfold FrameSeq.next
  simp only [h.length, h.number, h.dir, h.ext, h.path, if_pos (show k + 1 ≤ n by omega)]

theorem SeqAt.step {seq : FrameSeq Pic} {path dir ext : Str} {n k : Nat} (h : SeqAt seq path dir ext n k)
    (w : List Pic) (r : Nat) : SeqAt { seq with frameNumber := k + 2, written := w, released := r } path dir ext n (k + 1) :=
  ⟨h.length, h.path, h.dir, h.ext, rfl⟩

theorem SeqAt.write {seq : FrameSeq Pic} {path dir ext : Str} {n k : Nat} (h : SeqAt seq path dir ext n k)
    (hv : seq.hasVideo = true) (pic : Pic) : FrameSeq.update { seq with frameNumber := k + 2 } pic = ({ seq with
      frameNumber := k + 2
      written := seq.written ++ [pic]
      released := if k + 2 > n then seq.released + 1 else seq.released }, false) := by
  unfold FrameSeq.update
  simp only [hv, h.length, Bool.not_true, Bool.false_eq_true, if_false]
  split <;> rfl

/-- the video changes nothing -/
theorem videoFrames_cam {cfg : Cfg K L D F X} (fmt : K → Str) (cam : MotCam K Img G T) (dr : EvalDraw K L H)
    (load : Str → Option (EvalFrame Img)) (make : Bool) {path dir ext : Str} {n : Nat} (ds : List (List Ref)) :
    ∀ (k : Nat) (imgs : List (EvalFrame Img)) (s : MotState K L D F X) (seq : FrameSeq Pic)
      (e : MotionEstimator K Img (Image Bool) G) (objs : List (Obj K L D F)), SeqAt seq path dir ext n k →
    (seq.hasVideo = make) → k + ds.length = n → imgs.length = ds.length →
    (∀ j f, imgs[j]? = some f → load (pathJoin (pathJoin path dir) (zfill6 (natStr (k + j + 1)) ++ ext)) = some f) →
    (make = false → (motVideoFrames cfg fmt cam dr load make s seq e objs ds).map (·.1) =
      motCamFrames cfg fmt cam s e objs ((imgs.map (·.gray)).zip ds)) ∧
    ∀ r, motVideoFrames cfg fmt cam dr load make s seq e objs ds = some r →
      motCamFrames cfg fmt cam s e objs ((imgs.map (·.gray)).zip ds) = some r.1 := by
  induction ds with
  | nil =>
    intro k imgs s seq e objs hq hv hk hl hload
    simp only [motVideoFrames, hq.stop (by simpa using hk.ge)]
    simp [motCamFrames]
  | cons dets ds ih =>
    intro k imgs s seq e objs hq hv hk hl hload
    simp only [List.length_cons] at hk
    match imgs, hl with
    | f :: imgs, hl =>
    have hl : imgs.length = ds.length := by simpa using hl
    have hf := hload 0 f rfl
    simp only [motVideoFrames, hq.item (show k < n by omega), List.map_cons, List.zip_cons_cons, motCamFrames]
    rw [Nat.add_zero] at hf
    rw [hf]
    simp only
    generalize e.update cam.flow cam.g0 cam.call f.gray (some (buildMask (cam.size f.gray)
      (dets.map fun r => (s.world.heap r).points) (objs.map (·.estimate cfg.flt)))) = m
    rcases hu : update cfg s.world (some dets) 1 (m.2.map cam.ct) with ⟨w, er | act⟩
    · exact ⟨fun _ => rfl, fun r h => by cases h⟩
    simp only
    suffices key : (∃ seq', evalWrite dr cfg.flt make { seq with frameNumber := k + 2 } f w.heap dets act = some seq' ∧
        SeqAt seq' path dir ext n (k + 1) ∧ seq'.hasVideo = make) ∨
        evalWrite dr cfg.flt make { seq with frameNumber := k + 2 } f w.heap dets act = none ∧ make = true by
      rcases key with ⟨seq', h3, h1, h2⟩ | ⟨h3, h4⟩
      · have ih := fun st e' => ih (k + 1) imgs st seq' e' act h1 h2 (by omega) hl
          (fun j g hj => by rw [show k + 1 + j + 1 = k + (j + 1) + 1 by omega]; exact hload (j + 1) g hj)
        rw [h3]
        simp only
        rcases s.file.update fmt (act.map (Pred.ofObj cfg.flt)) none with ⟨file, _ | _⟩
        · simp only
          rcases s.acc.update (some (act.map (Pred.ofObj cfg.flt))) with ⟨acc, _ | _⟩
          · exact ih _ _
          · exact ⟨fun _ => rfl, fun r h => by cases h⟩
        · exact ⟨fun _ => rfl, fun r h => by cases h⟩
      · rw [h3]
        exact ⟨fun h => absurd (h.symm.trans h4) (by decide), fun r h => by cases h⟩
    cases make with
    | false => exact .inl ⟨_, rfl, hq.step seq.written seq.released, hv⟩
    | true =>
      cases hp : evalPicture dr cfg.flt f w.heap dets act with
      | none => exact .inr ⟨by simp [evalWrite, hp], rfl⟩
      | some pic =>
        refine .inl ⟨{ seq with
          frameNumber := k + 2
          written := seq.written ++ [pic]
          released := if k + 2 > n then seq.released + 1 else seq.released }, ?_, hq.step _ _, hv⟩
        simp only [evalWrite, hp, if_true, Option.bind_some, hq.write hv]

/-- what is written -/
theorem videoFrames_written {cfg : Cfg K L D F X} (fmt : K → Str) (cam : MotCam K Img G T) (dr : EvalDraw K L H)
    (load : Str → Option (EvalFrame Img)) {path dir ext : Str} {n : Nat} (pts : Ref → Pts K)
    (P : EvalFrame Img → List Ref → List (Obj K L D F) → Pic) (ds : List (List Ref)) :
    ∀ (k : Nat) (imgs : List (EvalFrame Img)) (masks : List (Image Bool)) (acts : List (List (Obj K L D F)))
      (s s' : MotState K L D F X) (w' : World K L D F X) (seq : FrameSeq Pic)
      (e : MotionEstimator K Img (Image Bool) G) (objs : List (Obj K L D F)), SeqAt seq path dir ext n k →
    seq.hasVideo = true → k + ds.length = n → imgs.length = ds.length →
    (∀ j f, imgs[j]? = some f → load (pathJoin (pathJoin path dir) (zfill6 (natStr (k + j + 1)) ++ ext)) = some f) →
    Inv s.world → (∀ r, (s.world.heap r).points = pts r) → masks.length = ds.length →
    trackAll cfg s.world (ds.zip (camCts cam e (imgs.map (·.gray)) masks)) = some (w', acts) →
    (∀ (j : Nat) (f : EvalFrame Img) (dets : List Ref), imgs[j]? = some f → ds[j]? = some dets → masks[j]? = some (buildMask (cam.size f.gray) (dets.map pts)
      (((objs :: acts)[j]?.getD []).map (·.estimate cfg.flt)))) →
    (∀ (f : EvalFrame Img) (heap : Ref → Det K L X) (dets : List Ref) (act : List (Obj K L D F)), dets ∈ ds → act ∈ acts →
      (∀ r, (heap r).points = pts r) →
      evalPicture dr cfg.flt f heap dets act = some (P f dets act)) →
    motCamFrames cfg fmt cam s e objs ((imgs.map (·.gray)).zip ds) = some s' →
    ∃ seq', motVideoFrames cfg fmt cam dr load true s seq e objs ds = some (s', seq') ∧
      seq'.released = seq.released + (if 0 < ds.length then 1 else 0) ∧ ∃ pics, seq'.written = seq.written ++ pics ∧
      pics.length = ds.length ∧ ∀ (j : Nat) f dets act, imgs[j]? = some f → ds[j]? = some dets → acts[j]? = some act →
        pics[j]? = some (P f dets act) := by
  induction ds with
  | nil =>
    intro k imgs masks acts s s' w' seq e objs hq hv hk hl hload hI hH hm ht hmask hpic h
    simp only [motVideoFrames, hq.stop (by simpa using hk.ge)]
    simp only [List.zip_nil_right, motCamFrames, Option.some.injEq] at h
    exact ⟨seq, by rw [h], rfl, [], by simp, rfl, by simp⟩
  | cons dets ds ih =>
    intro k imgs masks acts s s' w' seq e objs hq hv hk hl hload hI hH hm ht hmask hpic h
    simp only [List.length_cons] at hk
    match imgs, hl, masks, hm with
    | f :: imgs, hl, mask :: masks, hm =>
    have hl : imgs.length = ds.length := by simpa using hl
    have hm : masks.length = ds.length := by simpa using hm
    have hf := hload 0 f rfl
    rw [Nat.add_zero] at hf
    have hmk : mask = buildMask (cam.size f.gray) (dets.map fun r => (s.world.heap r).points)
        (objs.map (·.estimate cfg.flt)) := by
      have := hmask 0 f dets rfl rfl
      simp only [List.getElem?_cons_zero, Option.getD_some, Option.some.injEq] at this
      rw [this]
      simp only [hH]
    simp only [motVideoFrames, hq.item (show k < n by omega), hf]
    simp only [List.map_cons, List.zip_cons_cons, motCamFrames] at h
    rw [← hmk] at h ⊢
    have hcts : camCts cam e ((f :: imgs).map (·.gray)) (mask :: masks) =
        (e.update cam.flow cam.g0 cam.call f.gray (some mask)).2.map cam.ct ::
          camCts cam (e.update cam.flow cam.g0 cam.call f.gray (some mask)).1 (imgs.map (·.gray)) masks := rfl
    rw [hcts, List.zip_cons_cons, trackAll] at ht
    generalize e.update cam.flow cam.g0 cam.call f.gray (some mask) = m at h ht ⊢
    rcases hu : update cfg s.world (some dets) 1 (m.2.map cam.ct) with ⟨w, er | act⟩
    · rw [hu] at h; cases h
    rw [hu] at h ht
    simp only at h ht ⊢
    obtain ⟨⟨w2, acts2⟩, ht2, e2⟩ := Option.map_eq_some_iff.mp ht
    cases e2
    have hI' : Inv w := by have := (update_inv (cfg := cfg) hI (some dets) 1 (m.2.map cam.ct)).1; rwa [hu] at this
    have hH' : ∀ r, (w.heap r).points = pts r := fun r =>
      heap_keeps (Q := fun d => d.points = pts r) (fun _ _ h => h) (fun _ _ _ h => h) hI hu r (hH r)
    have hp := hpic f w.heap dets act (List.mem_cons_self ..) (List.mem_cons_self ..) hH'
    let seq2 : FrameSeq Pic := { seq with
      frameNumber := k + 2
      written := seq.written ++ [P f dets act]
      released := if k + 2 > n then seq.released + 1 else seq.released }
    have hw : evalWrite dr cfg.flt true { seq with frameNumber := k + 2 } f w.heap dets act = some seq2 := by
      simp only [evalWrite, hp, if_true, Option.bind_some, hq.write hv, seq2]
    rw [hw]
    simp only
    rcases hfile : s.file.update fmt (act.map (Pred.ofObj cfg.flt)) none with ⟨file, _ | _⟩
    · rw [hfile] at h
      simp only at h ⊢
      rcases hacc : s.acc.update (some (act.map (Pred.ofObj cfg.flt))) with ⟨acc, _ | _⟩
      · rw [hacc] at h
        simp only at h ⊢
        obtain ⟨seq', i1, i2, pics, i3, i4, i5⟩ := ih (k + 1) imgs masks acts2 ⟨w, file, acc⟩ s' _ seq2 m.1 act
          (hq.step _ _) hv (by omega) hl
          (fun j g hj => by rw [show k + 1 + j + 1 = k + (j + 1) + 1 by omega]; exact hload (j + 1) g hj)
          hI' hH' hm ht2
          (fun j g dets' h1 h2 => by simpa using hmask (j + 1) g dets' h1 h2)
          (fun g heap dets' act' h1 h2 => hpic g heap dets' act' (List.mem_cons_of_mem _ h1) (List.mem_cons_of_mem _ h2)) h
        refine ⟨seq', i1, ?_, P f dets act :: pics, by rw [i3]; simp [seq2], by simp [i4], ?_⟩
        · rw [i2]
          simp only [seq2, List.length_cons, Nat.succ_pos, if_true]
          split <;> split <;> omega
        · intro j g dets' act' h1 h2 h3
          match j, h1, h2, h3 with
          | 0, h1, h2, h3 => cases h1; cases h2; cases h3; rfl
          | j + 1, h1, h2, h3 => exact i5 j g dets' act' h1 h2 h3
      · rw [hacc] at h; cases h
    · rw [hfile] at h; cases h

/-- the estimates of the objects of a sequence have two rows and two columns -/
theorem seqTrack_shape {cfg : Cfg K L D F X} {Ok : F → Prop} (hL : FilterLaws cfg.flt Ok)
    (sortRows : List (List K) → List (List K)) (hs : SortsByFrame sortRows) (label : L) (extra : X) (g : Nat)
    {v : MotSeq K} {n : Nat} (hv : MotOk v n) {w' : World K L D F X} {acts : List (List (Obj K L D F))}
    (h : seqTrack cfg sortRows label extra g v n = some (w', acts)) :
    ∀ act ∈ acts, ∀ o ∈ act, HasShape (2, 2) (o.estimate cfg.flt) := by
  obtain ⟨-, -, h3⟩ := seq_shaped sortRows hs label extra g hv _ _ h
  intro act hact o ho
  obtain ⟨w1, hw, rfl⟩ := h3 act hact
  obtain ⟨m1, m2, m3⟩ := mem_activeObjects.mp ho
  have h0 : (seqWorld label extra g (seqDets sortRows v.rows n) : World K L D F X).Initial := ⟨rfl, rfl, rfl⟩
  have hback : BackShaped (fun _ => (2, 2)) o :=
    Reaches.objInv hw (Inv.initial h0) (fun dets period ct w hc =>
      ⟨_, hc.points, backShaped_inv cfg _ (dets.getD []) period ct hc.keeps⟩) (fun _ _ _ _ _ h => h)
      (by rw [h0.1]; simp) o m1
  have hpts : PointsOk cfg.flt Ok (fun _ => (2, 2)) o :=
    WfReaches.pointsOk hL (fun _ _ _ => rfl) h0 (hw.mono (fun _ _ h => h) fun _ _ _ _ h => h.ok) o m1
  exact estimate_hasShape hL hpts hback

/-- the sequence without and with video -/
theorem video_main {cfg : Cfg K L D F X} {Ok : F → Prop} (hL : FilterLaws cfg.flt Ok) (fmt : K → Str)
    (cam : MotCam K Img G T)
    (hcam : ∀ g c p r t, cam.call g c p = some r → r.2.2 = some t → KeepsBoth (fun _ : Unit => (2, 2)) (cam.ct t))
    (dr : EvalDraw K L H) (hpal : dr.env.palette.colors ≠ []) (sortRows : List (List K) → List (List K))
    (hs : SortsByFrame sortRows) (label : L) (extra : X) (g : Nat) (acc : Accum K) {v : FilmSeq K Img} {n : Nat}
    {frames : List (EvalFrame Img)} (hv : FilmOk v n frames) :
    (∀ make, (motVideoSeq cfg fmt cam dr sortRows label extra make g acc v).map (·.1) =
      motCamSeq cfg fmt cam sortRows label extra g acc ⟨v.path, v.length, v.rows, frames.map (·.gray)⟩) ∧
    ∀ r, motVideoSeq cfg fmt cam dr sortRows label extra true g acc v = some r → ∃ masks v' w' acts,
      Filmed cfg cam sortRows label extra g n ⟨v.path, v.length, v.rows, frames.map (·.gray)⟩ masks v' ∧
      seqTrack cfg sortRows label extra g v' n = some (w', acts) ∧ r.2.released = 1 ∧ r.2.written.length = n ∧
      ∀ (k : Nat) (f : EvalFrame Img) (dets : List (ParsedDet K)) (act : List (Obj K L D F)), frames[k]? = some f →
        (seqDets sortRows v.rows n)[k]? = some dets → acts[k]? = some act → r.2.written[k]? =
          some (framed dr.ras (truncInt (((f.shape.foldl max 0 : Nat) : K) / 500))
            (dets.map (fun d => (d.points.flatten, dr.env.palette.default)) ++ act.map (objBox dr cfg.flt)) f.pic) := by
  obtain ⟨dir, ext, hdir, hext, hfiles⟩ := hv.files
  have hv0 : CamOk (⟨v.path, v.length, v.rows, frames.map (·.gray)⟩ : CamSeq K Img) n :=
    ⟨hv.rows, hv.width, hv.length, hv.pos, by simp [hv.count]⟩
  obtain ⟨masks, v', hF, hM, hE⟩ := C107_sequence (cfg := cfg) fmt cam hcam sortRows hs label extra g acc hv0
  obtain ⟨m, hm, hw⟩ := hv.width
  have hp := C56_read_partial sortRows hs v.rows hv.rows m hm hw n
  let dets := seqDets sortRows v.rows n
  have hdl : dets.length = n := by simp [dets, seqDets]
  let ds := refsFrom 0 dets
  have hrl : ds.length = n := by rw [refsFrom_length, hdl]
  let w : World K L D F X := seqWorld label extra g dets
  let s0 : MotState K L D F X := ⟨w, PredFile.init (.int n), (acc.create v.path (.int n)).1⟩
  let seq0 : Bool → FrameSeq Pic := fun make => ⟨.int n, v.path, v.imDir, v.imExt, make, 1, [], 0⟩
  have hcr : acc.create v.path (.int n) = ((acc.create v.path (.int n)).1, false) := rfl
  have eV : ∀ make, motVideoSeq cfg fmt cam dr sortRows label extra make g acc v =
      (motVideoFrames cfg fmt cam dr v.load make s0 (seq0 make) (MotionEstimator.create cam.g0) [] ds).map
        fun r => ((r.1.world.gcount, r.1.file, r.1.acc), r.2) := by
    intro make
    unfold motVideoSeq
    rw [hv.length, hp]
    simp only
    rw [hcr]
    rfl
  have eC : motCamSeq cfg fmt cam sortRows label extra g acc ⟨v.path, v.length, v.rows, frames.map (·.gray)⟩ =
      (motCamFrames cfg fmt cam s0 (MotionEstimator.create cam.g0) [] ((frames.map (·.gray)).zip ds)).map
        fun s => (s.world.gcount, s.file, s.acc) := by
    unfold motCamSeq
    rw [hv.length, hp]
    simp only
    rw [hcr]
    rfl
  have hq : ∀ make, SeqAt (seq0 make) v.path dir ext n 0 := fun make => ⟨rfl, rfl, hdir, hext, rfl⟩
  have hload : ∀ j f, frames[j]? = some f →
      v.load (pathJoin (pathJoin v.path dir) (zfill6 (natStr (0 + j + 1)) ++ ext)) = some f := by
    intro j f hj
    rw [Nat.zero_add]
    exact hfiles j f hj
  have hcamf := fun make => videoFrames_cam (cfg := cfg) fmt cam dr v.load make ds 0 frames s0 (seq0 make)
    (MotionEstimator.create cam.g0) [] (hq make) rfl (by omega) (by rw [hv.count, hrl]) hload
  have hbox : ∀ c ∈ ds, ∀ r ∈ c, HasShape (2, 2) (w.heap r).points := by
    intro c hc r hr
    have hlt := (refsFrom_get dets 0 c hc r hr).2
    rw [Nat.zero_add] at hlt
    show HasShape (2, 2) (motHeap label extra dets.flatten r).points
    rw [motHeap_apply label extra _ hlt]
    obtain ⟨q, hq, e⟩ := seqDets_mem hs (List.getElem_mem hlt)
    rw [e]
    exact ⟨rfl, rfl, rfl⟩
  let P : EvalFrame Img → List Ref → List (Obj K L D F) → Pic := fun f c act =>
    framed dr.ras (truncInt (((f.shape.foldl max 0 : Nat) : K) / 500))
      (c.map (fun r => ((w.heap r).points.data, dr.env.palette.default)) ++ act.map (objBox dr cfg.flt)) f.pic
  have hwr : ∀ s', motCamFrames cfg fmt cam s0 (MotionEstimator.create cam.g0) [] ((frames.map (·.gray)).zip ds) = some s' →
      ∃ w' acts, seqTrack cfg sortRows label extra g v' n = some (w', acts) ∧ ∃ seq',
        motVideoFrames cfg fmt cam dr v.load true s0 (seq0 true) (MotionEstimator.create cam.g0) [] ds = some (s', seq') ∧
        seq'.released = 1 ∧ seq'.written.length = n ∧ ∀ (j : Nat) f c act, frames[j]? = some f → ds[j]? = some c →
          acts[j]? = some act → seq'.written[j]? = some (P f c act) := by
    intro s' h
    obtain ⟨hn, hsome⟩ := C105_sequence hL fmt sortRows hs label extra g acc hM
    rcases ht : seqTrack cfg sortRows label extra g v' n with _ | ⟨w', acts⟩
    · have := hE.trans (hn ht)
      rw [eC, h] at this
      cases this
    · refine ⟨w', acts, rfl, ?_⟩
      obtain ⟨hal, hb⟩ := C105_boxes hL sortRows hs label extra g hM ht
      have ht' : trackAll cfg w (ds.zip (camCts cam (MotionEstimator.create cam.g0) (frames.map (·.gray)) masks)) =
          some (w', acts) := by
        have := ht
        unfold seqTrack at this
        rw [hF.rows, hF.cts] at this
        exact this
      obtain ⟨seq', h1, h2, pics, h3, h4, h5⟩ := videoFrames_written (cfg := cfg) fmt cam dr v.load
        (fun r => (w.heap r).points) P ds 0 frames masks acts s0 s' w' (seq0 true) (MotionEstimator.create cam.g0) []
        (hq true) rfl (by omega) (by rw [hv.count, hrl]) hload (Inv.initial ⟨rfl, rfl, rfl⟩) (fun _ => rfl)
        (by rw [hF.count, hrl]) ht'
        (by
          intro j f c hj hc
          have := hF.mask w' acts ht j f.gray (by simp [hj])
          rw [this]
          simp only [maskBoxes]
          have hjn : j < n := by rw [← hv.count]; exact (List.getElem?_eq_some_iff.mp hj).1
          have e := congrArg (fun l => l[j]?) (refsFrom_spec label extra dets).1
          have hd : dets[j]? = some (dets[j]'(by omega)) := List.getElem?_eq_getElem _
          simp only [List.getElem?_map] at e
          rw [show (refsFrom 0 dets)[j]? = some c from hc, hd] at e
          simp only [Option.map_some, Option.some.injEq] at e
          have e2 := congrArg (List.map fun d : Det K L X => d.points) e
          rw [List.map_map, List.map_map] at e2
          rw [show (seqDets sortRows v.rows n)[j]? = _ from hd, Option.getD_some]
          congr 1
          congr 1
          exact e2.symm)
        (by
          intro f heap c act hc hact hH
          have := evalPicture_eq dr hpal cfg.flt f heap c act
            (fun r hr => by rw [hH r]; exact hbox c hc r hr)
            (fun o ho => (seqTrack_shape hL sortRows hs label extra g hM ht act hact o ho))
          rw [this]
          simp only [P, hH])
        h
      refine ⟨seq', h1, ?_, ?_, ?_⟩
      · rw [h2, if_pos (by have := hv.pos; omega)]
      · rw [h3]
        simp only [seq0, List.nil_append, h4, hrl]
      · intro j f c act a b d
        rw [h3]
        exact h5 j f c act a b d
  refine ⟨fun make => ?_, fun r hr => ?_⟩
  · rw [eV, eC, Option.map_map]
    cases hmk : make with
    | false =>
      rw [← (hcamf false).1 rfl, Option.map_map]
      rfl
    | true =>
      rcases hc : motCamFrames cfg fmt cam s0 (MotionEstimator.create cam.g0) [] ((frames.map (·.gray)).zip ds) with _ | s'
      · rcases hvf : motVideoFrames cfg fmt cam dr v.load true s0 (seq0 true) (MotionEstimator.create cam.g0) [] ds with _ | r
        · rw [hc]
          rfl
        · have := (hcamf true).2 r hvf
          rw [hc] at this
          cases this
      · obtain ⟨-, -, -, seq', h1, -⟩ := hwr s' hc
        rw [h1, hc]
        rfl
  · rw [eV] at hr
    obtain ⟨⟨s', seq1⟩, h1, rfl⟩ := Option.map_eq_some_iff.mp hr
    obtain ⟨w', acts, ht, seq', h2, h3, h4, h5⟩ := hwr s' ((hcamf true).2 _ h1)
    rw [h1] at h2
    cases h2
    refine ⟨masks, v', w', acts, hF, ht, h3, h4, ?_⟩
    intro k f dl act hk hd ha
    have hkn : k < n := by rw [← hv.count]; exact (List.getElem?_eq_some_iff.mp hk).1
    have hc : ds[k]? = some (ds[k]'(by omega)) := List.getElem?_eq_getElem _
    have e := congrArg (fun l => l[k]?) (refsFrom_spec label extra dets).1
    simp only [List.getElem?_map] at e
    rw [show (refsFrom 0 dets)[k]? = _ from hc, show dets[k]? = _ from hd] at e
    simp only [Option.map_some, Option.some.injEq] at e
    have e2 := congrArg (List.map fun d : Det K L X => (d.points.data, dr.env.palette.default)) e
    rw [List.map_map, List.map_map] at e2
    have h6 := h5 k f _ act hk hc ha
    rw [h6]
    simp only [P]
    congr 2
    congr 1

/-- **C128** With and without `--make-video` the evaluation of a sequence raises in the same cases, and otherwise text
file, accumulator and number of objects are the same: those of C107. -/
theorem C128_same {cfg : Cfg K L D F X} {Ok : F → Prop} (hL : FilterLaws cfg.flt Ok) (fmt : K → Str)
    (cam : MotCam K Img G T)
    (hcam : ∀ g c p r t, cam.call g c p = some r → r.2.2 = some t → KeepsBoth (fun _ : Unit => (2, 2)) (cam.ct t))
    (dr : EvalDraw K L H) (hpal : dr.env.palette.colors ≠ []) (sortRows : List (List K) → List (List K))
    (hs : SortsByFrame sortRows) (label : L) (extra : X) (g : Nat) (acc : Accum K) {v : FilmSeq K Img} {n : Nat}
    {frames : List (EvalFrame Img)} (hv : FilmOk v n frames) (make : Bool) :
    (motVideoSeq cfg fmt cam dr sortRows label extra make g acc v).map (·.1) =
      motCamSeq cfg fmt cam sortRows label extra g acc ⟨v.path, v.length, v.rows, frames.map (·.gray)⟩ :=
  (video_main hL fmt cam hcam dr hpal sortRows hs label extra g acc hv).1 make

/-- **C128** (partial: the ids are missing, see `C128_false_ids`) With `--make-video` the video has exactly one picture for
each frame, in their order, and is released once. The picture of frame `k` is frame `k` with frames around the boxes of the
detections of this frame, in the default color of the palette, and over them around the estimates of the objects that the
tracker returned for this frame, each in the color of its id; the other pixels are as they were. -/
theorem C128_video_partial {cfg : Cfg K L D F X} {Ok : F → Prop} (hL : FilterLaws cfg.flt Ok) (fmt : K → Str)
    (cam : MotCam K Img G T)
    (hcam : ∀ g c p r t, cam.call g c p = some r → r.2.2 = some t → KeepsBoth (fun _ : Unit => (2, 2)) (cam.ct t))
    (dr : EvalDraw K L H) (hpal : dr.env.palette.colors ≠ []) (sortRows : List (List K) → List (List K))
    (hs : SortsByFrame sortRows) (label : L) (extra : X) (g : Nat) (acc : Accum K) {v : FilmSeq K Img} {n : Nat}
    {frames : List (EvalFrame Img)} (hv : FilmOk v n frames)
    {r : (Nat × PredFile × Accum K) × FrameSeq Pic}
    (hr : motVideoSeq cfg fmt cam dr sortRows label extra true g acc v = some r) : ∃ masks v' w' acts,
      Filmed cfg cam sortRows label extra g n ⟨v.path, v.length, v.rows, frames.map (·.gray)⟩ masks v' ∧
      seqTrack cfg sortRows label extra g v' n = some (w', acts) ∧ r.2.released = 1 ∧ r.2.written.length = n ∧
      ∀ (k : Nat) (f : EvalFrame Img) (dets : List (ParsedDet K)) (act : List (Obj K L D F)), frames[k]? = some f →
        (seqDets sortRows v.rows n)[k]? = some dets → acts[k]? = some act → r.2.written[k]? =
          some (framed dr.ras (truncInt (((f.shape.foldl max 0 : Nat) : K) / 500))
            (dets.map (fun d => (d.points.flatten, dr.env.palette.default)) ++ act.map (objBox dr cfg.flt)) f.pic) :=
  (video_main hL fmt cam hcam dr hpal sortRows hs label extra g acc hv).2 r hr

/-- drawing with the ids themselves and the palette of Norfair -/
def plainDraw (ras : Raster K) (lab : L → Option Nat) : EvalDraw K L Nat :=
  ⟨⟨fun i => pyHashInt i, natStr, fun _ => [], Palette.initial, fun _ => 0⟩, ras, id, lab⟩

/-- **C128** (the negation, for the ids) The video does not show the ids: no number is written next to the boxes, and if
all ids are larger by ten, every picture is the same. -/
theorem C128_false_ids (ras : Raster K) (lab : L → Option Nat) (flt : FilterOps K F) (f : EvalFrame Img)
    (heap : Ref → Det K L X) (dets : List Ref) (objs : List (Obj K L D F))
    (hd : ∀ r ∈ dets, HasShape (2, 2) (heap r).points) (ho : ∀ o ∈ objs, HasShape (2, 2) (o.estimate flt))
    (hi : ∀ o ∈ objs, ∀ i, o.id = some i → i + 10 < 2 ^ 61 - 1) :
    evalPicture (plainDraw ras lab) flt f heap dets objs =
      evalPicture (plainDraw ras lab) flt f heap dets (objs.map fun o => { o with id := o.id.map (· + 10) }) ∧
    evalPicture (plainDraw ras lab) flt f heap dets objs ≠ none := by
  have hpal : (plainDraw (K := K) ras lab).env.palette.colors ≠ [] := by
    show Palette.initial.colors ≠ []
    decide +kernel
  have hlen : Palette.initial.colors.length = 10 := by decide +kernel
  rw [evalPicture_eq _ hpal flt f heap dets objs hd ho, evalPicture_eq _ hpal flt f heap dets _ hd]
  · refine ⟨?_, by simp⟩
    congr 3
    rw [List.map_map]
    refine List.map_congr_left fun o hmo => ?_
    refine Prod.ext rfl ?_
    show ((Palette.initial.choose (o.id.map fun i : Nat => pyHashInt (i : ℤ))).getD []) =
      ((Palette.initial.choose ((o.id.map (· + 10)).map fun i : Nat => pyHashInt (i : ℤ))).getD [])
    rcases e : o.id with _ | i
    · rfl
    · have := C52_periodic Palette.initial i (by rw [hlen]; exact hi o hmo i e)
      rw [hlen] at this
      simp only [Option.map_some]
      rw [this]
      rfl
  · intro o hmo
    obtain ⟨o', h', rfl⟩ := List.mem_map.mp hmo
    exact ho o' h'

end

/-! ### Examples -/

/-- `pixelSeq` as files: pictures of 1000 × 1500 black pixels -/
def filmSeq : FilmSeq ℚ ℤ where
  path := pixelSeq.path
  length := .int 4
  imDir := .str "img1".toList
  imExt := .str ".jpg".toList
  rows := pixelSeq.rows
  load p := (List.range 4).findSome? fun k =>
    if p = pathJoin (pathJoin pixelSeq.path "img1".toList) (zfill6 (natStr (k + 1)) ++ ".jpg".toList) then
      some ⟨pixelSeq.frames.getD k 0, [1000, 1500, 3], fun _ _ => 0⟩ else none

def evalFrames : List (EvalFrame ℤ) := [0, 0, 1, 2].map fun g => ⟨g, [1000, 1500, 3], fun _ _ => 0⟩

theorem filmSeq_ok : FilmOk filmSeq 4 evalFrames := by
  refine ⟨by decide, ⟨7, by decide, by decide +kernel⟩, rfl, by decide, rfl, _, _, rfl, rfl, ?_⟩
  intro k f hk
  have hlt : k < 4 := (List.getElem?_eq_some_iff.mp hk).1
  have key : ∀ k < 4, ∀ j < 4, (pathJoin (pathJoin pixelSeq.path "img1".toList) (zfill6 (natStr (k + 1)) ++ ".jpg".toList) =
      pathJoin (pathJoin pixelSeq.path "img1".toList) (zfill6 (natStr (j + 1)) ++ ".jpg".toList)) ↔ k = j := by
    decide +kernel
  have e : filmSeq.load (pathJoin (pathJoin filmSeq.path "img1".toList) (zfill6 (natStr (k + 1)) ++ ".jpg".toList)) =
      (List.range 4).findSome? fun j => if k = j then
        some (⟨pixelSeq.frames.getD j 0, [1000, 1500, 3], fun _ _ => 0⟩ : EvalFrame ℤ) else none := by
    have : List.range 4 = [0, 1, 2, 3] := rfl
    simp only [filmSeq, this, List.findSome?_cons, List.findSome?_nil, key k hlt 0 (by omega), key k hlt 1 (by omega),
      key k hlt 2 (by omega), key k hlt 3 (by omega)]
  rw [e]
  have : k = 0 ∨ k = 1 ∨ k = 2 ∨ k = 3 := by omega
  rcases this with rfl | rfl | rfl | rfl <;> exact hk

def filmDraw : EvalDraw ℚ Nat Nat := ⟨toyEnv, toyRaster, id, fun _ => none⟩

set_option synthInstance.maxSize 2000 in
/-- C128_same, C128_video_partial: the hypotheses hold, and these are the colors of the upper left corners of the boxes in the
four pictures: detections have the color 7, the objects 1 and 2 the colors 1 and 2; the second one is drawn in the last
pictures although it is not detected -/
example : SortsByFrame (K := ℚ) toySort ∧ FilmOk filmSeq 4 evalFrames ∧ filmDraw.env.palette.colors ≠ [] ∧
    ((motVideoSeq properCfg (fun _ => []) pixelCam filmDraw toySort 0 () true 0 Accum.init filmSeq).map
      fun r => (r.1.1, r.2.released, r.2.written.map fun p => [p (1, 0) 0, p (2, 0) 0, p (5, 1) 0, p (6, 1) 0, p (0, 0) 0])) =
    some (2, 1, [[7, 0, 7, 0, 0], [1, 0, 2, 0, 0], [0, 1, 0, 2, 0], [0, 0, 0, 0, 0]]) :=
  ⟨toySort_sorts, filmSeq_ok, by decide, by decide +kernel⟩

/-- C128_false_ids: the hypotheses hold for an object with the id 1 -/
example :
    let o : Obj ℚ Nat (WithTop ℚ) (NoFilter ℚ) := ⟨1, some 1, some 1, 2, 2, 1, none, none, none, 0, 1, true, 4, 1, [true, true],
      [1, 1], [], ⟨4, [1, 0, 3, 2, 0, 0, 0, 0]⟩, 0, none⟩
    HasShape (2, 2) (o.estimate noFilterOps) ∧ ∀ i, o.id = some i → i + 10 < 2 ^ 61 - 1 := by
  refine ⟨⟨rfl, rfl, by decide +kernel⟩, fun i h => ?_⟩
  cases h
  decide

end Norfair.Props
