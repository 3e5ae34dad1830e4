import Verif.Props.PointLoop

/-! C134: the loops of the demos that track boxes. -/

set_option linter.unusedSectionVars false

namespace Norfair.Props

open Norfair Norfair.Spec

variable {K L D F X H A : Type}

section
variable [Field K] [LinearOrder K] [IsStrictOrderedRing K] [FloorRing K] [DecidableEq L]

/-! ### The pictures -/

theorem putBoxes_eq (dr : EvalDraw K L H) (shape : List Nat) {heap : Ref → Det K L X} {refs : List Ref}
    {ds : List (Det K L X)} (hr : Holds heap refs ds) (hd : ∀ d ∈ ds, HasShape (2, 2) d.points) (pic : Pic) :
    putBoxes dr shape heap refs pic = some (framed dr.ras (boxWidth K shape) (ds.map (detBox dr)) pic) := by
  have h1 : drawBoxes dr.env shape {} (some (ds.map (Drawable.ofDet dr.lab))) =
      some (frameAll (boxWidth K shape) (ds.map (detBox dr)) .base) := by
    refine drawBoxesLoop_plain dr.env {} rfl (boxWidth K shape) none _ _ 0 .base ?_
    rw [List.forall₂_map_left_iff, List.forall₂_map_right_iff, List.forall₂_same]
    intro d hm
    obtain ⟨x0, y0, x1, y1, e1, e2⟩ := Pts.rows_box (hd d hm)
    exact ⟨⟨x0, y0, x1, y1, e1, e2⟩, rfl, rfl⟩
  rw [putBoxes, hr.map (Drawable.ofDet dr.lab) (fun _ _ => rfl), h1, Option.map_some, frameAll_render]
  rfl

theorem putTracked_eq (dr : EvalDraw K L H) (hpal : dr.env.palette.colors ≠ []) (flt : FilterOps K F) (shape : List Nat)
    {objs : List (Obj K L D F)} (ho : ∀ o ∈ objs, HasShape (2, 2) (o.estimate flt)) (pic : Pic) :
    putTracked dr flt shape objs pic = some (framed dr.ras (boxWidth K shape) (objs.map (objBox dr flt)) pic) := by
  have h2 : drawTrackedBoxes dr.env shape (some (objs.map (Drawable.ofObj flt dr.idOf dr.lab))) =
      some (frameAll (boxWidth K shape) (objs.map (objBox dr flt)) .base) := by
    refine drawBoxesLoop_plain dr.env _ rfl (boxWidth K shape) none _ _ 0 .base ?_
    rw [List.forall₂_map_left_iff, List.forall₂_map_right_iff, List.forall₂_same]
    intro o hmem
    obtain ⟨x0, y0, x1, y1, e1, e2⟩ := Pts.rows_box (ho o hmem)
    refine ⟨⟨x0, y0, x1, y1, e1, e2⟩, ?_, by simp [buildText]⟩
    simp only [Drawable.ofObj, objBox, Option.map_map, Function.comp_def]
    exact choose_some dr hpal _
  rw [putTracked, h2, Option.map_some, frameAll_render]
  rfl

theorem boxes_shown (dr : EvalDraw K L H) (hpal : dr.env.palette.colors ≠ []) (flt : FilterOps K F) (f : SeenFrame A)
    {heap : Ref → Det K L X} {refs : List Ref} {ds : List (Det K L X)} (hr : Holds heap refs ds)
    (hd : ∀ d ∈ ds, HasShape (2, 2) d.points) {act : List (Obj K L D F)} (ho : ∀ o ∈ act, HasShape (2, 2) (o.estimate flt)) :
    (putBoxes dr f.shape heap refs f.pic).bind (putTracked dr flt f.shape act) =
      some (shownBoxes dr flt [f.h, f.w, 3] ds act f.pic) := by
  rw [putBoxes_eq dr f.shape hr hd, Option.bind_some, putTracked_eq dr hpal flt f.shape ho, framed_append]
  rfl

theorem ids_shown (dr : EvalDraw K L H) (hpal : dr.env.palette.colors ≠ []) (hstr : ∀ h, dr.env.str h ≠ [])
    (flt : FilterOps K F) (f : SeenFrame A)
    {heap : Ref → Det K L X} {refs : List Ref} {ds : List (Det K L X)} (hr : Holds heap refs ds)
    (hd : ∀ d ∈ ds, HasShape (2, 2) d.points) {act : List (Obj K L D F)}
    (ho : ∀ o ∈ act, HasShape (2, 2) (o.estimate flt) ∧ ∃ i, o.id = some i) :
    (putBoxes dr f.shape heap refs f.pic).bind (putIdBoxes dr flt f.shape act) =
      some (shownIds dr flt [f.h, f.w, 3] ds act f.pic) := by
  rw [putBoxes_eq dr f.shape hr hd, Option.bind_some]
  unfold putIdBoxes drawBoxes shownIds boxWidth SeenFrame.shape
  simp only [Option.getD_some, Option.getD_none]
  generalize (truncInt ((([f.h, f.w, 3].foldl max 0 : Nat) : K) / 500) : ℤ) = t
  suffices key : ∀ (objs : List (Obj K L D F)) (k : Nat) (c : Canvas K),
      (∀ o ∈ objs, HasShape (2, 2) (o.estimate flt) ∧ ∃ i, o.id = some i) →
      drawBoxesLoop dr.env { drawIds := true } (.str "by_id".toList) t none k
        (objs.map (Drawable.ofObj flt dr.idOf dr.lab)) c =
      some (objs.foldl (fun (c : Canvas K) o =>
        (c.rectangle [truncInt ((o.estimate flt).data.getD 0 0), truncInt ((o.estimate flt).data.getD 1 0)]
          [truncInt ((o.estimate flt).data.getD 2 0), truncInt ((o.estimate flt).data.getD 3 0)] t (idColor dr o)).text
          (idText dr o) (some [truncInt ((o.estimate flt).data.getD 0 0) - t / 2,
            truncInt ((o.estimate flt).data.getD 1 0) - t / 2 - 1]) (idColor dr o) none none) c) by
    rw [key act 0 .base ho]
    rfl
  intro objs
  induction objs with
  | nil => intro k c _; rfl
  | cons o os ih =>
    intro k c ho
    obtain ⟨hs, i, hi⟩ := ho o List.mem_cons_self
    have ih := fun k c => ih k c fun o ho' => ho o (List.mem_cons_of_mem _ ho')
    obtain ⟨x0, y0, x1, y1, e1, e2⟩ := Pts.rows_box hs
    have hc : objColor dr.env (.str "by_id".toList) (Drawable.ofObj flt dr.idOf dr.lab o) k = some (idColor dr o) := by
      rw [objColor, if_pos rfl]
      show dr.env.palette.choose ((o.id.map dr.idOf).map dr.env.hash) = _
      rw [Option.map_map]
      exact choose_some dr hpal _
    have htext : buildText dr.env.str dr.env.fmt (Drawable.ofObj flt dr.idOf dr.lab o) false true false =
        idText dr o := by
      simp [buildText, Drawable.ofObj, hi, idText]
    have hne : idText dr o ≠ [] := by
      simp only [idText, hi, Option.elim_some]
      exact hstr _
    have hpt : (Drawable.ofObj flt dr.idOf dr.lab o).points = [[x0, y0], [x1, y1]] := e2
    rw [List.map_cons, drawBoxesLoop]
    simp only [hc, htext, hpt, List.map_cons, List.map_nil, if_true, if_neg hne, Option.or_none, Option.getD_none]
    rw [ih]
    simp [e1]

/-! ### The detections -/

theorem boxDet_shaped (b : YoloBox K) (label : L) : DetShaped (2, 2) (boxDet b label) :=
  ⟨⟨rfl, rfl, rfl⟩, ⟨rfl, rfl, rfl⟩, fun x h => by cases h; rfl⟩

theorem namedDets_shaped (names : List Str) (bs : List (YoloBox K)) : ∀ d ∈ namedDets names bs, DetShaped (2, 2) d := by
  intro d hd
  obtain ⟨b, -, rfl⟩ := List.mem_map.mp hd
  exact boxDet_shaped b _

theorem sahiDets_shaped (bs : List (YoloBox K × ℤ)) : ∀ d ∈ sahiDets bs, DetShaped (2, 2) d := by
  intro d hd
  obtain ⟨b, -, rfl⟩ := List.mem_map.mp hd
  exact boxDet_shaped b.1 _

theorem nasConvert_boxes {names : List Str} {bs : List (YoloBox K)} (hb : ∀ b ∈ bs, (truncInt b.cls).toNat < names.length) :
    ∃ raw, nasConvert names "bbox".toList bs = some (some raw) ∧ raw.mapM RawDet.toDet = some (namedDets names bs) := by
  unfold nasConvert
  rw [if_neg (by decide), if_pos rfl]
  obtain ⟨raw, h1, h2⟩ := mapM_toDet (l := bs)
    (f := fun b => (names[(truncInt b.cls).toNat]?).bind fun name => boxDetection b.xyxy name)
    (g := fun b => boxDet b (names.getD (truncInt b.cls).toNat [])) (fun b hm => by
      have h := hb b hm
      rw [List.getD_eq_getElem?_getD, List.getElem?_eq_getElem h]
      exact ⟨_, rfl, rfl⟩)
  exact ⟨raw, by rw [h1]; rfl, h2⟩

theorem nasConvert_none (names : List Str) {track : Str} (ht : track ≠ "bbox".toList) (bs : List (YoloBox K)) :
    nasConvert names track bs = some none := by
  unfold nasConvert
  rw [if_neg ht]
  split
  · obtain ⟨l, hl, -⟩ := mapM_forall₂ (l := bs) (f := fun b => mkDetection ⟨[2], [b.xywh.getD 0 0, b.xywh.getD 1 0]⟩
      (some [b.xywh.getD 4 0]) (truncInt (b.xywh.getLast?.getD 0)) ()) (R := fun _ _ => True) fun b _ => ⟨_, rfl, trivial⟩
    rw [hl]
    rfl
  · rfl

/-! ### The claims -/

variable [LinearOrder D] [OrderTop D] [Zero D]

/-- **C134** (YOLOv7 with `--track-points bbox`; partial: the tracker may raise, see `C134_false_boxes`) A video is processed
exactly as a new tracker processes the boxes. Every frame is written, in order, with the boxes of the detections, and then the
boxes of the objects that the tracker returned for this frame, in the colors of their ids; the whole raises only if a call of the
tracker raises. -/
theorem C134_yolo7_partial {cfg : Cfg K ℤ D F Unit} {Ok : F → Prop} (hL : FilterLaws cfg.flt Ok) (dr : EvalDraw K ℤ H)
    (hpal : dr.env.palette.colors ≠ []) (g : Nat) (frames : List (SeenFrame (List (YoloBox K)))) :
    yolo7Run "bbox".toList cfg dr g frames =
      (demoTrack cfg 0 () g (frames.map (eachCall fun f => f.seen.map cornerDet))).map fun r =>
        (r.1, (frames.zip r.2).map fun x =>
          shownBoxes dr cfg.flt [x.1.h, x.1.w, 3] (x.1.seen.map cornerDet) x.2 x.1.pic) := by
  have hs : ∀ (f : SeenFrame (List (YoloBox K))), ∀ d ∈ f.seen.map cornerDet, DetShaped (2, 2) d := by
    intro f d hd
    obtain ⟨b, -, rfl⟩ := List.mem_map.mp hd
    exact corner_shaped b
  refine eachRun_track hL _ (fun f => f.seen.map cornerDet)
    (fun f act => shownBoxes dr cfg.flt [f.h, f.w, 3] (f.seen.map cornerDet) act f.pic) 0 () g frames
    (fun _ f _ => ?_) (fun f _ => hs f) (fun f hm _ _ _ hr ho => ?_)
  · unfold yoloConvert
    rw [if_neg (by decide), if_pos rfl]
    exact mapM_bind_map fun b _ => ⟨_, rfl, rfl⟩
  · rw [if_neg (by decide), if_pos rfl]
    exact boxes_shown dr hpal cfg.flt f hr (fun d hd => (hs f d hd).1) fun o h => (ho o h).1

/-- **C134** (YOLO-NAS with `--track-points bbox`; partial: the tracker may raise, see `C134_false_boxes`) A video in which all
classes have names is processed exactly as a new tracker processes the boxes. Every frame is written, in order, with the boxes
of the detections, and then the boxes and the ids of the objects that the tracker returned for this frame; the whole raises only
if a call of the tracker raises. -/
theorem C134_nas_partial {cfg : Cfg K Str D F Unit} {Ok : F → Prop} (hL : FilterLaws cfg.flt Ok) (names : List Str)
    (dr : EvalDraw K Str H) (hpal : dr.env.palette.colors ≠ []) (hstr : ∀ h, dr.env.str h ≠ []) (g : Nat)
    {frames : List (SeenFrame (List (YoloBox K)))}
    (hf : ∀ f ∈ frames, ∀ b ∈ f.seen, (truncInt b.cls).toNat < names.length) :
    nasRun names "bbox".toList cfg dr g frames =
      (demoTrack cfg [] () g (frames.map (eachCall fun f => namedDets names f.seen))).map fun r =>
        (r.1, (frames.zip r.2).map fun x => shownIds dr cfg.flt [x.1.h, x.1.w, 3] (namedDets names x.1.seen) x.2 x.1.pic) := by
  have hcalls : frames.zipIdx.map (fun y => eachCall (fun f => namedDets names f.seen) y.1) =
      frames.map (eachCall fun f => namedDets names f.seen) :=
    zipIdx_map_fst_fun (eachCall fun f => namedDets names f.seen) frames
  unfold nasRun
  rw [demoRun_track cfg _ (fun _ _ => True) (fun y => eachCall (fun f => namedDets names f.seen) y.1)
    (fun y act => some (shownIds dr cfg.flt [y.1.h, y.1.w, 3] (namedDets names y.1.seen) act y.1.pic)) [] () () g frames
    _ rfl trivial (fun y hy => ?_) (fun y hy refs hh st _ => ⟨trivial, ?_⟩)
    (fun w' acts ht y hy refs hh st _ act hact h' hs => ?_), hcalls]
  · congr 1
    funext r
    rw [← zipIdx_zip_map (fun (f : SeenFrame (List (YoloBox K))) (act : List (Obj K Str D F)) =>
      shownIds dr cfg.flt [f.h, f.w, 3] (namedDets names f.seen) act f.pic), ← List.filterMap_eq_map]
    rfl
  · obtain ⟨raw, h1, h2⟩ := nasConvert_boxes (hf y.1 (List.fst_mem_of_mem_zipIdx hy))
    rw [h1]
    exact h2
  · obtain ⟨raw, h1, h2⟩ := nasConvert_boxes (hf y.1 (List.fst_mem_of_mem_zipIdx hy))
    simp only [nasOps, h1]
    rfl
  · rw [hcalls] at ht
    have hobj := ((demoTrack_shape hL [] () g (s := (2, 2)) (fun l hl d hd' => by
      obtain ⟨c, hc, rfl⟩ := List.mem_map.mp hl
      obtain ⟨f, hf, rfl⟩ := List.mem_map.mp hc
      exact namedDets_shaped names f.seen d hd')).1 w' acts ht).2 act hact
    simp only [nasOps]
    rw [if_neg (by decide), if_pos trivial]
    exact congrArg (Option.map some) (ids_shown dr hpal hstr cfg.flt y.1 (hs.holds hh)
      (fun d hd => (namedDets_shaped names y.1.seen d hd).1) fun o h => ⟨(hobj o h).1, (hobj o h).2.2⟩)

/-- **C134** (SAHI; partial: the tracker may raise, see `C134_false_boxes`, and detections of earlier frames are shown, see
`C134_false_stale`) A video is processed exactly as a new tracker processes the boxes of every `skip`-th frame, called for every
frame. Every frame is written, in order, with the boxes of the detections of the last frame that was looked at, and then the
boxes of the objects that the tracker returned for this frame, in the colors of their ids; the whole raises only if a call of the
tracker raises. -/
theorem C134_sahi_partial {cfg : Cfg K ℤ D F Unit} {Ok : F → Prop} (hL : FilterLaws cfg.flt Ok) (dr : EvalDraw K ℤ H)
    (hpal : dr.env.palette.colors ≠ []) {skip : Nat} (_hskip : 0 < skip) (g : Nat)
    (frames : List (SeenFrame (List (YoloBox K × ℤ)))) :
    sahiRun cfg dr skip g frames = (demoTrack cfg 0 () g (frames.zipIdx.map (sahiCall skip))).map fun r =>
      (r.1, (frames.zipIdx.zip r.2).map fun y =>
        shownBoxes dr cfg.flt [y.1.1.h, y.1.1.w, 3] (lastDets skip frames y.1.2) y.2 y.1.1.pic) := by
  have hsh : ∀ i, ∀ d ∈ lastDets skip frames i, DetShaped (2, 2) d := by
    intro i d hd
    unfold lastDets at hd
    cases h : frames[skip * (i / skip)]? with
    | none => rw [h] at hd; cases hd
    | some f => rw [h] at hd; exact sahiDets_shaped f.seen d hd
  have hnew : ∀ l ∈ newDets (frames.zipIdx.map (sahiCall skip)), ∀ d ∈ l, DetShaped (2, 2) d := by
    intro l hl d hd
    obtain ⟨c, hc, rfl⟩ := List.mem_map.mp hl
    obtain ⟨⟨f, i⟩, hm, rfl⟩ := List.mem_map.mp hc
    unfold sahiCall at hd
    split at hd
    · exact sahiDets_shaped f.seen d hd
    · cases hd
  -- the detections of the last frame that was looked at do not change in frames that are skipped
  have hstep : ∀ i, ¬ skip ∣ i → 0 < i ∧ lastDets skip frames i = lastDets skip frames (i - 1) := by
    intro i hi
    have h0 : 0 < i := Nat.pos_of_ne_zero fun h => hi (h ▸ Nat.dvd_zero skip)
    refine ⟨h0, ?_⟩
    have : i / skip = (i - 1) / skip := by
      obtain ⟨j, rfl⟩ : ∃ j, i = j + 1 := ⟨i - 1, by omega⟩
      rw [Nat.succ_div, if_neg hi]
      rfl
    rw [lastDets, lastDets, this]
  have hnow : ∀ y ∈ frames.zipIdx, skip ∣ y.2 → lastDets skip frames y.2 = sahiDets y.1.seen := by
    intro y hy hi
    have : frames[y.2]? = some y.1 := List.mem_zipIdx_iff_getElem?.mp hy
    rw [lastDets, Nat.mul_div_cancel' hi, this]
    rfl
  let h : Ref → Det K ℤ Unit := detHeap 0 () (newDets (frames.zipIdx.map (sahiCall skip))).flatten
  let J : Nat → Option (List Ref) → Prop := fun i st => 0 < i → ∃ refs, st = some refs ∧
    Holds h refs (lastDets skip frames (i - 1))
  have hJ : ∀ y ∈ frames.zipIdx, ∀ refs, Holds h refs ((sahiCall skip y).1.getD []) → ∀ st, J y.2 st →
      ∃ refs', ((sahiOps (D := D) dr cfg.flt skip).call st y.2 (y.1, refs)).1 = some refs' ∧
        Holds h refs' (lastDets skip frames y.2) := by
    intro y hy refs hh st hst
    unfold sahiOps sahiCall at *
    simp only [Nat.dvd_iff_mod_eq_zero] at hh hnow hstep ⊢
    by_cases hi : y.2 % skip = 0
    · rw [if_pos hi] at hh ⊢
      exact ⟨refs, rfl, by rw [hnow y hy hi]; exact hh⟩
    · rw [if_neg hi]
      obtain ⟨h0, e⟩ := hstep y.2 hi
      obtain ⟨refs', e1, e2⟩ := hst h0
      exact ⟨refs', e1, by rw [e]; exact e2⟩
  unfold sahiRun
  rw [demoRun_track cfg (sahiOps dr cfg.flt skip) J (sahiCall skip)
    (fun y act => some (shownBoxes dr cfg.flt [y.1.h, y.1.w, 3] (lastDets skip frames y.2) act y.1.pic)) 0 () none g frames
    h rfl (fun h => absurd h (by decide)) (fun y hy => ?_)
    (fun y hy refs hh st hst => ⟨fun _ => hJ y hy refs hh st hst, ?_⟩)
    (fun w' acts ht y hy refs hh st hst act hact h' hs => ?_)]
  · congr 1
    funext r
    rw [← List.filterMap_eq_map]
    rfl
  · unfold sahiCall
    simp only [Nat.dvd_iff_mod_eq_zero]
    split
    · exact mapM_bind_map fun b _ => ⟨_, rfl, rfl⟩
    · rfl
  · unfold sahiOps sahiCall
    simp only [Nat.dvd_iff_mod_eq_zero]
    split <;> rfl
  · obtain ⟨refs', e1, e2⟩ := hJ y hy refs hh st hst
    have hobj := ((demoTrack_shape hL 0 () g (s := (2, 2)) hnew).1 w' acts ht).2 act hact
    rw [e1]
    simp only [sahiOps, Option.bind_some]
    exact congrArg (Option.map some) (boxes_shown dr hpal cfg.flt y.1 (hs.holds e2) (fun d hd => (hsh y.2 d hd).1)
      fun o h => (hobj o h).1)

theorem survivors_nil (cfg : Cfg K L D F X) : survivors cfg [] = [] := by
  unfold survivors
  split <;> rfl

/-- without objects and detections nothing happens -/
theorem idle {cfg : Cfg K L D F X} : ∀ (calls : List (Option (List Ref) × Int)), (∀ c ∈ calls, c.1.getD [] = []) →
    ∀ w : World K L D F X, w.objs = [] → trackCalls cfg w calls = some (w, List.replicate calls.length [])
  | [], _, _, _ => rfl
  | c :: cs, hc, w, hw => by
    have h : update cfg w c.1 c.2 none = (w, .ok []) := by
      obtain ⟨heap, g, n, m, objs⟩ := w
      cases hw
      have hc := hc c List.mem_cons_self
      obtain ⟨dets, period⟩ := c
      have : update cfg ⟨heap, g, n, m, []⟩ dets period none = updateCore cfg ⟨heap, g, n, m, []⟩ [] period none := by
        cases dets with
        | none => rfl
        | some l => cases hc; rfl
      rw [this]
      have ha : advance cfg none (⟨heap, g, n, m, []⟩ : World K L D F X) = ⟨heap, g, n, m, []⟩ := by
        simp [advance, survivors_nil]
      cases hr : cfg.reid with
      | none => simp [updateCore, stageDet, reidStage, hr, ha, activeObjects]
      | some f => simp [updateCore, stageDet, reidStage, hr, ha, activeObjects, stageReid]
    rw [trackCalls, h]
    simp only [idle cs (fun d hd => hc d (List.mem_cons_of_mem _ hd)) w hw]
    rfl

theorem demoTrack_idle (cfg : Cfg K L D F X) (label : L) (extra : X) (g : Nat)
    {calls : List (Option (List (Det K L X)) × Int)} (hc : ∀ c ∈ calls, c.1.getD [] = []) :
    demoTrack cfg label extra g calls =
      some (⟨detHeap label extra [], g, 0, 0, []⟩, List.replicate calls.length []) := by
  have hnil : (newDets calls).flatten = [] := by
    rw [List.flatten_eq_nil_iff]
    intro l hl
    obtain ⟨c, hm, rfl⟩ := List.mem_map.mp hl
    exact hc c hm
  unfold demoTrack
  rw [idle _ (fun c hm => ?_) _ rfl, hnil]
  · simp [newDets, refsFrom_length]
  · rw [List.eq_nil_iff_forall_not_mem]
    intro r hr
    have := demoCalls_refs hm r hr
    rw [hnil] at this
    exact absurd this (Nat.not_lt_zero _)

/-- **C134** (false) The YOLO-NAS demo with `--track-points centroid`, or anything but `bbox`, tracks nothing: the tracker never
has an object, and every video is written as it was read. -/
theorem C134_false_nas (cfg : Cfg K Str D F Unit) (names : List Str) {track : Str} (ht : track ≠ "bbox".toList)
    (dr : EvalDraw K Str H) (g : Nat) (frames : List (SeenFrame (List (YoloBox K)))) :
    ∃ w', nasRun names track cfg dr g frames = some (w', frames.map (·.pic)) ∧ w'.objs = [] := by
  have hidle := demoTrack_idle cfg ([] : Str) () g (calls := frames.zipIdx.map fun _ => (none, 1)) (by simp)
  unfold nasRun
  rw [demoRun_track cfg _ (fun _ _ => True) (fun _ => (none, 1)) (fun y _ => some y.1.pic) [] () () g frames
    _ rfl trivial (fun y hy => ?_) (fun y hy refs hh st _ => ⟨trivial, ?_⟩)
    (fun w' acts ht' y hy refs hh st _ act hact h' hs => ?_), hidle]
  · refine ⟨⟨detHeap [] () [], g, 0, 0, []⟩, ?_, rfl⟩
    refine congrArg (fun l => some (_, l)) ?_
    rw [show (fun y : (SeenFrame (List (YoloBox K)) × Nat) × List (Obj K Str D F) => some y.1.1.pic) =
      some ∘ (fun y : (SeenFrame (List (YoloBox K)) × Nat) × List (Obj K Str D F) => y.1.1.pic) from rfl,
      List.filterMap_eq_map, zipIdx_zip_map fun (f : SeenFrame (List (YoloBox K))) (_ : List (Obj K Str D F)) => f.pic]
    rw [show (fun x : SeenFrame (List (YoloBox K)) × List (Obj K Str D F) => x.1.pic) = (·.pic) ∘ Prod.fst from rfl,
      ← List.map_map, List.map_fst_zip (by simp)]
  · rw [nasConvert_none names ht]
    rfl
  · simp only [nasOps, nasConvert_none names ht]
    rfl
  · rw [hidle] at ht'
    cases ht'
    rw [List.eq_of_mem_replicate hact]
    simp only [nasOps, nasConvert_none names ht]
    split
    · rfl
    · rfl

/-- **C134** (false) The YOLOv7 demo tracks nothing if `--track-points` is neither `centroid` nor `bbox`; it does not complain. -/
theorem C134_false_track (cfg : Cfg K ℤ D F Unit) {track : Str} (hc : track ≠ "centroid".toList) (hb : track ≠ "bbox".toList)
    (dr : EvalDraw K ℤ H) (g : Nat) (frames : List (SeenFrame (List (YoloBox K)))) :
    ∃ w', yolo7Run track cfg dr g frames = some (w', frames.map (·.pic)) ∧ w'.objs = [] := by
  have hidle := demoTrack_idle cfg (0 : ℤ) () g (calls := frames.zipIdx.map fun _ => (some [], 1)) (by simp)
  unfold yolo7Run
  rw [demoRun_track cfg _ (fun _ _ => True) (fun _ => (some [], 1)) (fun y _ => some y.1.pic) 0 () () g frames
    _ rfl trivial (fun y hy => ?_) (fun y hy refs hh st _ => ⟨trivial, rfl⟩)
    (fun w' acts ht' y hy refs hh st _ act hact h' hs => ?_), hidle]
  · refine ⟨⟨detHeap 0 () [], g, 0, 0, []⟩, ?_, rfl⟩
    refine congrArg (fun l => some (_, l)) ?_
    rw [show (fun y : (SeenFrame (List (YoloBox K)) × Nat) × List (Obj K ℤ D F) => some y.1.1.pic) =
      some ∘ (fun y : (SeenFrame (List (YoloBox K)) × Nat) × List (Obj K ℤ D F) => y.1.1.pic) from rfl,
      List.filterMap_eq_map, zipIdx_zip_map fun (f : SeenFrame (List (YoloBox K))) (_ : List (Obj K ℤ D F)) => f.pic]
    rw [show (fun x : SeenFrame (List (YoloBox K)) × List (Obj K ℤ D F) => x.1.pic) = (·.pic) ∘ Prod.fst from rfl,
      ← List.map_map, List.map_fst_zip (by simp)]
  · unfold yoloConvert
    rw [if_neg hc, if_neg hb]
    rfl
  · simp only [eachOps, if_neg hc, if_neg hb]
    rfl

end

/-! ### To the end -/

section
variable [Field K] [LinearOrder K] [IsStrictOrderedRing K] [FloorRing K] [DecidableEq L]

/-- a detection of a box of the size of its class -/
def SizedDet (size : L → K × K) (d : Det K L X) : Prop :=
  IsCopy (sizedBox (size d.label)) d.points ∧ d.absPoints = d.points ∧ ∃ a, d.scores = some [a, a]

theorem boxDet_sized {size : L → K × K} {b : YoloBox K} {label : L} (e1 : b.x2 - b.x1 = (size label).1)
    (e2 : b.y2 - b.y1 = (size label).2) : SizedDet size (boxDet b label) := by
  refine ⟨⟨⟨rfl, rfl, rfl⟩, fun j => if j = 0 then b.x1 else b.y1, fun i hi j hj => ?_⟩, rfl, b.conf, rfl⟩
  change i < 2 at hi
  change j < 2 at hj
  match i, hi, j, hj with
  | 0, _, 0, _ => simp [sizedBox, boxDet]
  | 0, _, 1, _ => simp [sizedBox, boxDet]
  | 1, _, 0, _ => simp [sizedBox, boxDet, ← e1]
  | 1, _, 1, _ => simp [sizedBox, boxDet, ← e2]

theorem demoTrack_sized {cfg : Cfg K L (WithTop K) F X} {Ok : F → Prop}
    (hL : FilterLaws cfg.flt Ok) {Rel : List K × K → F → Prop} (hR : ∀ q, RelationLaws cfg.flt Ok q.1 q.2 (Rel q))
    {str : L → String} (hdist : cfg.dist = iouDistFn str) {size : L → K × K}
    (hpos : ∀ l, 0 < (size l).1 ∧ 0 < (size l).2) (hs : ∀ a b, Compat cfg a b → size a = size b)
    (hre : cfg.reid = none) (hfill : cfg.thr ≤ cfg.fill) (label : L) (extra : X) (g : Nat)
    {calls : List (Option (List (Det K L X)) × Int)} (hd : ∀ l ∈ newDets calls, ∀ d ∈ l, SizedDet size d) :
    ∃ r, demoTrack cfg label extra g calls = some r := by
  have h0 : (⟨detHeap label extra (newDets calls).flatten, g, 0, 0, []⟩ : World K L (WithTop K) F X).Initial := ⟨rfl, rfl, rfl⟩
  have hcall : ∀ (c : List Ref) (w : World K L (WithTop K) F X), (∀ r ∈ c, SizedDet size (w.heap r)) →
      CallCopies (fun l => sizedBox (size l)) cfg.detThr c none w.heap := by
    intro c w hq
    refine ⟨fun r hr => ?_, fun r hr x hx => ?_, (fun c e => by cases e), (fun c e => by cases e)⟩
    · rw [(hq r hr).2.1]
      exact (hq r hr).1
    · obtain ⟨a, e⟩ := (hq r hr).2.2
      rw [e] at hx
      cases hx
      refine ⟨rfl, ?_⟩
      by_cases ha : cfg.detThr < a
      · left; simpa using ha
      · right; simpa using ha
  refine (trackCalls_induct (cfg := cfg) (E := fun _ _ => True)
    (P := fun dets _ ct w => ct = none ∧ ∀ r ∈ dets.getD [], SizedDet size (w.heap r)) (Q := SizedDet size)
    (R := fun r => r < (newDets calls).flatten.length) (fun _ _ h => h) h0
    ((calls.zip (refsFrom 0 (newDets calls))).map fun c => (c.1.1.map fun _ => c.2, c.1.2)) _
    (fun c hc w hq => ⟨rfl, fun r hr => hq r (demoCalls_refs hc r hr)⟩) (.refl _) (fun r hr => by
      obtain ⟨l, hl, hm⟩ := detHeap_mem (label := label) (extra := extra) hr
      exact hd l hl _ hm)).2 fun w hw c hc hP => ?_
  exact C91_constant_size_partial hL hR hdist hpos hs hfill (fun f e => by rw [hre] at e; cases e)
    (fun e => absurd hre e) h0
    (hw.mono (fun _ _ h => h) fun dets _ ct w h => by rw [h.1]; exact hcall _ w h.2) c.1 c.2 none
    (hcall _ w hP.2) (fun r hr => (hP.2 r hr).1) (Or.inl rfl)

/-- **C134** (YOLOv7, SAHI; partial: see `C134_false_boxes`) If the boxes of a class all have the same size, every video is
processed to its end and has as many frames as it had. -/
theorem C134_sized_partial {cfg : Cfg K ℤ (WithTop K) F Unit} {Ok : F → Prop}
    (hL : FilterLaws cfg.flt Ok) {Rel : List K × K → F → Prop} (hR : ∀ q, RelationLaws cfg.flt Ok q.1 q.2 (Rel q))
    {str : ℤ → String} (hdist : cfg.dist = iouDistFn str) {size : ℤ → K × K}
    (hpos : ∀ l, 0 < (size l).1 ∧ 0 < (size l).2) (hs : ∀ a b, Compat cfg a b → size a = size b)
    (hre : cfg.reid = none) (hfill : cfg.thr ≤ cfg.fill) (dr : EvalDraw K ℤ H) (hpal : dr.env.palette.colors ≠ []) (g : Nat) :
    (∀ frames : List (SeenFrame (List (YoloBox K))), (∀ f ∈ frames, ∀ b ∈ f.seen,
        b.x2 - b.x1 = (size (truncInt b.cls)).1 ∧ b.y2 - b.y1 = (size (truncInt b.cls)).2) →
      ∃ w' pics, yolo7Run "bbox".toList cfg dr g frames = some (w', pics) ∧ pics.length = frames.length) ∧
    (∀ (skip : Nat) (frames : List (SeenFrame (List (YoloBox K × ℤ)))), 0 < skip → (∀ f ∈ frames, ∀ b ∈ f.seen,
        b.1.x2 - b.1.x1 = (size b.2).1 ∧ b.1.y2 - b.1.y1 = (size b.2).2) →
      ∃ w' pics, sahiRun cfg dr skip g frames = some (w', pics) ∧ pics.length = frames.length) := by
  constructor
  · intro frames hb
    obtain ⟨⟨w', acts⟩, ht⟩ := demoTrack_sized hL hR hdist hpos hs hre hfill (0 : ℤ) () g
      (calls := frames.map (eachCall fun f => f.seen.map cornerDet)) (fun l hl d hd => by
        obtain ⟨c, hc, rfl⟩ := List.mem_map.mp hl
        obtain ⟨f, hf, rfl⟩ := List.mem_map.mp hc
        obtain ⟨b, hbm, rfl⟩ := List.mem_map.mp hd
        exact boxDet_sized (hb f hf b hbm).1 (hb f hf b hbm).2)
    have hl := ((demoTrack_shape (s := (2, 2)) hL (0 : ℤ) () g (fun l hl d hd => by
      obtain ⟨c, hc, rfl⟩ := List.mem_map.mp hl
      obtain ⟨f, hf, rfl⟩ := List.mem_map.mp hc
      obtain ⟨b, -, rfl⟩ := List.mem_map.mp hd
      exact corner_shaped b)).1 w' acts ht).1
    rw [List.length_map] at hl
    rw [C134_yolo7_partial hL dr hpal, ht]
    exact ⟨_, _, rfl, by simp [hl]⟩
  · intro skip frames hskip hb
    obtain ⟨⟨w', acts⟩, ht⟩ := demoTrack_sized hL hR hdist hpos hs hre hfill (0 : ℤ) () g
      (calls := frames.zipIdx.map (sahiCall skip)) (fun l hl d hd => by
        obtain ⟨c, hc, rfl⟩ := List.mem_map.mp hl
        obtain ⟨f, hf, rfl⟩ := List.mem_map.mp hc
        unfold sahiCall at hd
        split at hd
        · obtain ⟨b, hbm, rfl⟩ := List.mem_map.mp hd
          exact boxDet_sized (hb f.1 (List.fst_mem_of_mem_zipIdx hf) b hbm).1 (hb f.1 (List.fst_mem_of_mem_zipIdx hf) b hbm).2
        · cases hd)
    have hl := ((demoTrack_shape (s := (2, 2)) hL (0 : ℤ) () g (fun l hl d hd => by
      obtain ⟨c, hc, rfl⟩ := List.mem_map.mp hl
      obtain ⟨f, -, rfl⟩ := List.mem_map.mp hc
      unfold sahiCall at hd
      split at hd
      · exact sahiDets_shaped f.1.seen d hd
      · cases hd)).1 w' acts ht).1
    rw [List.length_map] at hl
    rw [C134_sahi_partial hL dr hpal hskip, ht]
    refine ⟨_, _, rfl, ?_⟩
    simp only [List.length_zipIdx] at hl
    simp [hl]

/-- **C134** (YOLO-NAS; partial: see `C134_false_boxes`) If the boxes of a class all have the same size, every video is processed
to its end and has as many frames as it had. -/
theorem C134_nas_sized_partial {cfg : Cfg K Str (WithTop K) F Unit} {Ok : F → Prop}
    (hL : FilterLaws cfg.flt Ok) {Rel : List K × K → F → Prop} (hR : ∀ q, RelationLaws cfg.flt Ok q.1 q.2 (Rel q))
    {str : Str → String} (hdist : cfg.dist = iouDistFn str) {size : Str → K × K}
    (hpos : ∀ l, 0 < (size l).1 ∧ 0 < (size l).2) (hs : ∀ a b, Compat cfg a b → size a = size b)
    (hre : cfg.reid = none) (hfill : cfg.thr ≤ cfg.fill) (dr : EvalDraw K Str H) (hpal : dr.env.palette.colors ≠ [])
    (hstr : ∀ h, dr.env.str h ≠ []) (names : List Str) (g : Nat) {frames : List (SeenFrame (List (YoloBox K)))}
    (hb : ∀ f ∈ frames, ∀ b ∈ f.seen, ∃ n, names[(truncInt b.cls).toNat]? = some n ∧
        b.x2 - b.x1 = (size n).1 ∧ b.y2 - b.y1 = (size n).2) :
    ∃ w' pics, nasRun names "bbox".toList cfg dr g frames = some (w', pics) ∧ pics.length = frames.length := by
  obtain ⟨⟨w', acts⟩, ht⟩ := demoTrack_sized hL hR hdist hpos hs hre hfill ([] : Str) () g
    (calls := frames.map (eachCall fun f => namedDets names f.seen)) (fun l hl d hd => by
      obtain ⟨c, hc, rfl⟩ := List.mem_map.mp hl
      obtain ⟨f, hf, rfl⟩ := List.mem_map.mp hc
      obtain ⟨b, hbm, rfl⟩ := List.mem_map.mp hd
      obtain ⟨n, hn, e1, e2⟩ := hb f hf b hbm
      have : names.getD (truncInt b.cls).toNat [] = n := by rw [List.getD_eq_getElem?_getD, hn]; rfl
      rw [this]
      exact boxDet_sized e1 e2)
  have hl := ((demoTrack_shape (s := (2, 2)) hL ([] : Str) () g (fun l hl d hd => by
    obtain ⟨c, hc, rfl⟩ := List.mem_map.mp hl
    obtain ⟨f, hf, rfl⟩ := List.mem_map.mp hc
    exact namedDets_shaped names f.seen d hd)).1 w' acts ht).1
  rw [List.length_map] at hl
  rw [C134_nas_partial hL names dr hpal hstr g (fun f hf b hbm => by
    obtain ⟨n, hn, -⟩ := hb f hf b hbm
    exact (List.getElem?_eq_some_iff.mp hn).1), ht]
  exact ⟨_, _, rfl, by simp [hl]⟩

end

/-- **C134** (partial: see `C134_false_boxes`) The trackers of these demos can be made, unless SAHI's `--initialization-delay` is
not from 0 to `--hit-counter-max` - 1. They meet what the theorems above ask of a tracker. -/
theorem C134_trackers_partial {flt : FilterOps ℝ F} (str : L → String)
    (cdist : String → List (List ℝ) → List (List ℝ) → Option (Mat (Option (WithTop ℝ)))) (thr : ℝ) :
    (∃ cfg : Cfg ℝ L (WithTop ℝ) F X, mkTracker str cdist (boxArgs flt thr) = some cfg) ∧
    (∀ hits delay : Int, (∃ cfg : Cfg ℝ L (WithTop ℝ) F X, mkTracker str cdist (boxArgs flt thr hits (some delay)) = some cfg) ↔
      0 ≤ delay ∧ delay < hits) ∧
    ∀ hits delay, ∀ cfg : Cfg ℝ L (WithTop ℝ) F X, mkTracker str cdist (boxArgs flt thr hits delay) = some cfg →
      cfg.flt = flt ∧ cfg.dist = iouDistFn str ∧ cfg.reid = none ∧ cfg.thr = (thr : WithTop ℝ) ∧ cfg.thr ≤ cfg.fill := by
  refine ⟨⟨_, rfl⟩, fun hits delay => ?_, fun hits delay cfg h => ?_⟩
  · rw [C27_valid_iff]
    constructor
    · exact fun h => h.2.2 delay rfl
    · rintro h
      exact ⟨⟨.iou, by simp [documented]⟩, by norm_num [boxArgs], fun d e => by cases e; exact h⟩
  · have hd : cfg.dist = iouDistFn str ∧ cfg.flt = flt ∧ cfg.reid = none ∧ cfg.thr = (thr : WithTop ℝ) ∧
        cfg.fill = (thr : WithTop ℝ) + 1 := by
      unfold mkTracker at h
      split at h
      · cases h
      · rename_i dist hdist
        split at h
        · split at h
          · cases h
          · cases Option.some.inj h
            exact ⟨(Option.some.inj hdist).symm, rfl, rfl, rfl, rfl⟩
        · cases h
    obtain ⟨h1, h2, h3, h4, h5⟩ := hd
    refine ⟨h2, h1, h3, h4, ?_⟩
    rw [h4, h5]
    exact WithTop.coe_le_coe.mpr (by norm_num)

/-! ### Witnesses and examples -/

/-- the tracker of these demos -/
def overlapCfg (L : Type) (str : L → String) : Cfg ℚ L (WithTop ℚ) (OKF ℚ) Unit where
  dist := iouDistFn str
  thr := ((7 / 10 : ℚ) : WithTop ℚ)
  fill := ((17 / 10 : ℚ) : WithTop ℚ)
  hitCounterMax := 15
  initDelay := 7
  pwMax := 4
  detThr := 0
  flt := okfOps okfDefaults
  pastLen := 4
  reid := none
  reidThr := 0
  reidFill := 1
  reidMax := none

/-- someone walks behind an edge: the box gets narrower, then nothing is seen, then there is a new box elsewhere -/
def shrinkBoxes : List (List (YoloBox ℚ)) :=
  [[yoloBox 0 0 10 10], [yoloBox 0 0 6 10], [yoloBox 0 0 3 10], [yoloBox 0 0 (3 / 2) 10], [], [],
    [yoloBox 100 100 (100 + 20008 / 16761) 110]]

/-- **C134** (false) With boxes the demos need not reach the end of the video: the width of the estimate of an object not seen can
become negative, then the area of the union with a proper box can be 0, the distance is not a number and the tracker raises. -/
theorem C134_false_boxes : (∀ l ∈ shrinkBoxes, ∀ b ∈ l, b.x1 < b.x2 ∧ b.y1 < b.y2) ∧
    yolo7Run "bbox".toList (overlapCfg ℤ toString) (midDraw ℤ) 0 (shrinkBoxes.map seenFrame) = none ∧
    nasRun ["person".toList] "bbox".toList (overlapCfg Str fun s => String.ofList s) (midDraw Str) 0
      (shrinkBoxes.map seenFrame) = none ∧
    sahiRun (overlapCfg ℤ toString) (midDraw ℤ) 1 0 (shrinkBoxes.map fun l => seenFrame (l.map fun b => (b, 0))) = none := by
  refine ⟨by decide +kernel, ?_, ?_, ?_⟩
  all_goals
    rw [← Option.isNone_iff_eq_none]
    decide +kernel

/-- a box is seen once, and then it is gone -/
def goneFrames : List (SeenFrame (List (YoloBox ℚ × ℤ))) :=
  [seenFrame [(yoloBox 40 40 60 60, 0)], seenFrame [], seenFrame [], seenFrame []]

/-- **C134** (false) The detections shown by the SAHI demo need not be those of the frame: a box is seen only in the first frame,
and every third frame is looked at. In the second and third frame there is nothing, and the box is drawn. -/
theorem C134_false_stale :
    goneFrames[1]?.map (·.seen) = some [] ∧ goneFrames[2]?.map (·.seen) = some [] ∧
    (sahiRun (overlapCfg ℤ toString) (midDraw ℤ) 3 0 goneFrames).map (fun r => r.2.map fun p => (p (40, 40) 1, p (60, 60) 1)) =
      some [(7, 7), (7, 7), (7, 7), (9, 9)] := by
  refine ⟨rfl, rfl, ?_⟩
  decide +kernel

/-- the hypotheses of `C134_yolo7_partial`, `C134_nas_partial` and `C134_sahi_partial` -/
example : (midDraw L).env.palette.colors ≠ [] ∧ (∀ h, (midDraw L).env.str h ≠ []) ∧
    (∀ b ∈ [yoloBox 40 40 60 60], (truncInt b.cls).toNat < ["person".toList].length) ∧
    ∃ Ok : OKF ℚ → Prop, FilterLaws (overlapCfg L str).flt Ok :=
  ⟨List.cons_ne_nil _ _, by simp [midDraw, toyEnv], by decide +kernel, _, okf_laws okfDefaults⟩

/-- the box of the detection, and from the eighth frame on the box of the object over it -/
example : (yolo7Run "bbox".toList (overlapCfg ℤ toString) (midDraw ℤ) 0
      (List.replicate 9 (seenFrame [yoloBox 40 40 60 60]))).map (fun r => r.2.map fun p => (p (40, 40) 1, p (60, 60) 1)) =
        some (List.replicate 7 (7, 7) ++ List.replicate 2 (1, 1)) := by
  decide +kernel

example : (nasRun ["person".toList] "bbox".toList (overlapCfg Str fun s => String.ofList s) (midDraw Str) 0
      (List.replicate 9 (seenFrame [yoloBox 40 40 60 60]))).map (fun r => r.2.map fun p => (p (40, 40) 1, p (60, 60) 1)) =
        some (List.replicate 7 (7, 7) ++ List.replicate 2 (1, 1)) := by
  decide +kernel

/-- the same video with centers -/
example : "centroid".toList ≠ "bbox".toList ∧ (nasRun ["person".toList] "centroid".toList (midCfg Str Unit 30 0) (midDraw Str) 0
      (List.replicate 9 (seenFrame [yoloBox 40 40 60 60]))).map (fun r => r.2.map fun p => (p (50, 50) 1, p (60, 60) 1)) =
        some (List.replicate 9 (9, 9)) := by
  refine ⟨by decide, ?_⟩
  decide +kernel

/-- SAHI, every second frame is looked at -/
example : (sahiRun (overlapCfg ℤ toString) (midDraw ℤ) 2 0
      (List.replicate 9 (seenFrame [(yoloBox 40 40 60 60, 0)]))).map (fun r => r.2.map fun p => (p (40, 40) 1, p (60, 60) 1)) =
        some (List.replicate 6 (7, 7) ++ List.replicate 3 (1, 1)) := by
  decide +kernel

/-- the hypotheses of `C134_sized_partial`: boxes of 20 x 20 pixels -/
example : ∃ w' pics, sahiRun (overlapCfg ℤ toString) (midDraw ℤ) 2 0
    [seenFrame [(yoloBox 40 40 60 60, 0), (yoloBox 10 10 30 30, 1)], seenFrame [], seenFrame [(yoloBox 41 40 61 60, 0)]] =
      some (w', pics) ∧ pics.length = 3 :=
  (C134_sized_partial (cfg := overlapCfg ℤ toString) (okfDrift_laws okfDefaults_valid)
    (fun q => okf_relations okfDefaults (fun f => OKFValid okfDefaults.R f ∧ f.q = okfDefaults.Q) q.1 q.2) rfl
    (size := fun _ => (20, 20)) (fun _ => ⟨by norm_num, by norm_num⟩) (fun _ _ _ => rfl) rfl (by decide +kernel) (midDraw ℤ)
    (List.cons_ne_nil _ _) 0).2 2 _ (by decide) (by decide +kernel)

/-- the hypotheses of `C134_nas_sized_partial`: boxes of 20 x 20 pixels -/
example : ∃ w' pics, nasRun ["person".toList] "bbox".toList (overlapCfg Str fun s => String.ofList s) (midDraw Str) 0
    [seenFrame [yoloBox 40 40 60 60, yoloBox 10 10 30 30], seenFrame [], seenFrame [yoloBox 41 40 61 60]] =
      some (w', pics) ∧ pics.length = 3 :=
  C134_nas_sized_partial (cfg := overlapCfg Str fun s => String.ofList s) (okfDrift_laws okfDefaults_valid)
    (fun q => okf_relations okfDefaults (fun f => OKFValid okfDefaults.R f ∧ f.q = okfDefaults.Q) q.1 q.2) rfl
    (size := fun _ => (20, 20)) (fun _ => ⟨by norm_num, by norm_num⟩) (fun _ _ _ => rfl) rfl (by decide +kernel) (midDraw Str)
    (List.cons_ne_nil _ _) (by simp [midDraw, toyEnv]) _ 0 (fun f hf b hb => ⟨"person".toList, by
      have h : (∀ f ∈ [seenFrame [yoloBox 40 40 60 60, yoloBox 10 10 30 30], seenFrame [],
        seenFrame [yoloBox 41 40 61 60]], ∀ b ∈ f.seen, ["person".toList][(truncInt b.cls).toNat]? = some "person".toList ∧
          b.x2 - b.x1 = 20 ∧ b.y2 - b.y1 = 20) := by decide +kernel
      exact h f hf b hb⟩)

/-- SAHI: a delay of 5 with at most 10 hits, and one of 10 -/
example : (∃ cfg : Cfg ℝ ℤ (WithTop ℝ) (OKF ℝ) Unit,
      mkTracker toString (fun _ _ _ => none) (boxArgs (okfOps realOkf) (7 / 10) 10 (some 5)) = some cfg) ∧
    ¬ ∃ cfg : Cfg ℝ ℤ (WithTop ℝ) (OKF ℝ) Unit,
      mkTracker toString (fun _ _ _ => none) (boxArgs (okfOps realOkf) (7 / 10) 10 (some 10)) = some cfg := by
  have h := (C134_trackers_partial (X := Unit) (flt := okfOps realOkf) (toString : ℤ → String) (fun _ _ _ => none) (7 / 10)).2.1
  exact ⟨(h 10 5).mpr (by norm_num), fun hc => absurd ((h 10 10).mp hc) (by norm_num)⟩

end Norfair.Props
