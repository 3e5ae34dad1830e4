import Verif.Spec.YoloDemo
import Verif.Props.MotVideo
import Verif.Props.Convert
import Verif.Props.Relations
import Verif.Props.DistanceNames
import Verif.Props.Film
import Verif.Props.Fading

/-! C129: the loop of the YOLOv5 demo. -/

set_option linter.unusedSectionVars false

namespace Norfair.Props

open Norfair Norfair.Spec

variable {K D F H : Type}

section
variable [Field K] [LinearOrder K] [FloorRing K]

/-! ### The detections -/

theorem mapM_some_map {α β : Type} {f : α → Option β} {g : α → β} :
    ∀ {l : List α}, (∀ a ∈ l, f a = some (g a)) → l.mapM f = some (l.map g)
  | [], _ => rfl
  | a :: l, h => by
    rw [List.mapM_cons, h a List.mem_cons_self, mapM_some_map fun c hc => h c (List.mem_cons_of_mem _ hc)]
    rfl

theorem mapM_bind_map {α β γ : Type} {f : α → Option β} {g : β → Option γ} {h : α → γ} {l : List α}
    (hf : ∀ a ∈ l, ∃ b, f a = some b ∧ g b = some (h a)) :
    (l.mapM f).bind (fun bs => bs.mapM g) = some (l.map h) := by
  obtain ⟨bs, e, hr⟩ := mapM_forall₂ hf
  rw [e]
  simp only [Option.bind_some]
  clear e hf
  induction hr with
  | nil => rfl
  | cons h1 _ ih => rw [List.mapM_cons, h1, ih]; rfl

theorem convert_centers (frames : List (NetFrame K)) :
    (frames.mapM fun f => (yoloConvert "centroid".toList f.boxes).bind fun ds => ds.mapM RawDet.toDet) =
      some (frames.map fun f => f.boxes.map centerDet) := by
  refine mapM_some_map fun f _ => ?_
  unfold yoloConvert
  rw [if_pos rfl]
  exact mapM_bind_map fun b _ => ⟨_, rfl, rfl⟩

theorem convert_corners (frames : List (NetFrame K)) :
    (frames.mapM fun f => (yoloConvert "bbox".toList f.boxes).bind fun ds => ds.mapM RawDet.toDet) =
      some (frames.map fun f => f.boxes.map cornerDet) := by
  refine mapM_some_map fun f _ => ?_
  unfold yoloConvert
  rw [if_neg (by decide), if_pos rfl]
  exact mapM_bind_map fun b _ => ⟨_, rfl, rfl⟩

/-! ### The loop -/

variable [LinearOrder D] [OrderTop D] [Zero D]

theorem yoloLoop_track (cfg : Cfg K ℤ D F Unit) (dr : EvalDraw K ℤ H) (track : Str)
    (P : NetFrame K → List (Obj K ℤ D F) → Pic) (refs : List (List Ref)) :
    ∀ (frames : List (NetFrame K)) (w : World K ℤ D F Unit), frames.length = refs.length →
    (∀ w' acts, trackAll cfg w (refs.map fun l => (l, none)) = some (w', acts) → ∀ f, ∀ act ∈ acts,
      yoloPicture dr cfg.flt track f act = some (P f act)) →
    yoloLoop cfg dr track w (frames.zip refs) = (trackAll cfg w (refs.map fun l => (l, none))).map fun r =>
      (r.1, (frames.zip r.2).map fun x => P x.1 x.2) := by
  induction refs with
  | nil =>
    intro frames w hl _
    rw [List.length_nil, List.length_eq_zero_iff] at hl
    subst hl
    rfl
  | cons c cs ih =>
    intro frames w hl hp
    match frames, hl with
    | f :: frames, hl =>
      rw [List.zip_cons_cons, yoloLoop]
      rw [List.map_cons, trackAll] at hp ⊢
      simp only at hp ⊢
      rcases hu : update cfg w (some c) 1 none with ⟨w1, out⟩
      rw [hu] at hp
      cases out with
      | error e => rfl
      | ok act =>
        simp only at hp ⊢
        have hlen : frames.length = cs.length := by simpa using hl
        rcases ht : trackAll cfg w1 (cs.map fun l => (l, none)) with _ | ⟨w', acts⟩
        · have := ih frames w1 hlen (fun w' acts h => by rw [ht] at h; cases h)
          rw [this, ht]
          rcases yoloPicture dr cfg.flt track f act with _ | p <;> rfl
        · rw [ht] at hp
          have hp := hp w' (act :: acts) rfl
          have := ih frames w1 hlen (fun w'' acts' h f a ha => by
            rw [ht] at h
            cases h
            exact hp f a (List.mem_cons_of_mem _ ha))
          rw [this, ht, hp f act List.mem_cons_self]
          rfl

/-- a detection of this shape -/
def DetShaped {L X : Type} (s : Nat × Nat) (d : Det K L X) : Prop :=
  HasShape s d.points ∧ HasShape s d.absPoints ∧ ∀ x, d.scores = some x → x.length = s.1

theorem listHeap_shaped {s : Nat × Nat} {dets : List (List (Det K ℤ Unit))} (hd : ∀ l ∈ dets, ∀ d ∈ l, DetShaped s d) :
    ∀ r, r < dets.flatten.length → DetShaped s (listHeap dets.flatten r) := by
  intro r hr
  have : listHeap dets.flatten r = dets.flatten[r] := by
    rw [listHeap, List.getD_eq_getElem?_getD, List.getElem?_eq_getElem hr]
    rfl
  rw [this]
  obtain ⟨l, hl, hm⟩ := List.mem_flatten.mp (List.getElem_mem hr)
  exact hd l hl _ hm

/-- the objects of the frames: their shape, and their ids -/
theorem framesTrack_shape {cfg : Cfg K ℤ D F Unit} {Ok : F → Prop} (hL : FilterLaws cfg.flt Ok) (g : Nat) {s : Nat × Nat}
    {dets : List (List (Det K ℤ Unit))} (hd : ∀ l ∈ dets, ∀ d ∈ l, DetShaped s d) :
    (∀ w' acts, framesTrack cfg g dets = some (w', acts) → acts.length = dets.length ∧
      (∃ fs, Trace cfg ⟨listHeap dets.flatten, g, 0, 0, []⟩ fs w' ∧ fs.map (·.out) = acts.map .ok) ∧
      ∀ act ∈ acts, ∀ o ∈ act, HasShape s (o.estimate cfg.flt) ∧ o.pointHits.length = s.1 ∧ ∃ i, o.id = some i) ∧
    (ShapedDist cfg.flt (fun _ => s) cfg.dist → cfg.reid = none → cfg.thr ≤ cfg.fill →
      ∃ r, framesTrack cfg g dets = some r) := by
  have h0 : (⟨listHeap dets.flatten, g, 0, 0, []⟩ : World K ℤ D F Unit).Initial := ⟨rfl, rfl, rfl⟩
  have h := trackAll_induct (cfg := cfg)
    (P := fun dets _ ct w => CallShaped (fun _ => s) (dets.getD []) ct w.heap) (Q := DetShaped s)
    (R := fun r => r < dets.flatten.length) (fun _ _ h => h) h0
    ((refsFrom 0 dets).map fun l => (l, none)) _
    (fun c hc w hq => by
      obtain ⟨l, hl, rfl⟩ := List.mem_map.mp hc
      have hq : ∀ r ∈ l, DetShaped s (w.heap r) := fun r hr => hq r (by
        have := (refsFrom_get _ 0 l hl r hr).2
        rwa [Nat.zero_add] at this)
      refine ⟨⟨(fun c e => by cases e), fun r hr => ?_⟩, (fun c e => by cases e), fun r hr => (hq r hr).1⟩
      obtain ⟨-, ⟨e1, e2, e3⟩, e4⟩ := hq r hr
      exact ⟨e1, e2, by rw [e3, e1, e2], fun x h => by rw [e4 x h, e1]⟩)
    (fun c hc t e => by
      obtain ⟨l, hl, rfl⟩ := List.mem_map.mp hc
      cases e) (.refl _) (listHeap_shaped hd)
  refine ⟨fun w' acts ht => ?_, fun hD hre hfill => h.2 fun w hw c hc hP => ?_⟩
  · obtain ⟨h1, h2, h3⟩ := h.1 w' acts ht
    refine ⟨by simpa [refsFrom_length] using h1, h2, fun act hact o ho => ?_⟩
    obtain ⟨w1, hw, rfl⟩ := h3 act hact
    obtain ⟨m1, m2, m3⟩ := mem_activeObjects.mp ho
    have hI := (hw.inv (Inv.initial h0)).1
    have hback : BackShaped (fun _ => s) o :=
      Reaches.objInv hw (Inv.initial h0) (fun dets period ct w hc =>
        ⟨_, hc.points, backShaped_inv cfg _ (dets.getD []) period ct hc.keeps⟩) (fun _ _ _ _ _ h => h)
        (by rw [h0.1]; simp) o m1
    have hpts : PointsOk cfg.flt Ok (fun _ => s) o :=
      WfReaches.pointsOk hL (fun _ _ _ => rfl) h0 (hw.mono (fun _ _ h => h) fun _ _ _ _ h => h.ok) o m1
    refine ⟨estimate_hasShape hL hpts hback, hpts.hits.trans hpts.n, ?_⟩
    rw [← Option.ne_none_iff_exists']
    intro e
    rw [(hI.initIff o m1).mpr e] at m2
    cases m2
  · obtain ⟨l, hl, rfl⟩ := List.mem_map.mp hc
    exact C67_shaped hL (fun _ _ _ => rfl) hD hre hfill h0 hw _ _ _ hP (Or.inl rfl)

/-! ### The pictures -/

theorem choose_some {L : Type} (dr : EvalDraw K L H) (hpal : dr.env.palette.colors ≠ []) (h : Option ℤ) :
    dr.env.palette.choose h = some ((dr.env.palette.choose h).getD []) := by
  cases h with
  | none => rfl
  | some h =>
    obtain ⟨c, -, hc⟩ := C52_member_partial dr.env.palette hpal h
    rw [hc]
    rfl

theorem yoloPicture_centers (dr : EvalDraw K ℤ H) (hpal : dr.env.palette.colors ≠ [])
    (hlab : ∀ l, dr.lab l ≠ none) (hstr : ∀ h, dr.env.str h ≠ []) (flt : FilterOps K F) (f : NetFrame K)
    (objs : List (Obj K ℤ D F)) (ho : ∀ o ∈ objs, HasShape (1, 2) (o.estimate flt) ∧ o.pointHits.length = 1 ∧
      ∃ i, o.id = some i) :
    yoloPicture dr flt "centroid".toList f objs = some (withPoints dr flt f objs) := by
  rw [yoloPicture, if_pos rfl]
  unfold drawPoints withPoints
  simp only [Option.getD_some, Option.getD_none, Option.map_map]
  generalize (around (max (((f.shape.foldl max 0 : Nat) : K) * (2 / 1000)) 1) : ℤ) = r
  have key : ∀ (objs : List (Obj K ℤ D F)) (k : Nat) (c : Canvas K),
      (∀ o ∈ objs, HasShape (1, 2) (o.estimate flt) ∧ o.pointHits.length = 1 ∧ ∃ i, o.id = some i) →
      drawPointsLoop dr.env {} (.str "by_id".toList) r (-1) none k (objs.map (Drawable.ofObj flt dr.idOf dr.lab)) c =
      some ((objs.filter fun o => o.pointHits.any fun c => decide (0 < c)).foldl (fun (c : Canvas K) o =>
        (c.circle [truncInt ((o.estimate flt).data.getD 0 0), truncInt ((o.estimate flt).data.getD 1 0)] r (-1)
          (idColor dr o)).text (labelText dr o ++ '-' :: idText dr o)
          (some [truncInt ((o.estimate flt).data.getD 0 0 - (r : K)), truncInt ((o.estimate flt).data.getD 1 0 - (r : K))])
          (idColor dr o) none none) c) := by
    intro objs
    induction objs with
    | nil => intro k c _; rfl
    | cons o os ih =>
      intro k c ho
      obtain ⟨hs, hh, i, hi⟩ := ho o List.mem_cons_self
      have ih := fun k c => ih k c fun o ho' => ho o (List.mem_cons_of_mem _ ho')
      obtain ⟨p, hp⟩ : ∃ p, o.pointHits = [p] := by
        match o.pointHits, hh with
        | [p], _ => exact ⟨p, rfl⟩
      obtain ⟨x, y, e1, e2⟩ : ∃ x y, (o.estimate flt).data = [x, y] ∧ (o.estimate flt).rows = [[x, y]] := by
        obtain ⟨a1, a2, a3⟩ := hs
        match hd : (o.estimate flt).data, a3 with
        | [a, b], _ => exact ⟨a, b, rfl, by simp [Pts.rows, hd, a1, a2, List.range_succ]⟩
      rw [List.map_cons, drawPointsLoop, List.filter_cons]
      by_cases hpos : 0 < p
      · have hl : (o.pointHits.any fun c => decide (0 < c)) = true := by simp [hp, hpos]
        have hl' : (Drawable.ofObj flt dr.idOf dr.lab o).live = [true] := by
          simp [Drawable.ofObj, Obj.livePoints, hp, hpos]
        rw [if_pos hl, if_neg (by rw [hl']; simp)]
        have hc : objColor dr.env (.str "by_id".toList) (Drawable.ofObj flt dr.idOf dr.lab o) k = some (idColor dr o) := by
          rw [objColor, if_pos rfl]
          show dr.env.palette.choose ((o.id.map dr.idOf).map dr.env.hash) = _
          rw [Option.map_map]
          exact choose_some dr hpal _
        obtain ⟨l, hl2⟩ := Option.ne_none_iff_exists'.mp (hlab o.label)
        have htext : buildText dr.env.str dr.env.fmt (Drawable.ofObj flt dr.idOf dr.lab o) true true false =
            labelText dr o ++ '-' :: idText dr o := by
          have : 0 < (dr.env.str l).length := List.length_pos_iff.mpr (hstr l)
          simp [buildText, Drawable.ofObj, hi, hl2, labelText, idText, this]
        have hpt : (Drawable.ofObj flt dr.idOf dr.lab o).points = [[x, y]] := e2
        simp only [hc, htext, hl', hpt, ih, List.foldl_cons, e1]
        simp [drawCircles, maskRows, meanRows, List.range_succ]
      · have hl : ¬ (o.pointHits.any fun c => decide (0 < c)) = true := by simp [hp, not_lt.mp hpos]
        have hl' : (Drawable.ofObj flt dr.idOf dr.lab o).live = [false] := by
          simp [Drawable.ofObj, Obj.livePoints, hp, not_lt.mp hpos]
        rw [if_neg hl, if_pos (by rw [hl']; rfl)]
        exact ih k c
  rw [key objs 0 .base ho]
  rfl

theorem yoloPicture_boxes (dr : EvalDraw K ℤ H) (hpal : dr.env.palette.colors ≠ []) (hstr : ∀ h, dr.env.str h ≠ [])
    (flt : FilterOps K F) (f : NetFrame K) (objs : List (Obj K ℤ D F))
    (ho : ∀ o ∈ objs, HasShape (2, 2) (o.estimate flt) ∧ ∃ i, o.id = some i) :
    yoloPicture dr flt "bbox".toList f objs = some (withBoxes dr flt f objs) := by
  rw [yoloPicture, if_neg (by decide), if_pos rfl]
  unfold drawBoxes withBoxes
  simp only [Option.getD_some, Option.getD_none]
  generalize (truncInt (((f.shape.foldl max 0 : Nat) : K) / 500) : ℤ) = t
  have key : ∀ (objs : List (Obj K ℤ D F)) (k : Nat) (c : Canvas K),
      (∀ o ∈ objs, HasShape (2, 2) (o.estimate flt) ∧ ∃ i, o.id = some i) →
      drawBoxesLoop dr.env {} (.str "by_id".toList) t none k (objs.map (Drawable.ofObj flt dr.idOf dr.lab)) c =
      some (objs.foldl (fun (c : Canvas K) o =>
        (c.rectangle [truncInt ((o.estimate flt).data.getD 0 0), truncInt ((o.estimate flt).data.getD 1 0)]
          [truncInt ((o.estimate flt).data.getD 2 0), truncInt ((o.estimate flt).data.getD 3 0)] t (idColor dr o)).text
          (idText dr o) (some [truncInt ((o.estimate flt).data.getD 0 0) - t / 2,
            truncInt ((o.estimate flt).data.getD 1 0) - t / 2 - 1]) (idColor dr o) none none) c) := by
    intro objs
    induction objs with
    | nil => intro k c _; rfl
    | cons o os ih =>
      intro k c ho
      obtain ⟨hs, i, hi⟩ := ho o List.mem_cons_self
      have ih := fun k c => ih k c fun o ho' => ho o (List.mem_cons_of_mem _ ho')
      obtain ⟨x0, y0, x1, y1, e1, e2⟩ := Pts.rows_box hs
      have hc : objColor dr.env (.str "by_id".toList) (Drawable.ofObj flt dr.idOf dr.lab o) k = some (idColor dr o) := by
        rw [objColor, if_pos rfl]
        show dr.env.palette.choose ((o.id.map dr.idOf).map dr.env.hash) = _
        rw [Option.map_map]
        exact choose_some dr hpal _
      have htext : buildText dr.env.str dr.env.fmt (Drawable.ofObj flt dr.idOf dr.lab o) false true false =
          idText dr o := by
        simp [buildText, Drawable.ofObj, hi, idText]
      have hne : idText dr o ≠ [] := by
        simp only [idText, hi, Option.elim_some]
        exact hstr _
      have hpt : (Drawable.ofObj flt dr.idOf dr.lab o).points = [[x0, y0], [x1, y1]] := e2
      rw [List.map_cons, drawBoxesLoop]
      simp only [hc, htext, hpt, List.map_cons, List.map_nil, if_true, if_neg hne, Option.or_none, Option.getD_none]
      rw [ih]
      simp [e1]
  rw [key objs 0 .base ho]
  rfl

theorem center_shaped (b : YoloBox K) : DetShaped (1, 2) (centerDet b) :=
  ⟨⟨rfl, rfl, rfl⟩, ⟨rfl, rfl, rfl⟩, fun x h => by cases h; rfl⟩

theorem corner_shaped (b : YoloBox K) : DetShaped (2, 2) (cornerDet b) :=
  ⟨⟨rfl, rfl, rfl⟩, ⟨rfl, rfl, rfl⟩, fun x h => by cases h; rfl⟩

/-! ### The claims -/

/-- **C129** (`--track-points centroid`; partial: only objects with a live point are drawn, see `C129_false_hidden`) A video is
processed exactly as a new tracker processes the centers of the boxes of the network. Every frame is written, in order, with
a disc and a text for each object with a live point that the tracker returned for this frame; the whole raises only if a call
of the tracker raises. -/
theorem C129_centers_partial {cfg : Cfg K ℤ D F Unit} {Ok : F → Prop} (hL : FilterLaws cfg.flt Ok) (dr : EvalDraw K ℤ H)
    (hpal : dr.env.palette.colors ≠ []) (hlab : ∀ l, dr.lab l ≠ none) (hstr : ∀ h, dr.env.str h ≠ []) (g : Nat)
    (frames : List (NetFrame K)) :
    yoloRun cfg dr "centroid".toList g frames =
      (framesTrack cfg g (frames.map fun f => f.boxes.map centerDet)).map fun r =>
        (r.1, (frames.zip r.2).map fun x => withPoints dr cfg.flt x.1 x.2) := by
  rw [yoloRun, convert_centers, Option.bind_some]
  refine yoloLoop_track cfg dr _ _ _ frames _ (by simp [refsFrom_length]) fun w' acts h f act hact => ?_
  exact yoloPicture_centers dr hpal hlab hstr cfg.flt f act fun o ho =>
    ((framesTrack_shape hL g (by simp [center_shaped])).1 w' acts h).2.2 act hact o ho

/-- **C129** (`--track-points bbox`; partial: the tracker may raise, see `C129_false_boxes`) A video is processed exactly as a
new tracker processes the boxes of the network. Every frame is written, in order, with a rectangle and the id for each object
that the tracker returned for this frame; the whole raises only if a call of the tracker raises. -/
theorem C129_boxes_partial {cfg : Cfg K ℤ D F Unit} {Ok : F → Prop} (hL : FilterLaws cfg.flt Ok) (dr : EvalDraw K ℤ H)
    (hpal : dr.env.palette.colors ≠ []) (hstr : ∀ h, dr.env.str h ≠ []) (g : Nat) (frames : List (NetFrame K)) :
    yoloRun cfg dr "bbox".toList g frames =
      (framesTrack cfg g (frames.map fun f => f.boxes.map cornerDet)).map fun r =>
        (r.1, (frames.zip r.2).map fun x => withBoxes dr cfg.flt x.1 x.2) := by
  rw [yoloRun, convert_corners, Option.bind_some]
  refine yoloLoop_track cfg dr _ _ _ frames _ (by simp [refsFrom_length]) fun w' acts h f act hact => ?_
  refine yoloPicture_boxes dr hpal hstr cfg.flt f act fun o ho => ?_
  obtain ⟨h1, -, h2⟩ := ((framesTrack_shape (s := (2, 2)) hL g (by simp [corner_shaped])).1 w' acts h).2.2 act hact o ho
  exact ⟨h1, h2⟩

/-- **C129** With centers the whole video is processed: no call raises, and as many frames are written as were read. -/
theorem C129_to_the_end {cfg : Cfg K ℤ D F Unit} {Ok : F → Prop} (hL : FilterLaws cfg.flt Ok)
    (hD : ShapedDist cfg.flt (fun _ => (1, 2)) cfg.dist) (hre : cfg.reid = none) (hfill : cfg.thr ≤ cfg.fill)
    (dr : EvalDraw K ℤ H) (hpal : dr.env.palette.colors ≠ []) (hlab : ∀ l, dr.lab l ≠ none)
    (hstr : ∀ h, dr.env.str h ≠ []) (g : Nat) (frames : List (NetFrame K)) :
    ∃ w' pics, yoloRun cfg dr "centroid".toList g frames = some (w', pics) ∧ pics.length = frames.length := by
  have h := framesTrack_shape (cfg := cfg) hL g (s := (1, 2)) (dets := frames.map fun f => f.boxes.map centerDet)
    (by simp [center_shaped])
  obtain ⟨⟨w', acts⟩, ht⟩ := h.2 hD hre hfill
  rw [C129_centers_partial hL dr hpal hlab hstr, ht]
  refine ⟨_, _, rfl, ?_⟩
  have := (h.1 w' acts ht).1
  simp only [List.length_map] at this
  simp [this]

end

/-- **C129** With boxes the whole video is processed, too, if the boxes of a class all have the same size. -/
theorem C129_sized_partial [Field K] [LinearOrder K] [IsStrictOrderedRing K] [FloorRing K] {cfg : Cfg K ℤ (WithTop K) F Unit} {Ok : F → Prop}
    (hL : FilterLaws cfg.flt Ok) {Rel : List K × K → F → Prop} (hR : ∀ q, RelationLaws cfg.flt Ok q.1 q.2 (Rel q))
    {str : ℤ → String} (hdist : cfg.dist = iouDistFn str) {size : ℤ → K × K}
    (hpos : ∀ l, 0 < (size l).1 ∧ 0 < (size l).2) (hs : ∀ a b, Compat cfg a b → size a = size b)
    (hre : cfg.reid = none) (hfill : cfg.thr ≤ cfg.fill) (dr : EvalDraw K ℤ H) (hpal : dr.env.palette.colors ≠ [])
    (hstr : ∀ h, dr.env.str h ≠ []) (g : Nat) {frames : List (NetFrame K)}
    (hb : ∀ f ∈ frames, ∀ b ∈ f.boxes, b.x2 - b.x1 = (size (truncInt b.cls)).1 ∧ b.y2 - b.y1 = (size (truncInt b.cls)).2) :
    ∃ w' pics, yoloRun cfg dr "bbox".toList g frames = some (w', pics) ∧ pics.length = frames.length := by
  have h := framesTrack_shape (cfg := cfg) hL g (s := (2, 2)) (dets := frames.map fun f => f.boxes.map cornerDet)
    (by simp [corner_shaped])
  obtain ⟨⟨w', acts⟩, ht⟩ : ∃ r, framesTrack cfg g (frames.map fun f => f.boxes.map cornerDet) = some r := by
    let dets := frames.map fun f => f.boxes.map cornerDet
    have h0 : (⟨listHeap dets.flatten, g, 0, 0, []⟩ : World K ℤ (WithTop K) F Unit).Initial := ⟨rfl, rfl, rfl⟩
    let Q : Det K ℤ Unit → Prop := fun d => IsCopy (sizedBox (size d.label)) d.points ∧ d.absPoints = d.points ∧
      ∃ a, d.scores = some [a, a]
    have hcall : ∀ (c : List Ref) (w : World K ℤ (WithTop K) F Unit), (∀ r ∈ c, Q (w.heap r)) →
        CallCopies (fun l => sizedBox (size l)) cfg.detThr c none w.heap := by
      intro c w hq
      refine ⟨fun r hr => ?_, fun r hr x hx => ?_, (fun c e => by cases e), (fun c e => by cases e)⟩
      · rw [(hq r hr).2.1]
        exact (hq r hr).1
      · obtain ⟨a, e⟩ := (hq r hr).2.2
        rw [e] at hx
        cases hx
        refine ⟨rfl, ?_⟩
        by_cases ha : cfg.detThr < a
        · left; simpa using ha
        · right; simpa using ha
    refine (trackAll_induct (cfg := cfg) (P := fun dets _ ct w => ct = none ∧ ∀ r ∈ dets.getD [], Q (w.heap r)) (Q := Q)
      (R := fun r => r < dets.flatten.length) (fun _ _ h => h) h0 ((refsFrom 0 dets).map fun l => (l, none)) _
      (fun c hc w hq => ?_) (fun c hc t e => ?_) (.refl _) (fun r hr => ?_)).2 fun w hw c hc hP => ?_
    · obtain ⟨l, hl, rfl⟩ := List.mem_map.mp hc
      exact ⟨rfl, fun r hr => hq r (by
        have := (refsFrom_get _ 0 l hl r hr).2
        rwa [Nat.zero_add] at this)⟩
    · obtain ⟨l, hl, rfl⟩ := List.mem_map.mp hc
      cases e
    · have : listHeap dets.flatten r = dets.flatten[r] := by
        rw [listHeap, List.getD_eq_getElem?_getD, List.getElem?_eq_getElem hr]
        rfl
      show Q (listHeap dets.flatten r)
      rw [this]
      obtain ⟨l, hl, hm⟩ := List.mem_flatten.mp (List.getElem_mem hr)
      obtain ⟨f, hf, rfl⟩ := List.mem_map.mp hl
      obtain ⟨b, hbm, e⟩ := List.mem_map.mp hm
      rw [← e]
      obtain ⟨e1, e2⟩ := hb f hf b hbm
      refine ⟨⟨⟨rfl, rfl, rfl⟩, fun j => if j = 0 then b.x1 else b.y1, fun i hi j hj => ?_⟩, rfl, b.conf, rfl⟩
      change i < 2 at hi
      change j < 2 at hj
      match i, hi, j, hj with
      | 0, _, 0, _ => simp [sizedBox, cornerDet]
      | 0, _, 1, _ => simp [sizedBox, cornerDet]
      | 1, _, 0, _ => simp [sizedBox, cornerDet, ← e1]
      | 1, _, 1, _ => simp [sizedBox, cornerDet, ← e2]
    · obtain ⟨l, hl, rfl⟩ := List.mem_map.mp hc
      exact C91_constant_size_partial hL hR hdist hpos hs hfill (fun f e => by rw [hre] at e; cases e)
        (fun e => absurd hre e) h0
        (hw.mono (fun _ _ h => h) fun dets _ ct w h => by rw [h.1]; exact hcall _ w h.2) (some l) 1 none
        (hcall l w hP.2) (fun r hr => (hP.2 r hr).1) (Or.inl rfl)
  rw [C129_boxes_partial hL dr hpal hstr, ht]
  refine ⟨_, _, rfl, ?_⟩
  have := (h.1 w' acts ht).1
  simp only [List.length_map] at this
  simp [this]

/-- **C129** The tracker of the demo, with centers: it can be made, and if scipy's `cdist` gives a number for each pair of
points, every video is processed to its end. -/
theorem C129_demo {flt : FilterOps ℝ F} {Ok : F → Prop} (hL : FilterLaws flt Ok) (str : ℤ → String)
    {cdist : String → List (List ℝ) → List (List ℝ) → Option (Mat (Option (WithTop ℝ)))}
    (hc : ∀ n cs os, cs ≠ [] → os ≠ [] → (∀ c ∈ cs, c.length = n) → (∀ b ∈ os, b.length = n) →
      ∃ M, cdist "euclidean" cs os = some M ∧ ∀ i < cs.length, ∀ j < os.length, ∃ x, M.val i j = some x)
    (dr : EvalDraw ℝ ℤ H) (hpal : dr.env.palette.colors ≠ []) (hlab : ∀ l, dr.lab l ≠ none)
    (hstr : ∀ h, dr.env.str h ≠ []) :
    ∃ cfg, mkTracker str cdist (yoloArgs flt "centroid".toList) = some cfg ∧ ∀ g frames,
      ∃ w' pics, yoloRun cfg dr "centroid".toList g frames = some (w', pics) ∧ pics.length = frames.length := by
  refine ⟨_, rfl, fun g frames => ?_⟩
  refine C129_to_the_end (Ok := Ok) hL ?_ rfl ?_ dr hpal hlab hstr g frames
  · exact C67_scipy flt (fun _ => (1, 2)) str (fun _ _ _ => rfl) hc
  · show ((30 : ℝ) : WithTop ℝ) ≤ ((30 : ℝ) : WithTop ℝ) + 1
    exact WithTop.coe_le_coe.mpr (by norm_num)

/-! ### Witnesses and examples -/

/-- the default tracker with this distance and threshold -/
def yoloCfg (dist : DistFn ℚ ℤ (WithTop ℚ) (OKF ℚ) Unit) (thr : ℚ) : Cfg ℚ ℤ (WithTop ℚ) (OKF ℚ) Unit where
  dist := dist
  thr := (thr : WithTop ℚ)
  fill := ((thr + 1 : ℚ) : WithTop ℚ)
  hitCounterMax := 15
  initDelay := 7
  pwMax := 4
  detThr := 0
  flt := okfOps okfDefaults
  pastLen := 4
  reid := none
  reidThr := 0
  reidFill := 1
  reidMax := none

/-- the tracker of the demo for boxes -/
def yoloIou : Cfg ℚ ℤ (WithTop ℚ) (OKF ℚ) Unit := yoloCfg (iouDistFn toString) (7 / 10)

/-- the tracker of the demo for centers; on a line this distance is the euclidean one -/
def yoloLine : Cfg ℚ ℤ (WithTop ℚ) (OKF ℚ) Unit := yoloCfg (ofPoints (okfOps okfDefaults) cityBlock) 30

/-- a box of class 0 -/
def yoloBox (a b c d : ℚ) : YoloBox ℚ := ⟨a, b, c, d, 1 / 2, 0⟩

/-- how to draw -/
def yoloDraw : EvalDraw ℚ ℤ Nat := ⟨toyEnv, toyRaster, id, fun l => some l.toNat⟩

/-- a gray frame of 100 x 200 pixels with these boxes -/
def yoloFrame (l : List (YoloBox ℚ)) : NetFrame ℚ := ⟨[100, 200, 3], fun _ _ => 7, l⟩

/-- someone walks behind an edge: the box gets narrower, then nothing is seen, then there is a new box elsewhere -/
def yoloShrink : List (NetFrame ℚ) :=
  [yoloFrame [yoloBox 0 0 10 10], yoloFrame [yoloBox 0 0 6 10], yoloFrame [yoloBox 0 0 3 10],
    yoloFrame [yoloBox 0 0 (3 / 2) 10], yoloFrame [], yoloFrame [], yoloFrame [yoloBox 100 100 (100 + 20008 / 16761) 110]]

/-- **C129** (false) With boxes the demo need not reach the end of the video: the width of the estimate of an object not seen
can become negative, then the area of the union with a proper box can be 0, the distance is not a number and the tracker
raises. -/
theorem C129_false_boxes :
    (∀ f ∈ yoloShrink, ∀ b ∈ f.boxes, b.x1 < b.x2 ∧ b.y1 < b.y2) ∧
      yoloRun yoloIou yoloDraw "bbox".toList 0 yoloShrink = none := by
  refine ⟨by decide +kernel, ?_⟩
  rw [← Option.isNone_iff_eq_none]
  decide +kernel

/-- someone stands still for 13 frames, then they are not seen in 6 frames -/
def yoloStill : List (NetFrame ℚ) :=
  List.replicate 13 (yoloFrame [yoloBox 40 40 60 60]) ++ List.replicate 6 (yoloFrame [])

/-- **C129** (false) With centers, objects that the tracker returns are not drawn when their point is not live any more: in
frame 16 of this video the tracker returns one object and the frame is written as it was read. -/
theorem C129_false_hidden :
    ∃ w acts pics, framesTrack yoloLine 0 (yoloStill.map fun f => f.boxes.map centerDet) = some (w, acts) ∧
      yoloRun yoloLine yoloDraw "centroid".toList 0 yoloStill = some (w, pics) ∧
      acts[16]?.map List.length = some 1 ∧ pics[16]? = some (yoloFrame []).pic := by
  have h : (framesTrack yoloLine 0 (yoloStill.map fun f => f.boxes.map centerDet)).map (fun r =>
      r.2[16]?.map fun l => (l.length, (l.filter fun (o : Obj ℚ ℤ (WithTop ℚ) (OKF ℚ)) =>
        o.pointHits.any fun c => decide (0 < c)).length)) = some (some (1, 0)) := by
    decide +kernel
  obtain ⟨⟨w, acts⟩, ht, h⟩ := Option.map_eq_some_iff.mp h
  obtain ⟨l, hl, h⟩ := Option.map_eq_some_iff.mp h
  simp only [Prod.mk.injEq, List.length_eq_zero_iff] at h
  refine ⟨w, acts, (yoloStill.zip acts).map fun x => withPoints yoloDraw yoloLine.flt x.1 x.2, ht, ?_, ?_, ?_⟩
  · rw [C129_centers_partial (cfg := yoloLine) (okf_laws okfDefaults) yoloDraw (by decide) (by simp [yoloDraw])
      (by simp [yoloDraw, toyEnv]), ht]
    rfl
  · simp only at hl
    rw [hl]
    exact congrArg some h.1
  · simp only at hl
    have e : (yoloStill.zip acts)[16]? = some (yoloFrame [], l) := by
      rw [List.getElem?_zip_eq_some]
      exact ⟨rfl, hl⟩
    rw [List.getElem?_map, e]
    simp only [Option.map_some, withPoints, h.2]
    rfl

/-- the hypotheses of `C129_centers_partial` and `C129_boxes_partial` -/
example : yoloDraw.env.palette.colors ≠ [] ∧ (∀ l, yoloDraw.lab l ≠ none) ∧ ∀ h, yoloDraw.env.str h ≠ [] :=
  ⟨by decide, by simp [yoloDraw], by simp [yoloDraw, toyEnv]⟩

/-- centers: frames 7 to 15 have a disc and a text -/
example : (yoloRun yoloLine yoloDraw "centroid".toList 0 yoloStill).map
    (fun r => r.2.map fun p => (p (50, 50) 0, p (49, 49) 0)) =
      some (List.replicate 7 (7, 7) ++ List.replicate 9 (255, 255) ++ List.replicate 3 (7, 7)) := by
  decide +kernel


/-- boxes: frames 7 to 18 have a rectangle -/
example : (yoloRun yoloIou yoloDraw "bbox".toList 0 yoloStill).map (fun r => r.2.map fun p => (p (40, 40) 0, p (60, 60) 0)) =
      some (List.replicate 7 (7, 7) ++ List.replicate 12 (1, 1)) := by
  decide +kernel

theorem yoloLine_shaped : ShapedDist yoloLine.flt (fun _ : ℤ => (1, 2)) yoloLine.dist := by
  intro d v _ hp hq
  obtain ⟨x, y, e⟩ := List.length_eq_two.mp hp.2.2
  obtain ⟨x', y', e'⟩ := List.length_eq_two.mp hq.2.2
  have e'' : (v.obj.estimate (okfOps okfDefaults)).data = [x', y'] := e'
  simp only [cityBlock, e, e'']
  exact ⟨_, rfl⟩

/-- the hypotheses of `C129_to_the_end` -/
example : ∃ w' pics, yoloRun yoloLine yoloDraw "centroid".toList 0 yoloStill = some (w', pics) ∧
    pics.length = yoloStill.length :=
  C129_to_the_end (okf_laws okfDefaults) yoloLine_shaped rfl (by decide +kernel) yoloDraw (by decide) (by simp [yoloDraw])
    (by simp [yoloDraw, toyEnv]) 0 yoloStill

/-- the hypotheses of `C129_sized_partial`: boxes of 20 x 20 pixels, the second one elsewhere -/
example : ∃ w' pics, yoloRun yoloIou yoloDraw "bbox".toList 0
      (yoloFrame [yoloBox 30 41 50 61] :: yoloStill) = some (w', pics) ∧
    pics.length = (yoloFrame [yoloBox 30 41 50 61] :: yoloStill).length :=
  C129_sized_partial (cfg := yoloIou) (okfDrift_laws okfDefaults_valid)
    (fun q => okf_relations okfDefaults (fun f => OKFValid okfDefaults.R f ∧ f.q = okfDefaults.Q) q.1 q.2) rfl
    (size := fun _ => (20, 20)) (fun _ => ⟨by norm_num, by norm_num⟩) (fun _ _ _ => rfl) rfl (by decide +kernel) yoloDraw
    (by decide) (by simp [yoloDraw, toyEnv]) 0 (by decide +kernel)

/-- the hypotheses of `C129_demo`: the euclidean distance -/
example : ∃ cdist : String → List (List ℝ) → List (List ℝ) → Option (Mat (Option (WithTop ℝ))),
    cdist "euclidean" [[3, 0]] [[0, 4]] ≠ none ∧
    ∀ n cs os, cs ≠ [] → os ≠ [] → (∀ c ∈ cs, c.length = n) → (∀ b ∈ os, b.length = n) →
      ∃ M, cdist "euclidean" cs os = some M ∧ ∀ i < cs.length, ∀ j < os.length, ∃ x, M.val i j = some x :=
  ⟨fun _ cs os => some ⟨cs.length, os.length, fun i j =>
      some ((Real.sqrt (((cs.getD i []).zipWith (fun a b => (a - b) ^ 2) (os.getD j [])).sum) : ℝ) : WithTop ℝ)⟩,
    by simp, fun _ _ _ _ _ _ _ => ⟨_, rfl, fun _ _ _ _ => ⟨_, rfl⟩⟩⟩

end Norfair.Props
