import Verif.Spec.DetLoop
import Verif.Props.DemoLoop

/-! C133: the loops of the demos that track the centers of boxes. -/

set_option linter.unusedSectionVars false

namespace Norfair.Props

open Norfair Norfair.Spec

variable {K L D F X H A : Type}

/-! ### Loops in which every frame is looked at -/

section
variable [Field K] [LinearOrder K] [IsStrictOrderedRing K] [FloorRing K] [LinearOrder D] [OrderTop D] [Zero D] [DecidableEq L]

theorem zipIdx_map_fst_fun {α β : Type} (φ : α → β) (l : List α) : l.zipIdx.map (fun y => φ y.1) = l.map φ := by
  rw [show (fun y : α × Nat => φ y.1) = φ ∘ Prod.fst from rfl, ← List.map_map, List.zipIdx_map_fst]

theorem zipIdx_zip_map {α β γ : Type} (φ : α → β → γ) (l : List α) (m : List β) :
    (l.zipIdx.zip m).map (fun y => φ y.1.1 y.2) = (l.zip m).map fun x => φ x.1 x.2 := by
  conv_rhs => rw [← List.zipIdx_map_fst 0 l, List.zip_map_left, List.map_map]
  rfl

/-- such a demo does what the tracker does, and writes every frame -/
theorem eachRun_track {cfg : Cfg K L D F X} {Ok : F → Prop} (hL : FilterLaws cfg.flt Ok)
    (shot : SeenFrame A → (Ref → Det K L X) → List Ref → List (Obj K L D F) → Option Pic)
    {conv : Nat → SeenFrame A → Option (List (Det K L X))} (dets : SeenFrame A → List (Det K L X))
    (P : SeenFrame A → List (Obj K L D F) → Pic) (label : L) (extra : X) (g : Nat) (frames : List (SeenFrame A))
    {s : Nat × Nat} (hconv : ∀ i, ∀ f ∈ frames, conv i f = some (dets f))
    (hd : ∀ f ∈ frames, ∀ d ∈ dets f, DetShaped s d)
    (hshot : ∀ f ∈ frames, ∀ heap refs act, Holds heap refs (dets f) → (∀ o ∈ act, HasShape s (o.estimate cfg.flt) ∧
      o.pointHits.length = s.1 ∧ ∃ i, o.id = some i) → shot f heap refs act = some (P f act)) :
    demoRun cfg (eachOps shot) conv label extra () g frames =
      (demoTrack cfg label extra g (frames.map (eachCall dets))).map fun r =>
        (r.1, (frames.zip r.2).map fun x => P x.1 x.2) := by
  have hcalls : frames.zipIdx.map (fun y => eachCall dets y.1) = frames.map (eachCall dets) :=
    zipIdx_map_fst_fun (eachCall dets) frames
  rw [demoRun_track cfg _ (fun _ _ => True) (fun y => eachCall dets y.1) (fun y act => some (P y.1 act)) label extra () g frames
    _ rfl trivial (fun y hy => hconv y.2 y.1 (List.fst_mem_of_mem_zipIdx hy)) (fun y hy refs hh st _ => ⟨trivial, rfl⟩)
    (fun w' acts ht y hy refs hh st _ act hact h' hs => ?_), hcalls]
  · congr 1
    funext r
    rw [show (fun y : (SeenFrame A × Nat) × List (Obj K L D F) => some (P y.1.1 y.2)) =
      some ∘ (fun y : (SeenFrame A × Nat) × List (Obj K L D F) => P y.1.1 y.2) from rfl, List.filterMap_eq_map,
      zipIdx_zip_map P]
  · rw [hcalls] at ht
    have hobj := ((demoTrack_shape hL label extra g (s := s) (fun l hl d hd' => by
      obtain ⟨c, hc, rfl⟩ := List.mem_map.mp hl
      obtain ⟨f, hf, rfl⟩ := List.mem_map.mp hc
      exact hd f hf d hd')).1 w' acts ht).2 act hact
    have := hshot y.1 (List.fst_mem_of_mem_zipIdx hy) h' refs act (hs.holds hh) hobj
    exact congrArg (Option.map some) this

/-- it comes to the end -/
theorem eachRun_ends {cfg : Cfg K L D F X} {Ok : F → Prop} (hL : FilterLaws cfg.flt Ok) {s : Nat × Nat}
    (hD : ShapedDist cfg.flt (fun _ => s) cfg.dist) (hre : cfg.reid = none) (hfill : cfg.thr ≤ cfg.fill)
    (dets : SeenFrame A → List (Det K L X)) (P : SeenFrame A × List (Obj K L D F) → Pic) (label : L) (extra : X) (g : Nat)
    (frames : List (SeenFrame A)) (hd : ∀ f ∈ frames, ∀ d ∈ dets f, DetShaped s d)
    {run : Option (World K L D F X × List Pic)}
    (hrun : run = (demoTrack cfg label extra g (frames.map (eachCall dets))).map fun r =>
      (r.1, (frames.zip r.2).map P)) :
    ∃ w' pics, run = some (w', pics) ∧ pics.length = frames.length := by
  have h := demoTrack_shape (cfg := cfg) hL label extra g (s := s) (calls := frames.map (eachCall dets)) (fun l hl d hd' => by
    obtain ⟨c, hc, rfl⟩ := List.mem_map.mp hl
    obtain ⟨f, hf, rfl⟩ := List.mem_map.mp hc
    exact hd f hf d hd')
  obtain ⟨⟨w', acts⟩, ht⟩ := h.2 hD hre hfill
  have hl := (h.1 w' acts ht).1
  rw [List.length_map] at hl
  rw [hrun, ht]
  exact ⟨_, _, rfl, by simp [hl]⟩

/-! ### The detections -/

theorem pointDet_shaped (x y : K) {scores : Option (List K)} (hs : ∀ l, scores = some l → l.length = 1) (label : L) (extra : X) :
    DetShaped (1, 2) (pointDet x y scores label extra) :=
  ⟨⟨rfl, rfl, rfl⟩, ⟨rfl, rfl, rfl⟩, hs⟩

theorem carDets_shaped (f : SeenFrame (List (YoloBox K))) : ∀ d ∈ carDets f, DetShaped (1, 2) d := by
  intro d hd
  obtain ⟨b, -, rfl⟩ := List.mem_map.mp hd
  exact pointDet_shaped _ _ (fun l h => by cases h) _ _

theorem middleDets_shaped (bs : List (YoloBox K)) : ∀ d ∈ middleDets bs, DetShaped (1, 2) d := by
  intro d hd
  obtain ⟨b, -, rfl⟩ := List.mem_map.mp hd
  exact pointDet_shaped _ _ (fun l h => by cases h) _ _

theorem vehicleDets_shaped (names : List Str) (result : List (List (YoloBox K))) :
    ∀ d ∈ vehicleDets names result, DetShaped (1, 2) d := by
  intro d hd
  obtain ⟨x, -, hx⟩ := List.mem_flatMap.mp hd
  split at hx
  · obtain ⟨b, -, rfl⟩ := List.mem_map.mp hx
    exact pointDet_shaped _ _ (fun l h => by cases h; rfl) _ _
  · cases hx

theorem yolo4Convert_eq (f : SeenFrame (List (YoloBox K))) :
    ((yolo4Convert (f.h, f.w) f.seen).bind fun ds => ds.mapM RawDet.toDet) = some (carDets f) := by
  refine mapM_bind_map fun b _ => ⟨_, rfl, ?_⟩
  have e1 : (b.x1 * (f.w : K) + b.x2 * (f.w : K)) / 2 = (b.x1 + b.x2) / 2 * (f.w : K) := by ring
  have e2 : (b.y1 * (f.h : K) + b.y2 * (f.h : K)) / 2 = (b.y1 + b.y2) / 2 * (f.h : K) := by ring
  rw [← e1, ← e2]
  rfl

theorem detectronConvert_eq (bs : List (YoloBox K)) :
    ((detectronConvert bs).bind fun ds => ds.mapM RawDet.toDet) = some (middleDets bs) :=
  mapM_bind_map fun b _ => ⟨_, rfl, rfl⟩

theorem vehicle_iff (names : List Str) (i : Nat) : (vehicleClasses names).contains i = true ↔
    ∃ n ∈ ["car".toList, "motorcycle".toList, "bus".toList, "truck".toList], names[i]? = some n := by
  unfold vehicleClasses
  rw [List.contains_iff_mem, List.mem_map]
  constructor
  · rintro ⟨⟨n, j⟩, hm, rfl⟩
    obtain ⟨hm, hc⟩ := List.mem_filter.mp hm
    exact ⟨n, List.contains_iff_mem.mp hc, List.mem_zipIdx_iff_getElem?.mp hm⟩
  · rintro ⟨n, hn, h⟩
    exact ⟨(n, i), List.mem_filter.mpr ⟨List.mem_zipIdx_iff_getElem?.mpr h, List.contains_iff_mem.mpr hn⟩, rfl⟩

theorem mapM_flatten {α β : Type} {f : α → Option β} : ∀ {l : List (List α)} {m : List (List β)},
    List.Forall₂ (fun a b => a.mapM f = some b) l m → l.flatten.mapM f = some m.flatten
  | [], _, h => by cases h; rfl
  | a :: l, _, h => by
    obtain ⟨b, m, h1, h2, rfl⟩ := List.forall₂_cons_left_iff.mp h
    exact mapM_append_some h1 (mapM_flatten h2)

theorem mmConvert_eq (names : List Str) (result : List (List (YoloBox K))) :
    ((mmConvert names result).bind fun ds => ds.mapM RawDet.toDet) = some (vehicleDets names result) := by
  unfold mmConvert vehicleDets
  obtain ⟨raw, e, hr⟩ := mapM_forall₂ (l := result.zipIdx) (f := fun x =>
      if !(vehicleClasses names).contains x.2 then some []
      else x.1.mapM fun b => mkDetection ⟨[2], [(b.x1 + b.x2) / 2, (b.y1 + b.y2) / 2]⟩ (some [b.conf]) x.2 ())
    (R := fun x l => l.mapM RawDet.toDet = some (
      if ∃ n ∈ ["car".toList, "motorcycle".toList, "bus".toList, "truck".toList], names[x.2]? = some n then
        x.1.map fun b => pointDet ((b.x1 + b.x2) / 2) ((b.y1 + b.y2) / 2) (some [b.conf]) x.2 ()
      else [])) (fun x _ => by
    by_cases hv : ∃ n ∈ ["car".toList, "motorcycle".toList, "bus".toList, "truck".toList], names[x.2]? = some n
    · rw [if_pos hv, (vehicle_iff names x.2).mpr hv]
      exact mapM_toDet fun b _ => ⟨_, rfl, rfl⟩
    · rw [if_neg hv, Bool.eq_false_iff.mpr (mt (vehicle_iff names x.2).mp hv)]
      exact ⟨[], rfl, rfl⟩)
  rw [e]
  simp only [Option.map_some, Option.bind_some]
  rw [List.flatMap_def]
  refine mapM_flatten ?_
  rw [List.forall₂_map_right_iff]
  exact hr.flip

/-! ### The pictures -/

theorem points_shown (dr : EvalDraw K L H) (hpal : dr.env.palette.colors ≠ []) (flt : FilterOps K F) {f : SeenFrame A}
    (hh : 0 < f.h) {heap : Ref → Det K L X} {refs : List Ref} {ds : List (Det K L X)} (hr : Holds heap refs ds)
    (hd : ∀ d ∈ ds, DetShaped (1, 2) d) {act : List (Obj K L D F)} (ho : ∀ o ∈ act, HasShape (1, 2) (o.estimate flt) ∧
      o.pointHits.length = 1 ∧ ∃ i, o.id = some i) :
    (putPoints dr f.shape heap (some refs) f.pic).bind (putObjects dr flt f.shape none act) =
      some (shownPoints dr flt [f.h, f.w, 3] (f.h / 500 : Nat) ds act f.pic) := by
  rw [putPoints_eq dr hpal Nat.one_pos f.shape hr (fun d hm => (hd d hm).1), Option.bind_some]
  exact putObjects_eq dr hpal flt (n := 1) (shape := f.shape) hh none act ho _

/-! ### The claims -/

/-- **C133** (YOLOv4) A video is processed exactly as a new tracker processes the centers of the boxes of class 2. Every frame is
written, in order, with a disc for each of these, and then a disc and the id for each object with a live point that the tracker
returned for this frame; the whole raises only if a call of the tracker raises. -/
theorem C133_yolo4 {cfg : Cfg K Unit D F (YoloBox K)} {Ok : F → Prop} (hL : FilterLaws cfg.flt Ok) (dr : EvalDraw K Unit H)
    (hpal : dr.env.palette.colors ≠ []) (g : Nat) {frames : List (SeenFrame (List (YoloBox K)))} (hf : ∀ f ∈ frames, 0 < f.h) :
    yolo4Run cfg dr g frames =
      (demoTrack cfg () ⟨0, 0, 0, 0, 0, 0⟩ g (frames.map (eachCall carDets))).map fun r =>
        (r.1, (frames.zip r.2).map fun x =>
          shownPoints dr cfg.flt [x.1.h, x.1.w, 3] (x.1.h / 500 : Nat) (carDets x.1) x.2 x.1.pic) :=
  eachRun_track hL _ carDets
    (fun f act => shownPoints dr cfg.flt [f.h, f.w, 3] (f.h / 500 : Nat) (carDets f) act f.pic) () _ g frames
    (fun _ f _ => yolo4Convert_eq f) (fun f _ => carDets_shaped f)
    (fun f hm _ _ _ hr ho => points_shown dr hpal cfg.flt (hf f hm) hr (carDets_shaped f) ho)

/-- **C133** (Detectron2) A video is processed exactly as a new tracker processes the centers of all boxes. Every frame is
written, in order, with a disc and the id, with letters of thickness 2, for each object with a live point that the tracker
returned for this frame; the whole raises only if a call of the tracker raises. -/
theorem C133_detectron {cfg : Cfg K Unit D F Unit} {Ok : F → Prop} (hL : FilterLaws cfg.flt Ok) (dr : EvalDraw K Unit H)
    (hpal : dr.env.palette.colors ≠ []) (g : Nat) {frames : List (SeenFrame (List (YoloBox K)))} (hf : ∀ f ∈ frames, 0 < f.h) :
    detectronRun cfg dr g frames =
      (demoTrack cfg () () g (frames.map (eachCall fun f => middleDets f.seen))).map fun r =>
        (r.1, (frames.zip r.2).map fun x => (objsOn dr cfg.flt 1 [x.1.h, x.1.w, 3] 2 x.2).render dr.ras [x.1.h, x.1.w, 3] x.1.pic) :=
  eachRun_track hL _ (fun f => middleDets f.seen)
    (fun f act => (objsOn dr cfg.flt 1 [f.h, f.w, 3] 2 act).render dr.ras [f.h, f.w, 3] f.pic) () () g frames
    (fun _ f _ => detectronConvert_eq f.seen) (fun f _ => middleDets_shaped f.seen)
    (fun f hm _ _ act _ ho => putObjects_eq dr hpal cfg.flt (n := 1) (shape := f.shape) (hf f hm) (some 2) act ho f.pic)

/-- **C133** (MMDetection) A video is processed exactly as a new tracker processes the centers of the boxes of vehicles. Every
frame is written, in order, with a disc and the id for each object with a live point that the tracker returned for this frame;
the whole raises only if a call of the tracker raises. -/
theorem C133_mm {cfg : Cfg K Nat D F Unit} {Ok : F → Prop} (hL : FilterLaws cfg.flt Ok) (names : List Str)
    (dr : EvalDraw K Nat H) (hpal : dr.env.palette.colors ≠ []) (g : Nat) {frames : List (SeenFrame (List (List (YoloBox K))))}
    (hf : ∀ f ∈ frames, 0 < f.h) :
    mmRun names cfg dr g frames =
      (demoTrack cfg 0 () g (frames.map (eachCall fun f => vehicleDets names f.seen))).map fun r =>
        (r.1, (frames.zip r.2).map fun x => withObjs dr cfg.flt 1 [x.1.h, x.1.w, 3] x.2 x.1.pic) :=
  eachRun_track hL _ (fun f => vehicleDets names f.seen)
    (fun f act => withObjs dr cfg.flt 1 [f.h, f.w, 3] act f.pic) 0 () g frames
    (fun _ f _ => mmConvert_eq names f.seen) (fun f _ => vehicleDets_shaped names f.seen)
    (fun f hm _ _ act _ ho => putObjects_eq dr hpal cfg.flt (n := 1) (shape := f.shape) (hf f hm) none act ho f.pic)

/-- **C133** (YOLOv7 with `--track-points centroid`) A video is processed exactly as a new tracker processes the centers of the
boxes. Every frame is written, in order, with a disc and the class for each of these, and then a disc and the id for each object
with a live point that the tracker returned for this frame; the whole raises only if a call of the tracker raises. -/
theorem C133_yolo7 {cfg : Cfg K ℤ D F Unit} {Ok : F → Prop} (hL : FilterLaws cfg.flt Ok) (dr : EvalDraw K ℤ H)
    (hpal : dr.env.palette.colors ≠ []) (g : Nat) {frames : List (SeenFrame (List (YoloBox K)))} (hf : ∀ f ∈ frames, 0 < f.h) :
    yolo7Run "centroid".toList cfg dr g frames =
      (demoTrack cfg 0 () g (frames.map (eachCall fun f => f.seen.map centerDet))).map fun r =>
        (r.1, (frames.zip r.2).map fun x =>
          shownPoints dr cfg.flt [x.1.h, x.1.w, 3] (x.1.h / 500 : Nat) (x.1.seen.map centerDet) x.2 x.1.pic) := by
  have hs : ∀ (f : SeenFrame (List (YoloBox K))), ∀ d ∈ f.seen.map centerDet, DetShaped (1, 2) d := by
    intro f d hd
    obtain ⟨b, -, rfl⟩ := List.mem_map.mp hd
    exact center_shaped b
  refine eachRun_track hL _ (fun f => f.seen.map centerDet)
    (fun f act => shownPoints dr cfg.flt [f.h, f.w, 3] (f.h / 500 : Nat) (f.seen.map centerDet) act f.pic) 0 () g frames
    (fun _ f _ => ?_) (fun f _ => hs f) (fun f hm _ _ _ hr ho => ?_)
  · unfold yoloConvert
    rw [if_pos rfl]
    exact mapM_bind_map fun b _ => ⟨_, rfl, rfl⟩
  · rw [if_pos rfl]
    exact points_shown dr hpal cfg.flt (hf f hm) hr (hs f) ho

end

/-- the trackers of these demos can be made -/
theorem centerTracker {flt : FilterOps ℝ F} (str : L → String)
    {cdist : String → List (List ℝ) → List (List ℝ) → Option (Mat (Option (WithTop ℝ)))}
    (hc : ∀ n cs os, cs ≠ [] → os ≠ [] → (∀ c ∈ cs, c.length = n) → (∀ b ∈ os, b.length = n) →
      ∃ M, cdist "euclidean" cs os = some M ∧ ∀ i < cs.length, ∀ j < os.length, ∃ x, M.val i j = some x) (thr detThr : ℝ) :
    ∃ cfg : Cfg ℝ L (WithTop ℝ) F X, mkTracker str cdist (centerArgs flt thr detThr) = some cfg ∧ cfg.flt = flt ∧
      ShapedDist flt (fun _ => (1, 2)) cfg.dist ∧ cfg.reid = none ∧ cfg.thr ≤ cfg.fill := by
  refine ⟨_, rfl, rfl, C67_scipy flt (fun _ => (1, 2)) str (fun _ _ _ => rfl) hc, rfl, ?_⟩
  show (thr : WithTop ℝ) ≤ (thr : WithTop ℝ) + 1
  exact WithTop.coe_le_coe.mpr (by norm_num)

/-- **C133** With the trackers of the demos, which can be made, every video is processed to its end and has as many frames as it
had, if scipy's `cdist` gives a number for each pair of points. -/
theorem C133_to_the_end {flt : FilterOps ℝ F} {Ok : F → Prop} (hL : FilterLaws flt Ok)
    {cdist : String → List (List ℝ) → List (List ℝ) → Option (Mat (Option (WithTop ℝ)))}
    (hc : ∀ n cs os, cs ≠ [] → os ≠ [] → (∀ c ∈ cs, c.length = n) → (∀ b ∈ os, b.length = n) →
      ∃ M, cdist "euclidean" cs os = some M ∧ ∀ i < cs.length, ∀ j < os.length, ∃ x, M.val i j = some x) :
    (∀ (str : Unit → String) (dr : EvalDraw ℝ Unit H), dr.env.palette.colors ≠ [] →
      ∃ cfg, mkTracker str cdist (centerArgs flt 30 0) = some cfg ∧ ∀ g frames, (∀ f ∈ frames, 0 < f.h) →
        ∃ w' pics, yolo4Run cfg dr g frames = some (w', pics) ∧ pics.length = frames.length) ∧
    (∀ (str : Unit → String) (dr : EvalDraw ℝ Unit H), dr.env.palette.colors ≠ [] →
      ∃ cfg, mkTracker str cdist (centerArgs flt 20 0) = some cfg ∧ ∀ g frames, (∀ f ∈ frames, 0 < f.h) →
        ∃ w' pics, detectronRun cfg dr g frames = some (w', pics) ∧ pics.length = frames.length) ∧
    (∀ (str : Nat → String) (names : List Str) (dr : EvalDraw ℝ Nat H), dr.env.palette.colors ≠ [] →
      ∃ cfg, mkTracker str cdist (centerArgs flt 20 (3 / 5)) = some cfg ∧ ∀ g frames, (∀ f ∈ frames, 0 < f.h) →
        ∃ w' pics, mmRun names cfg dr g frames = some (w', pics) ∧ pics.length = frames.length) ∧
    (∀ (str : ℤ → String) (dr : EvalDraw ℝ ℤ H), dr.env.palette.colors ≠ [] →
      ∃ cfg, mkTracker str cdist (centerArgs flt 30 0) = some cfg ∧ ∀ g frames, (∀ f ∈ frames, 0 < f.h) →
        ∃ w' pics, yolo7Run "centroid".toList cfg dr g frames = some (w', pics) ∧ pics.length = frames.length) := by
  refine ⟨fun str dr hpal => ?_, fun str dr hpal => ?_, fun str names dr hpal => ?_, fun str dr hpal => ?_⟩
  · obtain ⟨cfg, h1, rfl, h3, h4, h5⟩ := centerTracker (flt := flt) (X := YoloBox ℝ) str hc 30 0
    exact ⟨cfg, h1, fun g frames hf => eachRun_ends hL h3 h4 h5 _ _ _ _ g frames (fun f _ => carDets_shaped f)
      (C133_yolo4 hL dr hpal g hf)⟩
  · obtain ⟨cfg, h1, rfl, h3, h4, h5⟩ := centerTracker (flt := flt) (X := Unit) str hc 20 0
    exact ⟨cfg, h1, fun g frames hf => eachRun_ends hL h3 h4 h5 _ _ _ _ g frames (fun f _ => middleDets_shaped f.seen)
      (C133_detectron hL dr hpal g hf)⟩
  · obtain ⟨cfg, h1, rfl, h3, h4, h5⟩ := centerTracker (flt := flt) (X := Unit) str hc 20 (3 / 5)
    exact ⟨cfg, h1, fun g frames hf => eachRun_ends hL h3 h4 h5 _ _ _ _ g frames (fun f _ => vehicleDets_shaped names f.seen)
      (C133_mm hL names dr hpal g hf)⟩
  · obtain ⟨cfg, h1, rfl, h3, h4, h5⟩ := centerTracker (flt := flt) (X := Unit) str hc 30 0
    exact ⟨cfg, h1, fun g frames hf => eachRun_ends hL h3 h4 h5 (fun f => f.seen.map centerDet) _ _ _ g frames (fun f _ d hd => by
      obtain ⟨b, -, rfl⟩ := List.mem_map.mp hd
      exact center_shaped b) (C133_yolo7 hL dr hpal g hf)⟩

/-! ### Examples -/

/-- the tracker of these demos; on a line this distance is the euclidean one -/
def midCfg (L X : Type) (thr detThr : ℚ) : Cfg ℚ L (WithTop ℚ) (OKF ℚ) X where
  dist := ofPoints (okfOps okfDefaults) cityBlock
  thr := (thr : WithTop ℚ)
  fill := ((thr + 1 : ℚ) : WithTop ℚ)
  hitCounterMax := 15
  initDelay := 7
  pwMax := 4
  detThr := detThr
  flt := okfOps okfDefaults
  pastLen := 4
  reid := none
  reidThr := 0
  reidFill := 1
  reidMax := none

/-- how to draw, without labels; letters are not seen -/
def midDraw (L : Type) : EvalDraw ℚ L Nat := ⟨toyEnv, { toyRaster with glyph := fun _ _ => false }, id, fun _ => none⟩

/-- a gray frame of 100 x 200 pixels in which this is seen -/
def seenFrame (a : A) : SeenFrame A := ⟨100, 200, fun _ _ => 9, a⟩

/-- a box of 20 x 20 pixels around (50, 50), with this class and score -/
def midBox (cls conf : ℚ) : YoloBox ℚ := ⟨40, 40, 60, 60, conf, cls⟩

/-- the classes of the detector: persons, cars, and trains -/
def midNames : List Str := ["person".toList, "car".toList, "train".toList]

/-- **C133** What the claims on MMDetection do not say: not every object that the tracker returns is drawn. A car seen in every
frame with a score of 0.5 gets an id and is returned from the eighth frame on, but as the scores are not above 0.6 its point is
never live, and the frames are written as they were read. -/
theorem C133_faint :
    ∃ w acts pics, demoTrack (midCfg Nat Unit 20 (3 / 5)) 0 () 0 ((List.replicate 10 (seenFrame [[], [midBox 1 (1 / 2)], []])).map
        (eachCall fun f => vehicleDets midNames f.seen)) = some (w, acts) ∧
      mmRun midNames (midCfg Nat Unit 20 (3 / 5)) (midDraw Nat) 0
        (List.replicate 10 (seenFrame [[], [midBox 1 (1 / 2)], []])) = some (w, pics) ∧
      acts.map (fun l => l.map (·.id)) = [[], [], [], [], [], [], [], [some 1], [some 1], [some 1]] ∧
      pics = List.replicate 10 fun _ _ => 9 := by
  have h : (demoTrack (midCfg Nat Unit 20 (3 / 5)) 0 () 0 ((List.replicate 10 (seenFrame [[], [midBox 1 (1 / 2)], []])).map
      (eachCall fun f => vehicleDets midNames f.seen))).map (fun r => (r.2.map fun l => l.map (·.id),
        r.2.map fun l => (l.filter fun (o : Obj ℚ Nat (WithTop ℚ) (OKF ℚ)) => o.pointHits.any fun c => decide (0 < c)).length)) =
      some ([[], [], [], [], [], [], [], [some 1], [some 1], [some 1]], List.replicate 10 0) := by
    decide +kernel
  obtain ⟨⟨w, acts⟩, ht, h⟩ := Option.map_eq_some_iff.mp h
  obtain ⟨h1, h2⟩ := Prod.mk.injEq .. ▸ h
  refine ⟨w, acts, (List.replicate 10 (seenFrame [[], [midBox 1 (1 / 2)], []]) |>.zip acts).map fun x =>
    withObjs (midDraw Nat) (okfOps okfDefaults) 1 [x.1.h, x.1.w, 3] x.2 x.1.pic, ht, ?_, h1, ?_⟩
  · rw [C133_mm (okf_laws okfDefaults) midNames (midDraw Nat) (by decide) 0 (fun f hf => by
      rw [List.eq_of_mem_replicate hf]; decide), ht]
    rfl
  · have hlen : acts.length = 10 := by simpa using congrArg List.length h1
    rw [List.eq_replicate_iff]
    refine ⟨by simp [hlen], fun p hp => ?_⟩
    obtain ⟨⟨f, act⟩, hm, rfl⟩ := List.mem_map.mp hp
    obtain ⟨hm1, hm2⟩ := List.of_mem_zip hm
    rw [List.eq_of_mem_replicate hm1]
    have h0 : (act.filter fun (o : Obj ℚ Nat (WithTop ℚ) (OKF ℚ)) => o.pointHits.any fun c => decide (0 < c)).length = 0 :=
      (List.eq_replicate_iff.mp h2).2 _ (List.mem_map.mpr ⟨act, hm2, rfl⟩)
    simp only [withObjs, objsOn, List.length_eq_zero_iff.mp h0]
    rfl

/-- YOLOv4: the car is seen from the first frame on, with its id from the eighth; what is not a car is not seen -/
example : (yolo4Run (midCfg Unit (YoloBox ℚ) 30 0) (midDraw Unit) 0 (List.replicate 9
    (seenFrame [⟨1 / 5, 2 / 5, 3 / 10, 3 / 5, 1, 2⟩, ⟨7 / 10, 2 / 5, 8 / 10, 3 / 5, 1, 3⟩]))).map
      (fun r => r.2.map fun p => (p (50, 50) 1, p (150, 50) 1)) =
        some (List.replicate 7 (7, 9) ++ List.replicate 2 (1, 9)) := by
  decide +kernel

/-- Detectron2: all objects are seen, with their ids -/
example : (detectronRun (midCfg Unit Unit 20 0) (midDraw Unit) 0 (List.replicate 9
    (seenFrame [midBox 0 1, ⟨140, 40, 160, 60, 1, 3⟩]))).map
      (fun r => r.2.map fun p => (p (50, 50) 1, p (150, 50) 1)) =
        some (List.replicate 7 (9, 9) ++ List.replicate 2 (1, 2)) := by
  decide +kernel

/-- MMDetection: only cars are seen -/
example : (mmRun midNames (midCfg Nat Unit 20 (3 / 5)) (midDraw Nat) 0 (List.replicate 9
    (seenFrame [[⟨140, 40, 160, 60, 1, 0⟩], [midBox 1 (4 / 5)], []]))).map
      (fun r => r.2.map fun p => (p (50, 50) 1, p (150, 50) 1)) =
        some (List.replicate 7 (9, 9) ++ List.replicate 2 (1, 9)) := by
  decide +kernel

/-- YOLOv7 -/
example : (yolo7Run "centroid".toList (midCfg ℤ Unit 30 0) (midDraw ℤ) 0 (List.replicate 9 (seenFrame [midBox 0 1]))).map
      (fun r => r.2.map fun p => (p (50, 50) 1, p (150, 50) 1)) =
        some (List.replicate 7 (7, 9) ++ List.replicate 2 (1, 9)) := by
  decide +kernel

/-- the hypotheses of `C133_yolo4`, `C133_detectron`, `C133_mm` and `C133_yolo7` -/
example : (midDraw L).env.palette.colors ≠ [] ∧ 0 < (seenFrame [midBox 0 1]).h ∧
    ∃ Ok : OKF ℚ → Prop, FilterLaws (midCfg L X 30 0).flt Ok := ⟨List.cons_ne_nil _ _, by decide, _, okf_laws okfDefaults⟩

/-- the hypotheses of `C133_to_the_end`: the euclidean distance -/
example (dr : EvalDraw ℝ Unit H) (hpal : dr.env.palette.colors ≠ []) (pic : Pic) :
    ∃ cdist cfg, mkTracker (fun _ => "None") cdist (centerArgs (okfOps realOkf) 20 0) = some cfg ∧ ∃ w' pics,
      detectronRun cfg dr 0 (List.replicate 6 ⟨720, 1280, pic, [⟨10, 20, 30, 40, 1, 0⟩]⟩) = some (w', pics) ∧
        pics.length = 6 := by
  refine ⟨fun _ cs os => some ⟨cs.length, os.length, fun i j =>
      some ((Real.sqrt (((cs.getD i []).zipWith (fun a b => (a - b) ^ 2) (os.getD j [])).sum) : ℝ) : WithTop ℝ)⟩, ?_⟩
  obtain ⟨cfg, h1, h2⟩ := (C133_to_the_end (H := H) (okf_laws realOkf) (cdist := fun _ cs os => some ⟨cs.length, os.length,
    fun i j => some ((Real.sqrt (((cs.getD i []).zipWith (fun a b => (a - b) ^ 2) (os.getD j [])).sum) : ℝ) : WithTop ℝ)⟩)
    (fun _ _ _ _ _ _ _ => ⟨_, rfl, fun _ _ _ _ => ⟨_, rfl⟩⟩)).2.1 (fun _ => "None") dr hpal
  refine ⟨cfg, h1, ?_⟩
  obtain ⟨w', pics, h3, h4⟩ := h2 0 (List.replicate 6 ⟨720, 1280, pic, [⟨10, 20, 30, 40, 1, 0⟩]⟩) (fun f hf => by
    rw [List.eq_of_mem_replicate hf]; norm_num)
  exact ⟨w', pics, h3, h4.trans (by simp)⟩

end Norfair.Props
