import Verif.Spec.RoadLoop
import Verif.Props.BoxLoop
import Verif.Props.Segment
import Verif.Props.Nms

/-! C136: the loop of the yolopv2 demo. -/

set_option linter.unusedSectionVars false

namespace Norfair.Props

open Norfair Norfair.Spec

variable {K L D F X H A : Type}

/-! ### The detections -/

theorem nearest_eq (n : ℕ) (x : ℚ) : roundHalfEven (min (max x 0) n) = nearest n x := by
  unfold nearest
  split
  · rename_i h
    rw [max_eq_right h, min_eq_left (Nat.cast_nonneg n)]
    exact roundHalfEven_int 0
  · rename_i h
    rw [max_eq_left (not_le.mp h).le]
    split
    · rename_i h'
      rw [min_eq_right (by exact_mod_cast h')]
      exact roundHalfEven_int n
    · rename_i h'
      rw [min_eq_left (by exact_mod_cast (not_le.mp h').le)]

theorem demoCorner_eq (p : ℚ × ℚ) : demoCorner 640 p = (nearest 1280 (2 * p.1), nearest 720 (2 * (p.2 - 12))) := by
  have h1 : (demoLetter 640).outH = 384 ∧ (demoLetter 640).outW = 640 := by decide +kernel
  have hg : min ((384 : ℚ) / ((720 : Nat) : ℚ)) (640 / ((1280 : Nat) : ℚ)) = 1 / 2 := by norm_num
  unfold demoCorner scalePoint
  simp only [h1.1, h1.2]
  push_cast
  have hg : min ((384 : ℚ) / 720) (640 / 1280) = 1 / 2 := by norm_num
  simp only [hg]
  rw [show ((p.1 - (640 - 1280 * (1 / 2)) / 2) / (1 / 2) : ℚ) = 2 * p.1 by ring,
    show ((p.2 - (384 - 720 * (1 / 2)) / 2) / (1 / 2) : ℚ) = 2 * (p.2 - 12) by ring]
  exact Prod.ext (nearest_eq 1280 _) (nearest_eq 720 _)

section
variable [Field K] [LinearOrder K] [IsStrictOrderedRing K] [FloorRing K] [LinearOrder D] [OrderTop D] [Zero D]

theorem roadDets_shaped (o : RoadOpts) (s : RoadSeen) : ∀ d ∈ roadDets (K := K) o s, DetShaped (2, 2) d := by
  intro d hd
  obtain ⟨r, -, rfl⟩ := List.mem_map.mp hd
  exact boxDet_shaped _ _

theorem roadConvert_eq {o : RoadOpts} (ho : o.imgsz = 640) (s : RoadSeen) :
    ((yolopConvert ((roadRows o s).map YoloRow.cast)).bind fun ds => ds.mapM RawDet.toDet) =
      some (roadDets (K := K) o s) := by
  unfold yolopConvert roadRows roadDets
  rw [List.map_map, List.mapM_map]
  refine mapM_bind_map fun r _ => ⟨_, rfl, ?_⟩
  have ht : truncInt (((r.cls : Nat) : K)) = r.cls := by
    unfold truncInt
    simp
  simp only [Function.comp, YoloRow.cast, ho, demoCorner_eq, boxDet, roadBox, ht, Rat.cast_intCast]
  rfl

/-! ### The pictures -/

theorem roadShow_eq (s : RoadSeen) (pic : Pic) : roadShow 640 s pic = some (roadPic s pic) := by
  have h1 : (demoLetter 640).outH = 384 ∧ (demoLetter 640).outW = 640 := by decide +kernel
  have h2 : sliceLimit (384 : ℤ).toNat 12 = 12 := by decide
  unfold roadShow segFrame showSegResult
  simp only [h1.1, h1.2]
  rw [if_neg (by simp [segMask, sliceLimit, roadImage])]
  refine congrArg some ?_
  funext p ch
  unfold Image.into roadPic
  simp only [roadImage, List.mem_cons, List.not_mem_nil, or_false]
  by_cases hin : (0 ≤ p.1 ∧ p.1 < 1280) ∧ (0 ≤ p.2 ∧ p.2 < 720) ∧ (ch = 0 ∨ ch = 1 ∨ ch = 2)
  · have hin' : 0 ≤ p.1 ∧ p.1 < ((1280 : Nat) : ℤ) ∧ 0 ≤ p.2 ∧ p.2 < ((720 : Nat) : ℤ) ∧ ch < 3 := by push_cast; omega
    rw [if_pos hin]
    refine (if_pos hin').trans ?_
    obtain ⟨⟨a, -⟩, ⟨b, -⟩, hc⟩ := hin
    obtain ⟨x, hx⟩ := Int.eq_ofNat_of_zero_le a
    obtain ⟨y, hy⟩ := Int.eq_ofNat_of_zero_le b
    obtain ⟨px, py⟩ := p
    simp only at hx hy
    subst hx hy
    simp only [segMask, h2, maskPoint, Int.toNat_natCast, Int.cast_natCast, Nat.cast_ofNat, segColor, mixHalf]
    rcases hc with rfl | rfl | rfl <;> split_ifs <;> simp_all
  · have hin' : ¬ (0 ≤ p.1 ∧ p.1 < ((1280 : Nat) : ℤ) ∧ 0 ≤ p.2 ∧ p.2 < ((720 : Nat) : ℤ) ∧ ch < 3) := by push_cast; omega
    rw [if_neg hin]
    exact if_neg hin'

/-- **C136** (partial: for other image sizes see `C136_false_size`) The video is processed exactly as a new tracker processes, frame
after frame, the boxes kept by `non_max_suppression` at their places in the frame of 1280 x 720 pixels, with their confidence and
class. Every frame is written, in order, in this size, with lines and area where the network saw them, and then the boxes of the
objects that the tracker returned for this frame; the whole raises only if a call of the tracker raises. -/
theorem C136_pictures_partial {cfg : Cfg K ℤ D F Unit} {Ok : F → Prop} (hL : FilterLaws cfg.flt Ok) (dr : EvalDraw K ℤ H)
    (hpal : dr.env.palette.colors ≠ []) {o : RoadOpts} (ho : o.imgsz = 640) (resize : SeenFrame RoadSeen → Pic) (g : Nat)
    (frames : List (SeenFrame RoadSeen)) :
    roadRun o resize cfg dr g frames = (demoTrack cfg 0 () g (frames.map (eachCall fun f => roadDets o f.seen))).map fun r =>
      (r.1, (frames.zip r.2).map fun x => roadShown dr cfg.flt x.1.seen x.2 (resize x.1)) := by
  unfold roadRun
  refine eachRun_track hL _ (fun f => roadDets o f.seen) (fun f act => roadShown dr cfg.flt f.seen act (resize f)) 0 () g frames
    (s := (2, 2)) (fun _ f _ => roadConvert_eq ho f.seen) (fun f _ => roadDets_shaped o f.seen) (fun f _ heap refs act _ hact => ?_)
  rw [ho, roadShow_eq, Option.bind_some]
  exact putTracked_eq dr hpal cfg.flt _ (fun o ho => (hact o ho).1) _

/-- **C136** (partial: for other image sizes see `C136_false_size`) What is tracked of a frame are at most 300 boxes. Each is a
prediction of the network with an object and a best class over the threshold, of a class that was asked for. Its corners are pixels
of the frame; a corner that the network saw in the frame is at most half a pixel away from there; a box is not turned over. -/
theorem C136_tracked_partial (o : RoadOpts) (s : RoadSeen) : (roadDets (K := K) o s).length ≤ 300 ∧
    ∀ d ∈ roadDets (K := K) o s, ∃ (r : YoloRow ℚ) (x1 y1 x2 y2 : ℤ), Candidate o.conf false o.classes s.preds r ∧
      d.points.data = [(x1 : K), (y1 : K), (x2 : K), (y2 : K)] ∧ d.scores = some [(r.conf : K), (r.conf : K)] ∧ d.label = r.cls ∧
      (∀ x ∈ [x1, x2], 0 ≤ x ∧ x ≤ 1280) ∧ (∀ y ∈ [y1, y2], 0 ≤ y ∧ y ≤ 720) ∧
      (∀ q ∈ [(r.x1, x1), (r.x2, x2)], 0 ≤ q.1 → q.1 ≤ 640 → |(q.2 : ℚ) - 2 * q.1| ≤ 1 / 2) ∧
      (∀ q ∈ [(r.y1, y1), (r.y2, y2)], 12 ≤ q.1 → q.1 ≤ 372 → |(q.2 : ℚ) - 2 * (q.1 - 12)| ≤ 1 / 2) ∧
      (r.x1 ≤ r.x2 → x1 ≤ x2) ∧ (r.y1 ≤ r.y2 → y1 ≤ y2) := by
  have hin : ∀ (n : ℕ) (x : ℚ), 0 ≤ nearest n x ∧ nearest n x ≤ n := by
    intro n x
    rw [← nearest_eq]
    exact ⟨int_le_roundHalfEven (by push_cast; exact le_min (le_max_right _ _) (Nat.cast_nonneg n)),
      roundHalfEven_le_int (by push_cast; exact min_le_right _ _)⟩
  have hnear : ∀ (n : ℕ) (x : ℚ), 0 ≤ x → x ≤ n → |(nearest n x : ℚ) - x| ≤ 1 / 2 := by
    intro n x h1 h2
    rw [← nearest_eq, max_eq_left h1, min_eq_left h2]
    exact roundHalfEven_err x
  have hmono : ∀ (n : ℕ) (x y : ℚ), x ≤ y → nearest n x ≤ nearest n y := by
    intro n x y h
    rw [← nearest_eq, ← nearest_eq]
    exact roundHalfEven_mono (min_le_min_right _ (max_le_max_right _ h))
  refine ⟨?_, fun d hd => ?_⟩
  · unfold roadDets
    rw [List.length_map]
    exact List.length_take_le _ _
  · obtain ⟨r, hr, rfl⟩ := List.mem_map.mp hd
    refine ⟨r, nearest 1280 (2 * r.x1), nearest 720 (2 * (r.y1 - 12)), nearest 1280 (2 * r.x2), nearest 720 (2 * (r.y2 - 12)),
      ?_, rfl, rfl, rfl, ?_, ?_, ?_, ?_, fun h => hmono 1280 _ _ (by linarith), fun h => hmono 720 _ _ (by linarith)⟩
    · exact (C118_from_predictions o.conf o.iou o.classes o.agnostic false 80 s.preds).1 r hr
    · simp only [List.mem_cons, List.not_mem_nil, or_false]
      rintro x (rfl | rfl)
      exacts [hin 1280 _, hin 1280 _]
    · simp only [List.mem_cons, List.not_mem_nil, or_false]
      rintro x (rfl | rfl)
      exacts [hin 720 _, hin 720 _]
    · simp only [List.mem_cons, List.not_mem_nil, or_false]
      rintro q (rfl | rfl) h1 h2
      exacts [hnear 1280 _ (by simpa using h1) (by push_cast; simp only at h2; linarith),
        hnear 1280 _ (by simpa using h1) (by push_cast; simp only at h2; linarith)]
    · simp only [List.mem_cons, List.not_mem_nil, or_false]
      rintro q (rfl | rfl) h1 h2
      exacts [hnear 720 _ (by simp only at h1; linarith) (by push_cast; simp only at h2; linarith),
        hnear 720 _ (by simp only at h1; linarith) (by push_cast; simp only at h2; linarith)]

/-! ### The end of the video -/

theorem demoRun_no_shot (cfg : Cfg K ℤ D F X) {S : Type} (ops : DemoOps K ℤ D F X (SeenFrame A × List Ref) S)
    (hn : ∀ st i x heap act, ops.shot st i x heap act = none)
    (conv : Nat → SeenFrame A → Option (List (Det K ℤ X))) (label : ℤ) (extra : X) (st : S) (g : Nat) (f : SeenFrame A)
    (fs : List (SeenFrame A)) : demoRun cfg ops conv label extra st g (f :: fs) = none := by
  unfold demoRun
  cases hc : (f :: fs).zipIdx.mapM fun y => conv y.2 y.1 with
  | none => rfl
  | some dets =>
    obtain ⟨d, ds, rfl⟩ : ∃ d ds, dets = d :: ds := by
      cases dets with
      | cons d ds => exact ⟨d, ds, rfl⟩
      | nil =>
        rw [List.zipIdx_cons, List.mapM_cons] at hc
        simp only [Option.pure_def, Option.bind_eq_bind, Option.bind_eq_some_iff] at hc
        obtain ⟨_, _, _, _, hc⟩ := hc
        cases hc
    show demoLoop cfg ops 0 st _ ((f :: fs).zip (refsFrom 0 (d :: ds))) = none
    rw [refsFrom, List.zip_cons_cons, demoLoop]
    split
    · rfl
    · rw [hn]

/-- **C136** (false) With any other image size of the network the demo raises in the first frame. -/
theorem C136_false_size {o : RoadOpts} (ho : o.imgsz ≠ 640) (resize : SeenFrame RoadSeen → Pic) (cfg : Cfg K ℤ D F Unit)
    (dr : EvalDraw K ℤ H) (g : Nat) (f : SeenFrame RoadSeen) (fs : List (SeenFrame RoadSeen)) :
    roadRun o resize cfg dr g (f :: fs) = none := by
  refine demoRun_no_shot cfg _ (fun st i x heap act => ?_) _ _ _ _ _ _ _
  show Option.map some ((roadShow o.imgsz x.1.seen (resize x.1)).bind _) = none
  unfold roadShow
  rw [C124_false_size ho _ rfl]
  rfl

end

section
variable [Field K] [LinearOrder K] [IsStrictOrderedRing K] [FloorRing K]

/-- **C136** (partial: see `C136_false_flat` and `C136_false_size`) If the boxes of a class that are tracked all have the same size,
which is not 0, the video is processed to its end and has as many frames as it had. -/
theorem C136_sized_partial {cfg : Cfg K ℤ (WithTop K) F Unit} {Ok : F → Prop}
    (hL : FilterLaws cfg.flt Ok) {Rel : List K × K → F → Prop} (hR : ∀ q, RelationLaws cfg.flt Ok q.1 q.2 (Rel q))
    {str : ℤ → String} (hdist : cfg.dist = iouDistFn str) {size : ℤ → K × K}
    (hpos : ∀ l, 0 < (size l).1 ∧ 0 < (size l).2) (hs : ∀ a b, Compat cfg a b → size a = size b)
    (hre : cfg.reid = none) (hfill : cfg.thr ≤ cfg.fill) (dr : EvalDraw K ℤ H) (hpal : dr.env.palette.colors ≠ [])
    {o : RoadOpts} (ho : o.imgsz = 640) (resize : SeenFrame RoadSeen → Pic) (g : Nat) {frames : List (SeenFrame RoadSeen)}
    (hb : ∀ f ∈ frames, ∀ d ∈ roadDets o f.seen, ∃ x1 y1 x2 y2 : K, d.points.data = [x1, y1, x2, y2] ∧
      x2 - x1 = (size d.label).1 ∧ y2 - y1 = (size d.label).2) :
    ∃ w' pics, roadRun o resize cfg dr g frames = some (w', pics) ∧ pics.length = frames.length := by
  obtain ⟨⟨w', acts⟩, ht⟩ := demoTrack_sized hL hR hdist hpos hs hre hfill (0 : ℤ) () g
    (calls := frames.map (eachCall fun f => roadDets o f.seen)) (fun l hl d hd => by
      obtain ⟨c, hc, rfl⟩ := List.mem_map.mp hl
      obtain ⟨f, hf, rfl⟩ := List.mem_map.mp hc
      obtain ⟨x1, y1, x2, y2, e, e1, e2⟩ := hb f hf d hd
      obtain ⟨r, -, rfl⟩ := List.mem_map.mp hd
      simp only [boxDet, List.cons.injEq, and_true] at e
      obtain ⟨rfl, rfl, rfl, rfl⟩ := e
      exact boxDet_sized e1 e2)
  have hl := ((demoTrack_shape (s := (2, 2)) hL (0 : ℤ) () g (fun l hl d hd => by
    obtain ⟨c, hc, rfl⟩ := List.mem_map.mp hl
    obtain ⟨f, hf, rfl⟩ := List.mem_map.mp hc
    exact roadDets_shaped o f.seen d hd)).1 w' acts ht).1
  rw [List.length_map] at hl
  rw [C136_pictures_partial hL dr hpal ho, ht]
  exact ⟨_, _, rfl, by simp [hl]⟩

end

/-! ### Witnesses and examples -/

/-- a prediction of class 2 with this center and size -/
def roadPred (cx cy w h : ℚ) : YoloPred ℚ := ⟨cx, cy, w, h, 9 / 10, [0, 1 / 10, 9 / 10]⟩

/-- a gray frame in which these are seen, with the road below row 600 and a line in the first ten columns -/
def roadFrame (ps : List (YoloPred ℚ)) : SeenFrame RoadSeen :=
  ⟨1080, 1920, fun _ _ => 100, ps, fun p => if 312 ≤ p.2 then 1 else 0, fun p => if p.1 ≤ 5 then 1 else 0⟩

/-- **C136** (false) The demo need not reach the end of the video: what is seen in the border below the frame becomes a box without
height at the end of the frame; if it is seen in two frames, the distance is `0 / 0` and the tracker raises. -/
theorem C136_false_flat :
    (∀ p ∈ [roadPred 320 380 40 4], 0 < p.w ∧ 0 < p.h) ∧
    (roadRun {} (fun f => f.pic) (overlapCfg ℤ toString) (midDraw ℤ) 0
      (List.replicate 2 (roadFrame [roadPred 320 380 40 4]))).isNone = true := by
  refine ⟨by decide +kernel, ?_⟩
  decide +kernel

/-- the hypotheses of `C136_pictures_partial` -/
example : (midDraw ℤ).env.palette.colors ≠ [] ∧ ({} : RoadOpts).imgsz = 640 ∧
    ∃ Ok : OKF ℚ → Prop, FilterLaws (overlapCfg ℤ toString).flt Ok :=
  ⟨List.cons_ne_nil _ _, rfl, _, okf_laws okfDefaults⟩

/-- one of two boxes of a car is kept, and a box is cut at the end of the frame -/
example : (roadDets (K := ℚ) {} (roadFrame [roadPred 320 200 41 40, roadPred 321 200 40 40, roadPred 320 360 40 40]).seen).map
    (fun d => (d.points.data, d.scores, d.label)) =
      [([599, 336, 681, 416], some [81 / 100, 81 / 100], 2), ([600, 656, 680, 720], some [81 / 100, 81 / 100], 2)] := by
  decide +kernel

/-- the line, the road, the gray frame, and from the eighth frame on the box of the object over it -/
example : (roadRun {} (fun f => f.pic) (overlapCfg ℤ toString) (midDraw ℤ) 0
      (List.replicate 9 (roadFrame [roadPred 320 200 40 40]))).map (fun r => r.2.map fun p =>
        (p (3, 650) 2, p (20, 650) 1, p (20, 100) 1, p (600, 336) 1)) =
      some (List.replicate 7 (177, 177, 100, 100) ++ List.replicate 2 (177, 177, 100, 1)) := by
  decide +kernel

/-- another image size -/
example : roadRun { imgsz := 320 } (fun f => f.pic) (overlapCfg ℤ toString) (midDraw ℤ) 0 [roadFrame []] = none :=
  C136_false_size (by decide) _ _ _ _ _ _

/-- the hypotheses of `C136_sized_partial`: boxes of 80 x 80 pixels -/
example : ∃ w' pics, roadRun {} (fun f => f.pic) (overlapCfg ℤ toString) (midDraw ℤ) 0
    [roadFrame [roadPred 320 200 40 40, roadPred 100 200 40 40], roadFrame [], roadFrame [roadPred 321 200 40 40]] =
      some (w', pics) ∧ pics.length = 3 :=
  C136_sized_partial (cfg := overlapCfg ℤ toString) (okfDrift_laws okfDefaults_valid)
    (fun q => okf_relations okfDefaults (fun f => OKFValid okfDefaults.R f ∧ f.q = okfDefaults.Q) q.1 q.2) rfl
    (size := fun _ => (80, 80)) (fun _ => ⟨by norm_num, by norm_num⟩) (fun _ _ _ => rfl) rfl (by decide +kernel) (midDraw ℤ)
    (List.cons_ne_nil _ _) rfl _ 0 (fun f hf d hd => by
      have h : ∀ f ∈ [roadFrame [roadPred 320 200 40 40, roadPred 100 200 40 40], roadFrame [], roadFrame [roadPred 321 200 40 40]],
        ∀ d ∈ roadDets (K := ℚ) {} f.seen, d.points.data = [d.points.data.getD 0 0, d.points.data.getD 1 0, d.points.data.getD 2 0,
          d.points.data.getD 3 0] ∧ d.points.data.getD 2 0 - d.points.data.getD 0 0 = 80 ∧
          d.points.data.getD 3 0 - d.points.data.getD 1 0 = 80 := by decide +kernel
      exact ⟨_, _, _, _, (h f hf d hd).1, (h f hf d hd).2⟩)

end Norfair.Props
