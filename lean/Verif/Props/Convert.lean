import Verif.Model.Convert
import Verif.Props.Succeeds
import Verif.Props.TrackerSys
import Verif.Props.Toy

/-!
Property theorems C122: what the demos make of the boxes and poses of their detectors.
-/

set_option linter.unusedSectionVars false

namespace Norfair.Props

open Norfair Norfair.Spec

variable {K L X : Type}

/-- a new detection: nothing transformed yet, and one score per row of points, if there are scores -/
structure Fresh (d : RawDet K L X) : Prop where
  abs : d.absPoints = d.points
  age : d.age = none

/-- the two corners of the box, each with the score of the box -/
structure AtBox (b : YoloBox K) (d : RawDet K L X) : Prop extends Fresh d where
  points : d.points = ⟨[2, 2], [b.x1, b.y1, b.x2, b.y2]⟩
  scores : d.scores = some [b.conf, b.conf]

/-- one point in the middle between two corners -/
structure InMiddle [Ring K] (x1 y1 x2 y2 : K) (d : RawDet K L X) : Prop extends Fresh d where
  points : ∃ cx cy, d.points = ⟨[1, 2], [cx, cy]⟩ ∧ cx - x1 = x2 - cx ∧ cy - y1 = y2 - cy

/-- one point in the middle of the box, with the score of the box -/
structure AtCenter [Ring K] (b : YoloBox K) (d : RawDet K L X) : Prop extends InMiddle b.x1 b.y1 b.x2 b.y2 d where
  scores : d.scores = some [b.conf]

theorem mapM_forall₂ {α β : Type} {f : α → Option β} {R : α → β → Prop} :
    ∀ {l : List α}, (∀ a ∈ l, ∃ b, f a = some b ∧ R a b) → ∃ bs, l.mapM f = some bs ∧ List.Forall₂ R l bs
  | [], _ => ⟨[], rfl, .nil⟩
  | a :: l, h => by
    obtain ⟨b, hb, hr⟩ := h a List.mem_cons_self
    obtain ⟨bs, hbs, hrs⟩ := mapM_forall₂ fun c hc => h c (List.mem_cons_of_mem _ hc)
    exact ⟨b :: bs, by rw [List.mapM_cons, hb, hbs]; rfl, .cons hr hrs⟩

section
variable [Field K] [LinearOrder K] [IsStrictOrderedRing K] [FloorRing K]

theorem mid_sub (a b : K) : (a + b) / 2 - a = b - (a + b) / 2 := by
  have : (2 : K) ≠ 0 := two_ne_zero
  field_simp
  ring

theorem truncInt_intCast (n : ℤ) : truncInt (n : K) = n := by
  unfold truncInt
  split <;> simp

/-- **C122** With YOLOv5 and YOLOv7 every box becomes one detection, in the same order, with its corners or its center,
its score for each point, and its class. -/
theorem C122_yolo (bs : List (YoloBox K)) (cls : YoloBox K → ℤ) (hc : ∀ b ∈ bs, b.cls = (cls b : K)) :
    (∃ l, yoloConvert "bbox".toList bs = some l ∧ List.Forall₂ (fun b d => AtBox b d ∧ d.label = cls b) bs l) ∧
    (∃ l, yoloConvert "centroid".toList bs = some l ∧ List.Forall₂ (fun b d => AtCenter b d ∧ d.label = cls b) bs l) ∧
    (∃ l, keypointsConvert bs = some l ∧ List.Forall₂ (fun b d => AtBox b d ∧ d.label = cls b) bs l) := by
  refine ⟨?_, ?_, ?_⟩
  · unfold yoloConvert
    rw [if_neg (by decide), if_pos rfl]
    refine mapM_forall₂ fun b hb => ⟨_, rfl, ⟨⟨⟨rfl, rfl⟩, rfl, rfl⟩, ?_⟩⟩
    show truncInt b.cls = _
    rw [hc b hb, truncInt_intCast]
  · unfold yoloConvert
    rw [if_pos rfl]
    refine mapM_forall₂ fun b hb => ⟨_, rfl, ⟨⟨⟨⟨rfl, rfl⟩, _, _, rfl, mid_sub _ _, mid_sub _ _⟩, rfl⟩, ?_⟩⟩
    show truncInt b.cls = _
    rw [hc b hb, truncInt_intCast]
  · unfold keypointsConvert
    refine mapM_forall₂ fun b hb => ⟨_, rfl, ⟨⟨⟨rfl, rfl⟩, rfl, rfl⟩, ?_⟩⟩
    show truncInt b.cls = _
    rw [hc b hb, truncInt_intCast]

/-- **C122** The same in the camera motion demo, where the label is the class as it is; the boxes for the mask are all
boxes. -/
theorem C122_camera (bs : List (YoloBox K)) (track : Bool) :
    ∃ l boxes, cameraConvert track bs = some (l, boxes) ∧
      List.Forall₂ (fun b d => (if track then AtBox b d else AtCenter b d) ∧ d.label = b.cls) bs l ∧
      List.Forall₂ (fun b a => a = ⟨[2, 2], [b.x1, b.y1, b.x2, b.y2]⟩) bs boxes := by
  have hboxes : List.Forall₂ (fun (b : YoloBox K) (a : NdArray K) => a = ⟨[2, 2], [b.x1, b.y1, b.x2, b.y2]⟩) bs
      (bs.map fun b => ⟨[2, 2], [b.xyxy.getD 0 0, b.xyxy.getD 1 0, b.xyxy.getD 2 0, b.xyxy.getD 3 0]⟩) := by
    rw [List.forall₂_map_right_iff, List.forall₂_same]
    exact fun _ _ => rfl
  unfold cameraConvert
  cases track with
  | true =>
    obtain ⟨l, hl, hr⟩ := mapM_forall₂ (l := bs) (f := fun b => boxDetection b.xyxy (b.xyxy.getLast?.getD 0))
      (R := fun b d => AtBox b d ∧ d.label = b.cls) fun b _ => ⟨_, rfl, ⟨⟨⟨rfl, rfl⟩, rfl, rfl⟩, rfl⟩⟩
    refine ⟨l, _, ?_, hr, hboxes⟩
    simp only [if_true]
    rw [hl]
    rfl
  | false =>
    obtain ⟨l, hl, hr⟩ := mapM_forall₂ (l := bs)
      (f := fun b => mkDetection ⟨[1, 2], [(b.xyxy.getD 0 0 + b.xyxy.getD 2 0) / 2,
        (b.xyxy.getD 1 0 + b.xyxy.getD 3 0) / 2]⟩ (some [b.xyxy.getD 4 0]) (b.xyxy.getLast?.getD 0) ())
      (R := fun b d => AtCenter b d ∧ d.label = b.cls) fun b _ =>
        ⟨_, rfl, ⟨⟨⟨⟨rfl, rfl⟩, _, _, rfl, mid_sub _ _, mid_sub _ _⟩, rfl⟩, rfl⟩⟩
    refine ⟨l, _, ?_, hr, hboxes⟩
    simp only [Bool.false_eq_true, if_false]
    rw [hl]
    rfl

/-- **C122** The same for SAHI and YOLOPv2. -/
theorem C122_boxes (bs : List (YoloBox K × ℤ)) (rows : List (YoloRow K)) :
    (∃ l, sahiConvert bs = some l ∧ List.Forall₂ (fun b d => AtBox b.1 d ∧ d.label = b.2) bs l) ∧
    (∃ l, yolopConvert rows = some l ∧
      List.Forall₂ (fun r d => AtBox ⟨r.x1, r.y1, r.x2, r.y2, r.conf, r.cls⟩ d ∧ d.label = r.cls) rows l) := by
  refine ⟨mapM_forall₂ fun b _ => ⟨_, rfl, ⟨⟨⟨rfl, rfl⟩, rfl, rfl⟩, rfl⟩⟩,
    mapM_forall₂ fun r _ => ⟨_, rfl, ⟨⟨⟨rfl, rfl⟩, rfl, rfl⟩, ?_⟩⟩⟩
  have := truncInt_intCast (K := K) (r.cls : ℤ)
  rwa [Int.cast_natCast] at this

/-- **C122** With YOLO-NAS and boxes: every box with its corners, score, and the name of its class. -/
theorem C122_nas_partial (names : List Str) (bs : List (YoloBox K)) (cls : YoloBox K → Nat)
    (hc : ∀ b ∈ bs, b.cls = (cls b : K) ∧ cls b < names.length) :
    ∃ l, nasConvert names "bbox".toList bs = some (some l) ∧
      List.Forall₂ (fun b d => AtBox b d ∧ names[cls b]? = some d.label) bs l := by
  unfold nasConvert
  rw [if_neg (by decide), if_pos rfl]
  obtain ⟨l, hl, hr⟩ := mapM_forall₂ (l := bs)
    (f := fun b => (names[(truncInt b.cls).toNat]?).bind fun name => boxDetection b.xyxy name)
    (R := fun b d => AtBox b d ∧ names[cls b]? = some d.label) (by
      intro b hb
      obtain ⟨h1, h2⟩ := hc b hb
      have h3 : truncInt b.cls = (cls b : ℤ) := by
        rw [h1]
        have := truncInt_intCast (K := K) (cls b : ℤ)
        rwa [Int.cast_natCast] at this
      rw [h3, Int.toNat_natCast, List.getElem?_eq_getElem h2]
      exact ⟨_, rfl, ⟨⟨rfl, rfl⟩, rfl, rfl⟩, rfl⟩)
  exact ⟨l, by rw [hl]; rfl, hr⟩

/-- **C122** The YOLOv4 demo follows the cars, at the middle of the box in pixels. -/
theorem C122_cars (shape : Nat × Nat) (bs : List (YoloBox K)) :
    ∃ l, yolo4Convert shape bs = some l ∧
      List.Forall₂ (fun b d => InMiddle (b.x1 * (shape.2 : K)) (b.y1 * (shape.1 : K)) (b.x2 * (shape.2 : K)) (b.y2 * (shape.1 : K)) d ∧
        d.extra = b ∧ d.scores = none) (bs.filter fun b => decide (b.cls = 2)) l := by
  unfold yolo4Convert
  exact mapM_forall₂ fun b _ => ⟨_, rfl, ⟨⟨⟨rfl, rfl⟩, _, _, rfl, mid_sub _ _, mid_sub _ _⟩, rfl, rfl⟩⟩

theorem mem_vehicleClasses (names : List Str) (n : Nat) : n ∈ vehicleClasses names ↔
    ∃ s, names[n]? = some s ∧ s ∈ ["car".toList, "motorcycle".toList, "bus".toList, "truck".toList] := by
  unfold vehicleClasses
  rw [List.mem_map]
  constructor
  · rintro ⟨⟨s, m⟩, h, rfl⟩
    rw [List.mem_filter, List.mk_mem_zipIdx_iff_getElem?] at h
    exact ⟨s, h.1, by simpa using h.2⟩
  · rintro ⟨s, h1, h2⟩
    refine ⟨(s, n), ?_, rfl⟩
    rw [List.mem_filter, List.mk_mem_zipIdx_iff_getElem?]
    exact ⟨h1, by simpa using h2⟩

/-- a class of vehicles -/
def IsVehicle (names : List Str) (n : Nat) : Prop :=
  ∃ s, names[n]? = some s ∧ s ∈ ["car".toList, "motorcycle".toList, "bus".toList, "truck".toList]

instance (names : List Str) (n : Nat) : Decidable (IsVehicle names n) :=
  decidable_of_iff _ (mem_vehicleClasses names n)

theorem forall₂_flatten {α β : Type} {R : α → β → Prop} {l : List (List α)} {m : List (List β)}
    (h : List.Forall₂ (List.Forall₂ R) l m) : List.Forall₂ R l.flatten m.flatten := by
  induction h with
  | nil => exact .nil
  | cons h _ ih => exact List.rel_append h ih

/-- **C122** The MMDetection demo follows the vehicles: the boxes of these classes in the order of the classes, each at
its center, with its score and class. -/
theorem C122_vehicles (names : List Str) (result : List (List (YoloBox K))) :
    ∃ l, mmConvert names result = some l ∧
      List.Forall₂ (fun b d => AtCenter b.1 d ∧ d.label = b.2)
        ((result.zipIdx.flatMap fun x => x.1.map fun b => (b, x.2)).filter fun b => decide (IsVehicle names b.2)) l := by
  unfold mmConvert
  obtain ⟨l, hl, hr⟩ := mapM_forall₂ (l := result.zipIdx)
    (f := fun x => if !(vehicleClasses names).contains x.2 then some []
      else x.1.mapM fun b => mkDetection ⟨[2], [(b.x1 + b.x2) / 2, (b.y1 + b.y2) / 2]⟩ (some [b.conf]) x.2 ())
    (R := fun x (l : List (RawDet K Nat Unit)) => List.Forall₂ (fun b d => AtCenter b.1 d ∧ d.label = b.2)
      ((x.1.map fun b => (b, x.2)).filter fun b => decide (IsVehicle names b.2)) l) (by
      rintro ⟨bs, n⟩ _
      by_cases h : n ∈ vehicleClasses names
      · have hv : IsVehicle names n := (mem_vehicleClasses names n).mp h
        simp only [List.contains_eq_mem, h, decide_true, Bool.not_true, Bool.false_eq_true, if_false]
        rw [List.filter_map, List.filter_eq_self.mpr (by intro _ _; simpa using hv)]
        simp only [List.forall₂_map_left_iff]
        exact mapM_forall₂ fun _ _ => ⟨_, rfl, ⟨⟨⟨⟨rfl, rfl⟩, _, _, rfl, mid_sub _ _, mid_sub _ _⟩, rfl⟩, rfl⟩⟩
      · have hv : ¬ IsVehicle names n := fun hv => h ((mem_vehicleClasses names n).mpr hv)
        simp only [List.contains_eq_mem, h, decide_false, Bool.not_false, if_true]
        refine ⟨[], rfl, ?_⟩
        rw [List.filter_map, List.filter_eq_nil_iff.mpr (by intro b _; simpa using hv)]
        exact .nil)
  refine ⟨l.flatten, by rw [hl]; rfl, ?_⟩
  rw [List.filter_flatMap, List.flatMap_def]
  refine forall₂_flatten ?_
  rw [List.forall₂_map_left_iff]
  exact hr

/-- **C122** The Detectron2 demo follows the boxes of all classes, at their centers. -/
theorem C122_detectron (bs : List (YoloBox K)) :
    ∃ l, detectronConvert bs = some l ∧ List.Forall₂ (fun b d => InMiddle b.x1 b.y1 b.x2 b.y2 d ∧ d.scores = none) bs l :=
  mapM_forall₂ fun _ _ => ⟨_, rfl, ⟨⟨⟨rfl, rfl⟩, _, _, rfl, mid_sub _ _, mid_sub _ _⟩, rfl⟩⟩

theorem getElem?_flatMap_pair {α β : Type} (f g : α → β) : ∀ (l : List α) (j : Nat),
    (l.flatMap fun x => [f x, g x])[2 * j]? = (l[j]?).map f ∧ (l.flatMap fun x => [f x, g x])[2 * j + 1]? = (l[j]?).map g
  | [], j => by simp
  | a :: l, 0 => by simp
  | a :: l, j + 1 => by
    obtain ⟨h1, h2⟩ := getElem?_flatMap_pair f g l j
    have e1 : 2 * (j + 1) = (2 * j + 1) + 1 := by ring
    rw [List.flatMap_cons, e1]
    exact ⟨by simpa using h1, by simpa using h2⟩

/-- the entries of point `j` of an array with two columns -/
def RowIs (d : RawDet K L X) (j : Nat) (x y : K) : Prop :=
  d.points.data[2 * j]? = some x ∧ d.points.data[2 * j + 1]? = some y

/-- the score of point `j` -/
def ScoreIs (d : RawDet K L X) (j : Nat) (s : K) : Prop := ∃ l, d.scores = some l ∧ l[j]? = some s

/-- an array of points in the plane with one score each -/
structure Points (n : Nat) (d : RawDet K L X) : Prop extends Fresh d where
  shape : d.points.shape = [n, 2]
  length : d.points.data.length = 2 * n
  scores : ∃ l, d.scores = some l ∧ l.length = n

theorem length_flatMap_pair {α β : Type} (f g : α → β) (l : List α) : (l.flatMap fun x => [f x, g x]).length = 2 * l.length := by
  induction l with
  | nil => rfl
  | cons a l ih => rw [List.flatMap_cons, List.length_append, ih, List.length_cons]; simp; ring

/-- **C122** In the profiling demo every pose becomes one detection. A keypoint that was found is at its place in the
video, with score 1; one that was not found has score 0. -/
theorem C122_poses (width height : Nat) (peaks : Nat → Nat → K × K) (objs : List (List ℤ)) :
    ∃ l, posesConvert width height peaks objs = some l ∧ List.Forall₂ (fun obj d => Points obj.length d ∧
      ∀ j k, obj[j]? = some k →
        (0 ≤ k → RowIs d j ((peaks j k.toNat).2 * width) ((peaks j k.toNat).1 * height) ∧ ScoreIs d j 1) ∧
        (k < 0 → RowIs d j 0 0 ∧ ScoreIs d j 0)) objs l := by
  unfold posesConvert
  refine mapM_forall₂ fun obj _ => ⟨_, rfl, ⟨⟨⟨rfl, rfl⟩, rfl, ?_, _, rfl, ?_⟩, ?_⟩⟩
  · simp only [length_flatMap_pair, List.length_map, List.length_zipIdx]
  · simp
  · intro j k hj
    have hz : obj.zipIdx[j]? = some (k, j) := by
      rw [List.getElem?_zipIdx, hj]
      simp
    constructor
    · intro hk
      refine ⟨⟨?_, ?_⟩, _, rfl, ?_⟩
      · simp only
        rw [(getElem?_flatMap_pair _ _ _ j).1, List.getElem?_map, hz]
        simp [hk]
      · simp only
        rw [(getElem?_flatMap_pair _ _ _ j).2, List.getElem?_map, hz]
        simp [hk]
      · rw [List.getElem?_map, List.getElem?_map, hz]
        simp [hk]
    · intro hk
      have hk' : ¬ 0 ≤ k := by omega
      refine ⟨⟨?_, ?_⟩, _, rfl, ?_⟩
      · simp only
        rw [(getElem?_flatMap_pair _ _ _ j).1, List.getElem?_map, hz]
        simp [hk']
      · simp only
        rw [(getElem?_flatMap_pair _ _ _ j).2, List.getElem?_map, hz]
        simp [hk']
      · rw [List.getElem?_map, List.getElem?_map, hz]
        simp [hk']

/-- **C122** In the OpenPose demos every pose becomes one detection with its points and scores, unless all numbers of all
poses are 0; then there are no detections. -/
theorem C122_openpose {n : Nat} (label : L) (poses : List (List (K × K × K))) (hn : ∀ p ∈ poses, p.length = n) :
    ((∀ p ∈ poses, ∀ x ∈ p, x = (0, 0, 0)) → openposeConvert n label poses = some []) ∧
    ((∃ p ∈ poses, ∃ x ∈ p, x ≠ (0, 0, 0)) → ∃ l, openposeConvert n label poses = some l ∧
      List.Forall₂ (fun p d => Points n d ∧ d.label = label ∧
        ∀ (j : Nat) x, p[j]? = some x → RowIs d j x.1 x.2.1 ∧ ScoreIs d j x.2.2) poses l) := by
  unfold openposeConvert
  constructor
  · intro h
    rw [if_pos]
    rw [List.all_eq_true]
    intro p hp
    rw [List.all_eq_true]
    intro x hx
    rw [h p hp x hx]
    simp
  · rintro ⟨p, hp, x, hx, hne⟩
    rw [if_neg]
    · refine mapM_forall₂ fun q hq => ⟨_, rfl, ⟨⟨rfl, rfl⟩, rfl, ?_, _, rfl, ?_⟩, rfl, ?_⟩
      · simp only [length_flatMap_pair, hn q hq]
      · rw [List.length_map, hn q hq]
      · intro j y hy
        refine ⟨⟨?_, ?_⟩, _, rfl, ?_⟩
        · simp only
          rw [(getElem?_flatMap_pair _ _ _ j).1, hy]
          rfl
        · simp only
          rw [(getElem?_flatMap_pair _ _ _ j).2, hy]
          rfl
        · rw [List.getElem?_map, hy]
          rfl
    · intro h
      rw [List.all_eq_true] at h
      have h1 := h p hp
      rw [List.all_eq_true] at h1
      have h2 := h1 x hx
      simp only [Bool.and_eq_true, decide_eq_true_eq] at h2
      exact hne (Prod.ext h2.1.1 (Prod.ext h2.1.2 h2.2))

end

/-! ### The tracker can work with them -/

/-- the boxes have the shape that the tracker needs, so that with distances that are defined for such arrays no call raises
(`C67_shaped`) -/
theorem C122_shaped_boxes {h : Ref → Det K L X} {dets : List Ref}
    (hd : ∀ r ∈ dets, ∃ b d, AtBox b d ∧ d.toDet = some (h r)) : CallShaped (fun _ => (2, 2)) dets none h := by
  have hall : ∀ r ∈ dets, ∃ b : YoloBox K, (h r).points = ⟨2, 2, [b.x1, b.y1, b.x2, b.y2]⟩ ∧ (h r).absPoints = (h r).points ∧
      (h r).scores = some [b.conf, b.conf] := by
    intro r hr
    obtain ⟨b, d, hb, hdet⟩ := hd r hr
    unfold RawDet.toDet at hdet
    rw [hb.abs, hb.points] at hdet
    simp only [NdArray.toPts, Option.some.injEq] at hdet
    exact ⟨b, by rw [← hdet], by rw [← hdet], by rw [← hdet]; exact hb.scores⟩
  refine ⟨⟨(by simp), fun r hr => ?_⟩, (by simp), fun r hr => ?_⟩
  · obtain ⟨b, h1, h2, h3⟩ := hall r hr
    unfold DetOk
    rw [h2, h1, h3]
    refine ⟨rfl, rfl, rfl, fun s hs => ?_⟩
    cases hs
    rfl
  · obtain ⟨b, h1, -, -⟩ := hall r hr
    rw [h1]
    exact ⟨rfl, rfl, rfl⟩

/-- and so have the centers -/
theorem C122_shaped_centers [Ring K] {h : Ref → Det K L X} {dets : List Ref}
    (hd : ∀ r ∈ dets, ∃ x1 y1 x2 y2 d, InMiddle x1 y1 x2 y2 d ∧ (∀ s, d.scores = some s → s.length = 1) ∧
      d.toDet = some (h r)) : CallShaped (fun _ => (1, 2)) dets none h := by
  have hall : ∀ r ∈ dets, ∃ x y : K, (h r).points = ⟨1, 2, [x, y]⟩ ∧ (h r).absPoints = (h r).points ∧
      (∀ s, (h r).scores = some s → s.length = 1) := by
    intro r hr
    obtain ⟨_, _, _, _, d, hb, hs, hdet⟩ := hd r hr
    obtain ⟨x, y, hp, -, -⟩ := hb.points
    unfold RawDet.toDet at hdet
    rw [hb.abs, hp] at hdet
    simp only [NdArray.toPts, Option.some.injEq] at hdet
    exact ⟨x, y, by rw [← hdet], by rw [← hdet], by rw [← hdet]; exact hs⟩
  refine ⟨⟨(by simp), fun r hr => ?_⟩, (by simp), fun r hr => ?_⟩
  · obtain ⟨x, y, h1, h2, h3⟩ := hall r hr
    unfold DetOk
    rw [h2, h1]
    exact ⟨rfl, rfl, rfl, h3⟩
  · obtain ⟨x, y, h1, -, -⟩ := hall r hr
    rw [h1]
    exact ⟨rfl, rfl, rfl⟩

/-! ### Where detections are lost -/

section
variable {D F : Type} [LinearOrder K] [Zero K] [LinearOrder D] [OrderTop D] [Zero D] [DecidableEq L]

theorem update_nothing (cfg : Cfg K L D F X) {w : World K L D F X} (hw : w.objs = []) :
    ∃ w', update cfg w none 1 none = (w', .ok []) ∧ w'.objs = [] := by
  have h1 : survivors cfg ([] : List (Obj K L D F)) = [] := by unfold survivors; split <;> rfl
  have h2 : aliveKeys cfg ([] : List (Obj K L D F)) = [] := by unfold aliveKeys; split <;> simp [h1]
  have h3 : deadKeys cfg ([] : List (Obj K L D F)) = [] := by unfold deadKeys; split <;> simp [h1]
  rw [C24_skipped_frame_partial]
  refine ⟨{ w with objs := [] }, ?_, rfl⟩
  unfold update updateCore
  simp only [hw, h2, h3, World.keysWhere, List.filter_nil, stageDet, List.length_nil, if_true,
    List.append_nil, List.foldl_nil, advance, h1, List.map_nil]
  unfold reidStage stageReid
  split
  · rename_i e he
    split at he <;> simp at he
  · rename_i e he
    split at he <;> simp at he <;> simp [activeObjects, ← he.1]

/-- what `tracker.update(detections=None)` returns in `n` frames -/
def framesOfNone (cfg : Cfg K L D F X) : Nat → World K L D F X → List (Except Err (List (Obj K L D F)))
  | 0, _ => []
  | n + 1, w => (update cfg w none 1 none).2 :: framesOfNone cfg n (update cfg w none 1 none).1

theorem framesOfNone_empty (cfg : Cfg K L D F X) (w : World K L D F X) (hw : w.Initial) (n : Nat) :
    ∀ x ∈ framesOfNone cfg n w, x = .ok [] := by
  have h0 := hw.1
  clear hw
  induction n generalizing w with
  | zero => intro x hx; cases hx
  | succ n ih =>
    intro x hx
    obtain ⟨w', h1, h2⟩ := update_nothing cfg h0
    rw [framesOfNone, h1] at hx
    rcases List.mem_cons.mp hx with rfl | hx
    · rfl
    · exact ih w' h2 x hx

end

/-- **C122** is false for YOLO-NAS with centroids: the detections are made, but `None` is returned, and a tracker that gets
`None` in every frame never returns an object. -/
theorem C122_false_nas [Field K] [LinearOrder K] [IsStrictOrderedRing K] [FloorRing K] {D F : Type} [LinearOrder D]
    [OrderTop D] [Zero D] [DecidableEq L] :
    (∀ names (bs : List (YoloBox K)), nasConvert names "centroid".toList bs = some none) ∧
    ∀ (cfg : Cfg K L D F X) (w : World K L D F X), w.Initial → ∀ n, ∀ x ∈ framesOfNone cfg n w, x = .ok [] := by
  constructor
  · intro names bs
    unfold nasConvert
    rw [if_pos rfl]
    obtain ⟨l, hl, -⟩ := mapM_forall₂ (l := bs) (f := fun b => mkDetection (X := Unit) ⟨[2], [b.xywh.getD 0 0, b.xywh.getD 1 0]⟩
      (some [b.xywh.getD 4 0]) (truncInt (b.xywh.getLast?.getD 0)) ()) (R := fun _ _ => True) fun b _ => ⟨_, rfl, trivial⟩
    rw [hl]
    rfl
  · exact framesOfNone_empty

/-- **C122** is false for Detectron2: the demo is meant for vehicles, but follows persons as well, and does not tell them
from cars. -/
theorem C122_false_detectron : (detectronConvert ([⟨0, 0, 2, 2, 1, 0⟩, ⟨4, 4, 6, 6, 1, 2⟩] : List (YoloBox ℚ))).map
    (fun l => l.map fun d => (d.points.data, d.label)) = some [([1, 1], ()), ([5, 5], ())] := by decide +kernel

/-! ### Examples -/

/-- C122: two boxes -/
example : (∀ b ∈ ([⟨0, 0, 2, 4, 1 / 2, 0⟩, ⟨4, 4, 6, 6, 1, 2⟩] : List (YoloBox ℚ)), b.cls = ((b.cls.floor : ℤ) : ℚ)) ∧
    (yoloConvert "centroid".toList ([⟨0, 0, 2, 4, 1 / 2, 0⟩, ⟨4, 4, 6, 6, 1, 2⟩] : List (YoloBox ℚ))).map
      (fun l => l.map fun d => (d.points.data, d.scores, d.label)) =
      some [([1, 2], some [1 / 2], 0), ([5, 5], some [1], 2)] := by decide +kernel

/-- C122: names of the classes -/
example : ∀ b ∈ ([⟨0, 0, 2, 4, 1 / 2, 1⟩] : List (YoloBox ℚ)),
    b.cls = ((b.cls.floor.toNat : Nat) : ℚ) ∧ b.cls.floor.toNat < ["person".toList, "car".toList].length := by
  decide +kernel

/-- C122: a pose whose second keypoint was not found -/
example : (posesConvert 100 50 (fun _ _ => (1 / 2, 1 / 4)) [[0, -1]] : Option (List (RawDet ℚ Unit Unit))).map
    (fun l => l.map fun d => (d.points.data, d.scores)) = some [([25, 25, 0, 0], some [1, 0])] := by decide +kernel

/-- C122: poses with two points -/
example : (∀ p ∈ ([[(1, 2, 1), (0, 0, 0)], [(0, 0, 0), (0, 0, 0)]] : List (List (ℚ × ℚ × ℚ))), p.length = 2) ∧
    ∃ p ∈ ([[(1, 2, 1), (0, 0, 0)], [(0, 0, 0), (0, 0, 0)]] : List (List (ℚ × ℚ × ℚ))), ∃ x ∈ p, x ≠ (0, 0, 0) := by
  decide +kernel

/-- C122: a box for the tracker -/
example : ∀ r ∈ [0], ∃ (b : YoloBox ℚ) (d : RawDet ℚ ℤ Unit), AtBox b d ∧
    d.toDet = some ((fun _ => ⟨⟨2, 2, [0, 0, 1, 1]⟩, some [1, 1], 3, (), ⟨2, 2, [0, 0, 1, 1]⟩, none⟩ : Ref → Det ℚ ℤ Unit) r) :=
  fun _ _ => ⟨⟨0, 0, 1, 1, 1, 3⟩, ⟨⟨[2, 2], [0, 0, 1, 1]⟩, some [1, 1], 3, (), ⟨[2, 2], [0, 0, 1, 1]⟩, none⟩,
    ⟨⟨rfl, rfl⟩, rfl, rfl⟩, rfl⟩

/-- C122: a center for the tracker -/
example : ∀ r ∈ [0], ∃ (x1 y1 x2 y2 : ℚ) (d : RawDet ℚ ℤ Unit), InMiddle x1 y1 x2 y2 d ∧
    (∀ s, d.scores = some s → s.length = 1) ∧
    d.toDet = some ((fun _ => ⟨⟨1, 2, [1, 1]⟩, none, 3, (), ⟨1, 2, [1, 1]⟩, none⟩ : Ref → Det ℚ ℤ Unit) r) :=
  fun _ _ => ⟨0, 0, 2, 2, ⟨⟨[1, 2], [1, 1]⟩, none, 3, (), ⟨[1, 2], [1, 1]⟩, none⟩,
    ⟨⟨rfl, rfl⟩, 1, 1, rfl, by norm_num, by norm_num⟩, by simp, rfl⟩

/-- C122: a tracker that never gets detections -/
example : ∀ x ∈ framesOfNone Toy.cfg 2 Toy.w0, x = .ok [] := framesOfNone_empty Toy.cfg Toy.w0 ⟨rfl, rfl, rfl⟩ 2

end Norfair.Props
