import Verif.Spec.KeyLoop
import Verif.Props.YoloDemo
import Verif.Props.DemoDistances
import Verif.Props.Scored
import Verif.Props.Deprecated
import Mathlib.Algebra.Order.Floor.Semifield

/-! C131: the loop of the demo with keypoints and boxes. -/

set_option linter.unusedSectionVars false

namespace Norfair.Props

open Norfair Norfair.Spec

variable {K D F H : Type}

section
variable [Field K] [LinearOrder K] [IsStrictOrderedRing K] [FloorRing K]

/-! ### The detections -/

theorem mapM_toDet {α L X : Type} {f : α → Option (RawDet K L X)} {g : α → Det K L X} {l : List α}
    (hf : ∀ a ∈ l, ∃ b, f a = some b ∧ b.toDet = some (g a)) :
    ∃ bs, l.mapM f = some bs ∧ bs.mapM RawDet.toDet = some (l.map g) := by
  have := mapM_bind_map hf
  obtain ⟨bs, h1, h2⟩ := Option.bind_eq_some_iff.mp this
  exact ⟨bs, h1, h2⟩

theorem mapM_append_some {α β : Type} {f : α → Option β} {a b : List α} {a' b' : List β} (ha : a.mapM f = some a')
    (hb : b.mapM f = some b') : (a ++ b).mapM f = some (a' ++ b') := by
  rw [List.mapM_append, ha, hb]
  rfl

theorem keyDetections_eq {n : Nat} {f : PoseFrame K} (hf : ∀ p ∈ f.poses.getD [], p.length = n) :
    keyDetections n f = some (frameDets f) := by
  obtain ⟨bs, hb1, hb2⟩ : ∃ bs, keypointsConvert f.boxes = some bs ∧ bs.mapM RawDet.toDet = some (f.boxes.map cornerDet) :=
    mapM_toDet fun b _ => ⟨_, rfl, rfl⟩
  have key : ∀ ps : List (List (K × K × K)), (∀ p ∈ ps, p.length = n) → ∃ as, openposeConvert n (-1 : ℤ) ps = some as ∧
      as.mapM RawDet.toDet = some (if ∃ p ∈ ps, ∃ x ∈ p, x ≠ (0, 0, 0) then ps.map poseDet else []) := by
    intro ps hps
    unfold openposeConvert
    by_cases h : ∃ p ∈ ps, ∃ x ∈ p, x ≠ (0, 0, 0)
    · rw [if_pos h, if_neg]
      · refine mapM_toDet fun p hp => ⟨_, rfl, ?_⟩
        unfold poseDet
        rw [hps p hp]
        rfl
      · obtain ⟨p, hp, x, hx, hne⟩ := h
        intro hall
        have := List.all_eq_true.mp (List.all_eq_true.mp hall p hp) x hx
        simp only [Bool.and_eq_true, decide_eq_true_eq] at this
        exact hne (Prod.ext this.1.1 (Prod.ext this.1.2 this.2))
    · rw [if_neg h, if_pos]
      · exact ⟨_, rfl, rfl⟩
      · push_neg at h
        rw [List.all_eq_true]
        intro p hp
        rw [List.all_eq_true]
        intro x hx
        rw [h p hp x hx]
        simp
  unfold keyDetections frameDets
  cases hp : f.poses with
  | none =>
    simp only [Option.bind_some, hb1, List.nil_append, Option.getD_none]
    rw [hb2]
    simp
  | some ps =>
    rw [hp] at hf
    obtain ⟨as, h1, h2⟩ := key ps hf
    simp only [h1, Option.bind_some, hb1, Option.getD_some]
    exact mapM_append_some h2 hb2

/-! ### The pictures -/

theorem rows_pairs {n : Nat} {p : Pts K} (hp : HasShape (n, 2) p) :
    p.rows = (List.range n).map fun i => [p.data.getD (2 * i) 0, p.data.getD (2 * i + 1) 0] := by
  obtain ⟨h1, h2, h3⟩ := hp
  simp only at h1 h2 h3
  unfold Pts.rows
  rw [h1, h2]
  refine List.map_congr_left fun i hi => ?_
  rw [List.mem_range] at hi
  rw [Nat.mul_comm i 2]
  have a1 : 2 * i < p.data.length := by omega
  have a2 : 2 * i + 1 < p.data.length := by omega
  rw [List.drop_eq_getElem_cons a1, List.drop_eq_getElem_cons a2, List.getD_eq_getElem?_getD, List.getD_eq_getElem?_getD,
    List.getElem?_eq_getElem a1, List.getElem?_eq_getElem a2]
  rfl

theorem truncInt_div (h k : Nat) (hk : 0 < k) : truncInt ((h : K) / (k : K)) = ((h / k : Nat) : ℤ) := by
  unfold truncInt
  rw [if_pos (by positivity), ← Nat.floor_div_eq_div (K := K), Int.natCast_floor_eq_floor (by positivity)]

theorem poses_drawn (dr : EvalDraw K ℤ H) (flt : FilterOps K F) {n : Nat} {f : PoseFrame K} (hh : 0 < f.h)
    (objs : List (Obj K ℤ D F)) (ho : ∀ o ∈ objs, o.label = -1 → HasShape (n, 2) (o.estimate flt) ∧
      o.pointHits.length = n ∧ ∃ i, o.id = some i) :
    drawTrackedObjects dr.env f.shape
      (some ((objs.filter fun o => decide (o.label = -1)).map (Drawable.ofObj flt dr.idOf dr.lab)))
      (color := some (.tup [0, 128, 0])) = some (some (posesOn dr flt n f objs)) := by
  have e1 : truncInt (((f.h : Nat) : K) / 100 * (1 / 2)) = ((f.h / 200 : Nat) : ℤ) := by
    rw [← truncInt_div (K := K) f.h 200 (by norm_num)]
    congr 1
    push_cast
    ring
  have e2 : truncInt (((f.h : Nat) : K) / 100 / 5) = ((f.h / 500 : Nat) : ℤ) := by
    rw [← truncInt_div (K := K) f.h 500 (by norm_num)]
    congr 1
    push_cast
    ring
  have e3 : truncInt (max (((f.h : Nat) : K) / 100 / 100) 1) = ((max (f.h / 10000) 1 : Nat) : ℤ) := by
    have a : ((f.h : Nat) : K) / 100 / 100 = (f.h : K) / ((10000 : Nat) : K) := by
      push_cast
      ring
    rw [a]
    rcases le_total (((f.h : Nat) : K) / ((10000 : Nat) : K)) 1 with h | h
    · rw [max_eq_right h, max_eq_right]
      · simp [truncInt]
      · have : truncInt ((f.h : K) / ((10000 : Nat) : K)) ≤ 1 := by
          unfold truncInt
          rw [if_pos (by positivity)]
          have := Int.floor_le_floor h
          simpa using this
        rw [truncInt_div _ _ (by norm_num)] at this
        exact_mod_cast this
    · rw [max_eq_left h, truncInt_div _ _ (by norm_num), max_eq_left]
      have : (1 : ℤ) ≤ truncInt ((f.h : K) / ((10000 : Nat) : K)) := by
        unfold truncInt
        rw [if_pos (by positivity)]
        exact Int.le_floor.mpr (by simpa using h)
      rw [truncInt_div _ _ (by norm_num)] at this
      exact_mod_cast this
  have e4 : ((max (f.h / 10000) 1 : Nat) : K) ≠ 0 := by
    rw [Nat.cast_ne_zero]
    omega
  have e5 : decide (0 < ((f.h : Nat) : K) / 100 / 10) = true := by
    rw [decide_eq_true_iff]
    have : (0 : K) < (f.h : K) := by exact_mod_cast hh
    positivity
  unfold drawTrackedObjects drawPoints PoseFrame.shape
  simp only [List.headD_cons, Option.getD_none, Option.getD_some, e1, e2, e3, Int.cast_natCast, if_neg e4, e5]
  unfold posesOn
  simp only
  generalize hr : ((f.h / 200 : Nat) : ℤ) = r
  generalize ((max (f.h / 10000) 1 : Nat) : K) = s
  generalize ((f.h / 500 : Nat) : ℤ) = t
  suffices key : ∀ (a : DrawPointsArgs K), a.hideDeadPoints = true → a.drawPoints = true → a.drawLabels = false →
      a.drawIds = true → a.drawScores = false → a.labelSize = none → a.textSize = some s → a.textThickness = some t →
      ∀ (objs : List (Obj K ℤ D F)) (k : Nat) (c : Canvas K),
      (∀ o ∈ objs, o.label = -1 → HasShape (n, 2) (o.estimate flt) ∧ o.pointHits.length = n ∧ ∃ i, o.id = some i) →
      drawPointsLoop dr.env a (.tup [0, 128, 0]) r (-1) none k
        ((objs.filter fun o => decide (o.label = -1)).map (Drawable.ofObj flt dr.idOf dr.lab)) c =
      some ((objs.filter fun o => decide (o.label = -1) && o.pointHits.any fun c => decide (0 < c)).foldl
        (fun (c : Canvas K) o => ((seenPoints flt n o).foldl
          (fun (c : Canvas K) p => c.circle [truncInt p.1, truncInt p.2] r (-1) [0, 128, 0]) c).text (idText dr o)
          (some [truncInt (((seenPoints flt n o).map (·.1)).sum / (seenPoints flt n o).length - (r : K)),
            truncInt (((seenPoints flt n o).map (·.2)).sum / (seenPoints flt n o).length - (r : K))]) [0, 128, 0]
          (some s) (some t)) c) by
    exact congrArg (Option.map some) (key _ rfl rfl rfl e5 rfl rfl rfl rfl objs 0 .base ho)
  intro a a1 a2 a3 a4 a5 a6 a7 a8 objs
  induction objs with
  | nil => intro k c _; rfl
  | cons o os ih =>
    intro k c ho
    have ih := fun k c => ih k c fun o ho' => ho o (List.mem_cons_of_mem _ ho')
    by_cases hl : o.label = -1
    · obtain ⟨hs, hn, i, hi⟩ := ho o List.mem_cons_self hl
      have hlive : (Drawable.ofObj flt dr.idOf dr.lab o).live =
          (List.range n).map fun i => decide (0 < o.pointHits.getD i 0) := by
        show o.livePoints = _
        unfold Obj.livePoints
        apply List.ext_getElem
        · simp [hn]
        · intro j h1 h2
          have h3 : j < o.pointHits.length := by simpa using h1
          simp [List.getD_eq_getElem?_getD, List.getElem?_eq_getElem h3]
      have hany : (Drawable.ofObj flt dr.idOf dr.lab o).live.any (fun x => x) =
          o.pointHits.any fun c => decide (0 < c) := by
        show o.livePoints.any _ = _
        unfold Obj.livePoints
        rw [List.any_map]
        rfl
      have hpts : (Drawable.ofObj flt dr.idOf dr.lab o).points = (List.range n).map fun i =>
          [(o.estimate flt).data.getD (2 * i) 0, (o.estimate flt).data.getD (2 * i + 1) 0] := rows_pairs hs
      rw [List.filter_cons, if_pos (by simpa using hl), List.map_cons, drawPointsLoop, List.filter_cons, hany, a1]
      by_cases hv : (o.pointHits.any fun c => decide (0 < c)) = true
      · have hobj : objColor dr.env (.tup [0, 128, 0]) (Drawable.ofObj flt dr.idOf dr.lab o) k = some [0, 128, 0] := by
          simp [objColor, parseColor]
        have htext : buildText dr.env.str dr.env.fmt (Drawable.ofObj flt dr.idOf dr.lab o) false true false =
            idText dr o := by
          simp [buildText, Drawable.ofObj, hi, idText]
        have hzip : (List.zip ((List.range n).map fun i => [(o.estimate flt).data.getD (2 * i) 0,
            (o.estimate flt).data.getD (2 * i + 1) 0]) ((List.range n).map fun i => decide (0 < o.pointHits.getD i 0))) =
            (List.range n).map fun i => ([(o.estimate flt).data.getD (2 * i) 0, (o.estimate flt).data.getD (2 * i + 1) 0],
              decide (0 < o.pointHits.getD i 0)) := by
          rw [List.zip_map']
        have hcirc : drawCircles true r (-1) [0, 128, 0] ((List.range n).map fun i =>
            ([(o.estimate flt).data.getD (2 * i) 0, (o.estimate flt).data.getD (2 * i + 1) 0],
              decide (0 < o.pointHits.getD i 0))) c =
            (seenPoints flt n o).foldl
              (fun (c : Canvas K) p => c.circle [truncInt p.1, truncInt p.2] r (-1) [0, 128, 0]) c := by
          unfold drawCircles seenPoints
          rw [List.foldl_map, List.foldl_map, List.foldl_filter]
          simp
        have hmask : maskRows ((List.range n).map fun i => [(o.estimate flt).data.getD (2 * i) 0,
            (o.estimate flt).data.getD (2 * i + 1) 0]) ((List.range n).map fun i => decide (0 < o.pointHits.getD i 0)) =
            (seenPoints flt n o).map fun p => [p.1, p.2] := by
          unfold maskRows seenPoints
          rw [hzip, List.filter_map, List.map_map, List.map_map]
          rfl
        obtain ⟨x, hx, hxp⟩ := List.any_eq_true.mp hv
        obtain ⟨j, hj, rfl⟩ := List.getElem_of_mem hx
        have hne : (seenPoints flt n o) ≠ [] := by
          unfold seenPoints
          rw [ne_eq, List.map_eq_nil_iff, List.filter_eq_nil_iff]
          intro hall
          refine hall j (by rw [List.mem_range]; omega) ?_
          rw [List.getD_eq_getElem?_getD, List.getElem?_eq_getElem hj]
          exact hxp
        have hn0 : 0 < n := by omega
        have hhead : (((List.range n).map fun i => [(o.estimate flt).data.getD (2 * i) 0,
            (o.estimate flt).data.getD (2 * i + 1) 0]).headD []).length = 2 := by
          obtain ⟨m, rfl⟩ : ∃ m, n = m + 1 := ⟨n - 1, by omega⟩
          rw [List.range_succ_eq_map]
          rfl
        have hmean : meanRows 2 ((seenPoints flt n o).map fun p => [p.1, p.2]) =
            some [((seenPoints flt n o).map (·.1)).sum / (seenPoints flt n o).length,
              ((seenPoints flt n o).map (·.2)).sum / (seenPoints flt n o).length] := by
          unfold meanRows
          rw [if_neg (by simpa using hne)]
          simp [List.range_succ, List.sum_eq_foldl, Function.comp_def]
        rw [if_neg (by rw [hv]; decide), if_pos (by rw [Bool.and_eq_true]; exact ⟨decide_eq_true hl, hv⟩)]
        simp only [hobj, a2, a3, a4, a5, a6, a7, a8, Bool.false_or, Bool.or_false, if_true, htext, hlive, hpts, hzip, hcirc,
          hmask, hhead, hmean, ih, List.foldl_cons, Option.getD_none, Option.map_some, List.map_cons, List.map_nil,
          Option.none_or]
      · rw [if_pos (by rw [Bool.eq_false_iff.mpr hv]; rfl), if_neg (by rw [Bool.and_eq_true]; exact fun h => hv h.2)]
        exact ih k c
    · rw [List.filter_cons, if_neg (by simpa using hl), List.filter_cons, if_neg (by simp [hl])]
      exact ih k c

theorem boxes_drawn (dr : EvalDraw K ℤ H) (hpal : dr.env.palette.colors ≠ []) (flt : FilterOps K F) (f : PoseFrame K)
    (objs : List (Obj K ℤ D F)) (ho : ∀ o ∈ objs, 0 < o.label → HasShape (2, 2) (o.estimate flt)) :
    drawTrackedBoxes dr.env f.shape
      (some ((objs.filter fun o => decide (0 < o.label)).map (Drawable.ofObj flt dr.idOf dr.lab)))
      (colorByLabel := true) = some (boxesOn dr flt f objs) := by
  unfold drawTrackedBoxes drawBoxes PoseFrame.shape boxesOn
  simp only [Option.getD_none, Option.getD_some, List.foldl_cons, List.foldl_nil, Nat.zero_max, if_true]
  generalize (truncInt (((max (max f.h f.w) 3 : Nat) : K) / 500) : ℤ) = t
  suffices key : ∀ (a : DrawBoxesArgs K), a.drawBox = true → a.drawLabels = false → a.drawIds = false →
      a.drawScores = false → ∀ (objs : List (Obj K ℤ D F)) (k : Nat) (c : Canvas K),
      (∀ o ∈ objs, 0 < o.label → HasShape (2, 2) (o.estimate flt)) →
      drawBoxesLoop dr.env a (.str "by_label".toList) t none k
        ((objs.filter fun o => decide (0 < o.label)).map (Drawable.ofObj flt dr.idOf dr.lab)) c =
      some ((objs.filter fun o => decide (0 < o.label)).foldl (fun (c : Canvas K) o =>
        c.rectangle [truncInt ((o.estimate flt).data.getD 0 0), truncInt ((o.estimate flt).data.getD 1 0)]
          [truncInt ((o.estimate flt).data.getD 2 0), truncInt ((o.estimate flt).data.getD 3 0)] t (labelColor dr o)) c) by
    exact key _ rfl rfl rfl rfl objs 0 .base ho
  intro a a1 a2 a3 a4 objs
  induction objs with
  | nil => intro k c _; rfl
  | cons o os ih =>
    intro k c ho
    have ih := fun k c => ih k c fun o ho' => ho o (List.mem_cons_of_mem _ ho')
    rw [List.filter_cons]
    by_cases hl : 0 < o.label
    · rw [if_pos (by simpa using hl)]
      obtain ⟨x0, y0, x1, y1, e1, e2⟩ := Pts.rows_box (ho o List.mem_cons_self hl)
      have hc : objColor dr.env (.str "by_label".toList) (Drawable.ofObj flt dr.idOf dr.lab o) k = some (labelColor dr o) := by
        rw [objColor, if_neg (by decide), if_pos rfl]
        exact choose_some dr hpal _
      have htext : buildText dr.env.str dr.env.fmt (Drawable.ofObj flt dr.idOf dr.lab o) false false false = [] := by
        simp [buildText]
      have hpt : (Drawable.ofObj flt dr.idOf dr.lab o).points = [[x0, y0], [x1, y1]] := e2
      rw [List.map_cons, drawBoxesLoop]
      simp only [hc, a1, a2, a3, a4, htext, hpt, List.map_cons, List.map_nil, if_true]
      rw [ih]
      simp [e1]
    · rw [if_neg (by simpa using hl)]
      exact ih k c

theorem keyPicture_eq (dr : EvalDraw K ℤ H) (hpal : dr.env.palette.colors ≠ []) (flt : FilterOps K F) {n : Nat}
    {f : PoseFrame K} (hh : 0 < f.h) (objs : List (Obj K ℤ D F))
    (ho : ∀ o ∈ objs, HasShape (kindShape n o.label) (o.estimate flt) ∧ o.pointHits.length = (kindShape n o.label).1 ∧
      ∃ i, o.id = some i) :
    keyPicture dr flt f objs = some (withBoth dr flt n f objs) := by
  unfold keyPicture
  rw [poses_drawn dr flt (n := n) hh objs fun o hm hl => by
    have := ho o hm
    rwa [hl] at this]
  rw [boxes_drawn dr hpal flt f objs fun o hm hl => by
    have := (ho o hm).1
    rwa [kindShape, if_neg (by omega)] at this]
  rfl

/-! ### The loop -/

variable [LinearOrder D] [OrderTop D] [Zero D]

theorem keyLoop_track (cfg : Cfg K ℤ D F Unit) (dr : EvalDraw K ℤ H)
    (P : PoseFrame K → List (Obj K ℤ D F) → Pic) (refs : List (List Ref)) :
    ∀ (frames : List (PoseFrame K)) (w : World K ℤ D F Unit), frames.length = refs.length →
    (∀ w' acts, trackAll cfg w (refs.map fun l => (l, none)) = some (w', acts) → ∀ f ∈ frames, ∀ act ∈ acts,
      keyPicture dr cfg.flt f act = some (P f act)) →
    keyLoop cfg dr w (frames.zip refs) = (trackAll cfg w (refs.map fun l => (l, none))).map fun r =>
      (r.1, (frames.zip r.2).map fun x => P x.1 x.2) := by
  induction refs with
  | nil =>
    intro frames w hl _
    rw [List.length_nil, List.length_eq_zero_iff] at hl
    subst hl
    rfl
  | cons c cs ih =>
    intro frames w hl hp
    match frames, hl with
    | f :: frames, hl =>
      rw [List.zip_cons_cons, keyLoop]
      rw [List.map_cons, trackAll] at hp ⊢
      simp only at hp ⊢
      rcases hu : update cfg w (some c) 1 none with ⟨w1, out⟩
      rw [hu] at hp
      cases out with
      | error e => rfl
      | ok act =>
        simp only at hp ⊢
        have hlen : frames.length = cs.length := by simpa using hl
        rcases ht : trackAll cfg w1 (cs.map fun l => (l, none)) with _ | ⟨w', acts⟩
        · have := ih frames w1 hlen (fun w' acts h => by rw [ht] at h; cases h)
          rw [this, ht]
          rcases keyPicture dr cfg.flt f act with _ | p <;> rfl
        · rw [ht] at hp
          have hp := hp w' (act :: acts) rfl
          have := ih frames w1 hlen (fun w'' acts' h f hf a ha => by
            rw [ht] at h
            cases h
            exact hp f (List.mem_cons_of_mem _ hf) a (List.mem_cons_of_mem _ ha))
          rw [this, ht, hp f List.mem_cons_self act List.mem_cons_self]
          rfl

/-- a detection of the agreed shape with scores -/
def DetScored (shape : ℤ → Nat × Nat) (d : Det K ℤ Unit) : Prop :=
  HasShape (shape d.label) d.points ∧ HasShape (shape d.label) d.absPoints ∧ HasScores shape d

/-- the objects of the frames: their shape, their ids, and the labels of their detections -/
theorem framesTrack_kinds {cfg : Cfg K ℤ D F Unit} {Ok : F → Prop} (hL : FilterLaws cfg.flt Ok) (g : Nat)
    {shape : ℤ → Nat × Nat} (hs : ∀ a b, Compat cfg a b → shape a = shape b)
    {dets : List (List (Det K ℤ Unit))} (hd : ∀ l ∈ dets, ∀ d ∈ l, DetScored shape d) :
    (∀ w' acts, framesTrack cfg g dets = some (w', acts) → acts.length = dets.length ∧
      ∀ act ∈ acts, ∀ o ∈ act, HasShape (shape o.label) (o.estimate cfg.flt) ∧
        o.pointHits.length = (shape o.label).1 ∧ ∃ i, o.id = some i) ∧
    (∀ f, cfg.dist = .scalar f → ScoredDist cfg.flt shape f → cfg.reid = none → cfg.thr ≤ cfg.fill →
      ∃ r, framesTrack cfg g dets = some r) := by
  have h0 : (⟨listHeap dets.flatten, g, 0, 0, []⟩ : World K ℤ D F Unit).Initial := ⟨rfl, rfl, rfl⟩
  have h := trackAll_induct_env (cfg := cfg) (E := ScoresKept)
    (P := fun dets _ ct w => CallShaped shape (dets.getD []) ct w.heap ∧ ∀ r ∈ dets.getD [], HasScores shape (w.heap r))
    (Q := DetScored shape) (R := fun r => r < dets.flatten.length) (fun _ _ h => h) h0
    ((refsFrom 0 dets).map fun l => (l, none)) _
    (fun c hc w hq => by
      obtain ⟨l, hl, rfl⟩ := List.mem_map.mp hc
      have hq : ∀ r ∈ l, DetScored shape (w.heap r) := fun r hr => hq r (by
        have := (refsFrom_get _ 0 l hl r hr).2
        rwa [Nat.zero_add] at this)
      refine ⟨⟨⟨(fun c e => by cases e), fun r hr => ?_⟩, (fun c e => by cases e), fun r hr => (hq r hr).1⟩,
        fun r hr => (hq r hr).2.2⟩
      obtain ⟨-, ⟨e1, e2, e3⟩, s, e4, e5⟩ := hq r hr
      exact ⟨e1, e2, by rw [e3, e1, e2], fun x h => by rw [e4] at h; cases h; rw [e5, e1]⟩)
    (fun c hc t e => by
      obtain ⟨l, hl, rfl⟩ := List.mem_map.mp hc
      cases e) (.refl _) (fun r hr => by
      have : listHeap dets.flatten r = dets.flatten[r] := by
        rw [listHeap, List.getD_eq_getElem?_getD, List.getElem?_eq_getElem hr]
        rfl
      show DetScored shape (listHeap dets.flatten r)
      rw [this]
      obtain ⟨l, hl, hm⟩ := List.mem_flatten.mp (List.getElem_mem hr)
      exact hd l hl _ hm)
  refine ⟨fun w' acts ht => ?_, fun f hf hD hre hfill => h.2 fun w hw c hc hP => ?_⟩
  · obtain ⟨h1, h2, h3⟩ := h.1 w' acts ht
    refine ⟨by simpa [refsFrom_length] using h1, fun act hact o ho => ?_⟩
    obtain ⟨w1, hw, rfl⟩ := h3 act hact
    obtain ⟨m1, m2, m3⟩ := mem_activeObjects.mp ho
    have hI := (hw.inv (Inv.initial h0)).1
    have hback : BackShaped shape o :=
      Reaches.objInv hw (Inv.initial h0) (fun dets period ct w hc =>
        ⟨_, hc.1.points, backShaped_inv cfg _ (dets.getD []) period ct hc.1.keeps⟩) (fun _ _ _ _ _ h => h)
        (by rw [h0.1]; simp) o m1
    have hpts : PointsOk cfg.flt Ok shape o :=
      WfReaches.pointsOk hL hs h0 (hw.mono (fun _ _ _ => trivial) fun _ _ _ _ h => h.1.ok) o m1
    refine ⟨estimate_hasShape hL hpts hback, hpts.hits.trans hpts.n, ?_⟩
    rw [← Option.ne_none_iff_exists']
    intro e
    rw [(hI.initIff o m1).mpr e] at m2
    cases m2
  · obtain ⟨l, hl, rfl⟩ := List.mem_map.mp hc
    exact C67_scored hL hf hD hfill (fun g e => by rw [hre] at e; cases e) h0 hw _ _ _ hP.1 hP.2 (Or.inl rfl)

theorem frameDets_scored {n : Nat} {f : PoseFrame K} (hf : NetOk n f) : ∀ d ∈ frameDets f, DetScored (kindShape n) d := by
  intro d hd
  unfold frameDets at hd
  rcases List.mem_append.mp hd with hd | hd
  · split at hd
    · obtain ⟨p, hp, rfl⟩ := List.mem_map.mp hd
      have hn := hf.1 p hp
      have hs : HasShape (kindShape n (-1)) (⟨p.length, 2, p.flatMap fun x => [x.1, x.2.1]⟩ : Pts K) := by
        refine ⟨hn, rfl, ?_⟩
        simp only [length_flatMap_pair, hn]
        rfl
      exact ⟨hs, hs, _, rfl, by simp [hn, kindShape, poseDet]⟩
    · cases hd
  · obtain ⟨b, hb, rfl⟩ := List.mem_map.mp hd
    have hc : (cornerDet b).label ≠ -1 := by
      have := truncInt_nonneg (lt_of_lt_of_le neg_one_lt_zero (hf.2 b hb))
      show truncInt b.cls ≠ -1
      omega
    have hk : kindShape n (cornerDet b).label = (2, 2) := by rw [kindShape, if_neg hc]
    refine ⟨?_, ?_, [b.conf, b.conf], rfl, ?_⟩ <;> rw [hk]
    · exact ⟨rfl, rfl, rfl⟩
    · exact ⟨rfl, rfl, rfl⟩
    · rfl

/-! ### The claims -/

/-- **C131** (partial: persons found by YOLO, of class 0, are not drawn, see `C131_false_persons`) A video is processed exactly
as a new tracker processes the poses and the boxes of the networks. Every frame is written, in order, with a green disc for each
live point of each pose that the tracker returned for this frame, the id at their center, and a rectangle in the color of its
class for each box of a class above 0; the whole raises only if a call of the tracker raises. -/
theorem C131_same_partial {cfg : Cfg K ℤ D F Unit} {Ok : F → Prop} (hL : FilterLaws cfg.flt Ok) {n : Nat}
    (hs : ∀ a b, Compat cfg a b → kindShape n a = kindShape n b) (dr : EvalDraw K ℤ H)
    (hpal : dr.env.palette.colors ≠ []) (g : Nat) {frames : List (PoseFrame K)}
    (hf : ∀ f ∈ frames, NetOk n f ∧ 0 < f.h) :
    keyRun cfg dr n g frames = (framesTrack cfg g (frames.map frameDets)).map fun r =>
      (r.1, (frames.zip r.2).map fun x => withBoth dr cfg.flt n x.1 x.2) := by
  rw [keyRun, mapM_some_map fun f hm => keyDetections_eq (hf f hm).1.1, Option.bind_some]
  refine keyLoop_track cfg dr _ _ frames _ (by simp [refsFrom_length]) fun w' acts h f hm act hact => ?_
  refine keyPicture_eq dr hpal cfg.flt (hf f hm).2 act fun o ho => ?_
  refine ((framesTrack_kinds hL g hs (fun l hl d hd => ?_)).1 w' acts h).2 act hact o ho
  obtain ⟨f', hf', rfl⟩ := List.mem_map.mp hl
  exact frameDets_scored (hf f' hf').1 d hd

/-- **C131** Objects are never made of poses and of boxes: in the whole video an object with label -1 has the keypoints of a
pose, and any other object two corners. -/
theorem C131_kinds {cfg : Cfg K ℤ D F Unit} {Ok : F → Prop} (hL : FilterLaws cfg.flt Ok) {n : Nat}
    (hs : ∀ a b, Compat cfg a b → kindShape n a = kindShape n b) (g : Nat) {frames : List (PoseFrame K)}
    (hf : ∀ f ∈ frames, NetOk n f) {w' : World K ℤ D F Unit} {acts : List (List (Obj K ℤ D F))}
    (ht : framesTrack cfg g (frames.map frameDets) = some (w', acts)) :
    acts.length = frames.length ∧ ∀ act ∈ acts, ∀ o ∈ act,
      (o.label = -1 → HasShape (n, 2) (o.estimate cfg.flt)) ∧ (o.label ≠ -1 → HasShape (2, 2) (o.estimate cfg.flt)) := by
  obtain ⟨h1, h2⟩ := (framesTrack_kinds (cfg := cfg) hL g hs (dets := frames.map frameDets) (fun l hl d hd => by
    obtain ⟨f', hf', rfl⟩ := List.mem_map.mp hl
    exact frameDets_scored (hf f' hf') d hd)).1 w' acts ht
  refine ⟨by simpa using h1, fun act ha o ho => ⟨fun hl => ?_, fun hl => ?_⟩⟩
  · have := (h2 act ha o ho).1
    rwa [hl] at this
  · have := (h2 act ha o ho).1
    rwa [kindShape, if_neg hl] at this

/-- **C131** Objects with label 0, so persons found by YOLO, leave no trace in the pictures. -/
theorem C131_hidden (dr : EvalDraw K ℤ H) (flt : FilterOps K F) (n : Nat) (f : PoseFrame K) (objs : List (Obj K ℤ D F)) :
    withBoth dr flt n f objs = withBoth dr flt n f (objs.filter fun o => decide (o.label ≠ 0)) := by
  unfold withBoth posesOn boxesOn
  simp only [List.filter_filter]
  have e1 : ∀ o : Obj K ℤ D F, ((decide (o.label = -1) && o.pointHits.any fun c => decide (0 < c)) && decide (o.label ≠ 0)) =
      (decide (o.label = -1) && o.pointHits.any fun c => decide (0 < c)) := by
    intro o
    by_cases h : o.label = -1
    · simp [h]
    · simp [h]
  have e2 : ∀ o : Obj K ℤ D F, (decide (0 < o.label) && decide (o.label ≠ 0)) = decide (0 < o.label) := by
    intro o
    by_cases h : 0 < o.label
    · have : o.label ≠ 0 := by omega
      simp [h, this]
    · simp [h]
  simp only [e1, e2]

end

/-- the distance of the demo is defined for poses and for boxes -/
theorem keypoints_scored (flt : FilterOps ℝ F) {n : Nat} (hn : 0 < n) {kthr : ℝ} (hk : 0 < kthr) :
    ScoredDist flt (kindShape n) (fun (d : Det ℝ ℤ Unit) (v : ObjView ℝ ℤ (WithTop ℝ) F Unit) =>
      (keypointsDistance kthr d.label d.points d.scores (v.obj.estimate flt) v.last.scores).map fun x =>
        x.map ((↑) : ℝ → WithTop ℝ)) := by
  rintro d v hl hl' hp hq ⟨s, es, hs⟩ ⟨t, et, ht⟩
  by_cases h0 : d.label = 0
  · obtain ⟨x, hx, -⟩ := C115_persons_partial kthr (hp.same hq) (s := s) (t := t) (by rw [hs, hp.1])
      (by rw [ht, hl', ← hl, hp.1])
    exact ⟨x, by simp only [h0, es, et, hx, Option.map_some]⟩
  · obtain ⟨x, hx, -⟩ := C115_centroids_partial hk h0 (hp.same hq)
      (by rw [hp.1]; unfold kindShape; split <;> simp [hn]) d.scores v.last.scores
    exact ⟨x, by simp only [hx, Option.map_some]⟩

/-- **C131** The tracker of the demo can be made, and every video is processed to its end: no call raises, whatever the networks
see, and as many frames are written as were read. -/
theorem C131_to_the_end {flt : FilterOps ℝ F} {Ok : F → Prop} (hL : FilterLaws flt Ok) (str : ℤ → String)
    (cdist : String → List (List ℝ) → List (List ℝ) → Option (Mat (Option (WithTop ℝ)))) {height : Nat} (hh : 0 < height)
    (dr : EvalDraw ℝ ℤ H) (hpal : dr.env.palette.colors ≠ []) :
    ∃ cfg, mkTracker str cdist (keyArgs flt height) = some cfg ∧ ∀ g (frames : List (PoseFrame ℝ)),
      (∀ f ∈ frames, NetOk 25 f ∧ f.h = height) →
      ∃ w' pics, keyRun cfg dr 25 g frames = some (w', pics) ∧ pics.length = frames.length := by
  suffices ends : ∀ cfg : Cfg ℝ ℤ (WithTop ℝ) F Unit, cfg.flt = flt → (∃ f, cfg.dist = .scalar f ∧ ScoredDist flt (kindShape 25) f) →
      cfg.reid = none → cfg.thr ≤ cfg.fill → ∀ g (frames : List (PoseFrame ℝ)),
      (∀ f ∈ frames, NetOk 25 f ∧ f.h = height) →
      ∃ w' pics, keyRun cfg dr 25 g frames = some (w', pics) ∧ pics.length = frames.length by
    refine ⟨_, rfl, ends _ rfl ⟨_, rfl, keypoints_scored flt (by norm_num) (by positivity)⟩ rfl ?_⟩
    show ((4 / 5 : ℝ) : WithTop ℝ) ≤ ((4 / 5 : ℝ) : WithTop ℝ) + 1
    exact WithTop.coe_le_coe.mpr (by norm_num)
  rintro cfg rfl ⟨f, hf, hD⟩ hre hfill g frames hfr
  have hs : ∀ a b, Compat cfg a b → kindShape 25 a = kindShape 25 b := by
    intro a b h
    unfold Compat at h
    rw [hf] at h
    rw [h]
  have h := framesTrack_kinds (cfg := cfg) hL g hs (dets := frames.map frameDets) (fun l hl d hd => by
    obtain ⟨f', hf', rfl⟩ := List.mem_map.mp hl
    exact frameDets_scored (hfr f' hf').1 d hd)
  obtain ⟨⟨w', acts⟩, ht⟩ := h.2 f hf hD hre hfill
  rw [C131_same_partial hL hs dr hpal g fun f hm => ⟨(hfr f hm).1, by rw [(hfr f hm).2]; exact hh⟩, ht]
  refine ⟨_, _, rfl, ?_⟩
  have := (h.1 w' acts ht).1
  simp only [List.length_map] at this
  simp [this]

/-! ### Witnesses and examples -/

/-- the sum of the distances of all coordinates -/
def allBlocks (p q : Pts ℚ) : Option (Option (WithTop ℚ)) :=
  some (some ((((p.data.zip q.data).map fun x => |x.1 - x.2|).sum : ℚ) : WithTop ℚ))

/-- a tracker with the settings of the demo and another distance, which can be computed -/
def keyCfg : Cfg ℚ ℤ (WithTop ℚ) (OKF ℚ) Unit where
  dist := ofPoints (okfOps okfDefaults) allBlocks
  thr := ((30 : ℚ) : WithTop ℚ)
  fill := ((31 : ℚ) : WithTop ℚ)
  hitCounterMax := 45
  initDelay := 4
  pwMax := 10
  detThr := 3 / 5
  flt := okfOps okfDefaults
  pastLen := 4
  reid := none
  reidThr := 0
  reidFill := 1
  reidMax := none

/-- someone at this place, as a pose of two keypoints, and a box of this class -/
def keyFrame (class_ : ℚ) : PoseFrame ℚ :=
  ⟨100, 200, fun _ _ => 7, some [[(20, 30, 9 / 10), (22, 50, 8 / 10)]], [⟨40, 40, 60, 60, 9 / 10, class_⟩]⟩

/-- only a person found by YOLO -/
def keyPerson : PoseFrame ℚ := { keyFrame 0 with poses := none }

/-- **C131** (false) Not every object that the tracker returns is drawn: YOLO finds a person, which is class 0, at the same place
in seven frames, the tracker returns it in the last ones, and all frames are written as they were read. -/
theorem C131_false_persons :
    ∃ w acts pics, framesTrack keyCfg 0 (List.replicate 7 (frameDets keyPerson)) = some (w, acts) ∧
      keyRun keyCfg yoloDraw 2 0 (List.replicate 7 keyPerson) = some (w, pics) ∧
      acts.map List.length = [0, 0, 0, 0, 1, 1, 1] ∧ pics = List.replicate 7 keyPerson.pic := by
  have h : (framesTrack keyCfg 0 (List.replicate 7 (frameDets keyPerson))).map (fun r =>
      (r.2.map List.length, r.2.all fun l => l.all fun o => decide (o.label = 0))) = some ([0, 0, 0, 0, 1, 1, 1], true) := by
    decide +kernel
  obtain ⟨⟨w, acts⟩, ht, h⟩ := Option.map_eq_some_iff.mp h
  simp only [Prod.mk.injEq, List.all_eq_true, decide_eq_true_eq] at h
  have hlen : acts.length = 7 := by
    have := congrArg List.length h.1
    simpa using this
  refine ⟨w, acts, List.replicate 7 keyPerson.pic, ht, ?_, h.1, rfl⟩
  rw [C131_same_partial (cfg := keyCfg) (okf_laws okfDefaults) (n := 2) (fun a b hab => by rw [show a = b from hab]) yoloDraw
    (by decide) 0 (fun f hf => ?_), List.map_replicate, ht]
  · refine congrArg some (Prod.ext rfl ?_)
    simp only
    refine List.eq_replicate_iff.mpr ⟨by simp [hlen], fun p hp => ?_⟩
    obtain ⟨⟨f, act⟩, hm, rfl⟩ := List.mem_map.mp hp
    obtain ⟨hm1, hm2⟩ := List.of_mem_zip hm
    rw [List.eq_of_mem_replicate hm1]
    have : act.filter (fun o => decide (o.label ≠ 0)) = [] := by
      rw [List.filter_eq_nil_iff]
      intro o ho
      simp [h.2 act hm2 o ho]
    show withBoth yoloDraw keyCfg.flt 2 keyPerson act = _
    rw [C131_hidden, this]
    rfl
  · rw [List.eq_of_mem_replicate hf]
    exact ⟨⟨by simp [keyPerson], by simp [keyPerson, keyFrame]⟩, by decide⟩

/-- poses and boxes: the frames 4 to 6 have a disc at each of the two keypoints, a text between them and a rectangle -/
example : (keyRun keyCfg yoloDraw 2 0 (List.replicate 7 (keyFrame 2))).map
    (fun r => r.2.map fun p => (p (20, 30) 1, p (22, 50) 1, p (21, 40) 1, p (40, 40) 0, p (60, 60) 0)) =
      some (List.replicate 4 (7, 7, 7, 7, 7) ++ List.replicate 3 (128, 128, 255, 2, 2)) := by
  decide +kernel

/-- the hypotheses of `C131_same_partial` and `C131_kinds` -/
example : NetOk 2 (keyFrame 2) ∧ 0 < (keyFrame 2).h ∧ (∀ a b, Compat keyCfg a b → kindShape 2 a = kindShape 2 b) ∧
    yoloDraw.env.palette.colors ≠ [] ∧
    (framesTrack keyCfg 0 (List.replicate 7 (frameDets (keyFrame 2)))).map (fun r => r.2.map fun l => l.map fun o =>
      (o.label, (o.estimate keyCfg.flt).data)) =
      some (List.replicate 4 [] ++ List.replicate 3 [(-1, [20, 30, 22, 50]), (2, [40, 40, 60, 60])]) := by
  refine ⟨⟨by simp [keyFrame], by simp [keyFrame]⟩, by decide, fun a b hab => by rw [show a = b from hab], by decide, ?_⟩
  decide +kernel

/-- the hypotheses of `C131_to_the_end`: a video of three frames, with 25 keypoints of one person and the box of a car -/
example (dr : EvalDraw ℝ ℤ H) (hpal : dr.env.palette.colors ≠ []) (pic : Pic) :
    ∃ cfg, mkTracker toString (fun _ _ _ => none) (keyArgs (okfOps realOkf) 720) = some cfg ∧ ∃ w' pics,
      keyRun cfg dr 25 0 (List.replicate 3 ⟨720, 1280, pic, some [List.replicate 25 (100, 200, 9 / 10)],
        [⟨10, 20, 30, 40, 1 / 2, 2⟩]⟩) = some (w', pics) ∧ pics.length = 3 := by
  obtain ⟨cfg, h1, h2⟩ := C131_to_the_end (okf_laws realOkf) toString (fun _ _ _ => none) (height := 720) (by norm_num) dr hpal
  refine ⟨cfg, h1, ?_⟩
  have := h2 0 (List.replicate 3 ⟨720, 1280, pic, some [List.replicate 25 (100, 200, 9 / 10)],
    [⟨10, 20, 30, 40, 1 / 2, 2⟩]⟩) (fun f hf => by
      rw [List.eq_of_mem_replicate hf]
      exact ⟨⟨by simp, by simp⟩, rfl⟩)
  simpa using this

end Norfair.Props
