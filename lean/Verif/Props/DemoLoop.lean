import Verif.Props.DemoTrack
import Verif.Props.TrackerSys

/-! C132: the loops of the demos of OpenPose and of profiling. -/

set_option linter.unusedSectionVars false

namespace Norfair.Props

open Norfair Norfair.Spec

variable {K L D F X H : Type}

section
variable [Field K] [LinearOrder K] [IsStrictOrderedRing K] [FloorRing K]

/-! ### The pictures -/

theorem frame_numbers (hgt : Nat) : truncInt (((hgt : Nat) : K) / 100 * (1 / 2)) = ((hgt / 200 : Nat) : ℤ) ∧
    truncInt (((hgt : Nat) : K) / 100 / 5) = ((hgt / 500 : Nat) : ℤ) ∧
    truncInt (max (((hgt : Nat) : K) / 100 / 100) 1) = ((max (hgt / 10000) 1 : Nat) : ℤ) := by
  have e1 : truncInt (((hgt : Nat) : K) / 100 * (1 / 2)) = ((hgt / 200 : Nat) : ℤ) := by
    rw [← truncInt_div (K := K) hgt 200 (by norm_num)]
    congr 1
    push_cast
    ring
  have e2 : truncInt (((hgt : Nat) : K) / 100 / 5) = ((hgt / 500 : Nat) : ℤ) := by
    rw [← truncInt_div (K := K) hgt 500 (by norm_num)]
    congr 1
    push_cast
    ring
  have e3 : truncInt (max (((hgt : Nat) : K) / 100 / 100) 1) = ((max (hgt / 10000) 1 : Nat) : ℤ) := by
    have a : ((hgt : Nat) : K) / 100 / 100 = (hgt : K) / ((10000 : Nat) : K) := by
      push_cast
      ring
    rw [a]
    rcases le_total (((hgt : Nat) : K) / ((10000 : Nat) : K)) 1 with h | h
    · rw [max_eq_right h, max_eq_right]
      · simp [truncInt]
      · have : truncInt ((hgt : K) / ((10000 : Nat) : K)) ≤ 1 := by
          unfold truncInt
          rw [if_pos (by positivity)]
          have := Int.floor_le_floor h
          simpa using this
        rw [truncInt_div _ _ (by norm_num)] at this
        exact_mod_cast this
    · rw [max_eq_left h, truncInt_div _ _ (by norm_num), max_eq_left]
      have : (1 : ℤ) ≤ truncInt ((hgt : K) / ((10000 : Nat) : K)) := by
        unfold truncInt
        rw [if_pos (by positivity)]
        exact Int.le_floor.mpr (by simpa using h)
      rw [truncInt_div _ _ (by norm_num)] at this
      exact_mod_cast this
  exact ⟨e1, e2, e3⟩

theorem objs_drawn (dr : EvalDraw K L H) (hpal : dr.env.palette.colors ≠ []) (flt : FilterOps K F) {n : Nat}
    {shape : List Nat} (hh : 0 < shape.headD 0) (thickness : Option ℤ)
    (objs : List (Obj K L D F)) (ho : ∀ o ∈ objs, HasShape (n, 2) (o.estimate flt) ∧
      o.pointHits.length = n ∧ ∃ i, o.id = some i) :
    drawTrackedObjects dr.env shape (some (objs.map (Drawable.ofObj flt dr.idOf dr.lab))) (idThickness := thickness) =
      some (some (objsOn dr flt n shape (thickness.getD (shape.headD 0 / 500 : Nat)) objs)) := by
  unfold objsOn drawTrackedObjects drawPoints
  generalize shape.headD 0 = h at hh ⊢
  obtain ⟨e1, e2, e3⟩ := frame_numbers (K := K) h
  have e4 : ((max (h / 10000) 1 : Nat) : K) ≠ 0 := by
    rw [Nat.cast_ne_zero]
    omega
  have e5 : decide (0 < ((h : Nat) : K) / 100 / 10) = true := by
    rw [decide_eq_true_iff]
    have : (0 : K) < (h : K) := by exact_mod_cast hh
    positivity
  generalize ((h / 200 : Nat) : ℤ) = r at e1 ⊢
  simp only [Option.getD_none, Option.getD_some, e1, e2, e3, Int.cast_natCast, if_neg e4, e5, Bool.false_eq_true, if_false]
  generalize ((max (h / 10000) 1 : Nat) : K) = s
  generalize ht : thickness.getD ((h / 500 : Nat) : ℤ) = t
  suffices key : ∀ (a : DrawPointsArgs K), a.hideDeadPoints = true → a.drawPoints = true → a.drawLabels = false →
      a.drawIds = true → a.drawScores = false → a.labelSize = none → a.textSize = some s → a.textThickness = some t →
      ∀ (objs : List (Obj K L D F)) (k : Nat) (c : Canvas K),
      (∀ o ∈ objs, HasShape (n, 2) (o.estimate flt) ∧ o.pointHits.length = n ∧ ∃ i, o.id = some i) →
      drawPointsLoop dr.env a (.str "by_id".toList) r (-1) none k (objs.map (Drawable.ofObj flt dr.idOf dr.lab)) c =
      some ((objs.filter fun o => o.pointHits.any fun c => decide (0 < c)).foldl
        (fun (c : Canvas K) o => ((seenPoints flt n o).foldl
          (fun (c : Canvas K) p => c.circle [truncInt p.1, truncInt p.2] r (-1) (idColor dr o)) c).text (idText dr o)
          (some [truncInt (((seenPoints flt n o).map (·.1)).sum / (seenPoints flt n o).length - (r : K)),
            truncInt (((seenPoints flt n o).map (·.2)).sum / (seenPoints flt n o).length - (r : K))]) (idColor dr o)
          (some s) (some t)) c) by
    rw [key _ rfl rfl rfl ?_ rfl rfl ?_ ?_ objs 0 .base ho]
    all_goals rfl
  intro a a1 a2 a3 a4 a5 a6 a7 a8 objs
  induction objs with
  | nil => intro k c _; rfl
  | cons o os ih =>
    intro k c ho
    have ih := fun k c => ih k c fun o ho' => ho o (List.mem_cons_of_mem _ ho')
    obtain ⟨hs, hn, i, hi⟩ := ho o List.mem_cons_self
    have hlive : (Drawable.ofObj flt dr.idOf dr.lab o).live =
        (List.range n).map fun i => decide (0 < o.pointHits.getD i 0) := by
      show o.livePoints = _
      unfold Obj.livePoints
      apply List.ext_getElem
      · simp [hn]
      · intro j h1 h2
        have h3 : j < o.pointHits.length := by simpa using h1
        simp [List.getD_eq_getElem?_getD, List.getElem?_eq_getElem h3]
    have hany : (Drawable.ofObj flt dr.idOf dr.lab o).live.any (fun x => x) =
        o.pointHits.any fun c => decide (0 < c) := by
      show o.livePoints.any _ = _
      unfold Obj.livePoints
      rw [List.any_map]
      rfl
    have hpts : (Drawable.ofObj flt dr.idOf dr.lab o).points = (List.range n).map fun i =>
        [(o.estimate flt).data.getD (2 * i) 0, (o.estimate flt).data.getD (2 * i + 1) 0] := rows_pairs hs
    rw [List.map_cons, drawPointsLoop, List.filter_cons, hany, a1]
    by_cases hv : (o.pointHits.any fun c => decide (0 < c)) = true
    · have hobj : objColor dr.env (.str "by_id".toList) (Drawable.ofObj flt dr.idOf dr.lab o) k = some (idColor dr o) := by
        rw [objColor, if_pos rfl]
        have := choose_some dr hpal (o.id.map fun i => dr.env.hash (dr.idOf i))
        simpa [Drawable.ofObj, hi, idColor] using this
      have htext : buildText dr.env.str dr.env.fmt (Drawable.ofObj flt dr.idOf dr.lab o) false true false =
          idText dr o := by
        simp [buildText, Drawable.ofObj, hi, idText]
      have hzip : (List.zip ((List.range n).map fun i => [(o.estimate flt).data.getD (2 * i) 0,
          (o.estimate flt).data.getD (2 * i + 1) 0]) ((List.range n).map fun i => decide (0 < o.pointHits.getD i 0))) =
          (List.range n).map fun i => ([(o.estimate flt).data.getD (2 * i) 0, (o.estimate flt).data.getD (2 * i + 1) 0],
            decide (0 < o.pointHits.getD i 0)) := by
        rw [List.zip_map']
      have hcirc : drawCircles true r (-1) (idColor dr o) ((List.range n).map fun i =>
          ([(o.estimate flt).data.getD (2 * i) 0, (o.estimate flt).data.getD (2 * i + 1) 0],
            decide (0 < o.pointHits.getD i 0))) c =
          (seenPoints flt n o).foldl
            (fun (c : Canvas K) p => c.circle [truncInt p.1, truncInt p.2] r (-1) (idColor dr o)) c := by
        unfold drawCircles seenPoints
        rw [List.foldl_map, List.foldl_map, List.foldl_filter]
        simp
      have hmask : maskRows ((List.range n).map fun i => [(o.estimate flt).data.getD (2 * i) 0,
          (o.estimate flt).data.getD (2 * i + 1) 0]) ((List.range n).map fun i => decide (0 < o.pointHits.getD i 0)) =
          (seenPoints flt n o).map fun p => [p.1, p.2] := by
        unfold maskRows seenPoints
        rw [hzip, List.filter_map, List.map_map, List.map_map]
        rfl
      obtain ⟨x, hx, hxp⟩ := List.any_eq_true.mp hv
      obtain ⟨j, hj, rfl⟩ := List.getElem_of_mem hx
      have hne : (seenPoints flt n o) ≠ [] := by
        unfold seenPoints
        rw [ne_eq, List.map_eq_nil_iff, List.filter_eq_nil_iff]
        intro hall
        refine hall j (by rw [List.mem_range]; omega) ?_
        rw [List.getD_eq_getElem?_getD, List.getElem?_eq_getElem hj]
        exact hxp
      have hn0 : 0 < n := by omega
      have hhead : (((List.range n).map fun i => [(o.estimate flt).data.getD (2 * i) 0,
          (o.estimate flt).data.getD (2 * i + 1) 0]).headD []).length = 2 := by
        obtain ⟨m, rfl⟩ : ∃ m, n = m + 1 := ⟨n - 1, by omega⟩
        rw [List.range_succ_eq_map]
        rfl
      have hmean : meanRows 2 ((seenPoints flt n o).map fun p => [p.1, p.2]) =
          some [((seenPoints flt n o).map (·.1)).sum / (seenPoints flt n o).length,
            ((seenPoints flt n o).map (·.2)).sum / (seenPoints flt n o).length] := by
        unfold meanRows
        rw [if_neg (by simpa using hne)]
        simp [List.range_succ, List.sum_eq_foldl, Function.comp_def]
      rw [if_neg (by rw [hv]; decide), if_pos hv]
      simp only [hobj, a2, a3, a4, a5, a6, a7, a8, Bool.false_or, Bool.or_false, if_true, htext, hlive, hpts, hzip, hcirc,
        hmask, hhead, hmean, ih, List.foldl_cons, Option.getD_none, Option.map_some, List.map_cons, List.map_nil,
        Option.none_or]
    · rw [if_pos (by rw [Bool.eq_false_iff.mpr hv]; rfl), if_neg hv]
      exact ih k c

theorem putObjects_eq (dr : EvalDraw K L H) (hpal : dr.env.palette.colors ≠ []) (flt : FilterOps K F) {n : Nat}
    {shape : List Nat} (hh : 0 < shape.headD 0) (thickness : Option ℤ)
    (objs : List (Obj K L D F)) (ho : ∀ o ∈ objs, HasShape (n, 2) (o.estimate flt) ∧
      o.pointHits.length = n ∧ ∃ i, o.id = some i) (pic : Pic) :
    putObjects dr flt shape thickness objs pic =
      some ((objsOn dr flt n shape (thickness.getD (shape.headD 0 / 500 : Nat)) objs).render dr.ras shape pic) := by
  rw [putObjects, objs_drawn dr hpal flt hh thickness objs ho]
  rfl

theorem putPoints_eq (dr : EvalDraw K L H) (hpal : dr.env.palette.colors ≠ []) {n : Nat} (hn : 0 < n) (shape : List Nat)
    {heap : Ref → Det K L X} {refs : List Ref} {ds : List (Det K L X)} (hh : Holds heap refs ds)
    (hd : ∀ d ∈ ds, HasShape (n, 2) d.points) (pic : Pic) :
    putPoints dr shape heap (some refs) pic = some (withDets dr shape ds pic) := by
  rw [putPoints, Option.map_some, hh.map (Drawable.ofDet dr.lab) (fun _ _ => rfl)]
  unfold withDets detsOn drawPoints
  simp only [Option.getD_some, Option.getD_none]
  generalize (around (max (((shape.foldl max 0 : Nat) : K) * (2 / 1000)) 1) : ℤ) = r
  generalize hcol : (dr.env.palette.choose none).getD [] = col
  suffices key : ∀ (ds : List (Det K L X)) (k : Nat) (c : Canvas K), (∀ d ∈ ds, HasShape (n, 2) d.points) →
      drawPointsLoop dr.env {} (.str "by_id".toList) r (-1) none k (ds.map (Drawable.ofDet dr.lab)) c =
      some (ds.foldl (fun (c : Canvas K) d =>
        let s := (List.range d.points.n).map fun i => (d.points.data.getD (2 * i) 0, d.points.data.getD (2 * i + 1) 0)
        (s.foldl (fun (c : Canvas K) p => c.circle [truncInt p.1, truncInt p.2] r (-1) col) c).text
          ((dr.lab d.label).elim [] dr.env.str)
          (some [truncInt ((s.map (·.1)).sum / s.length - (r : K)), truncInt ((s.map (·.2)).sum / s.length - (r : K))]) col
          none none) c) by
    rw [key ds 0 .base hd]
    rfl
  intro ds
  induction ds with
  | nil => intro k c _; rfl
  | cons d ds ih =>
    intro k c hd
    have ih := fun k c => ih k c fun o ho' => hd o (List.mem_cons_of_mem _ ho')
    have hs := hd d List.mem_cons_self
    have hnn : d.points.n = n := hs.1
    have hpts : (Drawable.ofDet dr.lab d).points = (List.range n).map fun i =>
        [d.points.data.getD (2 * i) 0, d.points.data.getD (2 * i + 1) 0] := rows_pairs hs
    have hlive : (Drawable.ofDet dr.lab d).live = (List.range n).map fun _ => true := by
      show List.replicate d.points.n true = _
      rw [hnn]
      simp
    have hany : (Drawable.ofDet dr.lab d).live.any (fun x => x) = true := by
      rw [hlive, List.any_map, List.any_eq_true]
      exact ⟨0, List.mem_range.mpr hn, rfl⟩
    have hobj : objColor dr.env (.str "by_id".toList) (Drawable.ofDet dr.lab d) k = some col := by
      rw [objColor, if_pos rfl, ← hcol]
      exact choose_some dr hpal none
    have htext : buildText dr.env.str dr.env.fmt (Drawable.ofDet dr.lab d) true true false =
        (dr.lab d.label).elim [] dr.env.str := by
      simp only [buildText, Drawable.ofDet]
      cases dr.lab d.label <;> rfl
    have hhead : (((List.range n).map fun i => [d.points.data.getD (2 * i) 0,
        d.points.data.getD (2 * i + 1) 0]).headD []).length = 2 := by
      obtain ⟨m, rfl⟩ : ∃ m, n = m + 1 := ⟨n - 1, by omega⟩
      rw [List.range_succ_eq_map]
      rfl
    have hmask : maskRows ((List.range n).map fun i => [d.points.data.getD (2 * i) 0, d.points.data.getD (2 * i + 1) 0])
        ((List.range n).map fun _ => true) = (List.range n).map fun i =>
        [d.points.data.getD (2 * i) 0, d.points.data.getD (2 * i + 1) 0] := by
      unfold maskRows
      rw [List.zip_map', List.filter_map, List.map_map]
      simp [Function.comp_def]
    have hcirc : drawCircles true r (-1) col (List.zip ((List.range n).map fun i =>
        [d.points.data.getD (2 * i) 0, d.points.data.getD (2 * i + 1) 0]) ((List.range n).map fun _ => true)) c =
        ((List.range n).map fun i => (d.points.data.getD (2 * i) 0, d.points.data.getD (2 * i + 1) 0)).foldl
          (fun (c : Canvas K) p => c.circle [truncInt p.1, truncInt p.2] r (-1) col) c := by
      unfold drawCircles
      rw [List.zip_map', List.foldl_map, List.foldl_map]
      simp
    have hmean : meanRows 2 ((List.range n).map fun i => [d.points.data.getD (2 * i) 0, d.points.data.getD (2 * i + 1) 0]) =
        some [((List.range n).map fun i => d.points.data.getD (2 * i) 0).sum / (n : K),
          ((List.range n).map fun i => d.points.data.getD (2 * i + 1) 0).sum / (n : K)] := by
      unfold meanRows
      rw [if_neg (by simpa using hn.ne')]
      simp [List.range_succ (n := 1), List.sum_eq_foldl, Function.comp_def]
    rw [List.map_cons, drawPointsLoop, hany]
    simp only [hobj, htext, hlive, hpts, hcirc, hmask, hhead, hmean, ih, List.foldl_cons, Bool.true_or, if_true,
      Option.getD_none, Option.map_some, List.map_cons, List.map_nil, Bool.not_true, Bool.and_false, Bool.false_eq_true,
      if_false, hnn, List.map_map, List.length_map, List.length_range, Option.none_or, Function.comp_def]

/-! ### OpenPose -/

variable [LinearOrder D] [OrderTop D] [Zero D]

theorem openposeConvert_eq {n : Nat} {ps : List (List (K × K × K))} (hps : ∀ p ∈ ps, p.length = n) :
    ((openposeConvert n () ps).bind fun ds => ds.mapM RawDet.toDet) = some (bodyDets ps) := by
  unfold openposeConvert bodyDets
  by_cases h : ∃ p ∈ ps, ∃ x ∈ p, x ≠ (0, 0, 0)
  · rw [if_pos h, if_neg]
    · refine mapM_bind_map fun p hp => ⟨_, rfl, ?_⟩
      rw [← hps p hp]
      rfl
    · obtain ⟨p, hp, x, hx, hne⟩ := h
      intro hall
      have := List.all_eq_true.mp (List.all_eq_true.mp hall p hp) x hx
      simp only [Bool.and_eq_true, decide_eq_true_eq] at this
      exact hne (Prod.ext this.1.1 (Prod.ext this.1.2 this.2))
  · rw [if_neg h, if_pos]
    · rfl
    · push_neg at h
      rw [List.all_eq_true]
      intro p hp
      rw [List.all_eq_true]
      intro x hx
      rw [h p hp x hx]
      simp

theorem openDetections_eq {n skip : Nat} {f : PoseFrame K} (hf : ∀ p ∈ f.poses.getD [], p.length = n) (i : Nat) :
    openDetections n skip i f = some ((openCall skip (f, i)).1.getD []) := by
  unfold openDetections openCall
  simp only [Nat.dvd_iff_mod_eq_zero]
  split
  · cases hp : f.poses with
    | none => rfl
    | some ps =>
      rw [hp] at hf
      simpa using openposeConvert_eq hf
  · rfl

theorem bodyDets_rated {n : Nat} {ps : List (List (K × K × K))} (hps : ∀ p ∈ ps, p.length = n) :
    ∀ d ∈ bodyDets ps, DetRated (n, 2) d := by
  intro d hd
  unfold bodyDets at hd
  split at hd
  · obtain ⟨p, hp, rfl⟩ := List.mem_map.mp hd
    have hs : HasShape (n, 2) (⟨p.length, 2, p.flatMap fun x => [x.1, x.2.1]⟩ : Pts K) := by
      refine ⟨hps p hp, rfl, ?_⟩
      simp only [length_flatMap_pair, hps p hp]
    exact ⟨hs, hs, _, rfl, by simp [hps p hp]⟩
  · cases hd

theorem openCall_rated {n skip : Nat} {frames : List (PoseFrame K)} (hf : ∀ f ∈ frames, ∀ p ∈ f.poses.getD [], p.length = n) :
    ∀ l ∈ newDets (frames.zipIdx.map (openCall skip)), ∀ d ∈ l, DetRated (n, 2) d := by
  intro l hl d hd
  obtain ⟨c, hc, rfl⟩ := List.mem_map.mp hl
  obtain ⟨⟨f, i⟩, hm, rfl⟩ := List.mem_map.mp hc
  have hf := hf f (List.fst_mem_of_mem_zipIdx hm)
  unfold openCall at hd
  simp only at hd
  split at hd
  · cases hp : f.poses with
    | none => rw [hp] at hd; cases hd
    | some ps =>
      rw [hp] at hd hf
      exact bodyDets_rated hf d hd
  · cases hd

/-- **C132** The OpenPose demo processes a video exactly as a new tracker processes the poses of every `skip`-th frame, called for
every frame. A frame is written with a disc for each keypoint of the detections, if it was looked at, and then a disc for each
live point of each returned object, and the id at their center; the whole raises only if a call of the tracker raises. Frames in
which OpenPose was asked and saw nothing are not written (see `C132_false_dropped`). -/
theorem C132_open_same_partial {cfg : Cfg K Unit D F Unit} {Ok : F → Prop} (hL : FilterLaws cfg.flt Ok) {n : Nat} (hn : 0 < n)
    (dr : EvalDraw K Unit H) (hpal : dr.env.palette.colors ≠ []) (skip g : Nat) {frames : List (PoseFrame K)}
    (hf : ∀ f ∈ frames, (∀ p ∈ f.poses.getD [], p.length = n) ∧ 0 < f.h) :
    openRun cfg dr n skip g frames = (demoTrack cfg () () g (frames.zipIdx.map (openCall skip))).map fun r =>
      (r.1, (frames.zipIdx.zip r.2).filterMap fun y => openShot dr cfg.flt n skip y.1 y.2) := by
  refine demoRun_track cfg _ (fun _ _ => True) (openCall skip) (openShot dr cfg.flt n skip) () () () g frames _ rfl trivial
    (fun y hy => openDetections_eq (hf y.1 (List.fst_mem_of_mem_zipIdx hy)).1 y.2)
    (fun y hy refs hh st _ => ⟨trivial, ?_⟩) (fun w' acts ht y hy refs hh st _ act hact h' hs => ?_)
  · unfold openOps openCall
    simp only [Nat.dvd_iff_mod_eq_zero]
    split
    · cases y.1.poses <;> rfl
    · rfl
  · have hobj := ((demoTrack_shape hL () () g (s := (n, 2)) (fun l hl d hd =>
      (openCall_rated (fun f hm => (hf f hm).1) l hl d hd).shaped)).1 w' acts ht).2 act hact
    obtain ⟨hp, hh0⟩ := hf y.1 (List.fst_mem_of_mem_zipIdx hy)
    have hput : ∀ pic, putObjects dr cfg.flt y.1.shape none act pic =
        some (withObjs dr cfg.flt n [y.1.h, y.1.w, 3] act pic) := fun pic =>
      putObjects_eq dr hpal cfg.flt (n := n) (shape := y.1.shape) hh0 none act hobj pic
    have hh' := hs.holds hh
    unfold openOps openShot
    unfold openCall at hh'
    simp only [Nat.dvd_iff_mod_eq_zero] at hh' ⊢
    split
    · rename_i h0
      rw [if_pos h0] at hh'
      cases hps : y.1.poses with
      | none => rfl
      | some ps =>
        rw [hps] at hh' hp
        simp only [Option.map_some]
        rw [putPoints_eq dr hpal hn y.1.shape hh' (fun d hd => (bodyDets_rated hp d hd).1) y.1.pic, Option.bind_some, hput]
        rfl
    · rw [hput]
      rfl

/-- **C132** A frame is missing in the output of the OpenPose demo if and only if OpenPose was asked and saw nothing. -/
theorem C132_open_written (dr : EvalDraw K Unit H) (flt : FilterOps K F) (n skip : Nat) (f : PoseFrame K × Nat)
    (objs : List (Obj K Unit D F)) : openShot dr flt n skip f objs = none ↔ skip ∣ f.2 ∧ f.1.poses = none := by
  unfold openShot
  split
  · rename_i h
    simp [h]
  · rename_i h
    simp [h]

/-- **C132** The period does not matter where there are no new detections. -/
theorem C132_period {L X : Type} [DecidableEq L] (cfg : Cfg K L D F X) (w : World K L D F X) (period : Int) :
    update cfg w none period none = update cfg w none 1 none := rfl

/-! ### Profiling -/

theorem peakDets_eq (width height : Nat) (peaks : Nat → Nat → K × K) (objs : List (List ℤ)) :
    ((posesConvert width height peaks objs).bind fun ds => ds.mapM RawDet.toDet) =
      some (objs.map (peakDet width height peaks)) := by
  refine mapM_bind_map fun o _ => ⟨_, rfl, ?_⟩
  unfold peakDet
  have e1 : ((o.zipIdx.map fun x => if 0 ≤ x.1 then (((peaks x.2 x.1.toNat).2 * (width : K),
      (peaks x.2 x.1.toNat).1 * (height : K)), (1 : K)) else ((0, 0), 0)).flatMap fun x => [x.1.1, x.1.2]) =
      o.zipIdx.flatMap fun x => if 0 ≤ x.1 then [(peaks x.2 x.1.toNat).2 * (width : K),
        (peaks x.2 x.1.toNat).1 * (height : K)] else [0, 0] := by
    rw [List.flatMap_map]
    congr 1
    funext x
    split <;> rfl
  have e2 : ((o.zipIdx.map fun x => if 0 ≤ x.1 then (((peaks x.2 x.1.toNat).2 * (width : K),
      (peaks x.2 x.1.toNat).1 * (height : K)), (1 : K)) else ((0, 0), 0)).map (·.2)) =
      o.map fun k => if 0 ≤ k then (1 : K) else 0 := by
    conv_rhs => rw [← List.zipIdx_map_fst 0 o, List.map_map]
    rw [List.map_map]
    congr 1
    funext x
    simp only [Function.comp_apply]
    split <;> rfl
  simp only [e1, e2]
  rfl

theorem peakDet_rated {n width height : Nat} {peaks : Nat → Nat → K × K} {o : List ℤ} (ho : o.length = n) :
    DetRated (n, 2) (peakDet width height peaks o) := by
  have hs : HasShape (n, 2) (peakDet width height peaks o).points := by
    refine ⟨ho, rfl, ?_⟩
    suffices key : ∀ (k : Nat), ((o.zipIdx k).flatMap fun x => if 0 ≤ x.1 then [(peaks x.2 x.1.toNat).2 * (width : K),
        (peaks x.2 x.1.toNat).1 * (height : K)] else [0, 0]).length = o.length * 2 by
      rw [← ho]
      exact (key 0).trans (Nat.mul_comm _ _)
    clear ho
    induction o with
    | nil => intro k; rfl
    | cons a o ih =>
      intro k
      rw [List.zipIdx_cons, List.flatMap_cons, List.length_append, ih, List.length_cons]
      split <;> simp only [List.length_cons, List.length_nil] <;> omega
  exact ⟨hs, hs, _, rfl, by simp [ho]⟩

theorem profCall_rated {n width height skip : Nat} {frames : List (PeakFrame K)}
    (hf : ∀ f ∈ frames, ∀ o ∈ f.objs, o.length = n) :
    ∀ l ∈ newDets (frames.zipIdx.map (profCall width height skip)), ∀ d ∈ l, DetRated (n, 2) d := by
  intro l hl d hd
  obtain ⟨c, hc, rfl⟩ := List.mem_map.mp hl
  obtain ⟨⟨f, i⟩, hm, rfl⟩ := List.mem_map.mp hc
  have hf := hf f (List.fst_mem_of_mem_zipIdx hm)
  unfold profCall at hd
  simp only at hd
  split at hd
  · obtain ⟨o, ho, rfl⟩ := List.mem_map.mp hd
    exact peakDet_rated (hf o ho)
  · cases hd

/-- **C132** (partial: a video without frames raises, see `C132_false_empty`) `process_video` does exactly what a new tracker does
with the poses of every `skip`-th frame, called for every frame. With `create_video` every frame is written with a disc for each
live point of each returned object, and the id at their center; otherwise none. The whole raises only if a call of the tracker
raises. -/
theorem C132_prof_same_partial {cfg : Cfg K Unit D F Unit} {Ok : F → Prop} (hL : FilterLaws cfg.flt Ok) {n : Nat}
    (dr : EvalDraw K Unit H) (hpal : dr.env.palette.colors ≠ []) (width height skip : Nat) (create : Bool) (g : Nat)
    {frames : List (PeakFrame K)} (hne : frames ≠ [])
    (hf : ∀ f ∈ frames, (∀ o ∈ f.objs, o.length = n) ∧ 0 < f.h) :
    profRun cfg dr width height skip create g frames =
      (demoTrack cfg () () g (frames.zipIdx.map (profCall width height skip))).map fun r =>
        (r.1, if create then (frames.zip r.2).map fun y => withObjs dr cfg.flt n [y.1.h, y.1.w, 3] y.2 y.1.pic else []) := by
  have h := demoRun_track cfg (profOps dr cfg.flt skip create) (fun _ _ => True)
    (conv := profDetections width height skip) (profCall width height skip)
    (fun y act => if create then some (withObjs dr cfg.flt n [y.1.h, y.1.w, 3] act y.1.pic) else none) () () () g frames _ rfl
    trivial (fun y hy => by
      unfold profDetections profCall
      simp only [Nat.dvd_iff_mod_eq_zero]
      split
      · exact peakDets_eq ..
      · rfl)
    (fun y hy refs hh st _ => ⟨trivial, by
      unfold profOps profCall
      simp only [Nat.dvd_iff_mod_eq_zero]
      split <;> rfl⟩) (fun w' acts ht y hy refs hh st _ act hact h' hs => by
      have hobj := ((demoTrack_shape hL () () g (s := (n, 2)) (fun l hl d hd =>
        (profCall_rated (fun f hm => (hf f hm).1) l hl d hd).shaped)).1 w' acts ht).2 act hact
      have hh0 := (hf y.1 (List.fst_mem_of_mem_zipIdx hy)).2
      unfold profOps
      cases create with
      | false => rfl
      | true =>
        simp only [if_true]
        rw [putObjects_eq dr hpal cfg.flt (n := n) (shape := [y.1.h, y.1.w, 3]) hh0 none act hobj]
        rfl)
  rw [profRun, h]
  have hlen : frames.length ≠ 0 := by simpa using hne
  simp only [if_neg hlen, Option.bind_fun_some]
  congr 1
  funext r
  refine Prod.ext rfl ?_
  cases create with
  | false => simp
  | true =>
    simp only [if_true]
    conv_rhs => rw [← List.zipIdx_map_fst 0 frames, List.zip_map_left, List.map_map]
    rw [List.filterMap_eq_map']
    rfl

/-- **C132** (false) `process_video` raises for a video without frames. -/
theorem C132_false_empty (cfg : Cfg K Unit D F Unit) (dr : EvalDraw K Unit H) (width height skip : Nat) (create : Bool)
    (g : Nat) : profRun cfg dr width height skip create g [] = none := rfl

end

/-! ### To the end -/

theorem filterMap_length {α β : Type} (f : α → Option β) (l : List α) :
    (l.filterMap f).length = (l.filter fun a => (f a).isSome).length := by
  induction l with
  | nil => rfl
  | cons a l ih =>
    rw [List.filterMap_cons, List.filter_cons]
    cases h : f a <;> simp [ih]

/-- **C132** The tracker of the OpenPose demo can be made, and every video is processed to its end: no call raises, whatever
OpenPose sees, and all frames are written but those in which it was asked and saw nothing. -/
theorem C132_open_to_the_end {flt : FilterOps ℝ F} {Ok : F → Prop} (hL : FilterLaws flt Ok) (str : Unit → String)
    (cdist : String → List (List ℝ) → List (List ℝ) → Option (Mat (Option (WithTop ℝ)))) {height : Nat} (hh : 0 < height)
    (dr : EvalDraw ℝ Unit H) (hpal : dr.env.palette.colors ≠ []) :
    ∃ cfg, mkTracker str cdist (openArgs flt height) = some cfg ∧ ∀ skip g (frames : List (PoseFrame ℝ)),
      (∀ f ∈ frames, (∀ p ∈ f.poses.getD [], p.length = 25) ∧ f.h = height) →
      ∃ w' pics, openRun cfg dr 25 skip g frames = some (w', pics) ∧
        pics.length = (frames.zipIdx.filter fun f => decide (¬ (skip ∣ f.2 ∧ f.1.poses.isNone))).length := by
  suffices ends : ∀ cfg : Cfg ℝ Unit (WithTop ℝ) F Unit, cfg.flt = flt →
      (∃ f, cfg.dist = .scalar f ∧ ScoredDist flt (fun _ => (25, 2)) f) →
      cfg.reid = none → cfg.thr ≤ cfg.fill → ∀ skip g (frames : List (PoseFrame ℝ)),
      (∀ f ∈ frames, (∀ p ∈ f.poses.getD [], p.length = 25) ∧ f.h = height) →
      ∃ w' pics, openRun cfg dr 25 skip g frames = some (w', pics) ∧
        pics.length = (frames.zipIdx.filter fun f => decide (¬ (skip ∣ f.2 ∧ f.1.poses.isNone))).length by
    refine ⟨_, rfl, ends _ rfl ⟨_, rfl, C67_voting flt _ _ _⟩ rfl ?_⟩
    show ((2 / 5 : ℝ) : WithTop ℝ) ≤ ((2 / 5 : ℝ) : WithTop ℝ) + 1
    exact WithTop.coe_le_coe.mpr (by norm_num)
  rintro cfg rfl ⟨f, hf, hD⟩ hre hfill skip g frames hfr
  have hd := openCall_rated (skip := skip) fun f hm => (hfr f hm).1
  obtain ⟨⟨w', acts⟩, ht⟩ := demoTrack_rated hL () () g hd hf hD hre hfill
  rw [C132_open_same_partial hL (by norm_num) dr hpal skip g fun f hm => ⟨(hfr f hm).1, by rw [(hfr f hm).2]; exact hh⟩, ht]
  refine ⟨_, _, rfl, ?_⟩
  have hlen := ((demoTrack_shape hL () () g (fun l hl d hd' => (hd l hl d hd').shaped)).1 w' acts ht).1
  simp only [List.length_map, List.length_zipIdx] at hlen
  rw [filterMap_length]
  have hfst : (frames.zipIdx.zip acts).map Prod.fst = frames.zipIdx := List.map_fst_zip (by simp [hlen])
  conv_rhs => rw [← hfst, List.filter_map, List.length_map]
  congr 1
  refine List.filter_congr fun y _ => ?_
  rw [← Option.not_isNone, Function.comp_apply]
  by_cases h : skip ∣ y.1.2 ∧ y.1.1.poses = none
  · rw [(C132_open_written dr cfg.flt 25 skip y.1 y.2).mpr h]
    simp [h.1, h.2]
  · have h' : (openShot dr cfg.flt 25 skip y.1 y.2).isNone = false := by
      rw [Bool.eq_false_iff, ne_eq, Option.isNone_iff_eq_none, C132_open_written]
      exact h
    rw [h']
    simp only [Bool.not_false, Option.isNone_iff_eq_none]
    exact (decide_eq_true h).symm

/-- **C132** Both trackers of the profiling demo can be made, and `process_video` processes every video that is not empty to its
end: no call raises, whatever the network sees, and with `create_video` as many frames are written as were read. With
`"keypoints_vote"` poses must have at least 16 keypoints. -/
theorem C132_prof_to_the_end {flt : FilterOps ℝ F} {Ok : F → Prop} (hL : FilterLaws flt Ok) (str : Unit → String)
    (cdist : String → List (List ℝ) → List (List ℝ) → Option (Mat (Option (WithTop ℝ)))) {n : Nat} (hn : 0 < n) (vote : Bool)
    (hv : vote = true → 16 ≤ n) (width height : Nat) (dr : EvalDraw ℝ Unit H) (hpal : dr.env.palette.colors ≠ []) :
    ∃ cfg, mkTracker str cdist (profArgs flt vote width height) = some cfg ∧
      ∀ skip create g (frames : List (PeakFrame ℝ)), frames ≠ [] →
      (∀ f ∈ frames, (∀ o ∈ f.objs, o.length = n) ∧ 0 < f.h) →
      ∃ w' pics, profRun cfg dr width height skip create g frames = some (w', pics) ∧
        pics.length = if create then frames.length else 0 := by
  suffices ends : ∀ cfg : Cfg ℝ Unit (WithTop ℝ) F Unit, cfg.flt = flt →
      (∃ f, cfg.dist = .scalar f ∧ ScoredDist flt (fun _ => (n, 2)) f) →
      cfg.reid = none → cfg.thr ≤ cfg.fill → ∀ skip create g (frames : List (PeakFrame ℝ)), frames ≠ [] →
      (∀ f ∈ frames, (∀ o ∈ f.objs, o.length = n) ∧ 0 < f.h) →
      ∃ w' pics, profRun cfg dr width height skip create g frames = some (w', pics) ∧
        pics.length = if create then frames.length else 0 by
    refine ⟨_, rfl, ends _ rfl ⟨_, rfl, ?_⟩ rfl ?_⟩
    · rintro d v hl hl' hp hq ⟨s, es, hs⟩ ⟨t, et, ht⟩
      cases vote with
      | true =>
        obtain ⟨x, hx⟩ := C67_voting (X := Unit) flt (fun _ : Unit => (n, 2)) _ (1 / 100) d v hl hl' hp hq ⟨s, es, hs⟩
          ⟨t, et, ht⟩
        refine ⟨x, ?_⟩
        simp only [if_true]
        rw [rescaledVote_eq (by rw [hq.1]; exact hv rfl)]
        exact hx
      | false =>
        simp only [Bool.false_eq_true, if_false, profilingEuclidean]
        rw [normalized_eq (hp.same hq) hp.2.1 (by rw [hp.1]; exact hn)]
        exact ⟨_, rfl⟩
    · show ((1 / 5 : ℝ) : WithTop ℝ) ≤ ((1 / 5 : ℝ) : WithTop ℝ) + 1
      exact WithTop.coe_le_coe.mpr (by norm_num)
  rintro cfg rfl ⟨f, hf, hD⟩ hre hfill skip create g frames hne hfr
  have hd := profCall_rated (skip := skip) (width := width) (height := height) fun f hm => (hfr f hm).1
  obtain ⟨⟨w', acts⟩, ht⟩ := demoTrack_rated hL () () g hd hf hD hre hfill
  rw [C132_prof_same_partial hL dr hpal width height skip create g hne hfr, ht]
  refine ⟨_, _, rfl, ?_⟩
  have hlen := ((demoTrack_shape hL () () g (fun l hl d hd' => (hd l hl d hd').shaped)).1 w' acts ht).1
  simp only [List.length_map, List.length_zipIdx] at hlen
  cases create <;> simp [hlen]

/-! ### Witnesses and examples -/

/-- a tracker that can be computed -/
def bodyCfg : Cfg ℚ Unit (WithTop ℚ) (OKF ℚ) Unit where
  dist := ofPoints (okfOps okfDefaults) allBlocks
  thr := ((30 : ℚ) : WithTop ℚ)
  fill := ((31 : ℚ) : WithTop ℚ)
  hitCounterMax := 30
  initDelay := 4
  pwMax := 10
  detThr := 1 / 10
  flt := okfOps okfDefaults
  pastLen := 4
  reid := none
  reidThr := 0
  reidFill := 1
  reidMax := none

/-- ids and pictures without labels -/
def bodyDraw : EvalDraw ℚ Unit Nat := ⟨toyEnv, toyRaster, id, fun _ => none⟩

/-- someone at this place, as a pose of two keypoints -/
def bodyFrame : PoseFrame ℚ := ⟨100, 200, fun _ _ => 9, some [[(20, 30, 9 / 10), (22, 50, 8 / 10)]], []⟩

/-- OpenPose sees nothing -/
def blindFrame : PoseFrame ℚ := { bodyFrame with poses := none }

/-- **C132** (false) Not every frame of the video is written: someone is seen in five frames, then OpenPose sees nothing in three
frames. The tracker still returns the person in all of these, but the output has only five frames. -/
theorem C132_false_dropped :
    ∃ w acts pics, demoTrack bodyCfg () () 0 ((List.replicate 5 bodyFrame ++ List.replicate 3 blindFrame).zipIdx.map
        (openCall 1)) = some (w, acts) ∧
      openRun bodyCfg bodyDraw 2 1 0 (List.replicate 5 bodyFrame ++ List.replicate 3 blindFrame) = some (w, pics) ∧
      acts.map List.length = [0, 0, 0, 0, 1, 1, 1, 1] ∧ pics.length = 5 := by
  have h : (demoTrack bodyCfg () () 0 ((List.replicate 5 bodyFrame ++ List.replicate 3 blindFrame).zipIdx.map
      (openCall 1))).map (fun r => (r.2.map List.length)) = some [0, 0, 0, 0, 1, 1, 1, 1] := by
    decide +kernel
  have h' : (openRun bodyCfg bodyDraw 2 1 0 (List.replicate 5 bodyFrame ++ List.replicate 3 blindFrame)).map
      (fun r => r.2.length) = some 5 := by
    decide +kernel
  obtain ⟨⟨w, acts⟩, ht, h⟩ := Option.map_eq_some_iff.mp h
  obtain ⟨⟨w', pics⟩, ht', h'⟩ := Option.map_eq_some_iff.mp h'
  have e := ht'
  rw [C132_open_same_partial (okf_laws okfDefaults) (by norm_num) bodyDraw (by decide) 1 0 (fun f hf => by
    rcases List.mem_append.mp hf with hf | hf <;> rw [List.eq_of_mem_replicate hf]
    · exact ⟨by simp [bodyFrame], by decide⟩
    · exact ⟨by simp [blindFrame], by decide⟩), ht] at e
  cases e
  exact ⟨w, acts, _, ht, ht', h, h'⟩

/-- every second frame is looked at: in it there are discs for the detections, in all of them for the objects, once returned -/
example : (openRun bodyCfg bodyDraw 2 2 0 (List.replicate 8 bodyFrame)).map
    (fun r => r.2.map fun p => (p (20, 30) 1, p (22, 50) 1)) =
      some [(7, 7), (9, 9), (7, 7), (9, 9), (1, 1), (1, 1), (1, 1), (1, 1)] := by
  decide +kernel

/-- the hypotheses of `C132_open_same_partial` -/
example : (∀ p ∈ bodyFrame.poses.getD [], p.length = 2) ∧ 0 < bodyFrame.h ∧ bodyDraw.env.palette.colors ≠ [] :=
  ⟨by simp [bodyFrame], by decide, by decide⟩

/-- the hypotheses of `C132_open_to_the_end`: a video of six frames of which every second one is looked at -/
example (dr : EvalDraw ℝ Unit H) (hpal : dr.env.palette.colors ≠ []) (pic : Pic) :
    ∃ cfg, mkTracker (fun _ => "None") (fun _ _ _ => none) (openArgs (okfOps realOkf) 720) = some cfg ∧ ∃ w' pics,
      openRun cfg dr 25 2 0 (List.replicate 6 ⟨720, 1280, pic, some [List.replicate 25 (100, 200, 9 / 10)], []⟩) =
        some (w', pics) ∧ pics.length = 6 := by
  obtain ⟨cfg, h1, h2⟩ := C132_open_to_the_end (okf_laws realOkf) (fun _ => "None") (fun _ _ _ => none) (height := 720)
    (by norm_num) dr hpal
  refine ⟨cfg, h1, ?_⟩
  obtain ⟨w', pics, h3, h4⟩ := h2 2 0 (List.replicate 6 ⟨720, 1280, pic, some [List.replicate 25 (100, 200, 9 / 10)], []⟩)
    (fun f hf => by
      rw [List.eq_of_mem_replicate hf]
      exact ⟨by simp, rfl⟩)
  refine ⟨w', pics, h3, h4.trans ?_⟩
  rw [List.filter_eq_self.mpr]
  · simp
  · intro f hf
    have := List.eq_of_mem_replicate (List.fst_mem_of_mem_zipIdx hf)
    simp [this]

/-- someone, with the number of the peak of the second keypoint (negative: not found) -/
def peakFrame (k : ℤ) : PeakFrame ℚ := ⟨100, 200, fun _ _ => 9, fun j _ => if j = 0 then (3 / 10, 1 / 10) else (1 / 2, 11 / 100),
  [[0, k]]⟩

/-- the hypotheses of `C132_prof_same_partial`, and what is seen: the first keypoint at (20, 30) and the second at (22, 50) -/
example : (∀ o ∈ (peakFrame 0).objs, o.length = 2) ∧ 0 < (peakFrame 0).h ∧
    (profRun bodyCfg bodyDraw 200 100 2 true 0 (List.replicate 7 (peakFrame 0))).map
      (fun r => r.2.map fun p => (p (20, 30) 1, p (22, 50) 1)) =
        some [(9, 9), (9, 9), (9, 9), (9, 9), (1, 1), (1, 1), (1, 1)] ∧
    (profRun bodyCfg bodyDraw 200 100 2 true 0 (List.replicate 7 (peakFrame (-1)))).map
      (fun r => r.2.map fun p => (p (20, 30) 1, p (0, 0) 1)) =
        some [(9, 9), (9, 9), (9, 9), (9, 9), (255, 9), (255, 9), (255, 9)] ∧
    (profRun bodyCfg bodyDraw 200 100 2 false 0 (List.replicate 7 (peakFrame 0))).map (fun r => r.2.length) = some 0 := by
  refine ⟨by simp [peakFrame], by decide, ?_, ?_, ?_⟩ <;> decide +kernel

/-- the hypotheses of `C132_prof_to_the_end`: 18 keypoints -/
example (vote : Bool) (dr : EvalDraw ℝ Unit H) (hpal : dr.env.palette.colors ≠ []) (pic : Pic) :
    ∃ cfg, mkTracker (fun _ => "None") (fun _ _ _ => none) (profArgs (okfOps realOkf) vote 1280 720) = some cfg ∧ ∃ w' pics,
      profRun cfg dr 1280 720 3 true 0 (List.replicate 4 ⟨720, 1280, pic, fun _ _ => (1 / 2, 1 / 3),
        [List.replicate 18 0, List.replicate 18 (-1)]⟩) = some (w', pics) ∧ pics.length = 4 := by
  obtain ⟨cfg, h1, h2⟩ := C132_prof_to_the_end (okf_laws realOkf) (fun _ => "None") (fun _ _ _ => none) (n := 18)
    (by norm_num) vote (fun _ => by norm_num) 1280 720 dr hpal
  refine ⟨cfg, h1, ?_⟩
  have := h2 3 true 0 (List.replicate 4 ⟨720, 1280, pic, fun _ _ => (1 / 2, 1 / 3),
    [List.replicate 18 0, List.replicate 18 (-1)]⟩) (by simp) (fun f hf => by
      rw [List.eq_of_mem_replicate hf]
      exact ⟨by simp, by norm_num⟩)
  simpa using this

end Norfair.Props
