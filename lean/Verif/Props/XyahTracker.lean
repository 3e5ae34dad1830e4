import Verif.Model.XyahTracker
import Verif.Props.XyahLoop
import Verif.Props.Relations
import Verif.Props.Drift

/-! C143: where the evaluation with boxes by center raises, and where not. -/

set_option linter.unusedSectionVars false

namespace Norfair.Props

open Norfair Norfair.Spec

variable {K L D F X H Img : Type}

section
variable [Field K] [LinearOrder K] [IsStrictOrderedRing K] [FloorRing K] [DecidableEq L]

/-- **C143** For a detection with positive ratio and height, `iou_xyah` is a number except if the estimate of the object has a
negative ratio and, with the sign of the ratio, exactly the opposite area. If the ratio of the estimate is not negative, it is a number
between 0 and 1, whatever the height. -/
theorem C143_nan {d o : Xyah K} (h1 : 0 < d.a) (h2 : 0 < d.h) :
    (iouXyah d o = none ↔ o.a * o.h ^ 2 = -(d.a * d.h ^ 2)) ∧ (0 ≤ o.a → ∃ x, iouXyah d o = some x ∧ 0 ≤ x ∧ x ≤ 1) := by
  have hA : 0 < d.a * d.h ^ 2 := by positivity
  have key : 0 ≤ o.a → ∃ x, iouXyah d o = some x ∧ 0 ≤ x ∧ x ≤ 1 := by
    intro ha
    by_cases hp : 0 < o.a ∧ 0 < o.h
    · obtain ⟨v, e, v0, v1, -⟩ := (C109_range d o).1 ⟨⟨h1, h2⟩, hp⟩
      exact ⟨v, e, v0, v1⟩
    · rcases (C109_range d o).2 (fun h => hp h.2) with e | e
      · exact ⟨1, e, zero_le_one, le_rfl⟩
      · exfalso
        rw [C109_iou] at e
        have hi : o.toBox.x2 ≤ o.toBox.x1 ∨ o.toBox.y2 ≤ o.toBox.y1 := by
          by_contra hc
          rw [not_or, not_le, not_le] at hc
          exact hp (toBox_wellFormed.mp hc)
        rcases C91_inverted (a := d.toBox) hi with e' | ⟨-, e'⟩
        · rw [e] at e'; cases e'
        · simp only [Xyah.toBox, Box.area] at e'
          have : 0 ≤ o.a * o.h ^ 2 := by positivity
          nlinarith
  refine ⟨⟨fun e => ?_, fun e => ?_⟩, key⟩
  · by_cases ha : 0 ≤ o.a
    · obtain ⟨x, e', -⟩ := key ha
      rw [e] at e'; cases e'
    · rw [C109_iou] at e
      have hi : o.toBox.x2 ≤ o.toBox.x1 ∨ o.toBox.y2 ≤ o.toBox.y1 := by
        by_contra hc
        rw [not_or, not_le, not_le] at hc
        exact ha (toBox_wellFormed.mp hc).1.le
      rcases C91_inverted (a := d.toBox) hi with e' | ⟨-, e'⟩
      · rw [e] at e'; cases e'
      · simp only [Xyah.toBox, Box.area] at e'
        linear_combination e'
  · have ha : ¬ 0 ≤ o.a := by
      intro ha
      have : 0 ≤ o.a * o.h ^ 2 := by positivity
      linarith
    have hi : o.toBox.x2 ≤ o.toBox.x1 ∨ o.toBox.y2 ≤ o.toBox.y1 := by
      by_contra hc
      rw [not_or, not_le, not_le] at hc
      exact ha (toBox_wellFormed.mp hc).1.le
    have hin : d.toBox.inter o.toBox = 0 := by
      unfold Box.inter
      rcases hi with hi | hi
      · rw [max_eq_right (a := min _ _ - max _ _) (b := (0 : K)) (by
          have := min_le_right d.toBox.x2 o.toBox.x2
          have := le_max_right d.toBox.x1 o.toBox.x1
          linarith)]
        simp
      · rw [mul_comm, max_eq_right (a := min _ _ - max _ _) (b := (0 : K)) (by
          have := min_le_right d.toBox.y2 o.toBox.y2
          have := le_max_right d.toBox.y1 o.toBox.y1
          linarith)]
        simp
    rw [C109_iou, iouPair, hin, if_pos]
    simp only [Xyah.toBox, Box.area]
    linear_combination e

/-- the ratio of sides is `ratio l` -/
def ratioRel (ratio : L → K) (l : L) (q : List K × K) : Prop := q = ([0, 0, 1, 0], ratio l)

/-- a detection by center, ratio and height, with the ratio of its class and positive height; there is one score -/
def RatioDet (ratio : L → K) (d : Det K L X) : Prop :=
  (∃ cx cy t, 0 < t ∧ d.points = ⟨2, 2, [cx, cy, ratio d.label, t]⟩) ∧ d.absPoints = d.points ∧ ∃ a, d.scores = some [a, a]

/-- **C143** A tracker with `iou_xyah` and any of the filters never raises if it is called with boxes that have the same ratio of
sides for each label, and any positive height; without transformations. -/
theorem C143_ratio_partial {cfg : Cfg K L (WithTop K) F X} {Ok : F → Prop} (hL : FilterLaws cfg.flt Ok)
    {Rel : List K × K → F → Prop} (hR : ∀ q, RelationLaws cfg.flt Ok q.1 q.2 (Rel q))
    (hdist : cfg.dist = .scalar (iouXyahFn cfg.flt)) {ratio : L → K} (hpos : ∀ l, 0 < ratio l)
    (hs : ∀ a b, Compat cfg a b → ratio a = ratio b) (hfill : cfg.thr ≤ cfg.fill) (hre : cfg.reid = none)
    {w0 w : World K L (WithTop K) F X} (h0 : w0.Initial)
    (hw : Reaches cfg (fun _ _ => True) (fun dets _ ct w => ct = none ∧ ∀ r ∈ dets.getD [], RatioDet ratio (w.heap r)) w0 w)
    (dets : Option (List Ref)) (period : Int) (hcall : ∀ r ∈ dets.getD [], RatioDet ratio (w.heap r)) :
    ∃ act, (update cfg w dets period none).2 = .ok act := by
  have hs' : ∀ a b, Compat cfg a b → (fun _ : L => ((2, 2) : Nat × Nat)) a = (fun _ : L => ((2, 2) : Nat × Nat)) b ∧
      ∀ q, ratioRel ratio a q ↔ ratioRel ratio b q := by
    intro a b hab
    simp only [ratioRel, hs a b hab, true_and, implies_true]
  have rel : ∀ (c : List Ref) (h : Ref → Det K L X), (∀ r ∈ c, RatioDet ratio (h r)) →
      CallRelated (fun _ : L => (2, 2)) (ratioRel ratio) cfg.detThr c none h := by
    intro c h hq
    refine ⟨fun r hr => ?_, fun r hr x hx => ?_, (fun c e => by cases e), (fun c e => by cases e)⟩
    · obtain ⟨⟨cx, cy, t, -, e⟩, e2, -⟩ := hq r hr
      rw [e2, e]
      refine ⟨⟨rfl, rfl, rfl⟩, ?_⟩
      rintro q rfl
      simp [linComb]
    · obtain ⟨-, -, a, e⟩ := hq r hr
      rw [e] at hx
      cases hx
      refine ⟨rfl, ?_⟩
      by_cases ha : cfg.detThr < a
      · left; simpa using ha
      · right; simpa using ha
  have hrel := rel _ _ hcall
  have hobj := relObj_reaches hL hs' hR h0 (hw.mono (fun _ _ h => h) fun _ _ ct w h => by rw [h.1]; exact rel _ w.heap h.2)
  have hI := relObj_inv hL hs' hR (dets.getD []) period none (relObj_keeps hrel)
  have hI2 : ObjInv cfg (dets.getD []) period none
      (fun h => CallRelated (fun _ : L => (2, 2)) (ratioRel ratio) cfg.detThr (dets.getD []) none h ∧
        ∀ r ∈ dets.getD [], RatioDet ratio (h r))
      (fun _ o => RelObj cfg.flt Ok (fun _ : L => (2, 2)) (ratioRel ratio) Rel o) :=
    { heapAges := fun h h' ha hh => ⟨hI.heapAges h h' ha hh.1, fun r hr => by
        obtain ⟨⟨a, e⟩, _⟩ := ha r
        rw [e]; exact hh.2 r hr⟩
      heapTransform := fun h c q e hq hh => by cases e
      ages := hI.ages
      transform := hI.transform
      step := hI.step
      setMin := hI.setMin
      hit := fun h g c o r d hh => hI.hit h g c o r d hh.1
      hitErr := fun h g c o r hh => hI.hitErr h g c o r hh.1
      merge := hI.merge
      create := fun w r hh => hI.create w r hh.1 }
  refine update_succeeds_of hL (shape := fun _ => (2, 2)) (fun _ _ _ => rfl) h0
    (hw.mono (fun _ _ h => h) fun _ _ ct w h => by rw [h.1]; exact (rel _ w.heap h.2).callOk) dets period none hrel.callOk
    (Or.inl rfl) hI2 ⟨hrel, hcall⟩ hobj ?_ ?_ hfill (fun e => absurd hre e)
  · intro w1 hH _ ho v hv
    unfold DistGives at hv
    rw [hdist] at hv
    obtain ⟨r, hr, o, hmo, -, rfl⟩ := hv
    obtain ⟨⟨cx, cy, t, ht, e⟩, -⟩ := hH.2 r hr
    obtain ⟨hsh, hsat⟩ := (ho o hmo).1.estimate hL hR
    obtain ⟨x0, y0, x1, y1, d1, d2⟩ := Pts.rows_box hsh
    have ha : x1 = ratio o.label := by
      have := hsat _ rfl
      rw [d1] at this
      simpa [linComb] using this
    have hd : (w1.heap r).points.rows = [[cx, cy], [ratio (w1.heap r).label, t]] := by
      rw [e]; rfl
    obtain ⟨x, hx, -⟩ := (C143_nan (d := ⟨cx, cy, ratio (w1.heap r).label, t⟩) (o := ⟨x0, y0, x1, y1⟩) (hpos _) ht).2
      (ha ▸ (hpos _).le)
    refine ⟨x, ?_⟩
    show (match (w1.heap r).points.rows, (o.estimate cfg.flt).rows with
      | [[cx, cy], [a, h]], [[cx', cy'], [a', h']] =>
        some ((iouXyah ⟨cx, cy, a, h⟩ ⟨cx', cy', a', h'⟩).map fun x => (x : WithTop K))
      | _, _ => none) = _
    rw [hd, d2]
    dsimp only
    rw [hx]
    rfl
  · intro w1 _ v hv
    obtain ⟨f, hf, -⟩ := hv
    rw [hre] at hf
    cases hf

theorem demoTrack_ratio {cfg : Cfg K L (WithTop K) F X} {Ok : F → Prop} (hL : FilterLaws cfg.flt Ok)
    {Rel : List K × K → F → Prop} (hR : ∀ q, RelationLaws cfg.flt Ok q.1 q.2 (Rel q))
    (hdist : cfg.dist = .scalar (iouXyahFn cfg.flt)) {ratio : L → K} (hpos : ∀ l, 0 < ratio l)
    (hs : ∀ a b, Compat cfg a b → ratio a = ratio b) (hfill : cfg.thr ≤ cfg.fill) (hre : cfg.reid = none)
    (label : L) (extra : X) (g : Nat) {calls : List (Option (List (Det K L X)) × Int)}
    (hd : ∀ l ∈ newDets calls, ∀ d ∈ l, RatioDet ratio d) : ∃ r, demoTrack cfg label extra g calls = some r := by
  have h0 : (⟨detHeap label extra (newDets calls).flatten, g, 0, 0, []⟩ : World K L (WithTop K) F X).Initial := ⟨rfl, rfl, rfl⟩
  refine (trackCalls_induct (cfg := cfg) (E := fun _ _ => True)
    (P := fun dets _ ct w => ct = none ∧ ∀ r ∈ dets.getD [], RatioDet ratio (w.heap r)) (Q := RatioDet ratio)
    (R := fun r => r < (newDets calls).flatten.length) (fun _ _ h => h) h0
    ((calls.zip (refsFrom 0 (newDets calls))).map fun c => (c.1.1.map fun _ => c.2, c.1.2)) _
    (fun c hc w hq => ⟨rfl, fun r hr => hq r (demoCalls_refs hc r hr)⟩) (.refl _) (fun r hr => by
      obtain ⟨l, hl, hm⟩ := detHeap_mem (label := label) (extra := extra) hr
      exact hd l hl _ hm)).2 fun w hw c hc hP => ?_
  exact C143_ratio_partial hL hR hdist hpos hs hfill hre h0 hw c.1 c.2 hP.2

end

/-- **C143** (partial: see `C143_false_nan`) The tracker of the evaluation can be made, and every sequence whose boxes all have the same
ratio of sides and positive height is evaluated to its end: no call raises, the file of predictions is written and closed. -/
theorem C143_to_the_end_partial [DecidableEq L] (str : L → String)
    (cdist : String → List (List ℝ) → List (List ℝ) → Option (Mat (Option (WithTop ℝ)))) :
    ∃ cfg : Cfg ℝ L (WithTop ℝ) (Σ d, FPKalman ℝ d) X, mkTracker str cdist xyahArgs = some cfg ∧
      cfg.thr = ((9 / 10 : ℝ) : WithTop ℝ) ∧ cfg.hitCounterMax = 2 ∧ cfg.initDelay = 1 ∧ cfg.pwMax = 3 ∧ cfg.detThr = 1 / 100 ∧
      ∀ (fmt : ℝ → Str) (dr : EvalDraw ℝ L H) (sortRows : List (List ℝ) → List (List ℝ)), SortsByFrame sortRows →
        ∀ (label : L) (extra : X) (g : Nat) (acc : Accum ℝ) (v : FilmSeq ℝ Img) (n : Nat) (ratio : ℝ), TallOk v n → 0 < ratio →
        (∀ r ∈ v.rows, 0 < r.getD 5 0 ∧ r.getD 4 0 = ratio * r.getD 5 0) →
        ∃ g' file acc', xyahSeq cfg fmt dr sortRows label extra false g acc v = some ((g', file, acc'), none) ∧
          file.closed = true := by
  have hL := fpDrift_laws (pr := (⟨4, 1 / 10, 10⟩ : FPParams ℝ)) (by norm_num) (by norm_num) (by norm_num)
  have hR := fun q : List ℝ × ℝ => filterPy_relations (pr := (⟨4, 1 / 10, 10⟩ : FPParams ℝ)) (by norm_num) (by norm_num)
    (by norm_num) q.1 q.2
  suffices ends : ∀ cfg : Cfg ℝ L (WithTop ℝ) (Σ d, FPKalman ℝ d) X, cfg.flt = filterPyOps ⟨4, 1 / 10, 10⟩ →
      cfg.dist = .scalar (iouXyahFn cfg.flt) → cfg.reid = none → cfg.thr ≤ cfg.fill →
      ∀ (fmt : ℝ → Str) (dr : EvalDraw ℝ L H) (sortRows : List (List ℝ) → List (List ℝ)), SortsByFrame sortRows →
        ∀ (label : L) (extra : X) (g : Nat) (acc : Accum ℝ) (v : FilmSeq ℝ Img) (n : Nat) (ratio : ℝ), TallOk v n → 0 < ratio →
        (∀ r ∈ v.rows, 0 < r.getD 5 0 ∧ r.getD 4 0 = ratio * r.getD 5 0) →
        ∃ g' file acc', xyahSeq cfg fmt dr sortRows label extra false g acc v = some ((g', file, acc'), none) ∧
          file.closed = true by
    exact ⟨_, rfl, rfl, rfl, rfl, rfl, rfl, ends _ rfl rfl rfl (WithTop.coe_le_coe.mpr (by norm_num))⟩
  intro cfg hflt hdist hre hfill fmt dr sortRows hs label extra g acc v n ratio hv hpos hrows
  rw [← hflt] at hL
  obtain ⟨⟨w', acts⟩, h⟩ := demoTrack_ratio (cfg := cfg) hL (fun q => by rw [hflt]; exact hR q) hdist (ratio := fun _ => ratio)
    (fun _ => hpos) (fun _ _ _ => rfl) hfill hre label extra g (calls := xyahCalls label extra sortRows v.rows n) (by
      intro l hl d hd
      simp only [newDets, xyahCalls, List.map_map, List.mem_map] at hl
      obtain ⟨k, -, rfl⟩ := hl
      simp only [Function.comp, Option.getD_some, List.mem_map, List.mem_filter] at hd
      obtain ⟨r, ⟨hr, -⟩, rfl⟩ := hd
      obtain ⟨h1, h2⟩ := hrows r ((hs v.rows).1.mem_iff.mp hr)
      refine ⟨⟨r.getD 2 0 + r.getD 4 0 / 2, r.getD 3 0 + r.getD 5 0 / 2, r.getD 5 0, h1, ?_⟩, rfl, _, rfl⟩
      show (⟨2, 2, [r.getD 2 0 + r.getD 4 0 / 2, r.getD 3 0 + r.getD 5 0 / 2, r.getD 4 0 / r.getD 5 0, r.getD 5 0]⟩ : Pts ℝ) =
        ⟨2, 2, [r.getD 2 0 + r.getD 4 0 / 2, r.getD 3 0 + r.getD 5 0 / 2, ratio, r.getD 5 0]⟩
      rw [show r.getD 4 0 / r.getD 5 0 = ratio from (div_eq_iff h1.ne').mpr h2])
  obtain ⟨file, acc', e, hc, -⟩ := (C138_sequence hL fmt dr sortRows hs label extra g acc hv).2 w' acts h
  exact ⟨_, file, acc', e, hc⟩

/-- **C143** The distance of the tracker of the evaluation: for center, ratio of sides and height, the `iou` of norfair (C37) of the boxes with
these centers, heights, and widths ratio * height. The estimates are those of the filter of `filterpy` with R = 4, Q = 0.1 and P = 10. -/
theorem C143_tracker [DecidableEq L] (str : L → String)
    (cdist : String → List (List ℝ) → List (List ℝ) → Option (Mat (Option (WithTop ℝ)))) :
    ∃ cfg : Cfg ℝ L (WithTop ℝ) (Σ d, FPKalman ℝ d) X, mkTracker str cdist xyahArgs = some cfg ∧
      cfg.flt = filterPyOps ⟨4, 1 / 10, 10⟩ ∧ cfg.reid = none ∧ ∃ f, cfg.dist = .scalar f ∧
      ∀ (d : Det ℝ L X) (v : ObjView ℝ L (WithTop ℝ) (Σ d, FPKalman ℝ d) X) (x y a h x' y' a' h' : ℝ),
        d.points = ⟨2, 2, [x, y, a, h]⟩ → v.obj.estimate cfg.flt = ⟨2, 2, [x', y', a', h']⟩ →
        f d v = some ((iouPair ⟨x - a * h / 2, y - h / 2, x + a * h / 2, y + h / 2⟩
          ⟨x' - a' * h' / 2, y' - h' / 2, x' + a' * h' / 2, y' + h' / 2⟩).map fun t => (t : WithTop ℝ)) := by
  refine ⟨_, rfl, rfl, rfl, _, rfl, fun d v x y a h x' y' a' h' e1 e2 => ?_⟩
  have r1 : d.points.rows = [[x, y], [a, h]] := by rw [e1]; rfl
  have r2 : (v.obj.estimate (filterPyOps ⟨4, 1 / 10, 10⟩)).rows = [[x', y'], [a', h']] := by
    rw [show v.obj.estimate (filterPyOps ⟨4, 1 / 10, 10⟩) = _ from e2]; rfl
  rw [iouXyahFn, r1, r2]
  dsimp only
  rw [C109_iou]
  simp only [Xyah.toBox, mul_div_assoc]

/-! ### Witness and examples -/

/-- the tracker of the evaluation with the default filter of norfair in place of the one of `filterpy` -/
def centerCfg : Cfg ℚ Nat (WithTop ℚ) (OKF ℚ) Unit where
  dist := .scalar (iouXyahFn (okfOps okfDefaults))
  thr := ((9 / 10 : ℚ) : WithTop ℚ)
  fill := ((19 / 10 : ℚ) : WithTop ℚ)
  hitCounterMax := 2
  initDelay := 1
  pwMax := 3
  detThr := 1 / 100
  flt := okfOps okfDefaults
  pastLen := 4
  reid := none
  reidThr := 0
  reidFill := 1
  reidMax := none

/-- a sequence of six frames: someone turns in five frames, so that the box gets narrower, and then someone else is seen, in a box of this
width -/
def narrowSeq (width : ℚ) : FilmSeq ℚ ℤ := { filmSeq with
  length := .int 6
  rows := [[1, -1, 0, 0, 100, 10, 1], [2, -1, 20, 0, 60, 10, 1], [3, -1, 40, 0, 20, 10, 1], [4, -1, 46, 0, 8, 10, 1],
    [5, -1, 46, 0, 8, 10, 1], [6, -1, 300, 0, width, 10, 1]] }

theorem narrowSeq_tall {width : ℚ} : TallOk (narrowSeq width) 6 :=
  ⟨by simp [narrowSeq], ⟨7, le_rfl, by simp [narrowSeq]⟩, rfl, by decide, by simp [narrowSeq]⟩

set_option synthInstance.maxSize 2000 in
/-- **C143** (false in general) All boxes have positive width and height. In the last frame the estimate of the first object has a negative
ratio of sides, and the area of the new box is exactly the opposite: `iou_xyah` divides 0 by 0, and the evaluation raises. With
the width 8 it does not. Computed with the default filter of norfair. -/
theorem C143_false_nan :
    (∀ r ∈ (narrowSeq (1098392820 / 152833405)).rows, 0 < r.getD 4 0 ∧ 0 < r.getD 5 0) ∧
    TallOk (narrowSeq (1098392820 / 152833405)) 6 ∧ SortsByFrame (K := ℚ) toySort ∧
    ((demoTrack centerCfg 0 () 0 (xyahCalls 0 () toySort ((narrowSeq 1).rows.take 5) 6)).map fun r =>
      (r.2.map List.length, (r.2.getLast?.getD []).map fun o => (o.estimate centerCfg.flt).data)) =
      some ([0, 1, 1, 1, 1, 1], [[50, 5, -109839282 / 152833405, 10]]) ∧
    (xyahSeq centerCfg (fun _ => []) filmDraw toySort 0 () false 0 Accum.init (narrowSeq (1098392820 / 152833405))).isNone = true ∧
    (xyahSeq centerCfg (fun _ => []) filmDraw toySort 0 () false 0 Accum.init (narrowSeq 8)).isSome = true :=
  ⟨by decide +kernel, narrowSeq_tall, toySort_sorts, by decide +kernel, by decide +kernel, by decide +kernel⟩

/-- `C143_nan`: the estimate of the witness, and one with negative height, for which it is a number -/
example : iouXyah (⟨304, 5, 109839282 / 152833405, 10⟩ : Xyah ℚ) ⟨50, 5, -109839282 / 152833405, 10⟩ = none ∧
    iouXyah (⟨304, 5, 109839282 / 152833405, 10⟩ : Xyah ℚ) ⟨50, 5, 1, -10⟩ = some 1 := by decide +kernel

/-- `C143_tracker`: an object whose filter was created from a detection has its center, ratio and height as estimate -/
example : ∃ o : Obj ℝ Nat (WithTop ℝ) (Σ d, FPKalman ℝ d),
    o.estimate (filterPyOps ⟨4, 1 / 10, 10⟩) = ⟨2, 2, [50, 5, 2, 10]⟩ := by
  refine ⟨⟨0, none, none, 2, 2, 1, none, none, none, 0, 0, true, 3, 1, [], [], [],
    (filterPyOps ⟨4, 1 / 10, 10⟩).create ⟨2, 2, [50, 5, 2, 10]⟩, 0, none⟩, ?_⟩
  show (⟨2, 2, ((filterPyOps (⟨4, 1 / 10, 10⟩ : FPParams ℝ)).getX ((filterPyOps ⟨4, 1 / 10, 10⟩).create ⟨2, 2, [50, 5, 2, 10]⟩)).take
    (2 * 2)⟩ : Pts ℝ) = _
  rw [((filterPy_laws (⟨4, 1 / 10, 10⟩ : FPParams ℝ) (by norm_num) (by norm_num) (by norm_num)).create _ rfl).2.2]
  rfl

/-- `C143_ratio_partial`: the hypotheses hold for the tracker of the witness, and it has objects after two calls with a detection of ratio 1/2
each -/
example : (∃ (Ok : OKF ℚ → Prop) (Rel : List ℚ × ℚ → OKF ℚ → Prop), FilterLaws centerCfg.flt Ok ∧ ∀ q : List ℚ × ℚ, RelationLaws centerCfg.flt Ok q.1 q.2 (Rel q)) ∧
    centerCfg.dist = .scalar (iouXyahFn centerCfg.flt) ∧ centerCfg.thr ≤ centerCfg.fill ∧
    RatioDet (fun _ : Nat => (1 / 2 : ℚ)) (xyahRow 0 () [1, -1, 0, 0, 10, 20, 1] : Det ℚ Nat Unit) ∧
    RatioDet (fun _ : Nat => (1 / 2 : ℚ)) (xyahRow 0 () [2, -1, 0, 0, 12, 24, 1] : Det ℚ Nat Unit) ∧
    ((demoTrack centerCfg 0 () 0 (xyahCalls 0 () toySort [[1, -1, 0, 0, 10, 20, 1], [2, -1, 0, 0, 12, 24, 1]] 2)).map fun r =>
      r.2.map List.length) = some [0, 1] := by
  refine ⟨⟨_, _, okfDrift_laws okfDefaults_valid, fun q => okf_relations okfDefaults
    (fun f => OKFValid okfDefaults.R f ∧ f.q = okfDefaults.Q) q.1 q.2⟩, rfl, by decide +kernel,
    ⟨⟨5, 10, 20, by norm_num, by decide +kernel⟩, rfl, 1, rfl⟩, ⟨⟨6, 12, 24, by norm_num, by decide +kernel⟩, rfl, 1, rfl⟩,
    by decide +kernel⟩

/-- `C143_to_the_end_partial`: boxes of ratio 1/2 -/
example : let v : FilmSeq ℝ ℤ := ⟨[], .int 2, .str [], .str [], [[1, -1, 0, 0, 10, 20, 1], [2, -1, 0, 0, 12, 24, 1]], fun _ => none⟩
    TallOk v 2 ∧ ∀ r ∈ v.rows, 0 < r.getD 5 0 ∧ r.getD 4 0 = 1 / 2 * r.getD 5 0 := by
  refine ⟨⟨by simp, ⟨7, le_rfl, by simp⟩, rfl, by decide, by simp⟩, ?_⟩
  simp
  norm_num

end Norfair.Props
