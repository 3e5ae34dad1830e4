import Verif.Spec.Boxes
import Verif.Props.Succeeds
import Verif.Props.Parametric
import Verif.Props.Filters
import Verif.Props.Drift

/-! C91: a tracker with `iou` and proper boxes. -/

set_option linter.unusedSectionVars false

namespace Norfair.Props

open Norfair Norfair.Spec

variable {K L D X : Type}

section
variable [Field K] [LinearOrder K] [IsStrictOrderedRing K] [LinearOrder D] [OrderTop D] [Zero D] [DecidableEq L]

theorem _root_.Norfair.Spec.ProperBox.hasShape {p : Pts K} (h : ProperBox p) : HasShape (2, 2) p := by
  obtain ⟨a, b, c, d, rfl, _, _⟩ := h
  exact ⟨rfl, rfl, rfl⟩

theorem _root_.Norfair.Spec.CallBoxes.callOk {thr : K} {dets : List Ref} {ct : Option (CoordTrans K)}
    {h : Ref → Det K L X} (hc : CallBoxes thr dets ct h) : CallOk (fun _ => (2, 2)) dets ct h := by
  refine ⟨fun c e a p h1 h2 h3 => ?_, fun r hr => ?_⟩
  · obtain ⟨k1, k2, k3⟩ := (hc.keeps c e a p ⟨h1, h2, by rw [h3, h1, h2]⟩).1
    exact ⟨k1.trans h1.symm, k2.trans h2.symm, by rw [k3, h3, h1, h2]⟩
  · obtain ⟨a, b, c, d, e, _, _⟩ := hc.abs r hr
    rw [DetOk, e]
    refine ⟨rfl, rfl, rfl, fun s hs => ?_⟩
    obtain ⟨x, y, rfl, _⟩ := hc.seen r hr s hs
    rfl

theorem _root_.Norfair.Spec.CallBoxes.allOrNone {thr : K} {dets : List Ref} {ct : Option (CoordTrans K)}
    {h : Ref → Det K L X} (hc : CallBoxes thr dets ct h) {r : Ref} (hr : r ∈ dets) :
    (∀ i < 2, Seen thr (h r) i) ∨ ∀ i < 2, ¬ Seen thr (h r) i := by
  by_cases h0 : Seen thr (h r) 0
  · left
    intro i hi s hs
    obtain ⟨x, y, rfl, h1⟩ := hc.seen r hr s hs
    obtain ⟨x', e, hx⟩ := h0 _ hs
    cases e
    match i with
    | 0 => exact ⟨x, rfl, hx⟩
    | 1 => exact ⟨y, rfl, h1.mp hx⟩
  · right
    intro i hi hS
    apply h0
    intro s hs
    obtain ⟨x, y, rfl, h1⟩ := hc.seen r hr s hs
    obtain ⟨z, e, hz⟩ := hS _ hs
    match i with
    | 0 => exact ⟨z, e, hz⟩
    | 1 => cases e; exact ⟨x, rfl, h1.mpr hz⟩

theorem callBoxes_ages {thr : K} {dets : List Ref} {ct : Option (CoordTrans K)} {h h' : Ref → Det K L X}
    (ha : AgesOnly h h') (hc : CallBoxes thr dets ct h) : CallBoxes thr dets ct h' := by
  refine ⟨fun r hr => ?_, fun r hr => ?_, fun r hr => ?_, hc.keeps, hc.boxes⟩ <;> obtain ⟨⟨a, e⟩, _⟩ := ha r <;>
    rw [e]
  · exact hc.points r hr
  · exact hc.abs r hr
  · exact hc.seen r hr

theorem callBoxes_transform {thr : K} {dets : List Ref} {ct : Option (CoordTrans K)} {h : Ref → Det K L X}
    {c : CoordTrans K} (hct : ct = some c) {q : Ref} (hq : q ∈ dets) (hc : CallBoxes thr dets ct h) :
    CallBoxes thr dets ct (transformDet c h q) := by
  refine ⟨fun r hr => ?_, fun r hr => ?_, fun r hr => ?_, hc.keeps, hc.boxes⟩ <;> unfold transformDet <;> split
  · exact hc.points q hq
  · exact hc.points r hr
  · exact (hc.boxes c hct _ (hc.abs q hq)).1
  · exact hc.abs r hr
  · exact hc.seen q hq
  · exact hc.seen r hr

/-- a successful `hit` with `NoFilter` and a detection whose points are all seen: the object is where the
detection is -/
theorem noFilter_hit {cfg : Cfg K L D (NoFilter K) X} (hflt : cfg.flt = noFilterOps) {d : Det K L X} {period : Int}
    {o o' : Obj K L D (NoFilter K)} (h : SensorsOk cfg d period o o') (hok : NoFilter.Ok o.filter)
    (hseen : ∀ i < o.numPoints, Seen cfg.detThr d i) (hn : d.absPoints.n = o.numPoints)
    (hdim : d.absPoints.dim = o.dimPoints) : o'.positions cfg.flt = d.absPoints := by
  have hL : FilterLaws cfg.flt NoFilter.Ok := hflt ▸ noFilter_laws
  obtain ⟨_, hok', hdz, hco⟩ := h.coords hL hok
  have hr := h.rest
  have e1 : o'.numPoints = o.numPoints := by rw [hr]
  have e2 : o'.dimPoints = o.dimPoints := by rw [hr]
  have e3 : o'.dimZ = o.dimZ := by unfold Obj.dimZ; rw [e1, e2]
  have hdata : (cfg.flt.getX o'.filter).take o.dimZ = d.absPoints.data := by
    apply List.ext_getElem?
    intro k
    by_cases hk : k < o.dimZ
    · rw [List.getElem?_take_of_lt hk]
      have hd0 : 0 < o.dimPoints := by
        rcases Nat.eq_zero_or_pos o.dimPoints with e | e
        · unfold Obj.dimZ at hk; rw [e] at hk; omega
        · exact e
      have hi : k / o.dimPoints < o.numPoints := by
        rw [Nat.div_lt_iff_lt_mul hd0, Nat.mul_comm]; exact hk
      have hj : k % o.dimPoints < o.dimPoints := Nat.mod_lt _ hd0
      obtain ⟨c1, c2, _, _⟩ := hco _ _ hi hj
      have ek : k / o.dimPoints * o.dimPoints + k % o.dimPoints = k := by
        rw [Nat.mul_comm]; exact Nat.div_add_mod _ _
      rw [ek] at c1 c2
      by_cases hs : Snapped cfg.detThr o d k
      · exact c1 hs
      · rw [c2 hs]
        have hdo : o.filter.dimZ = o.dimZ := by have := h.dimZ; rw [hflt] at this; exact this
        have hml : (repeatMask o.dimPoints (overThreshold cfg.detThr o.numPoints d)).length = o.filter.dimZ := by
          rw [repeatMask_length, h.maskLen, hdo]; rfl
        have := (C33_noFilter hok (h.zLen.trans hdo.symm) hml (k := k) (by rw [hdo]; exact hk)).1
        rw [hflt]
        refine this.trans (if_pos ?_)
        rw [← ek, repeatMask_get _ _ _ _ hj, overThreshold_get _ _ _ _ hi]
        exact hseen _ hi
    · rw [List.getElem?_eq_none (by rw [List.length_take]; omega), List.getElem?_eq_none]
      rw [h.zLen]; omega
  show (⟨o'.numPoints, o'.dimPoints, (cfg.flt.getX o'.filter).take o'.dimZ⟩ : Pts K) = _
  rw [e1, e2, e3, hdata, ← hn, ← hdim]

/-- a successful `hit` with `NoFilter` and a detection none of whose points is seen: the object stays where it is -/
theorem noFilter_hit_unseen {cfg : Cfg K L D (NoFilter K) X} (hflt : cfg.flt = noFilterOps) {d : Det K L X}
    {period : Int} {o o' : Obj K L D (NoFilter K)} (h : SensorsOk cfg d period o o') (hok : NoFilter.Ok o.filter)
    (hseen : ∀ i < o.numPoints, ¬ Seen cfg.detThr d i) : o'.positions cfg.flt = o.positions cfg.flt := by
  have hL : FilterLaws cfg.flt NoFilter.Ok := hflt ▸ noFilter_laws
  obtain ⟨_, hok', hdz, hco⟩ := h.coords hL hok
  have hr := h.rest
  have e1 : o'.numPoints = o.numPoints := by rw [hr]
  have e2 : o'.dimPoints = o.dimPoints := by rw [hr]
  have e3 : o'.dimZ = o.dimZ := by unfold Obj.dimZ; rw [e1, e2]
  have hdata : (cfg.flt.getX o'.filter).take o.dimZ = (cfg.flt.getX o.filter).take o.dimZ := by
    apply List.ext_getElem?
    intro k
    by_cases hk : k < o.dimZ
    · rw [List.getElem?_take_of_lt hk, List.getElem?_take_of_lt hk]
      have hd0 : 0 < o.dimPoints := by
        rcases Nat.eq_zero_or_pos o.dimPoints with e | e
        · unfold Obj.dimZ at hk; rw [e] at hk; omega
        · exact e
      have hi : k / o.dimPoints < o.numPoints := by
        rw [Nat.div_lt_iff_lt_mul hd0, Nat.mul_comm]; exact hk
      have hj : k % o.dimPoints < o.dimPoints := Nat.mod_lt _ hd0
      obtain ⟨c1, c2, _, _⟩ := hco _ _ hi hj
      have ek : k / o.dimPoints * o.dimPoints + k % o.dimPoints = k := by
        rw [Nat.mul_comm]; exact Nat.div_add_mod _ _
      rw [ek] at c1 c2
      have hs : ¬ Snapped cfg.detThr o d k := fun hs => hseen _ (Nat.mod_lt _ ((Nat.zero_le _).trans_lt hi)) hs.1
      rw [c2 hs]
      have hdo : o.filter.dimZ = o.dimZ := by have := h.dimZ; rw [hflt] at this; exact this
      have hml : (repeatMask o.dimPoints (overThreshold cfg.detThr o.numPoints d)).length = o.filter.dimZ := by
        rw [repeatMask_length, h.maskLen, hdo]; rfl
      have := (C33_noFilter hok (h.zLen.trans hdo.symm) hml (k := k) (by rw [hdo]; exact hk)).1
      rw [hflt]
      refine this.trans (if_neg ?_)
      rw [← ek, repeatMask_get _ _ _ _ hj, overThreshold_get _ _ _ _ hi]
      exact hseen _ hi
    · rw [List.getElem?_eq_none (by rw [List.length_take]; omega), List.getElem?_eq_none (by rw [List.length_take]; omega)]
  show (⟨o'.numPoints, o'.dimPoints, (cfg.flt.getX o'.filter).take o'.dimZ⟩ : Pts K) =
    ⟨o.numPoints, o.dimPoints, (cfg.flt.getX o.filter).take o.dimZ⟩
  rw [e1, e2, e3, hdata]

/-- the objects are proper boxes, and their transformations keep boxes proper -/
def BoxObj (fo : FilterOps K (NoFilter K)) (o : Obj K L D (NoFilter K)) : Prop :=
  PointsOk fo NoFilter.Ok (fun _ => (2, 2)) o ∧ ProperBox (o.positions fo) ∧
  ∀ g, o.absToRel = some g → ∀ p, ProperBox p → ProperBox (g p)

theorem BoxObj.estimate {fo : FilterOps K (NoFilter K)} {o : Obj K L D (NoFilter K)} (h : BoxObj fo o) :
    ProperBox (o.estimate fo) := by
  unfold Obj.estimate
  cases hg : o.absToRel with
  | none => exact h.2.1
  | some g => exact h.2.2 g hg _ h.2.1

theorem boxObj_inv {cfg : Cfg K L D (NoFilter K) X} (hflt : cfg.flt = noFilterOps) (dets : List Ref) (period : Int)
    (ct : Option (CoordTrans K)) (hk : ∀ c, ct = some c → ∀ p, ProperBox p → ProperBox (c.absToRel p)) :
    ObjInv cfg dets period ct (CallBoxes cfg.detThr dets ct) (fun _ o => BoxObj cfg.flt o) := by
  have hL : FilterLaws cfg.flt NoFilter.Ok := hflt ▸ noFilter_laws
  have hP := pointsOk_inv (cfg := cfg) hL (shape := fun _ => (2, 2)) (fun _ _ _ => rfl) dets period ct
  constructor
  case heapAges => exact fun _ _ ha hc => callBoxes_ages ha hc
  case heapTransform => exact fun _ _ r hct hr hc => callBoxes_transform hct hr hc
  case ages => exact fun _ _ _ _ h => h
  case transform => exact fun _ _ _ _ _ _ h => h
  case step =>
    intro h o h1 hq
    refine ⟨hP.step h o h1 hq.1, ?_, ?_⟩
    · obtain ⟨g, e⟩ := updateCT_fields ct (o.trackerStep cfg)
      rw [e]
      have : cfg.flt.predict o.filter = o.filter := by rw [hflt]; rfl
      show ProperBox (⟨o.numPoints, o.dimPoints, (cfg.flt.getX (cfg.flt.predict o.filter)).take o.dimZ⟩ : Pts K)
      rw [this]
      exact hq.2.1
    · cases ct with
      | none => exact hq.2.2
      | some c =>
        intro g hg
        cases hg
        exact hk c rfl
  case setMin => exact fun h o v hv hq => ⟨hP.setMin h o v hv hq.1, hq.2.1, hq.2.2⟩
  case hit =>
    intro h g c o r d hH hr hc hd hq he
    refine ⟨hP.hit h g c o r d hH.callOk hr hc hd hq.1 he, ?_, ?_⟩
    · obtain ⟨x1, x2, x3, x4, x5, x6, hS⟩ := hitObj_sensors hq.1.hits he
      have hn : o.numPoints = 2 := hq.1.n
      have hdim : o.dimPoints = 2 := hq.1.dim
      have hb := hH.abs r hr
      show ProperBox ((hitObj cfg h g c o r period).obj.positions cfg.flt)
      rcases hH.allOrNone hr with hall | hnone
      · rw [noFilter_hit hflt hS hq.1.ok (fun i hi => hall i (by rw [← hn]; exact hi))
          (hb.hasShape.1.trans hn.symm) (hb.hasShape.2.1.trans hdim.symm)]
        exact hb
      · rw [noFilter_hit_unseen hflt hS hq.1.ok fun i hi => hnone i (by rw [← hn]; exact hi)]
        exact hq.2.1
    · obtain ⟨_, _, _, _, _, _, _, _, _, e⟩ := hitObj_shape cfg h g c o r period
      rw [e]; exact hq.2.2
  case hitErr =>
    intro h g c o r hH hr hc hq he
    rcases hitObj_noShape (g := g) (c := c) (period := period) hq.1 (hH.callOk.2 r hr) rfl with e | ⟨_, e⟩
    · exact absurd e he
    · rw [e]; exact hq
  case merge =>
    intro h o c h1 hl hq hc
    refine ⟨hP.merge h o c h1 hl hq.1 hc.1, ?_, hq.2.2⟩
    have e : (mergeObj cfg h o c).2.1.positions cfg.flt = c.positions cfg.flt := by
      have e1 : c.numPoints = o.numPoints := by rw [hc.1.n, hq.1.n]
      have e2 : c.dimPoints = o.dimPoints := by rw [hc.1.dim, hq.1.dim]
      show (⟨o.numPoints, o.dimPoints, (cfg.flt.getX c.filter).take (o.dimPoints * o.numPoints)⟩ : Pts K) =
        ⟨c.numPoints, c.dimPoints, (cfg.flt.getX c.filter).take (c.dimPoints * c.numPoints)⟩
      rw [e1, e2]
    rw [e]
    exact hc.2.1
  case create =>
    intro w r hH hr
    refine ⟨hP.create w r hH.callOk hr, ?_, ?_⟩
    · obtain ⟨g, hg⟩ := newObj_fields cfg w r period ct
      rw [hg]
      have hb := hH.abs r hr
      have : (newObj cfg w r period none).positions cfg.flt = (w.heap r).absPoints := by
        show (⟨(w.heap r).absPoints.n, (w.heap r).absPoints.dim,
          (cfg.flt.getX (cfg.flt.create (w.heap r).absPoints)).take
            ((w.heap r).absPoints.dim * (w.heap r).absPoints.n)⟩ : Pts K) = _
        obtain ⟨s1, s2, s3⟩ := hb.hasShape
        rw [(hL.create _ (by rw [s3, s1, s2])).2.2, List.take_left' (by rw [s3, s1, s2])]
      show ProperBox ((newObj cfg w r period none).positions cfg.flt)
      rw [this]
      exact hb
    · cases ct with
      | none => intro g hg; cases hg
      | some c =>
        intro g hg
        cases hg
        exact hk c rfl

/-- `iou` of proper boxes -/
theorem iou_proper {cs os : List (List K)}
    (hc : ∀ l ∈ cs, ∃ p, ProperBox p ∧ l = p.data) (ho : ∀ l ∈ os, ∃ p, ProperBox p ∧ l = p.data) :
    ∃ M, iou cs os = some M ∧ ∀ i < cs.length, ∀ j < os.length, ∃ x, M.val i j = some x := by
  have key : ∀ ls : List (List K), (∀ l ∈ ls, ∃ p, ProperBox p ∧ l = p.data) →
      ∃ bs, ls.mapM Box.ofRow = some bs ∧ bs.length = ls.length ∧ ∀ b ∈ bs, WellFormed b := by
    intro ls
    induction ls with
    | nil => exact fun _ => ⟨[], rfl, rfl, by simp⟩
    | cons l ls ih =>
      intro h
      obtain ⟨bs, e1, e2, e3⟩ := ih fun l hl => h l (List.mem_cons_of_mem _ hl)
      obtain ⟨p, ⟨a, b, c, d, rfl, h1, h2⟩, rfl⟩ := h l (List.mem_cons_self ..)
      refine ⟨⟨a, b, c, d⟩ :: bs, ?_, by simp [e2], ?_⟩
      · rw [List.mapM_cons, e1]; rfl
      · intro x hx
        rcases List.mem_cons.mp hx with rfl | hx
        · exact ⟨h1, h2⟩
        · exact e3 x hx
  obtain ⟨bs, b1, b2, b3⟩ := key cs hc
  obtain ⟨ds, d1, d2, d3⟩ := key os ho
  unfold iou
  rw [b1, d1]
  refine ⟨_, rfl, fun i hi j hj => ?_⟩
  rw [← b2] at hi
  rw [← d2] at hj
  simp only [List.getElem?_eq_getElem hi, List.getElem?_eq_getElem hj]
  exact ⟨_, iouPair_eq (b3 _ (List.getElem_mem hi)) (d3 _ (List.getElem_mem hj))⟩

/-- **C91** the objects of a tracker with `NoFilter` that is called with proper boxes are proper boxes -/
theorem C91_objects {cfg : Cfg K L D (NoFilter K) X} (hflt : cfg.flt = noFilterOps)
    {w0 w : World K L D (NoFilter K) X} (h0 : w0.Initial)
    (hw : Reaches cfg (fun _ _ => True)
      (fun dets _ ct w => CallBoxes cfg.detThr (dets.getD []) ct w.heap) w0 w) :
    ∀ o ∈ w.objs, ProperBox (o.positions cfg.flt) ∧ ProperBox (o.estimate cfg.flt) := by
  have := Reaches.objInv hw (Inv.initial h0) (Q := fun _ o => BoxObj cfg.flt o) (fun dets period ct w hc =>
    ⟨_, hc, boxObj_inv hflt (dets.getD []) period ct fun c e p hp => (hc.boxes c e p hp).2⟩)
    (fun _ _ _ _ _ h => h) (by rw [h0.1]; simp)
  exact fun o ho => ⟨(this o ho).2.1, (this o ho).estimate⟩

/-- **C91** A tracker with `iou` and `NoFilter` that is only called with proper boxes never raises. -/
theorem C91_noFilter_partial {cfg : Cfg K L (WithTop K) (NoFilter K) X} (hflt : cfg.flt = noFilterOps)
    {str : L → String} (hdist : cfg.dist = iouDistFn str) (hfill : cfg.thr ≤ cfg.fill)
    (hreid : ∀ f, cfg.reid = some f → ∀ u v, ∃ x, f u v = some (some x))
    (hrfill : cfg.reid ≠ none → cfg.reidThr ≤ cfg.reidFill)
    {w0 w : World K L (WithTop K) (NoFilter K) X} (h0 : w0.Initial)
    (hw : Reaches cfg (fun _ _ => True)
      (fun dets _ ct w => CallBoxes cfg.detThr (dets.getD []) ct w.heap) w0 w)
    (dets : Option (List Ref)) (period : Int) (ct : Option (CoordTrans K))
    (hcall : CallBoxes cfg.detThr (dets.getD []) ct w.heap) (hct : ct = none ∨ dets ≠ none) :
    ∃ act, (update cfg w dets period ct).2 = .ok act := by
  have hL : FilterLaws cfg.flt NoFilter.Ok := hflt ▸ noFilter_laws
  have hobj := Reaches.objInv hw (Inv.initial h0) (Q := fun _ o => BoxObj cfg.flt o) (fun dets period ct w hc =>
    ⟨_, hc, boxObj_inv hflt (dets.getD []) period ct fun c e p hp => (hc.boxes c e p hp).2⟩)
    (fun _ _ _ _ _ h => h) (by rw [h0.1]; simp)
  refine update_succeeds_of hL (shape := fun _ => (2, 2)) (fun _ _ _ => rfl) h0
    (hw.mono (fun _ _ h => h) fun _ _ _ _ h => h.callOk) dets period ct hcall.callOk hct
    (boxObj_inv hflt (dets.getD []) period ct fun c e p hp => (hcall.boxes c e p hp).2) hcall hobj ?_ ?_ hfill hrfill
  · intro w1 hH _ ho v hv
    unfold DistGives at hv
    rw [hdist] at hv
    obtain ⟨s, cs, os, n1, n2, h1, h2, h3⟩ := hv
    obtain ⟨M, hM, hx⟩ := iou_proper (cs := cs) (os := os)
      (fun c hc => by
        obtain ⟨r, hr, _, e⟩ := h1 c hc
        exact ⟨_, hH.points r hr, e⟩)
      (fun b hb => by
        obtain ⟨o, hmo, _, e⟩ := h2 b hb
        exact ⟨_, (ho o hmo).1.estimate, e⟩)
    rcases h3 with ⟨_, h3⟩ | ⟨N, i, j, h3, h4, h5, h6⟩
    · simp only [hM, Option.map_some] at h3; cases h3
    · simp only [hM, Option.map_some] at h3
      cases h3
      obtain ⟨x, hx⟩ := hx i h4 j h5
      exact ⟨x, h6.trans (by
        show some (Option.map _ (M.val i j)) = _
        rw [hx]; rfl)⟩
  · intro w1 _ v hv
    obtain ⟨f, hf, c, _, o, _, _, hv⟩ := hv
    obtain ⟨x, hx⟩ := hreid f hf (c.view w1.heap) (o.view w1.heap)
    exact ⟨x, hv.symm.trans hx⟩

end

section
variable [Field K] [LinearOrder K] [IsStrictOrderedRing K]

/-- **C91** An inverted or empty box (`x_max ≤ x_min` or `y_max ≤ y_min`) has distance 1 from every other box, or
NaN. With a threshold of at most 1 an object whose predicted box is inverted is not matched. -/
theorem C91_inverted {a b : Box K} (h : b.x2 ≤ b.x1 ∨ b.y2 ≤ b.y1) :
    iouPair a b = some 1 ∨ (iouPair a b = none ∧ a.area = -b.area) := by
  have hi : a.inter b = 0 := by
    unfold Box.inter
    rcases h with h | h
    · rw [max_eq_right (a := min a.x2 b.x2 - max a.x1 b.x1), zero_mul]
      have := min_le_right a.x2 b.x2
      have := le_max_right a.x1 b.x1
      linarith
    · rw [max_eq_right (a := min a.y2 b.y2 - max a.y1 b.y1), mul_zero]
      have := min_le_right a.y2 b.y2
      have := le_max_right a.y1 b.y1
      linarith
  unfold iouPair
  simp only [hi, sub_zero, zero_div]
  split
  · rename_i h0
    exact .inr ⟨rfl, by linarith⟩
  · exact .inl rfl

example : iouPair (⟨0, 0, 2, 2⟩ : Box ℚ) ⟨1, 0, 0, 3⟩ = some 1 ∧ iouPair (⟨0, 0, 2, 2⟩ : Box ℚ) ⟨4, 0, 0, 1⟩ = none := by
  decide +kernel

end

/-! ### Example -/

/-- a tracker with `iou` and `NoFilter`; without pointwise scores -/
def properCfg : Cfg ℚ Nat (WithTop ℚ) (NoFilter ℚ) Unit where
  dist := iouDistFn toString
  thr := 1
  fill := 2
  hitCounterMax := 4
  initDelay := 1
  pwMax := 4
  detThr := 0
  flt := noFilterOps
  pastLen := 2
  reid := none
  reidThr := 0
  reidFill := 1
  reidMax := none

/-- three overlapping boxes, the second one with two scores, the third one with scores that are not over the threshold -/
def heapProper : Ref → Det ℚ Nat Unit
  | 0 => ⟨⟨2, 2, [0, 0, 10, 10]⟩, none, 0, (), ⟨2, 2, [0, 0, 10, 10]⟩, none⟩
  | 1 => ⟨⟨2, 2, [2, 1, 12, 11]⟩, some [1, 1], 0, (), ⟨2, 2, [2, 1, 12, 11]⟩, none⟩
  | _ => ⟨⟨2, 2, [3, 1, 13, 11]⟩, some [0, 0], 0, (), ⟨2, 2, [3, 1, 13, 11]⟩, none⟩

def wProper : World ℚ Nat (WithTop ℚ) (NoFilter ℚ) Unit := ⟨heapProper, 0, 0, 0, []⟩

theorem heapProper_call (r : Ref) (h : Ref → Det ℚ Nat Unit) (e : (h r).points = (heapProper r).points)
    (e' : (h r).absPoints = (heapProper r).absPoints) (e'' : (h r).scores = (heapProper r).scores) (hr : r < 3) :
    CallBoxes properCfg.detThr [r] none h := by
  refine ⟨?_, ?_, ?_, (by intro c hc; cases hc), (by intro c hc; cases hc)⟩ <;> intro q hq <;>
    rw [List.mem_singleton.mp hq] <;> simp only [e, e', e'']
  · match r with
    | 0 => exact ⟨0, 0, 10, 10, rfl, by norm_num, by norm_num⟩
    | 1 => exact ⟨2, 1, 12, 11, rfl, by norm_num, by norm_num⟩
    | 2 => exact ⟨3, 1, 13, 11, rfl, by norm_num, by norm_num⟩
  · match r with
    | 0 => exact ⟨0, 0, 10, 10, rfl, by norm_num, by norm_num⟩
    | 1 => exact ⟨2, 1, 12, 11, rfl, by norm_num, by norm_num⟩
    | 2 => exact ⟨3, 1, 13, 11, rfl, by norm_num, by norm_num⟩
  · match r with
    | 0 => intro s hs; cases hs
    | 1 =>
      intro s hs
      cases hs
      exact ⟨1, 1, rfl, Iff.rfl⟩
    | 2 =>
      intro s hs
      cases hs
      exact ⟨0, 0, rfl, Iff.rfl⟩

/-- the tracker after a call with the first box is called with the second one; the second box is then the
estimate of the object -/
example : (∃ act, (update properCfg (update properCfg wProper (some [0]) 1 none).1 (some [1]) 1 none).2 = .ok act) ∧
    ((update properCfg (update properCfg wProper (some [0]) 1 none).1 (some [1]) 1 none).1.objs.map
      fun o => (o.positions properCfg.flt).data) = [[2, 1, 12, 11]] := by
  refine ⟨?_, by decide +kernel⟩
  refine C91_noFilter_partial (cfg := properCfg) rfl rfl (by decide +kernel) (by intro f hf; cases hf)
    (fun h => absurd rfl h) (w0 := wProper) ⟨rfl, rfl, rfl⟩ (.call _ _ _ (.refl _) ?_) _ _ _ ?_ (Or.inl rfl)
  · exact heapProper_call 0 _ rfl rfl rfl (by norm_num)
  · exact heapProper_call 1 _ (by decide +kernel) (by decide +kernel) (by decide +kernel) (by norm_num)

/-- ... and then with the third one, which is matched too, but does not move the object -/
example : (∃ act, (update properCfg (update properCfg (update properCfg wProper (some [0]) 1 none).1 (some [1]) 1 none).1
      (some [2]) 1 none).2 = .ok act) ∧
    ((update properCfg (update properCfg (update properCfg wProper (some [0]) 1 none).1 (some [1]) 1 none).1
      (some [2]) 1 none).1.objs.map fun o => ((o.positions properCfg.flt).data, o.lastDet)) = [([2, 1, 12, 11], 2)] := by
  refine ⟨?_, by decide +kernel⟩
  refine C91_noFilter_partial (cfg := properCfg) rfl rfl (by decide +kernel) (by intro f hf; cases hf)
    (fun h => absurd rfl h) (w0 := wProper) ⟨rfl, rfl, rfl⟩ (.call _ _ _ (.call _ _ _ (.refl _) ?_) ?_) _ _ _ ?_
    (Or.inl rfl)
  · exact heapProper_call 0 _ rfl rfl rfl (by norm_num)
  · exact heapProper_call 1 _ (by decide +kernel) (by decide +kernel) (by decide +kernel) (by norm_num)
  · exact heapProper_call 2 _ (by decide +kernel) (by decide +kernel) (by decide +kernel) (by norm_num)

/-! ### Where the claim is false -/

/-- a detection without scores -/
def properDet (l : List ℚ) : Det ℚ Nat Unit := ⟨⟨2, 2, l⟩, none, 0, (), ⟨2, 2, l⟩, none⟩

theorem properDet_call {thr a b c d : ℚ} (h1 : a < c) (h2 : b < d) (r : Ref) (h : Ref → Det ℚ Nat Unit)
    (e : (h r).points = ⟨2, 2, [a, b, c, d]⟩) (e' : (h r).absPoints = ⟨2, 2, [a, b, c, d]⟩)
    (e'' : (h r).scores = none) : CallBoxes thr [r] none h := by
  refine ⟨?_, ?_, ?_, (by intro c hc; cases hc), (by intro c hc; cases hc)⟩ <;> intro q hq <;>
    rw [List.mem_singleton.mp hq] <;> simp only [e, e', e'']
  · exact ⟨a, b, c, d, rfl, h1, h2⟩
  · exact ⟨a, b, c, d, rfl, h1, h2⟩
  · intro s hs; cases hs

/-- a tracker with `iou`, the default filter and the other default arguments -/
def shrinkCfg : Cfg ℚ Nat (WithTop ℚ) (OKF ℚ) Unit where
  dist := iouDistFn toString
  thr := 1
  fill := 2
  hitCounterMax := 15
  initDelay := 7
  pwMax := 4
  detThr := 0
  flt := okfOps okfDefaults
  pastLen := 4
  reid := none
  reidThr := 0
  reidFill := 1
  reidMax := none

/-- a box that gets narrower, and a box somewhere else -/
def heapShrink : Ref → Det ℚ Nat Unit
  | 0 => properDet [0, 0, 10, 10]
  | 1 => properDet [0, 0, 6, 10]
  | 2 => properDet [0, 0, 3, 10]
  | 3 => properDet [0, 0, 1, 10]
  | _ => properDet [100, 100, 100 + 387113 / 1089465, 110]

/-- a new tracker and its states after the calls -/
def wShrink : World ℚ Nat (WithTop ℚ) (OKF ℚ) Unit := ⟨heapShrink, 0, 0, 0, []⟩
@[inherit_doc wShrink] def wShrink1 := (update shrinkCfg wShrink (some [0]) 1 none).1
@[inherit_doc wShrink] def wShrink2 := (update shrinkCfg wShrink1 (some [1]) 1 none).1
@[inherit_doc wShrink] def wShrink3 := (update shrinkCfg wShrink2 (some [2]) 1 none).1
@[inherit_doc wShrink] def wShrink4 := (update shrinkCfg wShrink3 (some [3]) 1 none).1
@[inherit_doc wShrink] def wShrink5 := (update shrinkCfg wShrink4 (some []) 1 none).1

/-- **C91** is false with the default filter: all boxes are proper, without scores. The filter extrapolates a box
that gets narrower until it is inverted, with area `-3.55`; a detection somewhere else with area `3.55` gives
`0 / 0`, and the call raises (`print` and `exit()`). -/
theorem C91_kalman_counterexample :
    Reaches shrinkCfg (fun _ _ => True)
      (fun dets _ ct w => CallBoxes shrinkCfg.detThr (dets.getD []) ct w.heap) wShrink wShrink5 ∧ wShrink.Initial ∧
    CallBoxes shrinkCfg.detThr [4] none wShrink5.heap ∧
    (update shrinkCfg wShrink5 (some [4]) 1 none).2 = .error .nan := by
  refine ⟨?_, ⟨rfl, rfl, rfl⟩, ?_, ?_⟩
  · refine .call (some []) 1 none (.call (some [3]) 1 none (.call (some [2]) 1 none (.call (some [1]) 1 none
      (.call (some [0]) 1 none (.refl _) ?_) ?_) ?_) ?_) ?_
    · exact properDet_call (a := 0) (b := 0) (c := 10) (d := 10) (by norm_num) (by norm_num) 0 _ rfl rfl rfl
    · exact properDet_call (a := 0) (b := 0) (c := 6) (d := 10) (by norm_num) (by norm_num) 1 wShrink1.heap
        (by decide +kernel) (by decide +kernel) (by decide +kernel)
    · exact properDet_call (a := 0) (b := 0) (c := 3) (d := 10) (by norm_num) (by norm_num) 2 wShrink2.heap
        (by decide +kernel) (by decide +kernel) (by decide +kernel)
    · exact properDet_call (a := 0) (b := 0) (c := 1) (d := 10) (by norm_num) (by norm_num) 3 wShrink3.heap
        (by decide +kernel) (by decide +kernel) (by decide +kernel)
    · refine ⟨?_, ?_, ?_, (by intro c hc; cases hc), (by intro c hc; cases hc)⟩ <;> intro q hq <;> cases hq
  · exact properDet_call (a := 100) (b := 100) (c := 100 + 387113 / 1089465) (d := 110) (by norm_num) (by norm_num) 4 _
      (by decide +kernel) (by decide +kernel) (by decide +kernel)
  · have : (match (update shrinkCfg wShrink5 (some [4]) 1 none).2 with
        | .error .nan => true | _ => false) = true := by decide +kernel
    revert this
    generalize (update shrinkCfg wShrink5 (some [4]) 1 none).2 = r
    intro h
    split at h
    · rfl
    · cases h

/-- with `NoFilter` and a distance threshold over 1 (all detections of a label are near) -/
def mixCfg : Cfg ℚ Nat (WithTop ℚ) (NoFilter ℚ) Unit := { properCfg with thr := 2, fill := 3 }

/-- the second corner of the second box is not over the threshold -/
def heapMix : Ref → Det ℚ Nat Unit
  | 0 => properDet [0, 0, 10, 10]
  | 1 => { properDet [20, 0, 30, 10] with scores := some [1, 0] }
  | _ => properDet [40, 40, 50, 50]

/-- a new tracker and its states after the calls -/
def wMix : World ℚ Nat (WithTop ℚ) (NoFilter ℚ) Unit := ⟨heapMix, 0, 0, 0, []⟩
@[inherit_doc wMix] def wMix1 := (update mixCfg wMix (some [0]) 1 none).1
@[inherit_doc wMix] def wMix2 := (update mixCfg wMix1 (some [1]) 1 none).1

/-- **C91** The condition on scores is needed: all boxes are proper, but only one corner of the second one is over
the detection threshold. The object gets one corner from the second box and keeps the other one from the first;
this box is inverted, and the third box gives `0 / 0`. -/
theorem C91_scores_needed :
    wMix.Initial ∧ (∀ r < 3, ProperBox (heapMix r).points ∧ (heapMix r).absPoints = (heapMix r).points) ∧
    (wMix2.objs.map fun o => (o.positions mixCfg.flt).data) = [[20, 0, 10, 10]] ∧
    (update mixCfg wMix2 (some [2]) 1 none).2 = .error .nan := by
  refine ⟨⟨rfl, rfl, rfl⟩, ?_, by decide +kernel, ?_⟩
  · intro r hr
    match r with
    | 0 => exact ⟨⟨0, 0, 10, 10, rfl, by norm_num, by norm_num⟩, rfl⟩
    | 1 => exact ⟨⟨20, 0, 30, 10, rfl, by norm_num, by norm_num⟩, rfl⟩
    | 2 => exact ⟨⟨40, 40, 50, 50, rfl, by norm_num, by norm_num⟩, rfl⟩
  · have : (match (update mixCfg wMix2 (some [2]) 1 none).2 with
        | .error .nan => true | _ => false) = true := by decide +kernel
    revert this
    generalize (update mixCfg wMix2 (some [2]) 1 none).2 = r
    intro h
    split at h
    · rfl
    · cases h

end Norfair.Props
