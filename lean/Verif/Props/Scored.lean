import Verif.Props.Succeeds
import Verif.Props.TrackerInv
import Verif.Props.PointDistances
import Verif.Props.Projection

/-! C67 for distances that read the scores of the detections, as the voting distance of keypoints. -/

set_option linter.unusedSectionVars false

namespace Norfair.Props

open Norfair Norfair.Spec

variable {K L D F X : Type}

section
variable [Ring K] [LinearOrder K] [LinearOrder D] [OrderTop D] [Zero D] [DecidableEq L]

/-- nobody edits labels between the calls, or takes away scores -/
def ScoresKept (h h' : Ref → Det K L X) : Prop :=
  ∀ r, (h' r).label = (h r).label ∧ ∀ s, (h r).scores = some s → ∃ s', (h' r).scores = some s' ∧ s'.length = s.length

theorem HasScores.congr {shape : L → Nat × Nat} {d d' : Det K L X} (h : HasScores shape d) (hl : d'.label = d.label)
    (hs : d'.scores = d.scores) : HasScores shape d' := by
  obtain ⟨s, e, hn⟩ := h
  exact ⟨s, hs.trans e, by rw [hl]; exact hn⟩

theorem agesOnly_scores {h h' : Ref → Det K L X} (ha : AgesOnly h h') (r : Ref) : (h' r).scores = (h r).scores := by
  obtain ⟨⟨a, e⟩, _⟩ := ha r
  rw [e]

/-- the last detection of every object has scores -/
theorem scored_inv (cfg : Cfg K L D F X) (shape : L → Nat × Nat) (dets : List Ref) (period : Int)
    (ct : Option (CoordTrans K)) :
    ObjInv cfg dets period ct (fun h => ∀ r ∈ dets, HasScores shape (h r)) (fun h o => HasScores shape (h o.lastDet)) where
  heapAges := fun h h' ha hh r hr => HasScores.congr (hh r hr) (ha.label r) (agesOnly_scores ha r)
  heapTransform := by
    intro h c q _ _ hh r hr
    obtain ⟨a, e⟩ := transformDet_fields c h q r
    rw [e]; exact hh r hr
  ages := fun h h' o ha hh => HasScores.congr hh (ha.label _) (agesOnly_scores ha _)
  transform := by
    intro h c r o _ _ hh
    obtain ⟨a, e⟩ := transformDet_fields c h r o.lastDet
    rw [e]; exact hh
  step := by
    intro h o _ hq
    obtain ⟨g, e⟩ := updateCT_fields ct (o.trackerStep cfg)
    rw [e]
    exact hq
  setMin := fun _ _ _ _ h => h
  hit := by
    intro h g c o r d hH hr _ _ hq _
    have hh := hitObj_heap cfg h g c o r period
    show HasScores shape ((hitObj cfg h g c o r period).heap (hitObj cfg h g c o r period).obj.lastDet)
    refine HasScores.congr ?_ (hh.label _) (agesOnly_scores hh _)
    rcases hitObj_lastDet cfg h g c o r period with e | e <;> rw [e]
    · exact hH r hr
    · exact hq
  hitErr := by
    intro h g c o r hH hr _ hq _
    have hh := hitObj_heap cfg h g c o r period
    refine HasScores.congr ?_ (hh.label _) (agesOnly_scores hh _)
    rcases hitObj_lastDet cfg h g c o r period with e | e <;> rw [e]
    · exact hH r hr
    · exact hq
  merge := by
    intro h o c _ hl hq hc
    have hh : AgesOnly h (mergeObj cfg h o c).1 := agesOnly_condAddAll _ _ _
    exact HasScores.congr hc (hh.label _) (agesOnly_scores hh _)
  create := by
    intro w r hH hr
    obtain ⟨_, _, _, _, _, e2, _⟩ := newObj_none_fields cfg w r period ct
    rw [e2]
    have hh := agesOnly_setAge w.heap r 0
    exact HasScores.congr (hH r hr) (hh.label _) (agesOnly_scores hh _)

/-- **C67** for distances that also read the scores of the detection and of the last detection of the object: if all
detections of all calls have one score for each point, and nobody edits labels or takes away scores, the call does not raise. -/
theorem C67_scored {cfg : Cfg K L D F X} {Ok : F → Prop} (hL : FilterLaws cfg.flt Ok) {shape : L → Nat × Nat}
    {f : Det K L X → ObjView K L D F X → Option (Option D)} (hf : cfg.dist = .scalar f) (hd : ScoredDist cfg.flt shape f)
    (hfill : cfg.thr ≤ cfg.fill)
    (hre : ∀ g, cfg.reid = some g → cfg.reidThr ≤ cfg.reidFill ∧ ShapedReid cfg.flt shape g)
    {w0 w : World K L D F X} (h0 : w0.Initial)
    (hw : Reaches cfg ScoresKept (fun dets _ ct w => CallShaped shape (dets.getD []) ct w.heap ∧
      ∀ r ∈ dets.getD [], HasScores shape (w.heap r)) w0 w)
    (dets : Option (List Ref)) (period : Int) (ct : Option (CoordTrans K))
    (hcall : CallShaped shape (dets.getD []) ct w.heap) (hscores : ∀ r ∈ dets.getD [], HasScores shape (w.heap r))
    (hct : ct = none ∨ dets ≠ none) :
    ∃ act, (update cfg w dets period ct).2 = .ok act := by
  have hs : ∀ a b, Compat cfg a b → shape a = shape b := by
    intro a b h
    unfold Compat at h
    rw [hf] at h
    rw [h]
  -- what is known of every object
  let H : (Ref → Det K L X) → Prop := fun h => (∀ r ∈ dets.getD [], HasShape (shape (h r).label) (h r).points) ∧
    ∀ r ∈ dets.getD [], HasScores shape (h r)
  let Q : (Ref → Det K L X) → Obj K L D F → Prop := fun h o => BackShaped shape o ∧ HasScores shape (h o.lastDet) ∧
    Compat cfg (h o.lastDet).label o.label ∧ ∀ q ∈ o.past, Compat cfg (h q).label o.label
  have hback : ∀ o ∈ w.objs, BackShaped shape o :=
    Reaches.objInv hw (Inv.initial h0) (fun dets period ct w hc =>
      ⟨_, hc.1.points, backShaped_inv cfg shape (dets.getD []) period ct hc.1.keeps⟩) (fun _ _ _ _ _ h => h)
      (by rw [h0.1]; simp)
  have hsc : ∀ o ∈ w.objs, HasScores shape (w.heap o.lastDet) :=
    Reaches.objInv hw (Inv.initial h0) (Q := fun h o => HasScores shape (h o.lastDet))
      (fun dets period ct w hc => ⟨_, hc.2, scored_inv cfg shape (dets.getD []) period ct⟩)
      (fun h h' o he _ ⟨s, e, hn⟩ => by
        obtain ⟨s', e', hn'⟩ := (he o.lastDet).2 s e
        exact ⟨s', e', by rw [hn', hn, (he o.lastDet).1]⟩)
      (by rw [h0.1]; simp)
  have hlab := reaches_labels h0 (hw.mono (fun _ _ h r => (h r).1) fun _ _ _ _ _ => trivial)
  have hb := backShaped_inv cfg shape (dets.getD []) period ct hcall.keeps
  have hsi := scored_inv cfg shape (dets.getD []) period ct
  have hli := label_inv cfg (dets.getD []) period ct
  have hQ : ObjInv cfg (dets.getD []) period ct H Q :=
    { heapAges := fun h h' ha hh => ⟨hb.heapAges h h' ha hh.1, hsi.heapAges h h' ha hh.2⟩
      heapTransform := fun h c r e hr hh => ⟨hb.heapTransform h c r e hr hh.1, hsi.heapTransform h c r e hr hh.2⟩
      ages := fun h h' o ha hq => ⟨hb.ages h h' o ha hq.1, hsi.ages h h' o ha hq.2.1, hli.ages h h' o ha hq.2.2⟩
      transform := fun h c r o e hr hq =>
        ⟨hb.transform h c r o e hr hq.1, hsi.transform h c r o e hr hq.2.1, hli.transform h c r o e hr hq.2.2⟩
      step := fun h o hp hq => ⟨hb.step h o hp hq.1, hsi.step h o hp hq.2.1, hli.step h o hp hq.2.2⟩
      setMin := fun h o v hv hq => ⟨hb.setMin h o v hv hq.1, hsi.setMin h o v hv hq.2.1, hli.setMin h o v hv hq.2.2⟩
      hit := fun h g c o r d hH hr hc hd hq he => ⟨hb.hit h g c o r d hH.1 hr hc hd hq.1 he,
        hsi.hit h g c o r d hH.2 hr hc hd hq.2.1 he, hli.hit h g c o r d trivial hr hc hd hq.2.2 he⟩
      hitErr := fun h g c o r hH hr hc hq he => ⟨hb.hitErr h g c o r hH.1 hr hc hq.1 he,
        hsi.hitErr h g c o r hH.2 hr hc hq.2.1 he, hli.hitErr h g c o r trivial hr hc hq.2.2 he⟩
      merge := fun h o c hr hl hq hc => ⟨hb.merge h o c hr hl hq.1 hc.1, hsi.merge h o c hr hl hq.2.1 hc.2.1,
        hli.merge h o c hr hl hq.2.2 hc.2.2⟩
      create := fun w r hH hr => ⟨hb.create w r hH.1 hr, hsi.create w r hH.2 hr, hli.create w r trivial hr⟩ }
  refine update_succeeds_of hL hs h0 (hw.mono (fun _ _ _ => trivial) fun _ _ _ _ h => h.1.ok) dets period ct hcall.ok hct
    hQ ⟨hcall.points, hscores⟩ (fun o ho => ⟨hback o ho, hsc o ho, hlab o ho⟩) ?_ ?_ hfill
    (fun h => by
      obtain ⟨g, hg⟩ := Option.ne_none_iff_exists'.mp h
      exact (hre g hg).1)
  · intro w1 hH hc ho v hv
    unfold DistGives at hv
    rw [hf] at hv
    obtain ⟨r, hr, o, hmo, hl, hv⟩ := hv
    obtain ⟨⟨q1, q2, q3, q4⟩, hp⟩ := ho o hmo
    unfold Compat at q3
    rw [hf] at q3
    have hl' : (w1.heap r).label = o.label := hl
    obtain ⟨x, hx⟩ := hd (w1.heap r) (o.view w1.heap) hl q3 (hH.1 r hr)
      (by rw [hl']; exact estimate_hasShape hL hp q1) (hH.2 r hr) q2
    exact ⟨x, by rw [← hv]; exact hx⟩
  · intro w1 ho v hv
    obtain ⟨g, hg, c, hc, o, hmo, hl, rfl⟩ := hv
    exact (hre g hg).2 (c.view w1.heap) (o.view w1.heap) hl (estimate_hasShape hL (ho c hc).2 (ho c hc).1.1)
      (by
        show HasShape (shape c.label) _
        rw [hl]; exact estimate_hasShape hL (ho o hmo).2 (ho o hmo).1.1)

end

/-- the default tracker with the voting distance -/
noncomputable def votingCfg : Cfg ℝ Unit (WithTop ℝ) (OKF ℝ) Unit where
  dist := .scalar fun d v => (keypointsVoting 20 (1 / 10) d.points d.scores (v.obj.estimate (okfOps realOkf))
    v.last.scores).map fun x => x.map ((↑) : ℝ → WithTop ℝ)
  thr := ((1 / 2 : ℝ) : WithTop ℝ)
  fill := ((3 / 2 : ℝ) : WithTop ℝ)
  hitCounterMax := 15
  initDelay := 7
  pwMax := 4
  detThr := 0
  flt := okfOps realOkf
  pastLen := 4
  reid := none
  reidThr := 0
  reidFill := 1
  reidMax := none

/-- the voting distance of keypoints (`create_keypoints_voting_distance`) is such a distance -/
theorem C67_voting (flt : FilterOps ℝ F) (shape : L → Nat × Nat) (kthr dthr : ℝ) :
    ScoredDist flt shape (fun (d : Det ℝ L X) (v : ObjView ℝ L (WithTop ℝ) F X) =>
      (keypointsVoting kthr dthr d.points d.scores (v.obj.estimate flt) v.last.scores).map fun x => x.map ((↑) : ℝ → WithTop ℝ)) := by
  rintro d v hl hl' hp hq ⟨s, es, hs⟩ ⟨t, et, ht⟩
  obtain ⟨x, hx, -⟩ := C40_range kthr dthr (hp.same hq) (s := s) (t := t) (by rw [hs, hp.1])
    (by rw [ht, hl', ← hl, hp.1])
  exact ⟨x, by simp only [es, et, hx, Option.map_some]⟩

/-- the hypotheses of `C67_scored`: a tracker with the voting distance and a first detection with two points and two scores -/
example (w : World ℝ Unit (WithTop ℝ) (OKF ℝ) Unit) (h0 : w.Initial)
    (hw : w.heap 0 = ⟨⟨2, 2, [0, 0, 10, 10]⟩, some [1, 1 / 2], (), (), ⟨2, 2, [0, 0, 10, 10]⟩, none⟩) :
    ∃ act, (update votingCfg w (some [0]) 1 none).2 = .ok act := by
  refine C67_scored (cfg := votingCfg) (okf_laws realOkf) (shape := fun _ => (2, 2)) rfl (C67_voting _ _ 20 (1 / 10)) ?_
    (fun g hg => by cases hg) h0 (.refl _) _ _ _ ⟨⟨(fun c e => by cases e), ?_⟩, (fun c e => by cases e), ?_⟩ ?_ (Or.inl rfl)
  · exact WithTop.coe_le_coe.mpr (by norm_num)
  all_goals
    intro r hr
    obtain rfl : r = 0 := by simpa using hr
    rw [hw]
  · exact ⟨rfl, rfl, rfl, fun x h => by cases h; rfl⟩
  · exact ⟨rfl, rfl, rfl⟩
  · exact ⟨_, rfl, rfl⟩

end Norfair.Props
