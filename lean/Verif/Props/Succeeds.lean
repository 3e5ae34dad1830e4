import Verif.Spec.Shaped
import Verif.Props.TrackerRounds
import Verif.Props.PointDistances
import Verif.Lemmas.Camera

/-! C67 for the distances of norfair. -/

set_option linter.unusedSectionVars false

namespace Norfair.Props

open Norfair Norfair.Spec Finset

variable {K L D F X : Type}

section
variable [LinearOrder K] [Zero K] [LinearOrder D] [OrderTop D] [Zero D] [DecidableEq L]

/-- a call gets through if the distance is defined wherever the objects and detections satisfy an invariant -/
theorem update_succeeds_of {cfg : Cfg K L D F X} {Ok : F → Prop} (hL : FilterLaws cfg.flt Ok)
    {shape : L → Nat × Nat} (hs : ∀ a b, Compat cfg a b → shape a = shape b)
    {w0 w : World K L D F X} (h0 : w0.Initial)
    (hw : Reaches cfg (fun _ _ => True)
      (fun dets _ ct w => CallOk shape (dets.getD []) ct w.heap) w0 w)
    (dets : Option (List Ref)) (period : Int) (ct : Option (CoordTrans K))
    (hcall : CallOk shape (dets.getD []) ct w.heap) (hct : ct = none ∨ dets ≠ none)
    {H : (Ref → Det K L X) → Prop} {Q : (Ref → Det K L X) → Obj K L D F → Prop}
    (hQ : ObjInv cfg (dets.getD []) period ct H Q) (hH : H w.heap) (hq : ∀ o ∈ w.objs, Q w.heap o)
    (hd : ∀ w1 : World K L D F X, H w1.heap → CallOk shape (dets.getD []) ct w1.heap →
      (∀ o ∈ w1.objs, Q w1.heap o ∧ PointsOk cfg.flt Ok shape o) →
      ∀ v, DistGives cfg w1 (dets.getD []) v → ∃ x, v = some (some x))
    (hr : ∀ w1 : World K L D F X, (∀ o ∈ w1.objs, Q w1.heap o ∧ PointsOk cfg.flt Ok shape o) →
      ∀ v, ReidGives cfg w1 v → ∃ x, v = some (some x))
    (hfill : cfg.thr ≤ cfg.fill) (hrfill : cfg.reid ≠ none → cfg.reidThr ≤ cfg.reidFill) :
    ∃ act, (update cfg w dets period ct).2 = .ok act := by
  cases he : (update cfg w dets period ct).2 with
  | ok act => exact ⟨act, rfl⟩
  | error e =>
    exfalso
    have hI : Inv w := (hw.inv (Inv.initial h0)).1
    rcases update_error cfg w hI.nodup dets period ct (Prod.ext rfl he) with ⟨_, h1, h2, _⟩ | ⟨w1, hm, hc⟩
    · rcases hct with hct | hct
      · exact h1 hct
      · exact hct h2
    · have hpts : ∀ o ∈ w.objs, PointsOk cfg.flt Ok shape o := WfReaches.pointsOk hL hs h0 hw
      obtain ⟨hcall1, hpts1⟩ := hm.objInv (pointsOk_inv hL hs (dets.getD []) period ct) hcall hpts
      obtain ⟨hH1, hq1⟩ := hm.objInv hQ hH hq
      have hreach : Reachable cfg w := ⟨w0, h0, hw.mono (fun _ _ h => h) (fun _ _ _ _ _ => trivial)⟩
      have hages := (hm.objInv (pastAges_inv cfg (dets.getD []) period ct) trivial hreach.pastAges).2
      have hnt := hc.no_typeError hages
      have hd1 := hd w1 hH1 hcall1 fun o ho => ⟨hq1 o ho, hpts1 o ho⟩
      have hr1 := hr w1 fun o ho => ⟨hq1 o ho, hpts1 o ho⟩
      cases hc with
      | distance h => obtain ⟨x, hx⟩ := hd1 _ h; cases hx
      | nan h => obtain ⟨x, hx⟩ := hd1 _ h; cases hx
      | reidDistance h => obtain ⟨x, hx⟩ := hr1 _ h; cases hx
      | reidNan h => obtain ⟨x, hx⟩ := hr1 _ h; cases hx
      | diverges h => exact absurd hfill (not_le.mpr h)
      | reidDiverges h1 h2 => exact absurd (hrfill h1) (not_le.mpr h2)
      | hit o r e hfo hro hcp herr =>
        rcases hitObj_noShape (g := w1.gcount) (c := w1.count) (period := period)
          (hpts1 o (World.find_some hfo).1) (hcall1.2 r hro) (hs _ _ hcp) with h | ⟨h, _⟩
        · rw [h] at herr; cases herr
        · rw [h] at herr; cases herr; exact hnt rfl
      | merge o c e hfo hfc hne hre herr =>
        unfold mergeObj at herr
        simp only at herr
        split at herr
        · cases herr; exact hnt rfl
        · cases herr

/-- the transformation that the object has keeps the agreed shapes -/
def BackShaped (shape : L → Nat × Nat) (o : Obj K L D F) : Prop :=
  ∀ g, o.absToRel = some g → ∀ a p, HasShape (shape a) p → HasShape (shape a) (g p)

theorem backShaped_inv (cfg : Cfg K L D F X) (shape : L → Nat × Nat) (dets : List Ref) (period : Int)
    (ct : Option (CoordTrans K)) (hk : ∀ c, ct = some c → KeepsBoth shape c) :
    ObjInv cfg dets period ct (fun h => ∀ r ∈ dets, HasShape (shape (h r).label) (h r).points)
      (fun _ o => BackShaped shape o) where
  heapAges := by
    intro h h' ha hh r hr
    obtain ⟨⟨a, e⟩, _⟩ := ha r
    rw [e]; exact hh r hr
  heapTransform := by
    intro h c q _ _ hh r hr
    obtain ⟨a, e⟩ := transformDet_fields c h q r
    rw [e]; exact hh r hr
  ages := fun _ _ _ _ h => h
  transform := fun _ _ _ _ _ _ h => h
  step := by
    intro h o _ hq
    cases ct with
    | none => exact hq
    | some c =>
      intro g hg
      cases hg
      exact fun a p hp => (hk c rfl a p hp).2
  setMin := fun _ _ _ _ h => h
  hit := by
    intro h g c o r d _ _ _ _ hq _
    obtain ⟨_, _, _, _, _, _, _, _, _, e⟩ := hitObj_shape cfg h g c o r period
    rw [e]; exact hq
  hitErr := by
    intro h g c o r _ _ _ hq _
    obtain ⟨_, _, _, _, _, _, _, _, _, e⟩ := hitObj_shape cfg h g c o r period
    rw [e]; exact hq
  merge := fun h o c _ _ hq _ => hq
  create := by
    intro w r _ _
    cases ct with
    | none => intro g hg; cases hg
    | some c =>
      intro g hg
      cases hg
      exact fun a p hp => (hk c rfl a p hp).2

/-- the estimate of such an object has the agreed shape -/
theorem estimate_hasShape {fo : FilterOps K F} {Ok : F → Prop} (hL : FilterLaws fo Ok) {shape : L → Nat × Nat}
    {o : Obj K L D F} (hP : PointsOk fo Ok shape o) (hB : BackShaped shape o) :
    HasShape (shape o.label) (o.estimate fo) := by
  have hp : HasShape (shape o.label) (o.positions fo) := by
    refine ⟨hP.n, hP.dim, ?_⟩
    show ((fo.getX o.filter).take o.dimZ).length = _
    rw [List.length_take, hL.len _ hP.ok, hP.dimZ, ← hP.n, ← hP.dim]
    show min (o.dimPoints * o.numPoints) (2 * (o.dimPoints * o.numPoints)) = _
    omega
  unfold Obj.estimate
  cases hg : o.absToRel with
  | none => exact hp
  | some g => exact hB g hg _ _ hp

/-- **C67** for distances that need arrays of the agreed shapes: if all calls so far and this one have well-formed
detections and transformations, the call does not raise. The same with ReID. -/
theorem C67_shaped_reid {cfg : Cfg K L D F X} {Ok : F → Prop} (hL : FilterLaws cfg.flt Ok)
    {shape : L → Nat × Nat} (hs : ∀ a b, Compat cfg a b → shape a = shape b)
    (hd : ShapedDist cfg.flt shape cfg.dist) (hfill : cfg.thr ≤ cfg.fill)
    (hre : ∀ g, cfg.reid = some g → cfg.reidThr ≤ cfg.reidFill ∧ ShapedReid cfg.flt shape g)
    {w0 w : World K L D F X} (h0 : w0.Initial)
    (hw : Reaches cfg (fun _ _ => True) (fun dets _ ct w => CallShaped shape (dets.getD []) ct w.heap) w0 w)
    (dets : Option (List Ref)) (period : Int) (ct : Option (CoordTrans K))
    (hcall : CallShaped shape (dets.getD []) ct w.heap) (hct : ct = none ∨ dets ≠ none) :
    ∃ act, (update cfg w dets period ct).2 = .ok act := by
  have hback : ∀ o ∈ w.objs, BackShaped shape o :=
    Reaches.objInv hw (Inv.initial h0) (fun dets period ct w hc =>
      ⟨_, hc.points, backShaped_inv cfg shape (dets.getD []) period ct hc.keeps⟩) (fun _ _ _ _ _ h => h)
      (by rw [h0.1]; simp)
  refine update_succeeds_of hL hs h0 (hw.mono (fun _ _ h => h) fun _ _ _ _ h => h.ok) dets period ct hcall.ok hct
    (backShaped_inv cfg shape (dets.getD []) period ct hcall.keeps) hcall.points hback ?_ ?_ hfill
    (fun h => by
      obtain ⟨g, hg⟩ := Option.ne_none_iff_exists'.mp h
      exact (hre g hg).1)
  · intro w1 hH hc ho v hv
    unfold DistGives at hv
    unfold ShapedDist at hd
    split at hv
    · rename_i f hf
      rw [hf] at hd
      obtain ⟨r, hr, o, hmo, hl, hv⟩ := hv
      obtain ⟨x, hx⟩ := hd (w1.heap r) (o.view w1.heap) hl (hH r hr)
        (by rw [hl]; exact estimate_hasShape hL (ho o hmo).2 (ho o hmo).1)
      exact ⟨x, hv.symm.trans hx⟩
    · rename_i str f hf
      rw [hf] at hd
      obtain ⟨s, cs, os, n1, n2, h1, h2, h3⟩ := hv
      obtain ⟨M, hM, hx⟩ := hd s cs os n1 n2
        (fun c hc' => by
          obtain ⟨r, hr, e, rfl⟩ := h1 c hc'
          exact ⟨_, e, (hH r hr).2.2⟩)
        (fun b hb => by
          obtain ⟨o, hmo, e, rfl⟩ := h2 b hb
          exact ⟨_, e, (estimate_hasShape hL (ho o hmo).2 (ho o hmo).1).2.2⟩)
      rcases h3 with ⟨_, h3⟩ | ⟨N, i, j, h3, h4, h5, h6⟩
      · rw [hM] at h3; cases h3
      · rw [hM] at h3
        cases h3
        obtain ⟨x, hx⟩ := hx i h4 j h5
        exact ⟨x, h6.trans (by rw [hx])⟩
  · intro w1 ho v hv
    obtain ⟨g, hg, c, hc, o, hmo, hl, rfl⟩ := hv
    exact (hre g hg).2 (c.view w1.heap) (o.view w1.heap) hl (estimate_hasShape hL (ho c hc).2 (ho c hc).1)
      (by
        show HasShape (shape c.label) _
        rw [hl]; exact estimate_hasShape hL (ho o hmo).2 (ho o hmo).1)

/-- **C67** for trackers without ReID -/
theorem C67_shaped {cfg : Cfg K L D F X} {Ok : F → Prop} (hL : FilterLaws cfg.flt Ok)
    {shape : L → Nat × Nat} (hs : ∀ a b, Compat cfg a b → shape a = shape b)
    (hd : ShapedDist cfg.flt shape cfg.dist) (hre : cfg.reid = none) (hfill : cfg.thr ≤ cfg.fill)
    {w0 w : World K L D F X} (h0 : w0.Initial)
    (hw : Reaches cfg (fun _ _ => True) (fun dets _ ct w => CallShaped shape (dets.getD []) ct w.heap) w0 w)
    (dets : Option (List Ref)) (period : Int) (ct : Option (CoordTrans K))
    (hcall : CallShaped shape (dets.getD []) ct w.heap) (hct : ct = none ∨ dets ≠ none) :
    ∃ act, (update cfg w dets period ct).2 = .ok act :=
  C67_shaped_reid hL hs hd hfill (fun g hg => by rw [hre] at hg; cases hg) h0 hw dets period ct hcall hct

/-- C67 for a sequence of calls -/
theorem C67_trace_reid {cfg : Cfg K L D F X} {Ok : F → Prop} (hL : FilterLaws cfg.flt Ok)
    {shape : L → Nat × Nat} (hs : ∀ a b, Compat cfg a b → shape a = shape b)
    (hd : ShapedDist cfg.flt shape cfg.dist) (hfill : cfg.thr ≤ cfg.fill)
    (hre : ∀ g, cfg.reid = some g → cfg.reidThr ≤ cfg.reidFill ∧ ShapedReid cfg.flt shape g)
    {w w' : World K L D F X} (h0 : w.Initial) {fs : List (Frame K L D F X)} (ht : Trace cfg w fs w')
    (hfs : ∀ f ∈ fs, CallShaped shape (given f) f.ct f.before.heap ∧ (f.ct = none ∨ f.dets ≠ none)) :
    (∀ f ∈ fs, Succeeds f) ∧
    Reaches cfg (fun _ _ => True) (fun dets _ ct w => CallShaped shape (dets.getD []) ct w.heap) w w' := by
  induction ht with
  | nil => exact ⟨by simp, .refl _⟩
  | env heap g _ he ih =>
    obtain ⟨a, b⟩ := ih hfs
    exact ⟨a, .env heap g b he trivial⟩
  | @call fs w2 dets period ct ht ih =>
    obtain ⟨a, b⟩ := ih fun f hf => hfs f (List.mem_append_left _ hf)
    obtain ⟨c1, c2⟩ := hfs _ (List.mem_append_right _ (List.mem_singleton.mpr rfl))
    refine ⟨fun f hf => ?_, .call _ _ _ b c1⟩
    rcases List.mem_append.mp hf with hf | hf
    · exact a f hf
    · rw [List.mem_singleton.mp hf]
      exact C67_shaped_reid hL hs hd hfill hre h0 b dets period ct c1 c2

/-- C67 for a sequence of calls without ReID -/
theorem C67_trace {cfg : Cfg K L D F X} {Ok : F → Prop} (hL : FilterLaws cfg.flt Ok)
    {shape : L → Nat × Nat} (hs : ∀ a b, Compat cfg a b → shape a = shape b)
    (hd : ShapedDist cfg.flt shape cfg.dist) (hre : cfg.reid = none) (hfill : cfg.thr ≤ cfg.fill)
    {w w' : World K L D F X} (h0 : w.Initial) {fs : List (Frame K L D F X)} (ht : Trace cfg w fs w')
    (hfs : ∀ f ∈ fs, CallShaped shape (given f) f.ct f.before.heap ∧ (f.ct = none ∨ f.dets ≠ none)) :
    (∀ f ∈ fs, Succeeds f) ∧
    Reaches cfg (fun _ _ => True) (fun dets _ ct w => CallShaped shape (dets.getD []) ct w.heap) w w' :=
  C67_trace_reid hL hs hd hfill (fun g hg => by rw [hre] at hg; cases hg) h0 ht hfs

end

/-! ### The distances of norfair -/

/-- a distance of points that is defined for arrays of equal shape -/
theorem shapedDist_pts {flt : FilterOps ℝ F} {shape : L → Nat × Nat} {f : Pts ℝ → Pts ℝ → Option (Option ℝ)}
    (h : ∀ (a : L) p q, HasShape (shape a) p → HasShape (shape a) q → ∃ x, f p q = some (some x)) :
    ShapedDist flt shape (ptsDistance flt f : DistFn ℝ L (WithTop ℝ) F X) := by
  intro d v _ hp hq
  obtain ⟨x, hx⟩ := h d.label _ _ hp hq
  exact ⟨x, by simp only [hx, Option.map_some]⟩

theorem _root_.Norfair.Spec.HasShape.same {s : Nat × Nat} {p q : Pts ℝ} (hp : HasShape s p) (hq : HasShape s q) :
    SameShape p q := ⟨hp.1.trans hq.1.symm, hp.2.1.trans hq.2.1.symm⟩

/-- `frobenius` is defined for arrays of equal shape, `mean_manhattan` and `mean_euclidean` if there are points -/
theorem C67_point_distances (flt : FilterOps ℝ F) (shape : L → Nat × Nat) :
    ShapedDist flt shape (ptsDistance flt frobenius : DistFn ℝ L (WithTop ℝ) F X) ∧
    ((∀ a, 0 < (shape a).1) →
      ShapedDist flt shape (ptsDistance flt meanManhattan : DistFn ℝ L (WithTop ℝ) F X) ∧
      ShapedDist flt shape (ptsDistance flt meanEuclidean : DistFn ℝ L (WithTop ℝ) F X)) := by
  refine ⟨shapedDist_pts fun a p q hp hq => ⟨_, frobenius_eq (hp.same hq)⟩, fun hn => ⟨?_, ?_⟩⟩
  · exact shapedDist_pts fun a p q hp hq => ⟨_, meanManhattan_eq (hp.same hq) (by rw [hp.1]; exact hn a)⟩
  · exact shapedDist_pts fun a p q hp hq => ⟨_, meanEuclidean_eq (hp.same hq) (by rw [hp.1]; exact hn a)⟩

/-- a scipy metric is defined if `cdist` is for stacks of vectors of equal length and labels with equal `str()`
have arrays of equal shape -/
theorem C67_scipy (flt : FilterOps ℝ F) (shape : L → Nat × Nat) (str : L → String)
    (hstr : ∀ a b, str a = str b → shape a = shape b) {metric : String}
    {cdist : String → List (List ℝ) → List (List ℝ) → Option (Mat (Option (WithTop ℝ)))}
    (hc : ∀ n cs os, cs ≠ [] → os ≠ [] → (∀ c ∈ cs, c.length = n) → (∀ b ∈ os, b.length = n) →
      ∃ M, cdist metric cs os = some M ∧ ∀ i < cs.length, ∀ j < os.length, ∃ x, M.val i j = some x) :
    ShapedDist flt shape (Named.distFn flt str cdist (.scipy metric) : DistFn ℝ L (WithTop ℝ) F X) := by
  intro s cs os n1 n2 h1 h2
  obtain ⟨c0, hc0⟩ := List.exists_mem_of_ne_nil _ n1
  obtain ⟨a0, e0, _⟩ := h1 c0 hc0
  refine hc ((shape a0).2 * (shape a0).1) cs os n1 n2 (fun c hc => ?_) fun b hb => ?_
  · obtain ⟨a, e, el⟩ := h1 c hc
    rw [el, hstr a a0 (e.trans e0.symm)]
  · obtain ⟨a, e, el⟩ := h2 b hb
    rw [el, hstr a a0 (e.trans e0.symm)]

end Norfair.Props
