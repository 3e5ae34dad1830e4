import Verif.Props.TrackerStatic

/-!
C35 with ReID: a filter that only remembers, and the last detection of an object.
-/

set_option linter.unusedSectionVars false

namespace Norfair.Props

open Norfair Norfair.Spec Norfair.Toy

variable {K L D F X : Type}

section
variable [LinearOrder K] [Zero K] [LinearOrder D] [OrderTop D] [Zero D] [DecidableEq L]

/-- points over the threshold in the last detection are where they are in it -/
def AtLast (cfg : Cfg K L D F X) (h : Ref → Det K L X) (o : Obj K L D F) : Prop :=
  ∀ i j, i < o.numPoints → j < o.dimPoints → Seen cfg.detThr (h o.lastDet) i →
    (cfg.flt.getX o.filter)[i * o.dimPoints + j]? = (h o.lastDet).absPoints.data[i * o.dimPoints + j]?

theorem AtLast.same {cfg : Cfg K L D F X} {h h' : Ref → Det K L X} {o : Obj K L D F}
    (he : (h' o.lastDet).scores = (h o.lastDet).scores ∧ (h' o.lastDet).absPoints = (h o.lastDet).absPoints)
    (hq : AtLast cfg h o) : AtLast cfg h' o := by
  intro i j hi hj hs
  rw [he.2]
  exact hq i j hi hj ((seen_congr he.1 i).mp hs)

theorem AtLast.ages {cfg : Cfg K L D F X} {h h' : Ref → Det K L X} {o : Obj K L D F} (ha : AgesOnly h h')
    (hq : AtLast cfg h o) : AtLast cfg h' o := by
  obtain ⟨⟨a, e⟩, -⟩ := ha o.lastDet
  exact hq.same ⟨by rw [e], by rw [e]⟩

theorem hitObj_lastDet_ok {cfg : Cfg K L D F X} {h : Ref → Det K L X} {g c : Nat} {o : Obj K L D F} {r : Ref} {period : Int}
    (he : (hitObj cfg h g c o r period).err = none) : (hitObj cfg h g c o r period).obj.lastDet = r := by
  cases hc : condAdd cfg.pastLen o.age h o.past r with
  | none => rw [hitObj_none hc] at he; cases he
  | some p =>
    rw [hitObj_some (heap' := p.1) (past' := p.2) hc]
    obtain ⟨ph, fl, on, e⟩ := hitSensors_obj cfg (p.1 r) period (hitCounters cfg g c o r period p.2)
    simp only [e]
    unfold hitCounters
    split <;> rfl

/-- one small step after the detections were transformed and the objects were advanced -/
theorem Micro.atLast {cfg : Cfg K L D F X} {Ok : F → Prop} (hL : FilterLaws cfg.flt Ok) (hH : HoldLaws cfg.flt Ok)
    {shape : L → Nat × Nat} (hs : ∀ a b, Compat cfg a b → shape a = shape b) {dets : List Ref} {period : Int}
    {ct : Option (CoordTrans K)} {w w' : World K L D F X} (h : Micro false cfg dets period ct w w')
    (hc : CallOk shape dets ct w.heap) (hp : ∀ o ∈ w.objs, PointsOk cfg.flt Ok shape o)
    (hq : ∀ o ∈ w.objs, AtLast cfg w.heap o) : ∀ o ∈ w'.objs, AtLast cfg w'.heap o := by
  have hmerge : ∀ o ∈ w.objs, ∀ c ∈ w.objs, c.label = o.label →
      AtLast cfg (mergeObj cfg w.heap o c).1 (mergeObj cfg w.heap o c).2.1 := by
    intro o ho c hcm hl
    have e1 : c.numPoints = o.numPoints := by rw [(hp c hcm).n, (hp o ho).n, hl]
    have e2 : c.dimPoints = o.dimPoints := by rw [(hp c hcm).dim, (hp o ho).dim, hl]
    have := (hq c hcm).ages (mergeObj_basic cfg w.heap o c).2.2.2
    intro i j hi hj hseen
    have := this i j (by rw [e1]; exact hi) (by rw [e2]; exact hj) hseen
    rw [e2] at this
    exact this
  cases h with
  | transform c r h1 => cases h1
  | advance h => cases h
  | setMin o v hf hv =>
    intro p hpm
    rcases World.mem_put hpm with ⟨rfl, _⟩ | ⟨hpm, _⟩
    · exact hq o (World.find_some hf).1
    · exact hq p hpm
  | hit o r d res hf hr hcompat hd hres he =>
    subst hres
    intro p hpm
    rcases World.mem_after hpm with rfl | ⟨hpm, _⟩
    · have ho := (World.find_some hf).1
      obtain ⟨x1, x2, x3, x4, x5, x6, hS⟩ := hitObj_sensors (hp o ho).hits he
      obtain ⟨⟨a, ea⟩, -⟩ := hitObj_heap cfg w.heap w.gcount w.count o r period r
      have el := hitObj_lastDet_ok he
      have en : (hitObj cfg w.heap w.gcount w.count o r period).obj.numPoints = o.numPoints := by rw [hS.rest]
      have ed : (hitObj cfg w.heap w.gcount w.count o r period).obj.dimPoints = o.dimPoints := by rw [hS.rest]
      intro i j hi hj hseen
      change i < (hitObj cfg w.heap w.gcount w.count o r period).obj.numPoints at hi
      change j < (hitObj cfg w.heap w.gcount w.count o r period).obj.dimPoints at hj
      change Seen cfg.detThr ((hitObj cfg w.heap w.gcount w.count o r period).heap
        (hitObj cfg w.heap w.gcount w.count o r period).obj.lastDet) i at hseen
      show (cfg.flt.getX (hitObj cfg w.heap w.gcount w.count o r period).obj.filter)[
        i * (hitObj cfg w.heap w.gcount w.count o r period).obj.dimPoints + j]? =
        ((hitObj cfg w.heap w.gcount w.count o r period).heap
          (hitObj cfg w.heap w.gcount w.count o r period).obj.lastDet).absPoints.data[
            i * (hitObj cfg w.heap w.gcount w.count o r period).obj.dimPoints + j]?
      rw [el] at hseen ⊢
      rw [ea] at hseen ⊢
      rw [en] at hi
      rw [ed] at hj ⊢
      exact (hold_seen hL hH (o := { o with
        past := x1, lastDet := x2, hitCounter := x3, isInit := x4, id := x5, globalId := x6 })
        (hp o ho).ok hS hi hj hseen).1
    · exact (hq p hpm).ages (hitObj_heap _ _ _ _ _ _ _)
  | hitErr o r e res hf hr hcompat hres he =>
    subst hres
    intro p hpm
    rcases World.mem_after hpm with rfl | ⟨hpm, _⟩
    · have ho := (World.find_some hf).1
      rcases hitObj_noShape (g := w.gcount) (c := w.count) (period := period) (hp o ho) (hc.2 r hr) (hs _ _ hcompat) with
        e' | ⟨_, e'⟩
      · rw [e'] at he; cases he
      · rw [e']
        exact (hq o ho).ages (hitObj_heap _ _ _ _ _ _ _)
    · exact (hq p hpm).ages (hitObj_heap _ _ _ _ _ _ _)
  | merge o c heap' o' hf hfc hne hl hr hm =>
    have hm1 : heap' = (mergeObj cfg w.heap o c).1 := by rw [hm]
    have hm2 : o' = (mergeObj cfg w.heap o c).2.1 := by rw [hm]
    subst hm1; subst hm2
    intro p hpm
    rcases World.mem_after (World.mem_remove hpm).1 with rfl | ⟨hpm, _⟩
    · exact hmerge o (World.find_some hf).1 c (World.find_some hfc).1 hl
    · exact (hq p hpm).ages (mergeObj_basic cfg w.heap o c).2.2.2
  | mergeErr o c e heap' o' hf hfc hne hl hr hm =>
    have hm1 : heap' = (mergeObj cfg w.heap o c).1 := by rw [hm]
    have hm2 : o' = (mergeObj cfg w.heap o c).2.1 := by rw [hm]
    subst hm1; subst hm2
    intro p hpm
    rcases World.mem_after hpm with rfl | ⟨hpm, _⟩
    · exact hmerge o (World.find_some hf).1 c (World.find_some hfc).1 hl
    · exact (hq p hpm).ages (mergeObj_basic cfg w.heap o c).2.2.2
  | create r hr =>
    rw [createObj_eq]
    intro p hpm
    rcases List.mem_append.mp hpm with hpm | hpm
    · exact (hq p hpm).ages (agesOnly_setAge _ _ _)
    · rw [List.mem_singleton.mp hpm]
      obtain ⟨g, hg⟩ := newObj_fields cfg w r period ct
      rw [hg]
      obtain ⟨d1, d2, d3, d4⟩ := hc.2 r hr
      obtain ⟨c1, c2, c3⟩ := hL.create (w.heap r).absPoints d3
      intro i j hi hj _
      change i < (w.heap r).absPoints.n at hi
      change j < (w.heap r).absPoints.dim at hj
      show (cfg.flt.getX (cfg.flt.create (w.heap r).absPoints))[i * (w.heap r).absPoints.dim + j]? =
        (setAge w.heap r 0 r).absPoints.data[i * (w.heap r).absPoints.dim + j]?
      obtain ⟨⟨a, ea⟩, -⟩ := agesOnly_setAge w.heap r 0 r
      rw [c3, List.getElem?_append_left (by rw [d3]; exact flat_lt hi hj), ea]

/-- a call after the detections were transformed -/
theorem updateCore_atLast {cfg : Cfg K L D F X} {Ok : F → Prop} (hL : FilterLaws cfg.flt Ok) (hH : HoldLaws cfg.flt Ok)
    {shape : L → Nat × Nat} (hs : ∀ a b, Compat cfg a b → shape a = shape b) {dets : List Ref} {period : Int}
    {ct : Option (CoordTrans K)} {w : World K L D F X} (hn : w.keys.Nodup) (hc : CallOk shape dets ct w.heap)
    (hp : ∀ o ∈ w.objs, PointsOk cfg.flt Ok shape o) (hq : ∀ o ∈ w.objs, AtLast cfg w.heap o) :
    ∀ o ∈ (updateCore cfg w dets period ct).1.objs, AtLast cfg (updateCore cfg w dets period ct).1.heap o := by
  have hP := pointsOk_inv hL hs dets period ct
  have h0 := (Micro.advance (adv := true) (cfg := cfg) (dets := dets) (period := period) (ct := ct) w rfl).objInv hP hc hp
  have hq0 : ∀ o ∈ (advance cfg ct w).objs, AtLast cfg (advance cfg ct w).heap o := by
    intro o ho
    simp only [Norfair.advance, List.mem_map] at ho
    obtain ⟨p, hpm, rfl⟩ := ho
    have hpm := (survivors_sublist cfg w.objs).subset hpm
    obtain ⟨g, e⟩ := updateCT_fields ct (p.trackerStep cfg)
    rw [e]
    intro i j hi hj hseen
    show (cfg.flt.getX (cfg.flt.predict p.filter))[i * p.dimPoints + j]? = _
    rw [hH.predict _ (hp p hpm).ok]
    exact hq p hpm i j hi hj hseen
  suffices key : ∀ w', Micros false cfg dets period ct (advance cfg ct w) w' →
      CallOk shape dets ct w'.heap ∧ (∀ o ∈ w'.objs, PointsOk cfg.flt Ok shape o) ∧ ∀ o ∈ w'.objs, AtLast cfg w'.heap o from
    (key _ (updateCore_micros' (adv := false) cfg w hn dets period ct)).2.2
  intro w' hm
  induction hm with
  | refl => exact ⟨hc, h0, hq0⟩
  | tail _ hm ih => exact ⟨hm.heapInv hP ih.1, hm.objInv hP ih.1 ih.2.1, Micro.atLast hL hH hs hm ih.1 ih.2.1 ih.2.2⟩

/-- **C35** (the last detection, with ReID) With a filter that only remembers (`NoFilter`), in every history, with ReID and failed
calls: the estimate of every point that is over the threshold in the last detection of its object (the one that the object got last,
or the one that a merged object got last) is the position in this detection, in absolute coordinates. With coordinate
transformations, detections must not be the last ones of objects already. -/
theorem C35_last_detection {cfg : Cfg K L D F X} {Ok : F → Prop} (hL : FilterLaws cfg.flt Ok)
    (hH : HoldLaws cfg.flt Ok) {shape : L → Nat × Nat}
    (hs : ∀ a b, Compat cfg a b → shape a = shape b) {w0 w : World K L D F X} (h0 : w0.Initial)
    (hr : Reaches cfg (fun h h' => ∀ r, (h' r).scores = (h r).scores ∧ (h' r).absPoints = (h r).absPoints)
      (fun dets _ ct w => CallOk shape (dets.getD []) ct w.heap ∧ (ct ≠ none → ∀ o ∈ w.objs, o.lastDet ∉ dets.getD [])) w0 w)
    {o : Obj K L D F} (ho : o ∈ w.objs) {i j : Nat} (hi : i < o.numPoints) (hj : j < o.dimPoints)
    (hseen : Seen cfg.detThr (w.heap o.lastDet) i) :
    (o.positions cfg.flt).data[i * o.dimPoints + j]? = (w.heap o.lastDet).absPoints.data[i * o.dimPoints + j]? := by
  suffices key : ∀ o ∈ w.objs, AtLast cfg w.heap o by
    have hlt : i * o.dimPoints + j < o.dimZ := flat_lt hi hj
    simp only [Obj.positions, List.getElem?_take_of_lt hlt]
    exact key o ho i j hi hj hseen
  clear ho hi hj hseen
  induction hr with
  | refl => rw [h0.1]; simp
  | env heap g _ he hE ih => exact fun o ho => (ih o ho).same (hE o.lastDet)
  | @call w1 dets period ct hr hcall ih =>
    have hw : Reaches cfg (fun _ _ => True) (fun dets _ ct w => CallOk shape (dets.getD []) ct w.heap) w0 w1 :=
      hr.mono (fun _ _ _ => trivial) fun _ _ _ _ h => h.1
    have hI := (hw.inv (Inv.initial h0)).1
    have hp := WfReaches.pointsOk hL hs h0 hw
    match ct, dets with
    | some _, none => exact ih
    | none, none => exact updateCore_atLast (dets := []) hL hH hs hI.nodup hcall.1 hp ih
    | none, some l => exact updateCore_atLast hL hH hs hI.nodup hcall.1 hp ih
    | some c, some l =>
      have hcl : ∀ (l' : List Ref) (h : Ref → Det K L X), CallOk shape l (some c) h →
          CallOk shape l (some c) (l'.foldl (transformDet c) h) := by
        intro l'
        induction l' with
        | nil => exact fun _ h => h
        | cons r l' ih => exact fun h hc => ih _ (callOk_transform rfl r hc)
      have hkeep : ∀ (l' : List Ref) (h : Ref → Det K L X) (q : Ref), q ∉ l' → l'.foldl (transformDet c) h q = h q := by
        intro l'
        induction l' with
        | nil => exact fun _ _ _ => rfl
        | cons r l' ih =>
          intro h q hq
          rw [List.foldl_cons, ih _ q (fun hm => hq (List.mem_cons_of_mem _ hm))]
          unfold transformDet
          exact if_neg fun (e : q = r) => hq (e ▸ List.mem_cons_self)
      refine updateCore_atLast (w := { w1 with heap := l.foldl (transformDet c) w1.heap }) hL hH hs hI.nodup
        (hcl l _ hcall.1) hp (fun o ho => ?_)
      have e := hkeep l w1.heap o.lastDet (hcall.2 (by simp) o ho)
      exact (ih o ho).same ⟨congrArg Det.scores e, congrArg Det.absPoints e⟩

end

theorem run_kept (c : TCfg) (shape : Nat → Nat × Nat) (ls : List (List Ref)) (w w1 : TWorld) (hI : Inv w)
    (hw : ∀ r, DetOk shape (w.heap r))
    (h : Reaches c (fun h h' => ∀ r, (h' r).scores = (h r).scores ∧ (h' r).absPoints = (h r).absPoints)
      (fun dets _ ct w => CallOk shape (dets.getD []) ct w.heap ∧ (ct ≠ none → ∀ o ∈ w.objs, o.lastDet ∉ dets.getD [])) w1 w) :
    Reaches c (fun h h' => ∀ r, (h' r).scores = (h r).scores ∧ (h' r).absPoints = (h r).absPoints)
      (fun dets _ ct w => CallOk shape (dets.getD []) ct w.heap ∧ (ct ≠ none → ∀ o ∈ w.objs, o.lastDet ∉ dets.getD [])) w1
      (run c w ls) := by
  induction ls generalizing w with
  | nil => exact h
  | cons l ls ih =>
    exact ih _ (update_inv (cfg := c) hI _ _ _).1 (update_detOk c _ hI hw l)
      (Reaches.call _ _ _ h ⟨⟨(by intro _ h; cases h), fun r _ => hw r⟩, fun h => absurd rfl h⟩)

/-- C35: the object is lost, is found again by ReID with detection 51 (which another object got), and is not seen in the last
frame; its estimate is where detection 51 is -/
example : ((only (run rcfg w0 [[0], [1], [], [], [], [50], [51], []])).positions rcfg.flt).data[0 * 1 + 0]? = some 51 := by
  have := C35_last_detection (cfg := rcfg) (o := only (run rcfg w0 [[0], [1], [], [], [], [50], [51], []])) (i := 0) (j := 0)
    noFilter_laws C35_noFilter_holds (shape := fun _ => (1, 1)) (fun _ _ _ => rfl) w0_initial
    (run_kept rcfg _ [[0], [1], [], [], [], [50], [51], []] w0 w0 (Inv.initial w0_initial)
      (fun r => ⟨rfl, rfl, rfl, fun s hs => by cases hs⟩) (.refl _))
    (only_mem (by decide +kernel)) (by decide +kernel) (by decide +kernel)
    (by
      intro s hs
      rw [show ((run rcfg w0 [[0], [1], [], [], [], [50], [51], []]).heap
        (only (run rcfg w0 [[0], [1], [], [], [], [50], [51], []])).lastDet).scores = none by decide +kernel] at hs
      cases hs)
  rw [show (only (run rcfg w0 [[0], [1], [], [], [], [50], [51], []])).dimPoints = 1 by decide +kernel] at this
  rw [this]
  decide +kernel

/-- C35: it keeps the `id` that it had before it was lost -/
example : (run rcfg w0 [[0], [1], [], [], [], [50], [51], []]).objs.map (fun o => (o.initId, o.id, o.lastDet)) =
    [(1, some 1, 51)] := by decide +kernel

end Norfair.Props
