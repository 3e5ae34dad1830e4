import Verif.Lemmas.PastOrder
import Verif.Props.Toy

/-!
Invariants of every tracked object over whole histories: bounds of the counters, labels, distances,
length of the list of past detections.
-/

set_option linter.unusedSectionVars false

namespace Norfair.Props

open Norfair Norfair.Toy

variable {K L D F X : Type}

section
variable [LinearOrder K] [Zero K] [LinearOrder D] [OrderTop D] [Zero D] [DecidableEq L]

/-! ### C12: bounds of the hit counter -/

theorem hc_upper_inv (cfg : Cfg K L D F X) (B : Int) (hB : cfg.hitCounterMax ≤ B) (dets : List Ref)
    (period : Int) (ct : Option (CoordTrans K)) (h1 : period ≤ B) (h2 : cfg.reid ≠ none → 2 * period ≤ B) :
    ObjInv cfg dets period ct (fun _ => True) (fun _ o => o.hitCounter ≤ B ∧
      (cfg.reid ≠ none → 2 * o.initialPeriod ≤ B)) where
  heapAges := fun _ _ _ _ => trivial
  heapTransform := fun _ _ _ _ _ _ => trivial
  ages := fun _ _ _ _ h => h
  transform := fun _ _ _ _ _ _ h => h
  step := by
    intro h o _ hq
    obtain ⟨g, e⟩ := updateCT_fields ct (o.trackerStep cfg)
    rw [e]
    exact ⟨by show o.hitCounter - 1 ≤ B; have := hq.1; omega, hq.2⟩
  setMin := fun _ _ _ _ h => h
  hit := by
    intro h g c o r d _ _ _ _ hq _
    refine ⟨?_, ?_⟩
    · show (hitObj cfg h g c o r period).obj.hitCounter ≤ B
      rcases hitObj_hc cfg h g c o r period with ⟨e, _⟩ | ⟨e, _⟩
      · rw [e]; exact hq.1
      · rw [e]; exact (min_le_right _ _).trans hB
    · obtain ⟨_, _, _, _, _, _, _, _, _, e⟩ := hitObj_shape cfg h g c o r period
      rw [e]; exact hq.2
  hitErr := by
    intro h g c o r _ _ _ hq _
    refine ⟨?_, ?_⟩
    · rcases hitObj_hc cfg h g c o r period with ⟨e, _⟩ | ⟨e, _⟩
      · rw [e]; exact hq.1
      · rw [e]; exact (min_le_right _ _).trans hB
    · obtain ⟨_, _, _, _, _, _, _, _, _, e⟩ := hitObj_shape cfg h g c o r period
      rw [e]; exact hq.2
  merge := by
    intro h o c hr _ hq _
    refine ⟨?_, hq.2⟩
    show o.initialPeriod * 2 ≤ B
    rw [mul_comm]; exact hq.2 hr
  create := by
    intro w r _ _
    obtain ⟨e1, e2, _⟩ := newObj_none_fields cfg w r period ct
    rw [e1, e2]
    exact ⟨h1, h2⟩

/-- C12: no hit counter ever exceeds `max(hit_counter_max, 2 * largest period)`. -/
theorem C12_upper {cfg : Cfg K L D F X} {w0 w : World K L D F X} (h0 : w0.Initial) (pmax : Int)
    (hp : 0 ≤ pmax)
    (h : Reaches cfg (fun _ _ => True) (fun _ period _ _ => period ≤ pmax) w0 w) :
    ∀ o ∈ w.objs, o.hitCounter ≤ max cfg.hitCounterMax (2 * pmax) := by
  intro o ho
  refine (Reaches.objInv h (Inv.initial h0) (fun dets period ct w hper =>
    ⟨_, trivial, hc_upper_inv cfg (max cfg.hitCounterMax (2 * pmax)) (le_max_left _ _) (dets.getD [])
      period ct ?_ ?_⟩) ?_ ?_ o ho).1
  · exact (show period ≤ 2 * pmax by omega).trans (le_max_right _ _)
  · intro _
    exact (show 2 * period ≤ 2 * pmax by omega).trans (le_max_right _ _)
  · exact fun _ _ _ _ _ h => h
  · rw [h0.1]; simp

theorem upper_period_one_aux {cfg : Cfg K L D F X} {w0 w : World K L D F X} (h0 : w0.Initial)
    (hm : 1 ≤ cfg.hitCounterMax) (hr : cfg.reid ≠ none → 2 ≤ cfg.hitCounterMax)
    (h : Reaches cfg (fun _ _ => True) (fun _ period _ _ => period = 1) w0 w) :
    ∀ o ∈ w.objs, o.hitCounter ≤ cfg.hitCounterMax := by
  intro o ho
  refine (Reaches.objInv h (Inv.initial h0) (fun dets period ct w hper =>
    ⟨_, trivial, hc_upper_inv cfg cfg.hitCounterMax le_rfl (dets.getD [])
      period ct (by subst hper; exact hm) (by subst hper; exact hr)⟩) ?_ ?_ o ho).1
  · exact fun _ _ _ _ _ h => h
  · rw [h0.1]; simp

/-- C12: with period 1 throughout, no hit counter exceeds `hit_counter_max`, for every tracker that the
constructor accepts (`0 <= initialization_delay < hit_counter_max`), with or without ReID. -/
theorem C12_upper_period_one {cfg : Cfg K L D F X} {w0 w : World K L D F X} (h0 : w0.Initial)
    (hd : 0 ≤ cfg.initDelay) (hm : cfg.initDelay < cfg.hitCounterMax)
    (h : Reaches cfg (fun _ _ => True) (fun _ period _ _ => period = 1) w0 w) :
    ∀ o ∈ w.objs, o.hitCounter ≤ cfg.hitCounterMax := by
  by_cases h2 : 2 ≤ cfg.hitCounterMax
  · exact upper_period_one_aux h0 (by omega) (fun _ => h2) h
  · have hi : cfg.initDelay < 1 := by omega
    have key : Reaches cfg.noReid (fun _ _ => True) (fun _ period _ _ => period = 1) w0 w ∧
        ∀ o ∈ w.objs, o.isInit = false := by
      have hinv : Inv w0 := Inv.initial h0
      clear h2 hm hd
      induction h with
      | refl => exact ⟨.refl _, by rw [h0.1]; simp⟩
      | call dets period ct hr hp ih =>
        subst hp
        refine ⟨?_, ?_⟩
        · rw [update_noReid cfg _ ih.2 dets 1 ct hi]
          exact .call _ _ _ ih.1 rfl
        · exact ((update_micros cfg _ (hr.inv hinv).1.nodup dets 1 ct).objInv
            (initialized_inv cfg (dets.getD []) 1 ct hi) trivial ih.2).2
      | env heap g hr he hE ih => exact ⟨.env _ _ ih.1 he hE, ih.2⟩
    exact upper_period_one_aux (cfg := cfg.noReid) h0 (by show 1 ≤ cfg.hitCounterMax; omega)
      (fun h => absurd rfl h) key.1

theorem hc_lower_inv (cfg : Cfg K L D F X) (hr : cfg.reidMax = none) (hm : -1 ≤ cfg.hitCounterMax)
    (dets : List Ref) (period : Int) (ct : Option (CoordTrans K)) (h1 : 0 ≤ period) :
    ObjInv cfg dets period ct (fun _ => True) (fun _ o => -1 ≤ o.hitCounter ∧ 0 ≤ o.initialPeriod) where
  heapAges := fun _ _ _ _ => trivial
  heapTransform := fun _ _ _ _ _ _ => trivial
  ages := fun _ _ _ _ h => h
  transform := fun _ _ _ _ _ _ h => h
  step := by
    intro h o hs hq
    obtain ⟨g, e⟩ := updateCT_fields ct (o.trackerStep cfg)
    rw [e]
    have := hs hr
    simp only [Obj.hcPos, decide_eq_true_eq] at this
    exact ⟨by show -1 ≤ o.hitCounter - 1; omega, hq.2⟩
  setMin := fun _ _ _ _ h => h
  hit := by
    intro h g c o r d _ _ _ _ hq _
    refine ⟨?_, ?_⟩
    · show -1 ≤ (hitObj cfg h g c o r period).obj.hitCounter
      rcases hitObj_hc cfg h g c o r period with ⟨e, _⟩ | ⟨e, _⟩
      · rw [e]; exact hq.1
      · rw [e]; exact le_min (by have := hq.1; omega) hm
    · obtain ⟨_, _, _, _, _, _, _, _, _, e⟩ := hitObj_shape cfg h g c o r period
      rw [e]; exact hq.2
  hitErr := by
    intro h g c o r _ _ _ hq _
    refine ⟨?_, ?_⟩
    · rcases hitObj_hc cfg h g c o r period with ⟨e, _⟩ | ⟨e, _⟩
      · rw [e]; exact hq.1
      · rw [e]; exact le_min (by have := hq.1; omega) hm
    · obtain ⟨_, _, _, _, _, _, _, _, _, e⟩ := hitObj_shape cfg h g c o r period
      rw [e]; exact hq.2
  merge := by
    intro h o c _ _ hq _
    refine ⟨?_, hq.2⟩
    show -1 ≤ o.initialPeriod * 2
    have := hq.2
    omega
  create := by
    intro w r _ _
    obtain ⟨e1, e2, _⟩ := newObj_none_fields cfg w r period ct
    rw [e1, e2]
    exact ⟨by omega, h1⟩

/-- C12: without `reid_hit_counter_max`, tracked objects never have a hit counter below -1. -/
theorem C12_lower {cfg : Cfg K L D F X} {w0 w : World K L D F X} (h0 : w0.Initial)
    (hr : cfg.reidMax = none) (hm : -1 ≤ cfg.hitCounterMax)
    (h : Reaches cfg (fun _ _ => True) (fun _ period _ _ => 0 ≤ period) w0 w) :
    ∀ o ∈ w.objs, -1 ≤ o.hitCounter := by
  intro o ho
  refine (Reaches.objInv h (Inv.initial h0) (fun dets period ct w hper =>
    ⟨_, trivial, hc_lower_inv cfg hr hm (dets.getD []) period ct hper⟩) ?_ ?_ o ho).1
  · exact fun _ _ _ _ _ h => h
  · rw [h0.1]; simp

/-! ### C17: distances -/

/-- `d` is missing or below `t` -/
def Below (d : Option D) (t : D) : Prop := ∀ x, d = some x → x < t

theorem distance_inv (cfg : Cfg K L D F X) (dets : List Ref)
    (period : Int) (ct : Option (CoordTrans K)) :
    ObjInv cfg dets period ct (fun _ => True) (fun _ o => Below o.lastDistance cfg.thr ∧
      (∀ d, o.curMin = some d → d < cfg.thr ∨ (cfg.reid ≠ none ∧ d < cfg.reidThr))) where
  heapAges := fun _ _ _ _ => trivial
  heapTransform := fun _ _ _ _ _ _ => trivial
  ages := fun _ _ _ _ h => h
  transform := fun _ _ _ _ _ _ h => h
  step := by
    intro h o _ hq
    obtain ⟨g, e⟩ := updateCT_fields ct (o.trackerStep cfg)
    rw [e]
    exact hq
  setMin := fun _ _ v hv h => ⟨h.1, hv⟩
  hit := by
    intro h g c o r d _ _ _ hd hq _
    obtain ⟨_, _, _, _, _, _, _, _, _, e⟩ := hitObj_shape cfg h g c o r period
    rw [e]
    refine ⟨?_, hq.2⟩
    intro x hx
    cases hx
    exact hd
  hitErr := by
    intro h g c o r _ _ _ hq _
    obtain ⟨_, _, _, _, _, _, _, _, _, e⟩ := hitObj_shape cfg h g c o r period
    rw [e]; exact hq
  merge := fun _ _ _ _ _ _ hc => hc
  create := by
    intro w r _ _
    obtain ⟨_, _, e1, e2, _⟩ := newObj_none_fields cfg w r period ct
    rw [e1, e2]
    refine ⟨?_, ?_⟩ <;> intro x hx <;> cases hx

theorem reachable_distance {cfg : Cfg K L D F X} {w : World K L D F X} (h : Reachable cfg w) :
    ∀ o ∈ w.objs, Below o.lastDistance cfg.thr ∧
      (∀ d, o.curMin = some d → d < cfg.thr ∨ (cfg.reid ≠ none ∧ d < cfg.reidThr)) := by
  obtain ⟨w0, h0, h⟩ := h
  refine Reaches.objInv h (Inv.initial h0) (fun dets period ct w _ =>
    ⟨_, trivial, distance_inv cfg (dets.getD []) period ct⟩) ?_ ?_
  · exact fun _ _ _ _ _ h => h
  · rw [h0.1]; simp

/-- C17: `last_distance` is `None` or strictly below `distance_threshold`, at every moment. -/
theorem C17_last_distance_below {cfg : Cfg K L D F X} {w : World K L D F X} (h : Reachable cfg w)
    {o : Obj K L D F} (ho : o ∈ w.objs) {d : D} (hd : o.lastDistance = some d) : d < cfg.thr :=
  (reachable_distance h o ho).1 d hd

/-- C17: `current_min_distance` is `None` or strictly below the threshold of a comparison. -/
theorem C17_current_min_below {cfg : Cfg K L D F X} {w : World K L D F X} (h : Reachable cfg w)
    {o : Obj K L D F} (ho : o ∈ w.objs) {d : D} (hd : o.curMin = some d) :
    d < cfg.thr ∨ (cfg.reid ≠ none ∧ d < cfg.reidThr) :=
  (reachable_distance h o ho).2 d hd

/-! ### C16: labels -/

theorem Compat.trans_label {cfg : Cfg K L D F X} {a b c : L} (h : Compat cfg a b) (e : b = c) :
    Compat cfg a c := e ▸ h

theorem Compat.refl' (cfg : Cfg K L D F X) (a : L) : Compat cfg a a := by
  unfold Compat; split <;> rfl

theorem label_inv (cfg : Cfg K L D F X) (dets : List Ref)
    (period : Int) (ct : Option (CoordTrans K)) :
    ObjInv cfg dets period ct (fun _ => True) (fun h o => Compat cfg (h o.lastDet).label o.label ∧
      ∀ q ∈ o.past, Compat cfg (h q).label o.label) where
  heapAges := fun _ _ _ _ => trivial
  heapTransform := fun _ _ _ _ _ _ => trivial
  ages := by
    intro h h' o ha hq
    refine ⟨by rw [ha.label]; exact hq.1, fun q hqm => by rw [ha.label]; exact hq.2 q hqm⟩
  transform := by
    intro h c r o _ _ hq
    have : ∀ q, (transformDet c h r q).label = (h q).label := by
      intro q
      obtain ⟨a, ha⟩ := transformDet_fields c h r q
      rw [ha]
    exact ⟨by rw [this]; exact hq.1, fun q hqm => by rw [this]; exact hq.2 q hqm⟩
  step := by
    intro h o _ hq
    obtain ⟨g, e⟩ := updateCT_fields ct (o.trackerStep cfg)
    rw [e]
    exact hq
  setMin := fun _ _ _ _ h => h
  hit := by
    intro h g c o r d _ _ hl _ hq _
    have hh := hitObj_heap cfg h g c o r period
    have hpast : ∀ q ∈ (hitObj cfg h g c o r period).obj.past, q ∈ o.past ∨ q = r := by
      intro q hqm
      rcases hitObj_past_eq cfg h g c o r period with ⟨_, e, _⟩ | e
      · rw [e] at hqm; exact Or.inl hqm
      · exact (condAdd_mem e q hqm).imp id (·.1)
    have hlab : (hitObj cfg h g c o r period).obj.label = o.label := (hitObj_basic cfg h g c o r period).2.1
    refine ⟨?_, ?_⟩
    · show Compat cfg ((hitObj cfg h g c o r period).heap (hitObj cfg h g c o r period).obj.lastDet).label
        (hitObj cfg h g c o r period).obj.label
      rw [hh.label, hlab]
      rcases hitObj_lastDet cfg h g c o r period with e | e <;> rw [e]
      · exact hl
      · exact hq.1
    · intro q hqm
      show Compat cfg _ (hitObj cfg h g c o r period).obj.label
      rw [hh.label, hlab]
      rcases hpast q hqm with h1 | rfl
      · exact hq.2 q h1
      · exact hl
  hitErr := by
    intro h g c o r _ _ hl hq _
    have hh := hitObj_heap cfg h g c o r period
    have hpast : ∀ q ∈ (hitObj cfg h g c o r period).obj.past, q ∈ o.past ∨ q = r := by
      intro q hqm
      rcases hitObj_past_eq cfg h g c o r period with ⟨_, e, _⟩ | e
      · rw [e] at hqm; exact Or.inl hqm
      · exact (condAdd_mem e q hqm).imp id (·.1)
    have hlab : (hitObj cfg h g c o r period).obj.label = o.label := (hitObj_basic cfg h g c o r period).2.1
    refine ⟨?_, ?_⟩
    · rw [hh.label, hlab]
      rcases hitObj_lastDet cfg h g c o r period with e | e <;> rw [e]
      · exact hl
      · exact hq.1
    · intro q hqm
      rw [hh.label, hlab]
      rcases hpast q hqm with h1 | rfl
      · exact hq.2 q h1
      · exact hl
  merge := by
    intro h o c _ hl hq hc
    have hh : AgesOnly h (mergeObj cfg h o c).1 := agesOnly_condAddAll _ _ _
    refine ⟨?_, ?_⟩
    · rw [hh.label]
      exact Compat.trans_label hc.1 hl
    · intro q hqm
      rw [hh.label]
      have : q ∈ o.past ∨ q ∈ c.past := condAddAll_mem _ _ _ q hqm
      rcases this with h1 | h1
      · exact hq.2 q h1
      · exact Compat.trans_label (hc.2 q h1) hl
  create := by
    intro w r _ _
    obtain ⟨_, _, _, _, e1, e2, _, e3, _⟩ := newObj_none_fields cfg w r period ct
    rw [e1, e2, e3]
    have : ∀ q, (setAge w.heap r 0 q).label = (w.heap q).label := (agesOnly_setAge _ _ _).label
    refine ⟨by rw [this]; exact Compat.refl' _ _, ?_⟩
    intro q hq
    split at hq
    · simp only [List.mem_singleton] at hq
      rw [hq, this]; exact Compat.refl' _ _
    · cases hq

/-- Nobody edits labels of detections between the calls. -/
def LabelsKept (h h' : Ref → Det K L X) : Prop := ∀ r, (h' r).label = (h r).label

theorem reaches_labels {cfg : Cfg K L D F X} {w0 w : World K L D F X} (h0 : w0.Initial)
    (h : Reaches cfg LabelsKept (fun _ _ _ _ => True) w0 w) :
    ∀ o ∈ w.objs, Compat cfg (w.heap o.lastDet).label o.label ∧
      ∀ q ∈ o.past, Compat cfg (w.heap q).label o.label := by
  refine Reaches.objInv h (Inv.initial h0) (fun dets period ct w _ =>
    ⟨_, trivial, label_inv cfg (dets.getD []) period ct⟩) ?_ ?_
  · intro h h' o he _ hq
    exact ⟨by rw [he]; exact hq.1, fun q hqm => by rw [he]; exact hq.2 q hqm⟩
  · rw [h0.1]; simp

/-- C16, scalar distance: the label of a tracked object is the label of its last detection and of all its
past detections, at every moment of every history with and without ReID. -/
theorem C16_labels_scalar {cfg : Cfg K L D F X} {f} (hs : cfg.dist = .scalar f)
    {w0 w : World K L D F X} (h0 : w0.Initial)
    (h : Reaches cfg LabelsKept (fun _ _ _ _ => True) w0 w) {o : Obj K L D F} (ho : o ∈ w.objs) :
    (w.heap o.lastDet).label = o.label ∧ ∀ q ∈ o.past, (w.heap q).label = o.label := by
  have := reaches_labels h0 h o ho
  unfold Compat at this
  simpa only [hs] using this

/-- C16, vectorized distance: the same when `str()` tells labels apart. -/
theorem C16_labels_vectorized {cfg : Cfg K L D F X} {str f} (hs : cfg.dist = .vectorized str f)
    (hinj : Function.Injective str) {w0 w : World K L D F X} (h0 : w0.Initial)
    (h : Reaches cfg LabelsKept (fun _ _ _ _ => True) w0 w) {o : Obj K L D F} (ho : o ∈ w.objs) :
    (w.heap o.lastDet).label = o.label ∧ ∀ q ∈ o.past, (w.heap q).label = o.label := by
  have := reaches_labels h0 h o ho
  unfold Compat at this
  simp only [hs] at this
  exact ⟨hinj this.1, fun q hq => hinj (this.2 q hq)⟩

/-- C16, one call, whatever was edited before it: if the detections of the call are new for the tracker,
every object that has one of them as `last_detection` after the call (matched, merged by ReID or new,
even if the call raised) has its label. -/
theorem C16_one_call {cfg : Cfg K L D F X} {f} (hs : cfg.dist = .scalar f)
    {w : World K L D F X} (h : Reachable cfg w) (dets : List Ref) (period : Int)
    (ct : Option (CoordTrans K)) (hfresh : ∀ o ∈ w.objs, o.lastDet ∉ dets)
    {o : Obj K L D F} (ho : o ∈ (update cfg w (some dets) period ct).1.objs) (hr : o.lastDet ∈ dets) :
    (w.heap o.lastDet).label = o.label := by
  have hheap : ∀ r, ((update cfg w (some dets) period ct).1.heap r).label = (w.heap r).label :=
    fun r => ((update_micros cfg w h.inv.nodup (some dets) period ct).objInv
      (Q := fun _ _ => True) (H := fun h' => ∀ r, (h' r).label = (w.heap r).label)
      ⟨fun h h' ha hH r => by rw [ha.label]; exact hH r, fun h c r _ _ hH q => by
          obtain ⟨a, ha⟩ := transformDet_fields c h r q
          rw [ha]; exact hH q,
        by intros; trivial, by intros; trivial, by intros; trivial, by intros; trivial,
        by intros; trivial, by intros; trivial, by intros; trivial, by intros; trivial⟩
      (fun _ => rfl) (by intros; trivial)).1 r
  have hI : ObjInv cfg dets period ct (fun _ => True)
      (fun h o => o.lastDet ∈ dets → Compat cfg (h o.lastDet).label o.label) := by
    refine ⟨fun _ _ _ _ => trivial, fun _ _ _ _ _ _ => trivial, ?_, ?_, ?_, ?_, ?_, ?_, ?_, ?_⟩
    · intro h h' o ha hq hm
      rw [ha.label]; exact hq hm
    · intro h c r o _ _ hq hm
      obtain ⟨a, ha⟩ := transformDet_fields c h r o.lastDet
      rw [ha]; exact hq hm
    · intro h o _ hq
      obtain ⟨g, e⟩ := updateCT_fields ct (o.trackerStep cfg)
      rw [e]; exact hq
    · exact fun _ _ _ _ h => h
    · intro h g c o r d _ _ hl _ hq _ hm
      show Compat cfg ((hitObj cfg h g c o r period).heap (hitObj cfg h g c o r period).obj.lastDet).label
        (hitObj cfg h g c o r period).obj.label
      rw [(hitObj_heap cfg h g c o r period).label, (hitObj_basic cfg h g c o r period).2.1]
      replace hm : (hitObj cfg h g c o r period).obj.lastDet ∈ dets := hm
      rcases hitObj_lastDet cfg h g c o r period with e | e <;> rw [e] at hm ⊢
      · exact hl
      · exact hq hm
    · intro h g c o r _ _ hl hq _ hm
      rw [(hitObj_heap cfg h g c o r period).label, (hitObj_basic cfg h g c o r period).2.1]
      rcases hitObj_lastDet cfg h g c o r period with e | e <;> rw [e] at hm ⊢
      · exact hl
      · exact hq hm
    · intro h o c _ hl _ hc hm
      have hh : AgesOnly h (mergeObj cfg h o c).1 := agesOnly_condAddAll _ _ _
      rw [hh.label]
      exact Compat.trans_label (hc hm) hl
    · intro w r _ _ _
      obtain ⟨_, _, _, _, e1, e2, _⟩ := newObj_none_fields cfg w r period ct
      rw [e1, e2, (agesOnly_setAge w.heap r 0).label]
      exact Compat.refl' _ _
  have := ((update_micros cfg w h.inv.nodup (some dets) period ct).objInv hI trivial
    (fun o ho hm => absurd hm (hfresh o ho))).2 o ho hr
  unfold Compat at this
  simp only [hs] at this
  rw [hheap] at this
  exact this

/-! ### C18: number of past detections -/

theorem pastLength_inv (cfg : Cfg K L D F X) (dets : List Ref) (period : Int)
    (ct : Option (CoordTrans K)) :
    ObjInv cfg dets period ct (fun _ => True) (fun _ o => o.past.length ≤ cfg.pastLen) where
  heapAges := fun _ _ _ _ => trivial
  heapTransform := fun _ _ _ _ _ _ => trivial
  ages := fun _ _ _ _ h => h
  transform := fun _ _ _ _ _ _ h => h
  step := by
    intro h o _ hq
    rw [stepped_past']; exact hq
  setMin := fun _ _ _ _ h => h
  hit := by
    intro h g c o r d _ _ _ _ hq _
    show (hitObj cfg h g c o r period).obj.past.length ≤ cfg.pastLen
    rcases hitObj_past_eq cfg h g c o r period with ⟨_, e, _⟩ | e
    · rw [e]; exact hq
    · exact condAdd_length e hq
  hitErr := by
    intro h g c o r _ _ _ hq _
    rcases hitObj_past_eq cfg h g c o r period with ⟨_, e, _⟩ | e
    · rw [e]; exact hq
    · exact condAdd_length e hq
  merge := fun h o c _ _ hq _ => condAddAll_length _ _ _ hq
  create := by
    intro w r _ _
    obtain ⟨_, _, _, _, _, _, _, e3, _⟩ := newObj_none_fields cfg w r period ct
    rw [e3]
    split <;> simp
    omega

/-- C18: `past_detections` never holds more than `past_detections_length` detections. -/
theorem C18_past_length {cfg : Cfg K L D F X} {w : World K L D F X} (h : Reachable cfg w)
    {o : Obj K L D F} (ho : o ∈ w.objs) : o.past.length ≤ cfg.pastLen := by
  obtain ⟨w0, h0, h⟩ := h
  refine Reaches.objInv h (Inv.initial h0) (fun dets period ct w _ =>
    ⟨_, trivial, pastLength_inv cfg (dets.getD []) period ct⟩) ?_ ?_ o ho
  · exact fun _ _ _ _ _ h => h
  · rw [h0.1]; simp

/-- C18: when detections are not reused, the past detections of an object are different detections, their
ages are in order, and none exceeds the age of the object; two objects never share one. -/
theorem C18_past_ordered {cfg : Cfg K L D F X} {Mine : Ref → Prop} {w0 w : World K L D F X}
    (h0 : w0.Initial) (h : FreshReaches cfg Mine w0 w) {o : Obj K L D F} (ho : o ∈ w.objs) :
    o.past.Nodup ∧
    (∃ ages : List Int, o.past.map (fun q => (w.heap q).age) = ages.map some ∧
      ages.Pairwise (· ≤ ·) ∧ ∀ a ∈ ages, 0 ≤ a ∧ a ≤ o.age) ∧
    ∀ p ∈ w.objs, p.initId ≠ o.initId → ∀ q ∈ o.past, q ∉ p.past := by
  have P := (freshReaches_past h0 h).1
  have G := P.good o ho
  refine ⟨G.nodup, ⟨o.past.map (fun q => ((w.heap q).age).getD 0), ?_, ?_, ?_⟩, ?_⟩
  · rw [List.map_map]
    apply List.map_congr_left
    intro q hq
    obtain ⟨a, ha, _⟩ := G.bounds q hq
    simp [ha]
  · rw [List.pairwise_map]
    refine G.sorted.imp_of_mem ?_
    intro p q hp hq hpq
    obtain ⟨a, ha, _⟩ := G.bounds p hp
    obtain ⟨b, hb, _⟩ := G.bounds q hq
    simpa [ha, hb] using hpq a b ha hb
  · intro a ha
    obtain ⟨q, hq, rfl⟩ := List.mem_map.mp ha
    obtain ⟨a, ha, h1, h2⟩ := G.bounds q hq
    simpa [ha] using ⟨h1, h2⟩
  · intro p hp hne q hq
    exact P.disj o ho p hp (fun e => hne e.symm) q hq

/-- C18: a past detection is only forgotten when the object is at least `past_detections_length` times
as old as the detection was, whatever was matched or merged in the call, and even if it raised. -/
theorem C18_forgets_only_old {cfg : Cfg K L D F X} {Mine : Ref → Prop} {w0 w : World K L D F X}
    (h0 : w0.Initial) (h : FreshReaches cfg Mine w0 w) (dets : Option (List Ref)) (period : Int)
    (ct : Option (CoordTrans K)) (hd : (dets.getD []).Nodup)
    (hf : ∀ r ∈ dets.getD [], ∀ o ∈ w.objs, r ∉ o.past)
    {o o' : Obj K L D F} (ho : o ∈ w.objs) (ho' : o' ∈ (update cfg w dets period ct).1.objs)
    (hid : o'.initId = o.initId) {p : Ref} (hp : p ∈ o.past) (hp' : p ∉ o'.past) :
    ∃ a, (w.heap p).age = some a ∧ a * cfg.pastLen ≤ o.age + 1 := by
  have P := (freshReaches_past h0 h).1
  obtain ⟨a, ha, _⟩ := (P.good o ho).bounds p hp
  have hI := (h.inv (Inv.initial h0)).1
  exact ⟨a, ha, (update_past cfg w hI dets hd period ct ⟨P.good, P.age, P.disj,
      fun o ho q hq hm => hf q hm o ho hq, by simp⟩).2 o ho o' ho' hid p hp a ha hp'⟩

end

/-! ### Examples -/

-- C12: a run with matches, misses and ReID
example : ∃ w : TWorld, w0.Initial ∧
    Reaches rcfg (fun _ _ => True) (fun _ period _ _ => period ≤ 1) w0 w ∧
    w.objs.map (·.hitCounter) = [2] ∧ w.objs.map (·.id) = [some 1] :=
  ⟨run rcfg w0 [[0], [1], [], [], [], [50], [51]], w0_initial,
    run_reaches_of _ (fun _ _ => le_rfl) _ _ _ (.refl _), by decide +kernel, by decide +kernel⟩

example : 0 ≤ rcfg.initDelay ∧ rcfg.initDelay < rcfg.hitCounterMax ∧
    Reaches rcfg (fun _ _ => True) (fun _ period _ _ => period = 1) w0
      (run rcfg w0 [[0], [1], [2], [3], [4]]) ∧
    (run rcfg w0 [[0], [1], [2], [3], [4]]).objs.map (·.hitCounter) = [4] :=
  ⟨by decide, by decide, run_reaches_of _ (fun _ _ => rfl) _ _ _ (.refl _), by decide +kernel⟩

example : cfg.reidMax = none ∧ -1 ≤ cfg.hitCounterMax ∧
    Reaches cfg (fun _ _ => True) (fun _ period _ _ => 0 ≤ period) w0 (run cfg w0 [[0], [], []]) ∧
    (run cfg w0 [[0], [], []]).objs.map (·.hitCounter) = [-1] :=
  ⟨rfl, by decide, run_reaches_of _ (fun _ _ => by decide) _ _ _ (.refl _), by decide +kernel⟩

-- C17
example : Reachable rcfg (run rcfg w0 [[0], [3], [10]]) ∧
    (run rcfg w0 [[0], [3], [10]]).objs.map (fun o => (o.lastDistance, o.curMin)) =
      [(some 7, some 7)] :=
  ⟨run_reachable _ _, by decide +kernel⟩

-- C16: two labels close to each other stay apart
example : cfg.dist = .scalar dist ∧ Reaches cfg LabelsKept (fun _ _ _ _ => True) w0
      (run cfg w0 [[998, 1000], [999, 1001]]) ∧
    (run cfg w0 [[998, 1000], [999, 1001]]).objs.map (fun o => (o.label, o.lastDet, o.past)) =
      [(0, 999, [998, 999]), (1, 1001, [1000, 1001])] :=
  ⟨rfl, run_reaches_of _ (fun _ _ => trivial) _ _ _ (.refl _), by decide +kernel⟩

example : cfg.dist = .scalar dist ∧ Reachable cfg (run cfg w0 [[998, 1000]]) ∧
    (∀ o ∈ (run cfg w0 [[998, 1000]]).objs, o.lastDet ∉ [999, 1001]) ∧
    (update cfg (run cfg w0 [[998, 1000]]) (some [999, 1001]) 1 none).1.objs.map (·.lastDet) = [999, 1001] :=
  ⟨rfl, run_reachable _ _, by decide +kernel, by decide +kernel⟩

/-- labels as a Python program has them: a number or a string -/
inductive PyLabel
  | num (n : Nat)
  | str (s : String)
deriving DecidableEq

/-- Python `str()` of a label, for the numbers 0 and 1 -/
def PyLabel.toStr : PyLabel → String
  | .num 0 => "0"
  | .num _ => "1"
  | .str s => s

/-- the vectorized distance of the examples: absolute difference -/
def vdist (as bs : List (List Int)) : Option (Mat (Option (WithTop Nat))) :=
  some ⟨as.length, bs.length, fun i j =>
    match as[i]?, bs[j]? with
    | some (a :: _), some (b :: _) => some ((a - b).natAbs : Nat)
    | _, _ => some ⊤⟩

/-- a tracker with a vectorized distance -/
def vcfg {L : Type} (str : L → String) : Cfg Int L (WithTop Nat) (NoFilter Int) Unit where
  dist := .vectorized str vdist
  thr := 10
  fill := 11
  hitCounterMax := 4
  initDelay := 1
  pwMax := 4
  detThr := 0
  flt := noFilterOps
  pastLen := 2
  reid := none
  reidThr := 0
  reidFill := 1
  reidMax := none

/-- detections with the label `1` (even ones) and `"1"` (odd ones) -/
def pyHeap : Ref → Det Int PyLabel Unit :=
  fun r => ⟨⟨1, 1, [r]⟩, none, if r % 2 = 0 then .num 1 else .str "1", (), ⟨1, 1, [r]⟩, none⟩

/-- C16: a vectorized distance mixes the labels `1` and `"1"`. -/
theorem C16_vectorized_str_conflates : ∃ w : World Int PyLabel (WithTop Nat) (NoFilter Int) Unit,
    Reachable (vcfg PyLabel.toStr) w ∧ ∃ o ∈ w.objs, (w.heap o.lastDet).label ≠ o.label :=
  ⟨(update (vcfg PyLabel.toStr) (update (vcfg PyLabel.toStr) ⟨pyHeap, 0, 0, 0, []⟩ (some [0]) 1 none).1
      (some [1]) 1 none).1,
    ⟨_, ⟨rfl, rfl, rfl⟩, .call _ _ _ (.call _ _ _ (.refl _) trivial) trivial⟩, by decide +kernel⟩

/-- strings for the labels of the example: injective -/
def strOf : Bool → String
  | true => "car"
  | false => "person"

example : (vcfg strOf).dist = .vectorized strOf vdist ∧ Function.Injective strOf ∧
    ∃ w : World Int Bool (WithTop Nat) (NoFilter Int) Unit,
      Reaches (vcfg strOf) LabelsKept (fun _ _ _ _ => True)
        ⟨fun r => ⟨⟨1, 1, [r]⟩, none, r % 2 = 0, (), ⟨1, 1, [r]⟩, none⟩, 0, 0, 0, []⟩ w ∧
      w.objs.map (fun o => (o.label, o.lastDet)) = [(true, 2), (false, 3)] :=
  ⟨rfl, by decide,
    (update (vcfg strOf) (update (vcfg strOf) _ (some [0, 1]) 1 none).1 (some [2, 3]) 1 none).1,
    .call _ _ _ (.call _ _ _ (.refl _) trivial) trivial, by decide +kernel⟩

-- C18
example : Reachable cfg (run cfg w0 [[0], [1], [2], [3], [4]]) ∧
    (run cfg w0 [[0], [1], [2], [3], [4]]).objs.map (·.past) = [[3, 4]] :=
  ⟨run_reachable _ _, by decide +kernel⟩

theorem run_fresh (c : TCfg) : ∀ (ls : List (List Ref)) (w w1 : TWorld),
    FreshReaches c (fun _ => True) w1 w →
    (∀ n ≤ ls.length, ∀ l, ls[n]? = some l →
      l.Nodup ∧ ∀ r ∈ l, ∀ o ∈ (run c w (ls.take n)).objs, r ∉ o.past) →
    FreshReaches c (fun _ => True) w1 (run c w ls) := by
  intro ls
  induction ls with
  | nil => exact fun _ _ h _ => h
  | cons l ls ih =>
    intro w w1 h hd
    refine ih _ w1 (Reaches.call _ _ _ h ?_) ?_
    · have := hd 0 (by simp) l (by simp)
      exact ⟨this.1, fun r hr => ⟨trivial, this.2 r hr⟩⟩
    · intro n hn l' hl'
      exact hd (n + 1) (by simpa using hn) l' (by simpa using hl')

example : FreshReaches cfg (fun _ => True) w0 (run cfg w0 [[0, 50], [1, 51], [2]]) ∧
    (run cfg w0 [[0, 50], [1, 51], [2]]).objs.map
      (fun o => (o.age, o.past, o.past.map (fun q => ((run cfg w0 [[0, 50], [1, 51], [2]]).heap q).age))) =
      [(2, [1, 2], [some 1, some 2]), (2, [50, 51], [some 0, some 1])] ∧
    ([3, 52] : List Ref).Nodup ∧
    (∀ r ∈ ([3, 52] : List Ref), ∀ o ∈ (run cfg w0 [[0, 50], [1, 51], [2]]).objs, r ∉ o.past) ∧
    (update cfg (run cfg w0 [[0, 50], [1, 51], [2]]) (some [3, 52]) 1 none).1.objs.map (·.past) =
      [[2, 3], [51, 52]] :=
  ⟨run_fresh _ _ _ _ (.refl _) (by decide +kernel), by decide +kernel, by decide, by decide +kernel,
    by decide +kernel⟩

end Norfair.Props
