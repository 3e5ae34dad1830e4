import Verif.Lemmas.PointsUpdate
import Verif.Lemmas.FilterLaws
import Verif.Props.Toy
import Verif.Lemmas.Trace
import Verif.Spec.Frames

/-!
Property theorems C19, C29, C30: counters, positions and velocities of the single points of an object.
-/

set_option linter.unusedSectionVars false

namespace Norfair.Props

open Norfair Norfair.Spec Norfair.Toy

variable {K L D F X : Type}

section
variable [LinearOrder K] [Zero K] [LinearOrder D] [OrderTop D] [Zero D] [DecidableEq L]

/-! ### C19: number of entries -/

theorem hits_len_inv (cfg : Cfg K L D F X) (shape : L → Nat × Nat) (dets : List Ref) (period : Int)
    (ct : Option (CoordTrans K)) :
    ObjInv cfg dets period ct (CallOk shape dets ct)
      (fun _ o => o.numPoints = (shape o.label).1 ∧ o.pointHits.length = o.numPoints) where
  heapAges := fun _ _ ha hc => callOk_ages ha hc
  heapTransform := fun _ _ r hct _ hc => callOk_transform hct r hc
  ages := fun _ _ _ _ h => h
  transform := fun _ _ _ _ _ _ h => h
  step := by
    intro h o _ hq
    obtain ⟨g, e⟩ := updateCT_fields ct (o.trackerStep cfg)
    rw [e]
    exact ⟨hq.1, by simpa [Obj.trackerStep] using hq.2⟩
  setMin := fun _ _ _ _ h => h
  hit := by
    intro h g c o r d _ _ _ _ hq _
    obtain ⟨_, _, _, _, _, _, _, _, _, e⟩ := hitObj_shape cfg h g c o r period
    refine ⟨by rw [e]; exact hq.1, ?_⟩
    show (hitObj cfg h g c o r period).obj.pointHits.length = (hitObj cfg h g c o r period).obj.numPoints
    rw [show (hitObj cfg h g c o r period).obj.numPoints = o.numPoints by rw [e]]
    rcases hitObj_hits cfg h g c o r period with e | ⟨cs, h1, e⟩
    · rw [e]; exact hq.2
    · rw [e, clampPoints_length, h1]; exact hq.2
  hitErr := by
    intro h g c o r _ _ _ hq _
    obtain ⟨_, _, _, _, _, _, _, _, _, e⟩ := hitObj_shape cfg h g c o r period
    refine ⟨by rw [e]; exact hq.1, ?_⟩
    rw [show (hitObj cfg h g c o r period).obj.numPoints = o.numPoints by rw [e]]
    rcases hitObj_hits cfg h g c o r period with e | ⟨cs, h1, e⟩
    · rw [e]; exact hq.2
    · rw [e, clampPoints_length, h1]; exact hq.2
  merge := by
    intro h o c _ hl hq hc
    refine ⟨hq.1, ?_⟩
    show c.pointHits.length = o.numPoints
    rw [hc.2, hc.1, hq.1, hl]
  create := by
    intro w r hH hr
    obtain ⟨g, hg⟩ := newObj_fields cfg w r period ct
    rw [hg]
    obtain ⟨d1, d2, d3, d4⟩ := hH.2 r hr
    refine ⟨d1, ?_⟩
    simp only [newObj, Obj.updateCT, List.length_map]
    split
    · simp
    · rename_i s hs; simpa using d4 s hs

/-- **C19** `live_points` always has one entry per point, in every history whose detections are
well-formed (one score per point, equal shapes for equal labels), including failed calls and ReID. -/
theorem C19_one_entry_per_point {cfg : Cfg K L D F X} {shape : L → Nat × Nat}
    {w0 w : World K L D F X} (h0 : w0.Initial)
    (h : Reaches cfg (fun _ _ => True) (fun dets _ ct w => CallOk shape (dets.getD []) ct w.heap) w0 w) :
    ∀ o ∈ w.objs, o.livePoints.length = o.numPoints := by
  intro o ho
  have := (Reaches.objInv h (Inv.initial h0) (fun dets period ct _ hc =>
    ⟨_, hc, hits_len_inv cfg shape (dets.getD []) period ct⟩) (fun _ _ _ _ _ h => h)
      (by rw [h0.1]; simp) o ho).2
  simpa [Obj.livePoints] using this

/-! ### C19: range of the counters -/

theorem hits_upper_inv (cfg : Cfg K L D F X) (B : Int) (hB : 1 ≤ B) (hpw : cfg.pwMax ≤ B)
    (dets : List Ref) (period : Int) (hp : period ≤ B) (ct : Option (CoordTrans K)) :
    ObjInv cfg dets period ct (fun _ => True)
      (fun _ o => o.pwMax ≤ B ∧ ∀ c ∈ o.pointHits, c ≤ B) where
  heapAges := fun _ _ _ _ => trivial
  heapTransform := fun _ _ _ _ _ _ => trivial
  ages := fun _ _ _ _ h => h
  transform := fun _ _ _ _ _ _ h => h
  step := by
    intro h o _ hq
    obtain ⟨g, e⟩ := updateCT_fields ct (o.trackerStep cfg)
    rw [e]
    refine ⟨hq.1, ?_⟩
    intro c hc
    simp only [Obj.trackerStep, List.mem_map] at hc
    obtain ⟨b, hb, rfl⟩ := hc
    have := hq.2 b hb
    omega
  setMin := fun _ _ _ _ h => h
  hit := by
    intro h g c o r d _ _ _ _ hq _
    obtain ⟨_, _, _, _, _, _, _, _, _, e⟩ := hitObj_shape cfg h g c o r period
    refine ⟨by rw [e]; exact hq.1, ?_⟩
    show ∀ x ∈ (hitObj cfg h g c o r period).obj.pointHits, x ≤ B
    rcases hitObj_hits cfg h g c o r period with e | ⟨cs, h1, e⟩
    · rw [e]; exact hq.2
    · rw [e]
      intro x hx
      obtain ⟨i, hi⟩ := List.getElem?_of_mem hx
      rw [clampPoints_get] at hi
      obtain ⟨y, _, rfl⟩ := Option.map_eq_some_iff.mp hi
      have := hq.1; omega
  hitErr := by
    intro h g c o r _ _ _ hq _
    obtain ⟨_, _, _, _, _, _, _, _, _, e⟩ := hitObj_shape cfg h g c o r period
    refine ⟨by rw [e]; exact hq.1, ?_⟩
    rcases hitObj_hits cfg h g c o r period with e | ⟨cs, h1, e⟩
    · rw [e]; exact hq.2
    · rw [e]
      intro x hx
      obtain ⟨i, hi⟩ := List.getElem?_of_mem hx
      rw [clampPoints_get] at hi
      obtain ⟨y, _, rfl⟩ := Option.map_eq_some_iff.mp hi
      have := hq.1; omega
  merge := fun h o c _ _ hq hc => ⟨hq.1, hc.2⟩
  create := by
    intro w r _ _
    obtain ⟨g, hg⟩ := newObj_fields cfg w r period ct
    rw [hg]
    refine ⟨max_le hpw hp, ?_⟩
    intro c hc
    simp only [newObj, Obj.updateCT, List.mem_map] at hc
    obtain ⟨b, _, rfl⟩ := hc
    cases b <;> simp <;> omega

/-- **C19** (upper bound) no point counter ever exceeds the larger of `pointwise_hit_counter_max` and
the largest period used so far, in every history. -/
theorem C19_upper {cfg : Cfg K L D F X} {w0 w : World K L D F X} (h0 : w0.Initial) (pmax : Int)
    (hp : 1 ≤ pmax)
    (h : Reaches cfg (fun _ _ => True) (fun _ period _ _ => period ≤ pmax) w0 w) :
    ∀ o ∈ w.objs, ∀ c ∈ o.pointHits, c ≤ max cfg.pwMax pmax := by
  intro o ho
  refine (Reaches.objInv h (Inv.initial h0) (fun dets period ct w hper =>
    ⟨_, trivial, hits_upper_inv cfg (max cfg.pwMax pmax) (hp.trans (le_max_right _ _))
      (le_max_left _ _) (dets.getD []) period (hper.trans (le_max_right _ _)) ct⟩)
    (fun _ _ _ _ _ h => h) (by rw [h0.1]; simp) o ho).2

theorem hits_own_inv (cfg : Cfg K L D F X) (hre : cfg.reid = none)
    (dets : List Ref) (period : Int) (hp : 1 ≤ period) (ct : Option (CoordTrans K)) :
    ObjInv cfg dets period ct (fun _ => True)
      (fun _ o => o.pwMax = max cfg.pwMax o.initialPeriod ∧ 1 ≤ o.pwMax ∧
        ∀ c ∈ o.pointHits, c ≤ o.pwMax) where
  heapAges := fun _ _ _ _ => trivial
  heapTransform := fun _ _ _ _ _ _ => trivial
  ages := fun _ _ _ _ h => h
  transform := fun _ _ _ _ _ _ h => h
  step := by
    intro h o _ hq
    obtain ⟨g, e⟩ := updateCT_fields ct (o.trackerStep cfg)
    rw [e]
    refine ⟨hq.1, hq.2.1, ?_⟩
    intro c hc
    simp only [Obj.trackerStep, List.mem_map] at hc
    obtain ⟨b, hb, rfl⟩ := hc
    have := hq.2.2 b hb
    show b - 1 ≤ o.pwMax
    omega
  setMin := fun _ _ _ _ h => h
  hit := by
    intro h g c o r d _ _ _ _ hq _
    obtain ⟨_, _, _, _, _, _, _, _, _, e⟩ := hitObj_shape cfg h g c o r period
    refine ⟨by rw [e]; exact hq.1, by rw [e]; exact hq.2.1, ?_⟩
    show ∀ x ∈ (hitObj cfg h g c o r period).obj.pointHits, x ≤ (hitObj cfg h g c o r period).obj.pwMax
    rw [show (hitObj cfg h g c o r period).obj.pwMax = o.pwMax by rw [e]]
    rcases hitObj_hits cfg h g c o r period with e | ⟨cs, h1, e⟩
    · rw [e]; exact hq.2.2
    · rw [e]
      intro x hx
      obtain ⟨i, hi⟩ := List.getElem?_of_mem hx
      rw [clampPoints_get] at hi
      obtain ⟨y, _, rfl⟩ := Option.map_eq_some_iff.mp hi
      have := hq.2.1; omega
  hitErr := by
    intro h g c o r _ _ _ hq _
    obtain ⟨_, _, _, _, _, _, _, _, _, e⟩ := hitObj_shape cfg h g c o r period
    refine ⟨by rw [e]; exact hq.1, by rw [e]; exact hq.2.1, ?_⟩
    rw [show (hitObj cfg h g c o r period).obj.pwMax = o.pwMax by rw [e]]
    rcases hitObj_hits cfg h g c o r period with e | ⟨cs, h1, e⟩
    · rw [e]; exact hq.2.2
    · rw [e]
      intro x hx
      obtain ⟨i, hi⟩ := List.getElem?_of_mem hx
      rw [clampPoints_get] at hi
      obtain ⟨y, _, rfl⟩ := Option.map_eq_some_iff.mp hi
      have := hq.2.1; omega
  merge := fun h o c hr => absurd hre hr
  create := by
    intro w r _ _
    obtain ⟨g, hg⟩ := newObj_fields cfg w r period ct
    rw [hg]
    have h1 : 1 ≤ max cfg.pwMax period := hp.trans (le_max_right _ _)
    refine ⟨rfl, h1, ?_⟩
    intro c hc
    show c ≤ max cfg.pwMax period
    simp only [newObj, Obj.updateCT, List.mem_map] at hc
    obtain ⟨b, _, rfl⟩ := hc
    cases b <;> simp <;> omega

/-- **C19** (upper bound, without ReID) a point counter never exceeds the larger of
`pointwise_hit_counter_max` and the period with which the object was created. -/
theorem C19_upper_own {cfg : Cfg K L D F X} (hre : cfg.reid = none) {w0 w : World K L D F X}
    (h0 : w0.Initial)
    (h : Reaches cfg (fun _ _ => True) (fun _ period _ _ => 1 ≤ period) w0 w) :
    ∀ o ∈ w.objs, ∀ c ∈ o.pointHits, c ≤ max cfg.pwMax o.initialPeriod := by
  intro o ho
  have := Reaches.objInv h (Inv.initial h0) (fun dets period ct w hper =>
    ⟨_, trivial, hits_own_inv cfg hre (dets.getD []) period hper ct⟩)
    (fun _ _ _ _ _ h => h) (by rw [h0.1]; simp) o ho
  rw [← this.1]; exact this.2.2

theorem HitFate.hits_nonneg {cfg : Cfg K L D F X} {period ct heap r} {o o' : Obj K L D F}
    (h : HitFate cfg period ct heap r o o') : ∀ c ∈ o'.pointHits, 0 ≤ c := by
  obtain ⟨v, h0, g, c, d, _, he, hd, _, rfl⟩ := h
  show ∀ x ∈ (hitObj cfg h0 g c { stepped cfg ct o with curMin := v } r period).obj.pointHits, 0 ≤ x
  cases hc : condAdd cfg.pastLen ({ stepped cfg ct o with curMin := v } : Obj K L D F).age h0
      ({ stepped cfg ct o with curMin := v } : Obj K L D F).past r with
  | none => rw [hitObj_none hc] at he; cases he
  | some p =>
    rw [hitObj_some (heap' := p.1) (past' := p.2) hc] at he ⊢
    simp only at he ⊢
    unfold hitSensors at he ⊢
    simp only at he ⊢
    split at he
    · cases he
    rename_i h1
    rw [if_neg h1]
    split at he
    · cases he
    rename_i h2
    rw [if_neg h2]
    split at he
    · cases he
    rename_i h3
    rw [if_neg h3]
    intro x hx
    obtain ⟨i, hi⟩ := List.getElem?_of_mem hx
    simp only [firstDetectionFix, clampPoints_get] at hi
    obtain ⟨y, _, rfl⟩ := Option.map_eq_some_iff.mp hi
    exact le_max_left _ _

/-- **C19** (lower bound) after a successful call all point counters of an object that got a detection
of this call (by matching, by creation or by ReID) are non-negative; so they are in
`[0, max(pointwise_hit_counter_max, period)]` together with `C19_upper`. -/
theorem C19_matched_nonneg {cfg : Cfg K L D F X} {w w' : World K L D F X} (hw : Reachable cfg w)
    {dets : Option (List Ref)} {period : Int} {ct : Option (CoordTrans K)} {act : List (Obj K L D F)}
    (h : update cfg w dets period ct = (w', .ok act))
    (hfresh : ∀ o ∈ w.objs, o.lastDet ∉ dets.getD []) :
    ∀ o ∈ w'.objs, o.lastDet ∈ dets.getD [] → ∀ c ∈ o.pointHits, 0 ≤ c := by
  obtain ⟨w0, h0, hr⟩ := hw
  have hI := (hr.inv (Inv.initial h0)).1
  obtain ⟨_, _, hits, merges, news, S⟩ := update_ok hI.nodup h
  have hI' : Inv w' := by
    have := (update_inv (cfg := cfg) hI dets period ct).1
    rw [h] at this; exact this
  intro o' ho' hlast
  rcases S.mem_cases hI'.nodup ho' with ⟨p, hp, hpk, hpm, hcase⟩ | ⟨r, hr, hlt, wi, e, _⟩
  · rcases hcase with ⟨_, _, v, rfl⟩ | ⟨r, hr, hf⟩ | ⟨r, oc, oc', hoc, hm, hr, hf, v, hmf⟩
    · exact absurd hlast (by simpa using hfresh p ((survivors_sublist cfg w.objs).subset hp))
    · exact HitFate.hits_nonneg hf
    · have := HitFate.hits_nonneg hf
      obtain ⟨hh, _, _, _, _, rfl⟩ := hmf
      exact this
  · rw [e]
    obtain ⟨g, hg⟩ := newObj_fields cfg wi r period ct
    rw [hg]
    intro c hc
    simp only [newObj, Obj.updateCT, List.mem_map] at hc
    obtain ⟨b, _, rfl⟩ := hc
    cases b <;> simp

/-! ### C19: exact value of a counter -/

/-- **C19** (exact value, one call) Let `o'` be the state after a successful call of the object that
was `o` before it, not merged by ReID. If the object got a detection of this call, the counter of point
`i` goes from `c` to `c - 1 + 2 * period` if the point is over the threshold and to `c - 1` otherwise,
limited to `[0, pwMax]`; without a detection it goes to `c - 1`. -/
theorem C19_counter_exact {cfg : Cfg K L D F X} {w w' : World K L D F X} (hw : Reachable cfg w)
    {dets : Option (List Ref)} {period : Int} {ct : Option (CoordTrans K)} {act : List (Obj K L D F)}
    (h : update cfg w dets period ct = (w', .ok act)) {o o' : Obj K L D F} (ho : o ∈ w.objs)
    (ho' : o' ∈ w'.objs) (hk : o.initId = o'.initId)
    (hre : cfg.reid = none ∨ (o.isInit = true ∧ 0 ≤ o.hitCounter))
    (hl : o.pointHits.length = o.numPoints) (hfresh : o.lastDet ∉ dets.getD [])
    {i : Nat} {c : Int} (hc : o.pointHits[i]? = some c) :
    (o'.lastDet ∉ dets.getD [] → o'.pointHits[i]? = some (c - 1)) ∧
    (o'.lastDet ∈ dets.getD [] → Seen cfg.detThr (w.heap o'.lastDet) i →
      o'.pointHits[i]? = some (max 0 (min (c - 1 + 2 * period) o.pwMax))) ∧
    (o'.lastDet ∈ dets.getD [] → ¬ Seen cfg.detThr (w.heap o'.lastDet) i →
      o'.pointHits[i]? = some (max 0 (min (c - 1) o.pwMax))) := by
  obtain ⟨w0, h0, hr⟩ := hw
  have hI := (hr.inv (Inv.initial h0)).1
  rcases update_points hI h ho ho' hk hre hl with ⟨v, rfl⟩ |
    ⟨r, hr, rfl, d, hs, _, _, _, p, o'', hP, hS, e1, _⟩
  · have hsp := stepped_points cfg ct o
    have hld : (stepped cfg ct o).lastDet = o.lastDet := by simp
    refine ⟨fun _ => ?_, fun hx => absurd hx ?_, fun hx => absurd hx ?_⟩
    · show (stepped cfg ct o).pointHits[i]? = _
      rw [hsp.pointHits, List.getElem?_map, hc]; rfl
    · show (stepped cfg ct o).lastDet ∉ _
      rw [hld]; exact hfresh
    · show (stepped cfg ct o).lastDet ∉ _
      rw [hld]; exact hfresh
  · obtain ⟨b, hb, hv⟩ := hS.hits i (c - 1) (by rw [hP.pointHits, List.getElem?_map, hc]; rfl)
    rw [seen_congr hs] at hb
    rw [← e1, hP.pwMax] at hv
    refine ⟨fun hx => absurd hr hx, fun _ hx => ?_, fun _ hx => ?_⟩
    · rw [hv, if_pos (hb.mpr hx)]
    · rw [hv, if_neg (fun e => hx (hb.mp e))]

/-- **C19**, the part of "a point over the detection threshold is live right after a match" that is
true: it holds if the counter had not dropped below `2 - 2 * period` before the call, in particular
(period at least 1) if the point was live or had a counter of 0. For counters below that, see
`C19_seen_but_not_live`. -/
theorem C19_live_after_match_partial {cfg : Cfg K L D F X} {w w' : World K L D F X}
    (hw : Reachable cfg w) {dets : Option (List Ref)} {period : Int} {ct : Option (CoordTrans K)}
    {act : List (Obj K L D F)} (h : update cfg w dets period ct = (w', .ok act)) {o o' : Obj K L D F}
    (ho : o ∈ w.objs) (ho' : o' ∈ w'.objs) (hk : o.initId = o'.initId)
    (hre : cfg.reid = none ∨ (o.isInit = true ∧ 0 ≤ o.hitCounter))
    (hl : o.pointHits.length = o.numPoints) (hfresh : o.lastDet ∉ dets.getD [])
    (hpw : 1 ≤ o.pwMax) {i : Nat} {c : Int} (hc : o.pointHits[i]? = some c)
    (hm : o'.lastDet ∈ dets.getD []) (hseen : Seen cfg.detThr (w.heap o'.lastDet) i) :
    o'.livePoints[i]? = some true ↔ 2 - 2 * period ≤ c := by
  have := (C19_counter_exact hw h ho ho' hk hre hl hfresh hc).2.1 hm hseen
  simp only [Obj.livePoints, List.getElem?_map, this, Option.map_some, Option.some.injEq,
    decide_eq_true_eq]
  omega

/-- an object that is there after a call and was created before it was there before the call -/
theorem obj_before {cfg : Cfg K L D F X} {w w' : World K L D F X} (hI : Inv w)
    {dets : Option (List Ref)} {period : Int} {ct : Option (CoordTrans K)}
    (h : (update cfg w dets period ct).1 = w') {o' : Obj K L D F} (ho' : o' ∈ w'.objs)
    (hk : o'.initId ≤ w.initCount) : ∃ o ∈ w.objs, o.initId = o'.initId ∧ o'.pwMax = o.pwMax ∧
      o'.numPoints = o.numPoints ∧ o'.dimPoints = o.dimPoints := by
  subst h
  rcases (update_inv (cfg := cfg) hI dets period ct).2.origin o' ho' with h1 |
    ⟨o, ho, e, _, e2, e3, _, e4, _⟩
  · omega
  · exact ⟨o, ho, e, e4, e2, e3⟩

/-- in the call `f`, point `i` of object `k` got no detection in which it is over the threshold -/
def PointUnseen (cfg : Cfg K L D F X) (k i : Nat) (f : Frame K L D F X) : Prop :=
  (∀ o ∈ f.before.objs, o.initId = k → o.lastDet ∉ given f) ∧
  ∀ o ∈ f.after.objs, o.initId = k → o.lastDet ∈ given f →
    ¬ Seen cfg.detThr (f.before.heap o.lastDet) i

/-- **C19** (expiry) Without ReID: let `c` be the counter of point `i` of the object `o`. If the point is
not seen in any of the following calls, it is live after these calls if and only if there were fewer
than `c` of them. Since `c` is at most `max(pointwise_hit_counter_max, period)` (`C19_upper_own`), the
point is live for at most `max(pointwise_hit_counter_max, period) - 1` further calls. -/
theorem C19_expiry {cfg : Cfg K L D F X} (hre : cfg.reid = none) {shape : L → Nat × Nat}
    {w0 w w' : World K L D F X} (h0 : w0.Initial)
    (hr : Reaches cfg (fun _ _ => True)
      (fun dets period ct w => 1 ≤ period ∧ CallOk shape (dets.getD []) ct w.heap) w0 w)
    {fs : List (Frame K L D F X)} (h : Trace cfg w fs w')
    {o o' : Obj K L D F} (ho : o ∈ w.objs) (ho' : o' ∈ w'.objs) (hk : o'.initId = o.initId)
    {i : Nat} {c : Int} (hc : o.pointHits[i]? = some c)
    (hfs : ∀ f ∈ fs, Succeeds f ∧ PointUnseen cfg o.initId i f) :
    (o'.livePoints[i]? = some true ↔ (fs.length : Int) < c) ∧
      c ≤ max cfg.pwMax o.initialPeriod := by
  have hreach : Reachable cfg w := by
    refine ⟨w0, h0, ?_⟩
    clear ho hfs hc hk ho' h
    induction hr with
    | refl => exact .refl _
    | call dets period ct _ _ ih => exact .call _ _ _ ih trivial
    | env heap g _ he _ ih => exact .env _ _ ih he trivial
  have hown := Reaches.objInv hr (Inv.initial h0) (fun dets period ct w hper =>
    ⟨_, trivial, hits_own_inv cfg hre (dets.getD []) period hper.1 ct⟩)
    (fun _ _ _ _ _ h => h) (by rw [h0.1]; simp) o ho
  have hlen := (Reaches.objInv hr (Inv.initial h0) (fun dets period ct _ hc =>
    ⟨_, hc.2, hits_len_inv cfg shape (dets.getD []) period ct⟩) (fun _ _ _ _ _ h => h)
      (by rw [h0.1]; simp) o ho).2
  have hcle : c ≤ o.pwMax := hown.2.2 c (List.mem_of_getElem? hc)
  refine ⟨?_, hown.1 ▸ hcle⟩
  suffices hsuff : ∃ c', o'.pointHits[i]? = some c' ∧ max 0 c' = max 0 (c - (fs.length : Int)) ∧
      c' ≤ o'.pwMax ∧ 1 ≤ o'.pwMax ∧ o'.pointHits.length = o'.numPoints by
    obtain ⟨c', e, hiff, _⟩ := hsuff
    simp only [Obj.livePoints, List.getElem?_map, e, Option.map_some, Option.some.injEq,
      decide_eq_true_eq]
    omega
  obtain ⟨_, hw0, hrw⟩ := hreach
  have hI : Inv w := (hrw.inv (Inv.initial hw0)).1
  induction h generalizing o' with
  | nil =>
    have : o' = o := World.eq_of_mem_of_key hI.nodup ho' ho hk
    subst this
    exact ⟨c, hc, by simp, hcle, hown.2.1, hlen⟩
  | env heap g _ he ih => exact ih ho' hk hfs
  | @call fs w2 dets period ct ht ih =>
    have hev := ht.reaches.inv hI
    have hle : o'.initId ≤ w2.initCount := by
      rw [hk]; exact (hI.bounded o ho).2.trans hev.2.initCount
    obtain ⟨o1, ho1, hk1, hpw1, hn1, _⟩ := obj_before hev.1 rfl ho' hle
    obtain ⟨c1, e1, hiff1, hle1, hpos1, hlen1⟩ :=
      ih ho1 (hk1.trans hk) (fun f hf => hfs f (List.mem_append_left _ hf))
    obtain ⟨⟨act, hact⟩, hun1, hun2⟩ := hfs _ (List.mem_append_right _ (List.mem_singleton.mpr rfl))
    have hup : update cfg w2 dets period ct = ((update cfg w2 dets period ct).1, .ok act) :=
      Prod.ext rfl hact
    have hw2 : Reachable cfg w2 := ⟨_, hw0, hrw.trans' ht.reaches⟩
    have hex := C19_counter_exact hw2 hup ho1 ho' hk1 (Or.inl hre) hlen1
      (hun1 o1 ho1 (hk1.trans hk)) e1
    have hlenfs : ((fs ++ [(⟨dets, period, ct, w2, (update cfg w2 dets period ct).1,
        (update cfg w2 dets period ct).2⟩ : Frame K L D F X)]).length : Int) = fs.length + 1 := by simp
    by_cases hm : o'.lastDet ∈ dets.getD []
    · have hv := hex.2.2 hm (hun2 o' ho' hk hm)
      refine ⟨_, hv, ?_, ?_, by rw [hpw1]; exact hpos1, ?_⟩
      · rw [hlenfs]; omega
      · rw [hpw1]; omega
      · have hf := (update_points hev.1 hup ho1 ho' hk1 (Or.inl hre) hlen1)
        rcases hf with ⟨v, rfl⟩ | ⟨r, _, _, d, _, _, _, _, p, o'', hP, hS, g1, _, _, g4, _⟩
        · have hsp := stepped_points cfg ct o1
          show (stepped cfg ct o1).pointHits.length = (stepped cfg ct o1).numPoints
          rw [hsp.pointHits, hsp.numPoints, List.length_map, hlen1]
        · rw [g1, hS.hitsLen, hP.pointHits, hn1, List.length_map, hlen1]
    · have hv := hex.1 hm
      refine ⟨_, hv, ?_, ?_, by rw [hpw1]; exact hpos1, ?_⟩
      · rw [hlenfs]; omega
      · rw [hpw1]; omega
      · have hf := (update_points hev.1 hup ho1 ho' hk1 (Or.inl hre) hlen1)
        rcases hf with ⟨v, rfl⟩ | ⟨r, _, _, d, _, _, _, _, p, o'', hP, hS, g1, _, _, g4, _⟩
        · have hsp := stepped_points cfg ct o1
          show (stepped cfg ct o1).pointHits.length = (stepped cfg ct o1).numPoints
          rw [hsp.pointHits, hsp.numPoints, List.length_map, hlen1]
        · rw [g1, hS.hitsLen, hP.pointHits, hn1, List.length_map, hlen1]

/-! ### C29 -/

/-- **C29**, what is true of "a keypoint seen for the first time starts at its detected position with
zero velocity": it holds for objects with a single point and for detections with all points over the
threshold. In all cases the velocity is zero. Missing: detections of several points with only some over
the threshold, where the code mixes up the coordinates, see `C29_first_seen_not_snapped` and
`C29_unseen_point_moved`. -/
theorem C29_first_seen_partial {cfg : Cfg K L D F X} {Ok : F → Prop} (hL : FilterLaws cfg.flt Ok)
    {shape : L → Nat × Nat} (hs : ∀ a b, Compat cfg a b → shape a = shape b)
    {w0 w w' : World K L D F X} (h0 : w0.Initial)
    (hr : Reaches cfg (fun _ _ => True) (fun dets _ ct w => CallOk shape (dets.getD []) ct w.heap) w0 w)
    {dets : Option (List Ref)} {period : Int} {ct : Option (CoordTrans K)}
    {act : List (Obj K L D F)} (h : update cfg w dets period ct = (w', .ok act)) {o o' : Obj K L D F}
    (ho : o ∈ w.objs) (ho' : o' ∈ w'.objs) (hk : o.initId = o'.initId)
    (hre : cfg.reid = none ∨ (o.isInit = true ∧ 0 ≤ o.hitCounter))
    (hfresh : o.lastDet ∉ dets.getD []) (hm : o'.lastDet ∈ dets.getD [])
    {i j : Nat} (hi : i < o.numPoints) (hj : j < o.dimPoints) (hnever : o.once[i]? = some false)
    (hseen : Seen cfg.detThr (w.heap o'.lastDet) i) :
    (o'.velocity cfg.flt).data[i * o.dimPoints + j]? = some 0 ∧
    ((o.numPoints = 1 ∨ ∀ q, q < o.numPoints → Seen cfg.detThr (w.heap o'.lastDet) q) →
      (o'.positions cfg.flt).data[i * o.dimPoints + j]? =
        (startHeap w dets ct o'.lastDet).absPoints.data[i * o.dimPoints + j]?) := by
  have hI := (hr.inv (Inv.initial h0)).1
  have hP0 := WfReaches.pointsOk hL hs h0 hr o ho
  rcases update_points hI h ho ho' hk hre hP0.hits with ⟨v, rfl⟩ |
    ⟨r, hr, rfl, d, hds, hdl, hda, hcomp, p, o'', hP, hS, e1, e2, e3, e4, e5, _⟩
  · exact absurd hm (by simpa using hfresh)
  · have hokp : Ok p.filter := by rw [hP.filter]; exact (hL.predict _ hP0.ok).1
    obtain ⟨_, _, hz, hc⟩ := hS.coords hL hokp
    have hcc := hc i j (by rw [hP.numPoints]; exact hi) (by rw [hP.dimPoints]; exact hj)
    rw [hP.dimPoints, hP.dimZ, hP.once] at hcc
    have hdz : o'.dimZ = o.dimZ := by
      unfold Obj.dimZ
      rw [e4, e5, show o''.numPoints = p.numPoints by rw [hS.rest],
        show o''.dimPoints = p.dimPoints by rw [hS.rest], hP.numPoints, hP.dimPoints]
    have hlt : i * o.dimPoints + j < o.dimZ := by
      calc i * o.dimPoints + j < (i + 1) * o.dimPoints := by rw [Nat.add_mul]; omega
        _ ≤ o.numPoints * o.dimPoints := Nat.mul_le_mul_right _ hi
        _ = _ := Nat.mul_comm _ _
    constructor
    · simp only [Obj.velocity, List.getElem?_drop, hdz, e3]
      exact hcc.2.2.1 hnever
    · intro hall
      simp only [Obj.positions, hdz, e3, List.getElem?_take_of_lt hlt]
      rw [hcc.1 ?_, hda]
      refine ⟨?_, ?_⟩
      · rw [seen_congr hds, hP.numPoints]
        rcases hall with h1 | h1
        · rw [h1, Nat.mod_one]
          have : i = 0 := by omega
          rwa [this] at hseen
        · exact h1 _ (Nat.mod_lt _ (by omega))
      · rw [hP.once, hP.dimPoints]
        rw [show (i * o.dimPoints + j) / o.dimPoints = i by
          rw [Nat.add_comm, Nat.add_mul_div_right _ _ (by omega), Nat.div_eq_of_lt hj, Nat.zero_add]]
        exact hnever

/-- **C29**, what is true of "points not over the threshold are not moved by the detection": it holds
for points that were seen before (position and velocity are the predicted ones), and for every point
of an object with a single point. Missing: points never seen before of objects with several points,
whose coordinates can be overwritten, see `C29_unseen_point_moved`. -/
theorem C29_unseen_not_moved_partial {cfg : Cfg K L D F X} {Ok : F → Prop}
    (hL : FilterLaws cfg.flt Ok)
    {shape : L → Nat × Nat} (hs : ∀ a b, Compat cfg a b → shape a = shape b)
    {w0 w w' : World K L D F X} (h0 : w0.Initial)
    (hr : Reaches cfg (fun _ _ => True) (fun dets _ ct w => CallOk shape (dets.getD []) ct w.heap) w0 w)
    {dets : Option (List Ref)} {period : Int} {ct : Option (CoordTrans K)}
    {act : List (Obj K L D F)} (h : update cfg w dets period ct = (w', .ok act)) {o o' : Obj K L D F}
    (ho : o ∈ w.objs) (ho' : o' ∈ w'.objs) (hk : o.initId = o'.initId)
    (hre : cfg.reid = none ∨ (o.isInit = true ∧ 0 ≤ o.hitCounter))
    (hfresh : o.lastDet ∉ dets.getD []) (hm : o'.lastDet ∈ dets.getD [])
    {i j : Nat} (hi : i < o.numPoints) (hj : j < o.dimPoints)
    (hun : ¬ Seen cfg.detThr (w.heap o'.lastDet) i)
    (hcase : o.once[i]? = some true ∨ o.numPoints = 1) :
    (o'.positions cfg.flt).data[i * o.dimPoints + j]? =
      ((o.trackerStep cfg).positions cfg.flt).data[i * o.dimPoints + j]? ∧
    (o'.velocity cfg.flt).data[i * o.dimPoints + j]? =
      ((o.trackerStep cfg).velocity cfg.flt).data[i * o.dimPoints + j]? := by
  have hI := (hr.inv (Inv.initial h0)).1
  have hP0 := WfReaches.pointsOk hL hs h0 hr o ho
  rcases update_points hI h ho ho' hk hre hP0.hits with ⟨v, rfl⟩ |
    ⟨r, hr, rfl, d, hds, hdl, hda, hcomp, p, o'', hP, hS, e1, e2, e3, e4, e5, _⟩
  · exact absurd hm (by simpa using hfresh)
  · obtain ⟨hok1, hok2, hok3⟩ := hL.predict _ hP0.ok
    have hokp : Ok p.filter := by rw [hP.filter]; exact hok1
    obtain ⟨_, _, hz, hc⟩ := hS.coords hL hokp
    have hip : i < p.numPoints := by rw [hP.numPoints]; exact hi
    have hjp : j < p.dimPoints := by rw [hP.dimPoints]; exact hj
    have hcc := hc i j hip hjp
    have hmask : (repeatMask p.dimPoints (overThreshold cfg.detThr p.numPoints d))[
        i * p.dimPoints + j]? = some false := by
      rw [repeatMask_get _ _ _ _ hjp]
      have h1 := overThreshold_get cfg.detThr p.numPoints d i hip
      rw [seen_congr hds] at h1
      have hlt : i < (overThreshold cfg.detThr p.numPoints d).length := by rw [hS.maskLen]; exact hip
      rw [List.getElem?_eq_getElem hlt] at h1 ⊢
      cases hb : (overThreshold cfg.detThr p.numPoints d)[i] with
      | false => rfl
      | true => rw [hb] at h1; exact absurd (h1.mp rfl) hun
    have hunob := hL.unobserved p.filter d.absPoints.data _ hokp (hS.zLen.trans hS.dimZ.symm)
      (by rw [repeatMask_length, hS.maskLen, hS.dimZ]; rfl) _ hmask
    rw [hS.dimZ] at hunob
    have hnosnap : ¬ Snapped cfg.detThr p d (i * p.dimPoints + j) := by
      rintro ⟨h1, h2⟩
      rw [show (i * p.dimPoints + j) / p.dimPoints = i by
        rw [Nat.add_comm, Nat.add_mul_div_right _ _ (by omega), Nat.div_eq_of_lt hjp, Nat.zero_add],
        hP.once] at h2
      rcases hcase with hcase | hcase
      · rw [hcase] at h2; cases h2
      · rw [hP.numPoints, hcase, Nat.mod_one, seen_congr hds] at h1
        have : i = 0 := by omega
        rw [this] at hun
        exact hun h1
    have hdz : o'.dimZ = o.dimZ := by
      unfold Obj.dimZ
      rw [e4, e5, show o''.numPoints = p.numPoints by rw [hS.rest],
        show o''.dimPoints = p.dimPoints by rw [hS.rest], hP.numPoints, hP.dimPoints]
    have hlt : i * o.dimPoints + j < o.dimZ := by
      calc i * o.dimPoints + j < (i + 1) * o.dimPoints := by rw [Nat.add_mul]; omega
        _ ≤ o.numPoints * o.dimPoints := Nat.mul_le_mul_right _ hi
        _ = _ := Nat.mul_comm _ _
    have hdt : (o.trackerStep cfg).dimZ = o.dimZ := rfl
    constructor
    · simp only [Obj.positions, hdz, hdt, e3, List.getElem?_take_of_lt hlt]
      have a1 := hcc.2.1 hnosnap
      rw [hunob.1, hP.dimPoints, hP.filter] at a1
      exact a1
    · simp only [Obj.velocity, hdz, hdt, e3, List.getElem?_drop]
      rcases Bool.eq_false_or_eq_true (o.once[i]'(by rw [hP0.once]; exact hi)) with hb | hb
      · have hon : p.once[i]? = some true := by
          rw [hP.once, List.getElem?_eq_getElem (by rw [hP0.once]; exact hi), hb]
        have a1 := hcc.2.2.2 hon
        rw [hunob.2, hP.dimPoints, hP.filter, hP.dimZ] at a1
        exact a1
      · have hon' : o.once[i]? = some false := by
          rw [List.getElem?_eq_getElem (by rw [hP0.once]; exact hi), hb]
        have hon : p.once[i]? = some false := by rw [hP.once, hon']
        have a1 := hcc.2.2.1 hon
        rw [hP.dimPoints, hP.dimZ] at a1
        rw [a1]
        have hst := hP0.still i j hi hj hon'
        rw [← List.getElem?_drop, ← hP0.dimZ] at hst
        rw [← List.getElem?_drop]
        show _ = ((cfg.flt.getX (cfg.flt.predict o.filter)).drop o.dimZ)[_]?
        rw [← hP0.dimZ, hok3, hst]

/-! ### C30 -/

/-- **C30** (with the flags kept by the object) the velocity of every point that is not marked as
detected at least once is zero, in every history with well-formed detections (failed calls and ReID
included), for every filter that obeys the laws; `noFilter_laws`, `okf_laws` and `filterPy_laws` show that the filters
of norfair do. -/
theorem C30_never_detected_velocity {cfg : Cfg K L D F X} {Ok : F → Prop}
    (hL : FilterLaws cfg.flt Ok) {shape : L → Nat × Nat}
    (hs : ∀ a b, Compat cfg a b → shape a = shape b) {w0 w : World K L D F X} (h0 : w0.Initial)
    (hr : Reaches cfg (fun _ _ => True) (fun dets _ ct w => CallOk shape (dets.getD []) ct w.heap) w0 w)
    {o : Obj K L D F} (ho : o ∈ w.objs) {i j : Nat} (hi : i < o.numPoints) (hj : j < o.dimPoints)
    (hnever : o.once[i]? = some false) :
    (o.velocity cfg.flt).data[i * o.dimPoints + j]? = some 0 := by
  simp only [Obj.velocity, List.getElem?_drop]
  exact (WfReaches.pointsOk hL hs h0 hr o ho).still i j hi hj hnever

/-- in the call `f`, object `k` got a detection in which point `i` is over the threshold -/
def PointSeen (cfg : Cfg K L D F X) (k i : Nat) (f : Frame K L D F X) : Prop :=
  ∃ o ∈ f.after.objs, o.initId = k ∧ o.lastDet ∈ given f ∧ Seen cfg.detThr (f.before.heap o.lastDet) i

/-- **C30** (in terms of what happened) Without ReID: let the object `o` be created by the call from
`wa` to `w`. If its point `i` was not over the threshold in the detection it was created from, nor in
any detection it got in the following calls, then the velocity of the point is zero afterwards. -/
theorem C30_unseen_points_do_not_drift {cfg : Cfg K L D F X} {Ok : F → Prop}
    (hL : FilterLaws cfg.flt Ok) (hre : cfg.reid = none) {shape : L → Nat × Nat}
    (hs : ∀ a b, Compat cfg a b → shape a = shape b) {w0 wa w w' : World K L D F X} (h0 : w0.Initial)
    (hr : Reaches cfg (fun _ _ => True) (fun dets _ ct w => CallOk shape (dets.getD []) ct w.heap) w0 wa)
    {dets : Option (List Ref)} {period : Int} {ct : Option (CoordTrans K)}
    {act : List (Obj K L D F)} (h : update cfg wa dets period ct = (w, .ok act))
    (hcall : CallOk shape (dets.getD []) ct wa.heap) {o o' : Obj K L D F}
    (ho : o ∈ w.objs) (hnew : o.initId ∉ wa.keys) {i j : Nat} (hi : i < o.numPoints)
    (hj : j < o.dimPoints) (hun : ¬ Seen cfg.detThr (wa.heap o.lastDet) i)
    {fs : List (Frame K L D F X)} (ht : Trace cfg w fs w')
    (hfs : ∀ f ∈ fs, Succeeds f ∧ CallOk shape (given f) f.ct f.before.heap ∧
      (∀ p ∈ f.before.objs, p.initId = o.initId → p.lastDet ∉ given f) ∧ ¬ PointSeen cfg o.initId i f)
    (ho' : o' ∈ w'.objs) (hk : o'.initId = o.initId) :
    (o'.velocity cfg.flt).data[i * o'.dimPoints + j]? = some 0 := by
  have hIa := (hr.inv (Inv.initial h0)).1
  have hw : Reaches cfg (fun _ _ => True)
      (fun dets _ ct w => CallOk shape (dets.getD []) ct w.heap) w0 w := by
    have := Reaches.call dets period ct hr hcall
    rwa [h] at this
  have hI := (hw.inv (Inv.initial h0)).1
  have hon : o.once[i]? = some false := by
    obtain ⟨r, hrm, wi, e, hag⟩ := update_obj_new hIa h ho hnew
    have hP := WfReaches.pointsOk hL hs h0 hw o ho
    obtain ⟨g, hg⟩ := newObj_fields cfg wi r period ct
    rw [hg] at e
    have e1 : o.lastDet = r := by rw [e]; rfl
    have e2 : (wi.heap r).scores = (wa.heap r).scores := by
      obtain ⟨a1, ha1⟩ := (hag r).1
      obtain ⟨a2, ha2⟩ := startHeap_fields wa dets ct r
      rw [ha1]; simp only [ha2]
    have e3 : o.once = overThreshold cfg.detThr o.numPoints (wi.heap r) := by
      rw [e]
      unfold overThreshold
      simp only [newObj, Obj.updateCT]
      split
      · rename_i hsc; simp only [hsc]
      · rename_i s hsc; simp only [hsc]
    have h1 := overThreshold_get cfg.detThr o.numPoints (wi.heap r) i hi
    rw [seen_congr e2, ← e3, ← e1] at h1
    have hlt : i < o.once.length := by rw [hP.once]; exact hi
    rw [List.getElem?_eq_getElem hlt] at h1 ⊢
    cases hb : o.once[i] with
    | false => rfl
    | true => rw [hb] at h1; exact absurd (h1.mp rfl) hun
  suffices hsuff : o'.once[i]? = some false ∧ o'.numPoints = o.numPoints ∧
      o'.dimPoints = o.dimPoints ∧
      Reaches cfg (fun _ _ => True)
        (fun dets _ ct w => CallOk shape (dets.getD []) ct w.heap) w0 w' by
    obtain ⟨a1, a2, a3, a4⟩ := hsuff
    exact C30_never_detected_velocity hL hs h0 a4 ho' (by rw [a2]; exact hi) (by rw [a3]; exact hj) a1
  clear hcall h hnew hun
  induction ht generalizing o' with
  | nil =>
    have : o' = o := World.eq_of_mem_of_key hI.nodup ho' ho hk
    subst this
    exact ⟨hon, rfl, rfl, hw⟩
  | env heap g _ he ih =>
    obtain ⟨a1, a2, a3, a4⟩ := ih hfs ho' hk
    exact ⟨a1, a2, a3, .env heap g a4 he trivial⟩
  | @call fs w2 dets period ct ht ih =>
    have hev := ht.reaches.inv hI
    have hle : o'.initId ≤ w2.initCount := by
      rw [hk]; exact (hI.bounded o ho).2.trans hev.2.initCount
    obtain ⟨o1, ho1, hk1, hpw1, hn1, hd1⟩ := obj_before hev.1 rfl ho' hle
    obtain ⟨a1, a2, a3, a4⟩ := ih (fun f hf => hfs f (List.mem_append_left _ hf)) ho1 (hk1.trans hk)
    obtain ⟨⟨act, hact⟩, hcall, hfresh, hns⟩ :=
      hfs _ (List.mem_append_right _ (List.mem_singleton.mpr rfl))
    have hup : update cfg w2 dets period ct = ((update cfg w2 dets period ct).1, .ok act) :=
      Prod.ext rfl hact
    refine ⟨?_, hn1.trans a2, hd1.trans a3, .call _ _ _ a4 hcall⟩
    have hP1 := WfReaches.pointsOk hL hs h0 a4 o1 ho1
    rcases update_points hev.1 hup ho1 ho' hk1 (Or.inl hre) hP1.hits with ⟨v, rfl⟩ |
      ⟨r, hrm, rfl, d, hds, _, _, _, p, o'', hP, hS, g1, g2, g3, g4, _⟩
    · show (stepped cfg ct o1).once[i]? = _
      rw [(stepped_points cfg ct o1).once]; exact a1
    · have hip : i < p.numPoints := by rw [hP.numPoints, a2]; exact hi
      have hiff := hS.once i hip
      rw [hP.once, a1, seen_congr hds] at hiff
      have hlt : i < o''.once.length := by rw [hS.onceLen']; exact hip
      rw [g2, List.getElem?_eq_getElem hlt]
      rw [List.getElem?_eq_getElem hlt] at hiff
      cases hb : o''.once[i] with
      | false => rfl
      | true =>
        rw [hb] at hiff
        rcases hiff.mp rfl with hx | hx
        · cases hx
        · exact absurd ⟨o', ho', hk, hrm, hx⟩ hns

end

/-! ### Witnesses and examples -/

/-- C19: the example tracker with the default `hit_counter_max=15` -/
def longCfg : TCfg := { cfg with hitCounterMax := 15 }

/-- **C19** (the negation of "a point over the detection threshold is live right after a match") An
object with one point is matched six times, missed five times, and then matched with a detection whose
point is over the threshold: its counter was `-1`, goes to `-1 - 1 + 2 = 0`, and the point is not
live. -/
theorem C19_seen_but_not_live :
    ∃ w : TWorld, Reachable longCfg w ∧
      (∃ act, update longCfg w (some [6]) 1 none = ((update longCfg w (some [6]) 1 none).1, .ok act)) ∧
      ∃ o ∈ w.objs, o.lastDet ≠ 6 ∧ ∃ o' ∈ (update longCfg w (some [6]) 1 none).1.objs,
        o'.initId = o.initId ∧ o'.lastDet = 6 ∧ Seen longCfg.detThr (w.heap 6) 0 ∧
        o'.livePoints = [false] :=
  ⟨run longCfg w0 [[0], [1], [2], [3], [4], [5], [], [], [], [], []], run_reachable _ _,
    exists_ok (by decide +kernel),
    (run longCfg w0 [[0], [1], [2], [3], [4], [5], [], [], [], [], []]).objs.head (by decide +kernel),
    List.head_mem _, by decide +kernel,
    (run longCfg w0 [[0], [1], [2], [3], [4], [5], [], [], [], [], [], [6]]).objs.head
      (by decide +kernel),
    List.head_mem (l := (run longCfg w0 [[0], [1], [2], [3], [4], [5], [], [], [], [], [], [6]]).objs) _,
    by decide +kernel, by decide +kernel, (by
      intro s hs
      rw [show ((run longCfg w0 [[0], [1], [2], [3], [4], [5], [], [], [], [], []]).heap 6).scores = none
        by decide +kernel] at hs
      cases hs), by decide +kernel⟩

/-- a detection of two points in the plane with scores -/
def det2 (data scores : List Int) : TDet := ⟨⟨2, 2, data⟩, some scores, 0, (), ⟨2, 2, data⟩, none⟩

/-- detection 0: point 0 is not seen, point 1 is at (1, 1); detection 1: the same, with other numbers
for point 0; detection 2: point 0 at (2, 3) is seen, point 1 is not; detection 3: both are seen -/
def heap2 : Ref → TDet
  | 0 => det2 [0, 0, 1, 1] [0, 1]
  | 1 => det2 [5, 7, 1, 2] [0, 1]
  | 2 => det2 [2, 3, 8, 9] [1, 0]
  | _ => det2 [4, 5, 6, 7] [1, 1]

def w2 : TWorld := ⟨heap2, 0, 0, 0, []⟩

theorem w2_initial : w2.Initial := ⟨rfl, rfl, rfl⟩

/-- **C29** (the negation of "points not over the threshold are not moved by the detection") Point 0 of
the object was never over the threshold, and is not in the detection that the object now gets; still
its second coordinate is moved from 0 to 7. -/
theorem C29_unseen_point_moved :
    Reachable cfg (run cfg w2 [[0]]) ∧ ¬ Seen cfg.detThr (heap2 0) 0 ∧ ¬ Seen cfg.detThr (heap2 1) 0 ∧
    (run cfg w2 [[0]]).objs.map (fun o => ((o.positions cfg.flt).data, o.lastDet)) =
      [([0, 0, 1, 1], 0)] ∧
    (run cfg w2 [[0], [1]]).objs.map (fun o => ((o.positions cfg.flt).data, o.lastDet)) =
      [([0, 7, 1, 2], 1)] := by
  refine ⟨⟨w2, w2_initial, run_reaches _ _ _ _ (.refl _)⟩, ?_, ?_, by decide +kernel, by decide +kernel⟩
  · intro h
    obtain ⟨x, hx, hlt⟩ := h [0, 1] rfl
    cases hx
    exact absurd hlt (by decide +kernel)
  · intro h
    obtain ⟨x, hx, hlt⟩ := h [0, 1] rfl
    cases hx
    exact absurd hlt (by decide +kernel)

/-- the same kind of tracker with rational coordinates and the default filter
(`OptimizedKalmanFilterFactory(R=4, Q=1/10, pos_variance=10, pos_vel_covariance=0, vel_variance=1)`) -/
def okfCfg : Cfg ℚ Nat (WithTop Nat) (OKF ℚ) Unit where
  dist := .scalar (fun _ _ => some (some 1))
  thr := 10
  fill := 11
  hitCounterMax := 4
  initDelay := 1
  pwMax := 4
  detThr := 0
  flt := okfOps ⟨4, 1 / 10, 10, 0, 1⟩
  pastLen := 2
  reid := none
  reidThr := 0
  reidFill := 1
  reidMax := none

/-- detections 0: point 0 is seen at (2, 3), point 1 is not (0, 0); the others: point 0 is not seen,
point 1 is seen at (40, 40) -/
def heapQ : Ref → Det ℚ Nat Unit
  | 0 => ⟨⟨2, 2, [2, 3, 0, 0]⟩, some [1, 0], 0, (), ⟨2, 2, [2, 3, 0, 0]⟩, none⟩
  | _ => ⟨⟨2, 2, [9, 9, 40, 40]⟩, some [0, 1], 0, (), ⟨2, 2, [9, 9, 40, 40]⟩, none⟩

def wQ : World ℚ Nat (WithTop Nat) (OKF ℚ) Unit := ⟨heapQ, 0, 0, 0, []⟩

/-- the state after one update with detection 0 and one with detection 1 -/
def wQ1 : World ℚ Nat (WithTop Nat) (OKF ℚ) Unit := (update okfCfg wQ (some [0]) 1 none).1
@[inherit_doc wQ1] def wQ2 : World ℚ Nat (WithTop Nat) (OKF ℚ) Unit :=
  (update okfCfg wQ1 (some [1]) 1 none).1

/-- **C29** (the negation of "starts at its detected position") Point 1 is seen for the first time, at
(40, 40), but its first coordinate is only moved towards 40 by the filter (gain 111/151): the first
coordinate is not taken from the detection. -/
theorem C29_first_seen_not_snapped :
    Reachable okfCfg wQ1 ∧ ¬ Seen okfCfg.detThr (heapQ 0) 1 ∧ Seen okfCfg.detThr (heapQ 1) 1 ∧
    wQ2.objs.map (fun o => (o.lastDet, (o.positions okfCfg.flt).data)) =
      [(1, [2, 3, 4440 / 151, 40])] := by
  refine ⟨⟨wQ, ⟨rfl, rfl, rfl⟩, .call _ _ _ (.refl _) trivial⟩, ?_, ?_, by decide +kernel⟩
  · intro h
    obtain ⟨x, hx, hlt⟩ := h [1, 0] rfl
    cases hx
    exact absurd hlt (by decide +kernel)
  · intro s hs
    cases hs
    exact ⟨1, rfl, by decide +kernel⟩

/-- histories of the example trackers on well-formed detections -/
theorem run_wf (c : TCfg) (shape : Nat → Nat × Nat) {P} (ls : List (List Ref))
    (hP : ∀ l (w : TWorld), (∀ r, DetOk shape (w.heap r)) → P (some l) 1 none w) :
    ∀ (w w1 : TWorld), Inv w → (∀ r, DetOk shape (w.heap r)) → Reaches c (fun _ _ => True) P w1 w →
      Reaches c (fun _ _ => True) P w1 (run c w ls) := by
  induction ls with
  | nil => exact fun _ _ _ _ h => h
  | cons l ls ih =>
    intro w w1 hI hw h
    refine ih _ w1 (update_inv (cfg := c) hI _ _ _).1 ?_ (Reaches.call _ _ _ h (hP l w hw))
    refine ((update_micros c w hI.nodup (some l) 1 none).objInv (Q := fun _ _ => True)
      (H := fun h => ∀ r, DetOk shape (h r)) ?_ hw (fun _ _ => trivial)).1
    exact ⟨fun h h' ha hh r => by obtain ⟨a, e⟩ := (ha r).1; rw [e]; exact detOk_age (hh r) a,
      (by intro _ _ _ h; cases h), fun _ _ _ _ _ => trivial, fun _ _ _ _ _ _ _ => trivial,
      fun _ _ _ _ => trivial, fun _ _ _ _ _ => trivial, fun _ _ _ _ _ _ _ _ _ _ _ _ => trivial,
      fun _ _ _ _ _ _ _ _ _ _ => trivial, fun _ _ _ _ _ _ _ => trivial, fun _ _ _ _ => trivial⟩

/-- the detections of the second example have two points in the plane -/
theorem heap2_ok : ∀ r, DetOk (fun _ : Nat => (2, 2)) (heap2 r) := by
  intro r
  have : ∀ data s : List Int, data.length = 4 → s.length = 2 → DetOk (fun _ : Nat => (2, 2)) (det2 data s) :=
    fun data s h1 h2 => ⟨rfl, rfl, h1, fun s' hs => by cases hs; exact h2⟩
  unfold heap2
  split <;> exact this _ _ rfl rfl

theorem run2_wf (c : TCfg) (ls : List (List Ref)) :
    Reaches c (fun _ _ => True)
      (fun dets _ ct w => CallOk (fun _ : Nat => (2, 2)) (dets.getD []) ct w.heap) w2 (run c w2 ls) :=
  run_wf c (fun _ => (2, 2)) ls (fun _ _ hw => ⟨(by intro _ h; cases h), fun r _ => hw r⟩) w2 w2 (Inv.initial w2_initial)
    heap2_ok (.refl _)

/-- C19: number of entries, two points, after three calls -/
example : (run cfg w2 [[0], [1], [2]]).objs.map (fun o => (o.livePoints, o.pointHits)) =
    [([true, true], [1, 1])] := by decide +kernel

example : ∀ o ∈ (run cfg w2 [[0], [1], [2]]).objs, o.livePoints.length = o.numPoints :=
  C19_one_entry_per_point w2_initial (run2_wf cfg _)

/-- C19: the bounds are reached -/
example : (∀ o ∈ (run cfg w0 [[0], [1], [2], [3], [4]]).objs, ∀ c ∈ o.pointHits, c ≤ max 4 1) ∧
    (run cfg w0 [[0], [1], [2], [3], [4]]).objs.map (·.pointHits) = [[4]] :=
  ⟨C19_upper (cfg := cfg) w0_initial 1 le_rfl (run_reaches_of _ (fun _ _ => le_rfl) _ _ _ (.refl _)),
    by decide +kernel⟩

example : ∀ o ∈ (run cfg w0 [[0], [1], [2], [3], [4]]).objs, ∀ c ∈ o.pointHits,
    c ≤ max cfg.pwMax o.initialPeriod :=
  C19_upper_own rfl w0_initial (run_reaches_of _ (fun _ _ => le_rfl) _ _ _ (.refl _))

/-- the state of the only object after the given calls -/
def only (w : TWorld) : TObj := w.objs.head?.getD
  ⟨0, none, none, 0, 0, 0, none, none, none, 0, 0, false, 0, 0, [], [], [], ⟨0, []⟩, 0, none⟩

theorem only_mem {w : TWorld} (h : w.objs.length = 1) : only w ∈ w.objs := by
  unfold only
  match hw : w.objs with
  | [] => rw [hw] at h; cases h
  | [o] => simp
  | _ :: _ :: _ => rw [hw] at h; cases h

theorem mem_only {w : TWorld} (h : w.objs.length = 1) {o : TObj} (ho : o ∈ w.objs) : o = only w := by
  unfold only
  match hw : w.objs with
  | [] => rw [hw] at h; cases h
  | [p] => rw [hw] at ho; simpa using ho
  | _ :: _ :: _ => rw [hw] at h; cases h

theorem run_append (c : TCfg) (w : TWorld) (a b : List (List Ref)) :
    run c w (a ++ b) = run c (run c w a) b := by
  induction a generalizing w with
  | nil => rfl
  | cons l a ih => exact ih _

/-- C19: exact value and "live after match": object of the first example, before and after the fourth
call -/
example : (only (run cfg w0 [[0], [1], [2], [3]])).livePoints[0]? = some true ↔ 2 - 2 * 1 ≤ (3 : Int) := by
  obtain ⟨act, hact⟩ := exists_ok (r := update cfg (run cfg w0 [[0], [1], [2]]) (some [3]) 1 none)
    (by decide +kernel)
  exact C19_live_after_match_partial (run_reachable cfg [[0], [1], [2]]) hact
    (only_mem (w := run cfg w0 [[0], [1], [2]]) (by decide +kernel))
    (only_mem (w := run cfg w0 [[0], [1], [2], [3]]) (by decide +kernel)) (by decide +kernel)
    (Or.inl rfl) (by decide +kernel) (by decide +kernel) (by decide +kernel) (by decide +kernel)
    (by decide +kernel) (by
      intro s hs
      rw [show ((run cfg w0 [[0], [1], [2]]).heap
        (only (run cfg w0 [[0], [1], [2], [3]])).lastDet).scores = none by decide +kernel] at hs
      cases hs)

/-- C19: all point counters are non-negative after a match -/
example : ∀ o ∈ (run cfg w2 [[0], [1], [2]]).objs, o.lastDet ∈ [2] → ∀ c ∈ o.pointHits, 0 ≤ c := by
  obtain ⟨act, hact⟩ := exists_ok (r := update cfg (run cfg w2 [[0], [1]]) (some [2]) 1 none)
    (by decide +kernel)
  refine C19_matched_nonneg (dets := some [2]) ⟨w2, w2_initial, run_reaches cfg w2 [[0], [1]] w2 (.refl _)⟩ hact ?_
  intro o ho
  rw [mem_only (w := run cfg w2 [[0], [1]]) (by decide +kernel) ho]
  decide +kernel

/-- C19: expiry. After the first two calls the counter of point 1 is 2; it is not seen in the next
call (which sees point 0), and is still live after it, as it must be. -/
example : ((only (run cfg w2 [[0], [1], [2]])).livePoints[1]? = some true ↔ (1 : Int) < 2) ∧
    (2 : Int) ≤ max cfg.pwMax (only (run cfg w2 [[0], [1]])).initialPeriod := by
  refine C19_expiry (w' := run cfg w2 [[0], [1], [2]]) (o := only (run cfg w2 [[0], [1]])) rfl w2_initial
    (run_wf (P := fun dets period ct w => 1 ≤ period ∧
      CallOk (fun _ : Nat => (2, 2)) (dets.getD []) ct w.heap) cfg (fun _ => (2, 2)) [[0], [1]]
      (fun _ _ hw => ⟨le_rfl, (by intro _ h; cases h), fun r _ => hw r⟩) w2 w2 (Inv.initial w2_initial) heap2_ok (.refl _))
    (run_trace cfg (run cfg w2 [[0], [1]]) [[2]])
    (only_mem (by decide +kernel)) (only_mem (by decide +kernel)) (by decide +kernel)
    (by decide +kernel) ?_
  intro f hf
  simp only [frames, List.mem_singleton] at hf
  subst hf
  refine ⟨?_, ?_, ?_⟩
  · obtain ⟨act, hact⟩ := exists_ok (r := update cfg (run cfg w2 [[0], [1]]) (some [2]) 1 none)
      (by decide +kernel)
    exact ⟨act, (Prod.ext_iff.mp hact).2⟩
  · intro o ho _
    rw [mem_only (w := run cfg w2 [[0], [1]]) (by decide +kernel) ho]
    decide +kernel
  · intro o ho _ _ hs
    rw [mem_only (w := run cfg w2 [[0], [1], [2]]) (by decide +kernel) ho] at hs
    obtain ⟨x, hx, hlt⟩ := hs [1, 0] (by decide +kernel)
    cases hx
    exact absurd hlt (by decide +kernel)

/-- labels of the example trackers are only compatible if they are equal -/
theorem toy_compat {shape : Nat → Nat × Nat} : ∀ a b, Compat cfg a b → shape a = shape b :=
  fun a b (h : a = b) => by rw [h]

/-- C29: detection 3 has both points over the threshold; point 0 is seen for the first time and ends
up at (4, 5) with velocity 0 -/
example : (only (run cfg w2 [[0], [3]])).positions cfg.flt = ⟨2, 2, [4, 5, 6, 7]⟩ := by decide +kernel

example (j : Nat) (hj : j < 2) :
    ((only (run cfg w2 [[0], [3]])).velocity cfg.flt).data[0 * 2 + j]? = some 0 ∧
    ((only (run cfg w2 [[0], [3]])).positions cfg.flt).data[0 * 2 + j]? = [4, 5, 6, 7][0 * 2 + j]? := by
  obtain ⟨act, hact⟩ := exists_ok (r := update cfg (run cfg w2 [[0]]) (some [3]) 1 none)
    (by decide +kernel)
  have hseen : ∀ q, q < 2 → Seen cfg.detThr ((run cfg w2 [[0]]).heap
      (only (run cfg w2 [[0], [3]])).lastDet) q := by
    intro q hq s hs
    rw [show ((run cfg w2 [[0]]).heap (only (run cfg w2 [[0], [3]])).lastDet).scores = some [1, 1] by
      decide +kernel] at hs
    cases hs
    refine ⟨1, ?_, by decide +kernel⟩
    have : q = 0 ∨ q = 1 := by omega
    rcases this with rfl | rfl <;> rfl
  have hP := run2_wf cfg [[0]]
  have := C29_first_seen_partial noFilter_laws toy_compat w2_initial hP hact (i := 0) (j := j)
    (o := only (run cfg w2 [[0]])) (o' := only (run cfg w2 [[0], [3]]))
    (only_mem (by decide +kernel)) (only_mem (w := run cfg w2 [[0], [3]]) (by decide +kernel))
    (by decide +kernel) (Or.inl rfl) (by decide +kernel) (by decide +kernel) (by decide +kernel)
    (show j < (only (run cfg w2 [[0]])).dimPoints from by
      rw [show (only (run cfg w2 [[0]])).dimPoints = 2 by decide +kernel]; exact hj)
    (by decide +kernel) (hseen 0 (by omega))
  rw [show (only (run cfg w2 [[0]])).dimPoints = 2 by decide +kernel] at this
  refine ⟨this.1, ?_⟩
  rw [this.2 (Or.inr (fun q hq => hseen q ?_))]
  · rw [show (startHeap (run cfg w2 [[0]]) (some [3]) none
      (only (run cfg w2 [[0], [3]])).lastDet).absPoints.data = [4, 5, 6, 7] by decide +kernel]
  · rw [show (only (run cfg w2 [[0]])).numPoints = 2 by decide +kernel] at hq
    exact hq

/-- C29: point 1 was seen in detection 0 and is not seen in detection 2: not moved -/
example : ((only (run cfg w2 [[0], [2]])).positions cfg.flt).data[1 * 2 + 0]? =
      (((only (run cfg w2 [[0]])).trackerStep cfg).positions cfg.flt).data[1 * 2 + 0]? := by
  obtain ⟨act, hact⟩ := exists_ok (r := update cfg (run cfg w2 [[0]]) (some [2]) 1 none)
    (by decide +kernel)
  have := (C29_unseen_not_moved_partial noFilter_laws toy_compat w2_initial (run2_wf cfg [[0]]) hact
    (i := 1) (j := 0)
    (o := only (run cfg w2 [[0]])) (o' := only (run cfg w2 [[0], [2]]))
    (only_mem (by decide +kernel)) (only_mem (w := run cfg w2 [[0], [2]]) (by decide +kernel))
    (by decide +kernel) (Or.inl rfl) (by decide +kernel) (by decide +kernel) (by decide +kernel)
    (by decide +kernel) (by
      intro h
      obtain ⟨x, hx, hlt⟩ := h [1, 0] (by decide +kernel)
      cases hx
      exact absurd hlt (by decide +kernel)) (Or.inl (by decide +kernel))).1
  rw [show (only (run cfg w2 [[0]])).dimPoints = 2 by decide +kernel] at this
  exact this

/-- C30: point 0 has not been over the threshold in detections 0 and 1 -/
example : ((only (run cfg w2 [[0], [1]])).velocity cfg.flt).data[0 * 2 + 1]? = some 0 := by
  have := C30_never_detected_velocity noFilter_laws toy_compat w2_initial (run2_wf cfg [[0], [1]])
    (o := only (run cfg w2 [[0], [1]])) (only_mem (by decide +kernel)) (i := 0) (j := 1)
    (by decide +kernel) (by decide +kernel) (by decide +kernel)
  rw [show (only (run cfg w2 [[0], [1]])).dimPoints = 2 by decide +kernel] at this
  exact this

/-- C30, the second form, on the same calls -/
example : ((only (run cfg w2 [[0], [1]])).velocity cfg.flt).data[
    0 * (only (run cfg w2 [[0], [1]])).dimPoints + 1]? = some 0 := by
  obtain ⟨act, hact⟩ := exists_ok (r := update cfg w2 (some [0]) 1 none) (by decide +kernel)
  refine C30_unseen_points_do_not_drift noFilter_laws rfl toy_compat w2_initial (.refl _) hact
    ⟨(by intro _ h; cases h), fun r _ => heap2_ok r⟩ (o := only (run cfg w2 [[0]])) (i := 0) (j := 1)
    (only_mem (w := run cfg w2 [[0]]) (by decide +kernel)) (by decide +kernel) (by decide +kernel)
    (by decide +kernel) ?_ (run_trace cfg (run cfg w2 [[0]]) [[1]]) ?_
    (only_mem (w := run cfg w2 [[0], [1]]) (by decide +kernel)) (by decide +kernel)
  · intro h
    obtain ⟨x, hx, hlt⟩ := h [0, 1] (by decide +kernel)
    cases hx
    exact absurd hlt (by decide +kernel)
  intro f hf
  simp only [frames, List.mem_singleton] at hf
  subst hf
  refine ⟨?_, ⟨(by intro _ h; cases h), ?_⟩, ?_, ?_⟩
  · obtain ⟨act, hact⟩ := exists_ok (r := update cfg (run cfg w2 [[0]]) (some [1]) 1 none)
      (by decide +kernel)
    exact ⟨act, (Prod.ext_iff.mp hact).2⟩
  · intro r hr
    have : r = 1 := by simpa [given] using hr
    subst this
    exact heap2_ok 1
  · intro o ho _
    rw [mem_only (w := run cfg w2 [[0]]) (by decide +kernel) ho]
    decide +kernel
  · rintro ⟨o, ho, _, _, hs⟩
    rw [mem_only (w := run cfg w2 [[0], [1]]) (by decide +kernel) ho] at hs
    obtain ⟨x, hx, hlt⟩ := hs [0, 1] (by decide +kernel)
    cases hx
    exact absurd hlt (by decide +kernel)

end Norfair.Props
