import Verif.Props.ReidRound
import Verif.Props.Told
import Verif.Props.Targets

/-! C98: with ReID, if the distances tell targets apart, ids do not switch and targets get their ids back. -/

set_option linter.unusedSectionVars false

namespace Norfair.Props

open Norfair Norfair.Spec Norfair.Toy

variable {K L D F X T : Type}

section
variable [LinearOrder K] [Zero K] [LinearOrder D] [OrderTop D] [Zero D] [DecidableEq L]

/-- the detections when the distances are taken: as given to the call, but for `age` -/
def GivenHeap (fr : Frame K L D F X) (h : Ref → Det K L X) : Prop :=
  ∀ r, ∃ a, h r = { startHeap fr.before fr.dets fr.ct r with age := a }

/-- a distance of the detection `r` to the object `o` in this call -/
def DetDist (cfg : Cfg K L D F X) (f : Det K L X → ObjView K L D F X → Option (Option D)) (fr : Frame K L D F X)
    (r : Ref) (o : Obj K L D F) (x : D) : Prop :=
  ∃ h, GivenHeap fr h ∧ ScalarDist f (h r) (((o.trackerStep cfg).updateCT fr.ct).view h) x

/-- `c` is an object that was initializing before this call, and has a detection of this call -/
def NewHere (cfg : Cfg K L D F X) (fr : Frame K L D F X) (c : Obj K L D F) : Prop :=
  c.lastDet ∈ given fr ∧ ∃ p ∈ fr.before.objs, p.initId = c.initId ∧ CanMatch cfg.reidMax p ∧ p.isInit = true

/-- `o` is an object that was initialized and alive, or dead and kept for ReID, before this call, and still has the
detection that it had -/
def OldHere (cfg : Cfg K L D F X) (fr : Frame K L D F X) (o : Obj K L D F) : Prop :=
  ∃ p ∈ fr.before.objs, p.initId = o.initId ∧ o.lastDet = p.lastDet ∧
    ((CanMatch cfg.reidMax p ∧ p.isInit = false) ∨ Waits cfg.reidMax p)

/-- a ReID distance of a new and an old object of this call: they are taken in the state after the two rounds of
matching with detections, which is the state after this call without ReID -/
def ObjDist (cfg : Cfg K L D F X) (g : ObjView K L D F X → ObjView K L D F X → Option (Option D))
    (fr : Frame K L D F X) (c o : Obj K L D F) (x : D) : Prop :=
  (∃ w0 act0, update { cfg with reid := none } fr.before fr.dets fr.period fr.ct = (w0, .ok act0) ∧
    c ∈ w0.objs ∧ o ∈ w0.objs) ∧ NewHere cfg fr c ∧ OldHere cfg fr o ∧
  ∃ h, GivenHeap fr h ∧ ReidDist g (c.view h) (o.view h) x

theorem compared_pos {cfg : Cfg K L D F X} {ct : Option (CoordTrans K)} {objs : List (Obj K L D F)} {b : Bool}
    {o : Obj K L D F} (ho : o ∈ objs) (hc : CanMatch cfg.reidMax o) (hb : o.isInit = b) :
    ∃ j : Nat, (compared cfg ct objs b)[j]? = some (stepped cfg ct o) := by
  apply List.mem_iff_getElem?.mp
  unfold compared
  refine List.mem_map.mpr ⟨o, List.mem_filter.mpr ⟨ho, ?_⟩, rfl⟩
  simp [hc, hb]

theorem compared_get {cfg : Cfg K L D F X} {ct : Option (CoordTrans K)} {objs : List (Obj K L D F)} {b : Bool}
    {j : Nat} {o : Obj K L D F} (h : (compared cfg ct objs b)[j]? = some o) :
    ∃ p ∈ objs, o = stepped cfg ct p ∧ CanMatch cfg.reidMax p ∧ p.isInit = b := by
  obtain ⟨p, hp, rfl⟩ := List.mem_map.mp (List.mem_of_getElem? h)
  have := List.mem_filter.mp hp
  simp only [decide_eq_true_eq] at this
  exact ⟨p, this.1, rfl, this.2⟩

theorem compared_keys_nodup {cfg : Cfg K L D F X} {ct : Option (CoordTrans K)} {objs : List (Obj K L D F)} {b : Bool}
    (h : (objs.map (·.initId)).Nodup) : ((compared cfg ct objs b).map (·.initId)).Nodup := by
  unfold compared
  rw [List.map_map]
  refine List.Nodup.sublist ?_ h
  have : ((fun o : Obj K L D F => o.initId) ∘ fun o : Obj K L D F => (o.trackerStep cfg).updateCT ct) =
      fun o => o.initId := by
    funext o
    exact stepped_initId cfg ct o
  rw [this]
  exact List.filter_sublist.map _

/-- a call with ReID, without positions -/
structure ReidCall (cfg : Cfg K L D F X) (f : Det K L X → ObjView K L D F X → Option (Option D))
    (g : ObjView K L D F X → ObjView K L D F X → Option (Option D)) (fr : Frame K L D F X) (w0 : World K L D F X)
    (h2 : Ref → Det K L X) (cands olds : List (Obj K L D F)) (d : Nat → Nat → D) (pairs : List (Nat × Nat)) :
    Prop where
  plain : ∃ act0, update { cfg with reid := none } fr.before fr.dets fr.period fr.ct = (w0, .ok act0)
  heap : GivenHeap fr h2
  round : ReidRound g cfg.reidThr h2 cands olds d pairs w0.objs fr.after.objs
  nodup : (w0.objs.map (·.initId)).Nodup
  nodupAfter : (fr.after.objs.map (·.initId)).Nodup
  cases : ∀ o ∈ fr.before.objs, ∀ o0 ∈ w0.objs, o0.initId = o.initId → o0.lastDet = o.lastDet ∨
    CanMatch cfg.reidMax o ∧ o0.lastDet ∈ given fr ∧ ∃ x, DetDist cfg f fr o0.lastDet o x ∧ x < cfg.thr
  candsNew : ∀ c ∈ cands, c ∈ w0.objs ∧ NewHere cfg fr c
  oldsOld : ∀ o ∈ olds, o ∈ w0.objs ∧ OldHere cfg fr o
  isCand : (∀ o ∈ fr.before.objs, o.lastDet ∉ given fr) → ∀ c ∈ w0.objs, NewHere cfg fr c → c ∈ cands
  isOld : (∀ o ∈ fr.before.objs, o.lastDet ∉ given fr) → ∀ o ∈ w0.objs, OldHere cfg fr o → o ∈ olds
  waits : ∀ o ∈ fr.before.objs, Waits cfg.reidMax o → stepped cfg fr.ct o ∈ w0.objs
  news : ∀ o ∈ w0.objs, o.initId ∉ fr.before.objs.map (·.initId) → o.lastDet ∈ given fr ∧
    fr.before.initCount < o.initId ∧ o.hitCounter = fr.period ∧ o.reidHitCounter = none ∧
    o.isInit = decide (fr.period ≤ cfg.initDelay)
  hit : ∀ o ∈ fr.before.objs, CanMatch cfg.reidMax o → o.isInit = true → ∀ r ∈ given fr,
    (∀ x, DetDist cfg f fr r o x → x < cfg.thr) →
    (∀ p ∈ fr.before.objs, CanMatch cfg.reidMax p → p.initId ≠ o.initId → ∀ x, DetDist cfg f fr r p x → ¬ x < cfg.thr) →
    (∀ r' ∈ given fr, r' ≠ r → ∀ x, DetDist cfg f fr r' o x → ¬ x < cfg.thr) →
    ∃ o0 ∈ w0.objs, o0.initId = o.initId ∧ o0.lastDet = r

theorem reid_call {cfg : Cfg K L D F X} {f} (hf : cfg.dist = .scalar f) {g} (hg : cfg.reid = some g)
    {fr : Frame K L D F X} (hw : Reachable cfg fr.before) {act : List (Obj K L D F)}
    (h : update cfg fr.before fr.dets fr.period fr.ct = (fr.after, .ok act)) :
    ∃ w0 h2 cands olds d pairs, ReidCall cfg f g fr w0 h2 cands olds d pairs := by
  have hI := hw.inv
  obtain ⟨w0, act0, h1, h2, d1, d2, d, pairs1, pairs2, pairs, rest1, rest2, cands, olds, hup, hh1, hh2, r1, u1, r2, u2,
    hwt, ⟨old, news, n1, n2, n3, n4⟩, hc1, hc2, ho1, ho2, hR⟩ := C97_third_round hf hg hw h
  have hI0 : Inv w0 := by
    have := (update_inv (cfg := { cfg with reid := none }) hI fr.dets fr.period fr.ct).1
    rw [hup] at this; exact this
  have hI' : Inv fr.after := by
    have := (update_inv (cfg := cfg) hI fr.dets fr.period fr.ct).1
    rw [h] at this; exact this
  have hh0 : GivenHeap fr (startHeap fr.before fr.dets fr.ct) := fun r => ⟨_, rfl⟩
  have hrest1 : ∀ r ∈ rest1, r ∈ given fr := by
    intro r hr
    rw [r1.rest] at hr
    exact (leftOver_sublist _ _).subset hr
  have hrest2 : ∀ r ∈ rest2, r ∈ given fr := by
    intro r hr
    rw [r2.rest] at hr
    exact hrest1 r ((leftOver_sublist _ _).subset hr)
  have hposeq : ∀ {b : Bool} {j j' : Nat} {o o' : Obj K L D F}, (compared cfg fr.ct fr.before.objs b)[j]? = some o →
      (compared cfg fr.ct fr.before.objs b)[j']? = some o' → o.initId = o'.initId → j = j' := by
    intro b j j' o o' hj hj' e
    have hn := compared_keys_nodup (cfg := cfg) (ct := fr.ct) (b := b) hI.nodup
    apply (List.getElem?_inj (by rw [List.length_map]; exact (List.getElem?_eq_some_iff.mp hj).1) hn).mp
    rw [List.getElem?_map, List.getElem?_map, hj, hj']
    simp [e]
  -- a matched pair of the first or second round
  have hm1 : ∀ {o : Obj K L D F} {j : Nat}, (compared cfg fr.ct fr.before.objs false)[j]? = some o →
      j ∈ pairs1.map Prod.snd → ∃ r ∈ given fr, (∃ x, ScalarDist f (startHeap fr.before fr.dets fr.ct r)
        (o.view (startHeap fr.before fr.dets fr.ct)) x ∧ x < cfg.thr) ∧
        ∀ o' ∈ w0.objs, o'.initId = o.initId → o'.lastDet = r := by
    intro o j hj hjp
    obtain ⟨p, hp, rfl⟩ := List.mem_map.mp hjp
    obtain ⟨r, o2, hr, ho2, hout⟩ := r1.outcome p hp
    cases hj.symm.trans ho2
    exact ⟨r, List.mem_of_getElem? hr, ⟨_, r1.dist _ _ _ _ hr ho2, r1.greedy.below p hp⟩, fun o' ho' e => (hout o' ho' e).1⟩
  have hm2 : ∀ {o : Obj K L D F} {j : Nat}, (compared cfg fr.ct fr.before.objs true)[j]? = some o →
      j ∈ pairs2.map Prod.snd → ∃ r ∈ given fr, (∃ x, ScalarDist f (h1 r) (o.view h1) x ∧ x < cfg.thr) ∧
        ∀ o' ∈ w0.objs, o'.initId = o.initId → o'.lastDet = r := by
    intro o j hj hjp
    obtain ⟨p, hp, rfl⟩ := List.mem_map.mp hjp
    obtain ⟨r, o2, hr, ho2, hout⟩ := r2.outcome p hp
    cases hj.symm.trans ho2
    exact ⟨r, hrest1 r (List.mem_of_getElem? hr), ⟨_, r2.dist _ _ _ _ hr ho2, r2.greedy.below p hp⟩,
      fun o' ho' e => (hout o' ho' e).1⟩
  have hcandkey : ∀ k, k ∈ cands.map (·.initId) ↔
      ∃ (j : Nat) (o : Obj K L D F), j ∈ pairs2.map Prod.snd ∧
        (compared cfg fr.ct fr.before.objs true)[j]? = some o ∧ o.initId = k := by
    intro k
    rw [hc2, List.mem_filterMap]
    constructor
    · rintro ⟨p, hp, e⟩
      obtain ⟨o, ho, e⟩ := Option.map_eq_some_iff.mp e
      exact ⟨p.2, o, List.mem_map_of_mem hp, ho, e⟩
    · rintro ⟨j, o, hj, ho, e⟩
      obtain ⟨p, hp, rfl⟩ := List.mem_map.mp hj
      exact ⟨p, hp, by rw [ho, Option.map_some, e]⟩
  have holdkey : ∀ k, k ∈ olds.map (·.initId) ↔
      (∃ (j : Nat) (o : Obj K L D F), j ∉ pairs1.map Prod.snd ∧
        (compared cfg fr.ct fr.before.objs false)[j]? = some o ∧ o.initId = k) ∨
      ∃ o ∈ fr.before.objs, Waits cfg.reidMax o ∧ o.initId = k := by
    intro k
    rw [ho2, List.map_append, List.mem_append]
    refine or_congr ?_ ?_
    · constructor
      · intro hk
        obtain ⟨o, ho, e⟩ := List.mem_map.mp hk
        obtain ⟨i, hi, hn⟩ := mem_leftOver ho
        exact ⟨i, o, hn, hi, e⟩
      · rintro ⟨j, o, hj, ho, e⟩
        exact e ▸ List.mem_map_of_mem (leftOver_mem ho hj)
    · simp only [List.mem_map, List.mem_filter, decide_eq_true_eq]
      constructor
      · rintro ⟨o, ⟨a, b⟩, c⟩; exact ⟨o, a, b, c⟩
      · rintro ⟨o, a, b, c⟩; exact ⟨o, ⟨a, b⟩, c⟩
  have hcase : ∀ o ∈ fr.before.objs, ∀ o0 ∈ w0.objs, o0.initId = o.initId → o0.lastDet = o.lastDet ∨
      CanMatch cfg.reidMax o ∧ o0.lastDet ∈ given fr ∧ ∃ x, DetDist cfg f fr o0.lastDet o x ∧ x < cfg.thr := by
    intro o ho o0 ho0 hk
    obtain ⟨hs, -⟩ := update_obj_cases hI hup ho ho0 hk.symm
    have hsk : o0.initId = (stepped cfg fr.ct o).initId := by rw [hk, stepped_initId]
    by_cases hpos : 0 ≤ o.hitCounter
    · have hcm : CanMatch cfg.reidMax o := canMatch_of_survivor (cfg := cfg) hs hpos
      cases hb : o.isInit with
      | false =>
        obtain ⟨j, hj⟩ := compared_pos (cfg := cfg) (ct := fr.ct) ho hcm hb
        by_cases hjp : j ∈ pairs1.map Prod.snd
        · obtain ⟨r, hr, ⟨x, hx, hlt⟩, hall⟩ := hm1 hj hjp
          have e := hall o0 ho0 hsk
          exact Or.inr ⟨hcm, e ▸ hr, x, ⟨_, hh0, e ▸ hx⟩, hlt⟩
        · obtain ⟨v, hv⟩ := u1 j _ hj hjp
          have := World.eq_of_mem_of_key hI0.nodup ho0 hv hsk
          left
          rw [this]
          show (stepped cfg fr.ct o).lastDet = _
          simp
      | true =>
        obtain ⟨j, hj⟩ := compared_pos (cfg := cfg) (ct := fr.ct) ho hcm hb
        by_cases hjp : j ∈ pairs2.map Prod.snd
        · obtain ⟨r, hr, ⟨x, hx, hlt⟩, hall⟩ := hm2 hj hjp
          have e := hall o0 ho0 hsk
          exact Or.inr ⟨hcm, e ▸ hr, x, ⟨_, hh1, e ▸ hx⟩, hlt⟩
        · obtain ⟨v, hv⟩ := u2 j _ hj hjp
          have := World.eq_of_mem_of_key hI0.nodup ho0 hv hsk
          left
          rw [this]
          show (stepped cfg fr.ct o).lastDet = _
          simp
    · have hW : Waits cfg.reidMax o := by
        rcases (mem_survivors.mp hs).2 with ⟨_, h⟩ | ⟨h, h'⟩
        · omega
        · refine ⟨h, by omega, fun r hr => ?_⟩
          rcases h' with h' | ⟨r', h', h''⟩
          · rw [hr] at h'; cases h'
          · rw [hr] at h'; cases h'; exact h''
      have := World.eq_of_mem_of_key hI0.nodup ho0 (hwt o ho hW) hsk
      left
      rw [this]
      show (stepped cfg fr.ct o).lastDet = _
      simp
  refine ⟨w0, h2, cands, olds, d, pairs, ⟨act0, hup⟩, hh2, hR, hI0.nodup, hI'.nodup, hcase, fun c hc => ⟨hc1 c hc, ?_⟩,
    fun o ho => ⟨ho1 o ho, ?_⟩, fun hfresh c hc hN => ?_, fun hfresh o ho hO => ?_, hwt, fun o ho hn => ?_, ?_⟩
  · obtain ⟨j, o, hj, hjo, e⟩ := (hcandkey c.initId).mp (List.mem_map_of_mem hc)
    obtain ⟨p, hp, rfl, hcm, hb⟩ := compared_get hjo
    obtain ⟨r, hr, -, hall⟩ := hm2 hjo hj
    refine ⟨?_, p, hp, by rw [← e, stepped_initId], hcm, hb⟩
    rw [hall c (hc1 c hc) e.symm]
    exact hr
  · rcases (holdkey o.initId).mp (List.mem_map_of_mem ho) with ⟨j, q, hj, hjq, e⟩ | ⟨p, hp, hW, e⟩
    · obtain ⟨p, hp, rfl, hcm, hb⟩ := compared_get hjq
      refine ⟨p, hp, by rw [← e, stepped_initId], ?_, Or.inl ⟨hcm, hb⟩⟩
      obtain ⟨v, hv⟩ := u1 j _ hjq hj
      rw [World.eq_of_mem_of_key hI0.nodup (ho1 o ho) hv e.symm]
      show (stepped cfg fr.ct p).lastDet = _
      simp
    · refine ⟨p, hp, e, ?_, Or.inr hW⟩
      rw [World.eq_of_mem_of_key hI0.nodup (ho1 o ho) (hwt p hp hW)
        (e.symm.trans (stepped_initId cfg fr.ct p).symm)]
      show (stepped cfg fr.ct p).lastDet = _
      simp
  · obtain ⟨hl, p, hp, hpk, hcm, hb⟩ := hN
    obtain ⟨j, hj⟩ := compared_pos (cfg := cfg) (ct := fr.ct) hp hcm hb
    by_cases hjp : j ∈ pairs2.map Prod.snd
    · obtain ⟨c', hc', e⟩ := List.mem_map.mp ((hcandkey p.initId).mpr ⟨j, _, hjp, hj, stepped_initId cfg fr.ct p⟩)
      rw [← World.eq_of_mem_of_key hI0.nodup (hc1 c' hc') hc (e.trans hpk)]
      exact hc'
    · exfalso
      obtain ⟨v, hv⟩ := u2 j _ hj hjp
      have := World.eq_of_mem_of_key hI0.nodup hc hv (hpk.symm.trans (stepped_initId cfg fr.ct p).symm)
      apply hfresh p hp
      rw [this] at hl
      have e : (stepped cfg fr.ct p).lastDet = p.lastDet := by simp
      rw [← e]
      exact hl
  · obtain ⟨p, hp, hpk, hl, hO⟩ := hO
    have hkey : p.initId ∈ olds.map (·.initId) := by
      rw [holdkey]
      rcases hO with ⟨hcm, hb⟩ | hW
      · left
        obtain ⟨j, hj⟩ := compared_pos (cfg := cfg) (ct := fr.ct) hp hcm hb
        refine ⟨j, _, fun hjp => ?_, hj, stepped_initId cfg fr.ct p⟩
        obtain ⟨r, hr, -, hall⟩ := hm1 hj hjp
        have := hall o ho (hpk.symm.trans (stepped_initId cfg fr.ct p).symm)
        exact hfresh p hp (by rw [← hl, this]; exact hr)
      · exact Or.inr ⟨p, hp, hW, rfl⟩
    obtain ⟨o', ho', e⟩ := List.mem_map.mp hkey
    rw [← World.eq_of_mem_of_key hI0.nodup (ho1 o' ho') ho (e.trans hpk)]
    exact ho'
  · rw [n1] at ho
    rcases List.mem_append.mp ho with ho | ho
    · exact absurd (n2 o ho) hn
    · refine ⟨hrest2 _ ?_, n4 o ho⟩
      rw [← n3]
      exact List.mem_map_of_mem ho
  · intro o ho hcm hb r hr hnear hothers hunique
    have hr1 : r ∈ rest1 := by
      rw [r1.rest]
      obtain ⟨i, hi⟩ := List.mem_iff_getElem?.mp hr
      refine leftOver_mem hi fun hip => ?_
      obtain ⟨p, hp, rfl⟩ := List.mem_map.mp hip
      obtain ⟨r', q, hr', hq, -⟩ := r1.outcome p hp
      have hrr : r' = r := by
        have := hr'.symm.trans hi
        exact Option.some.inj this
      subst hrr
      obtain ⟨p', hp', rfl, hcm', hb'⟩ := compared_get hq
      refine hothers p' hp' hcm' (fun e => ?_) _ ⟨_, hh0, r1.dist _ _ _ _ hr' hq⟩ (r1.greedy.below p hp)
      rw [World.eq_of_mem_of_key hI.nodup hp' ho e, hb] at hb'
      cases hb'
    obtain ⟨i, hi⟩ := List.mem_iff_getElem?.mp hr1
    obtain ⟨j, hj⟩ := compared_pos (cfg := cfg) (ct := fr.ct) ho hcm hb
    obtain ⟨p, hp, hpij, -⟩ := r2.greedy.stable i (List.getElem?_eq_some_iff.mp hi).1 j
      (List.getElem?_eq_some_iff.mp hj).1 (hnear _ ⟨_, hh1, r2.dist _ _ _ _ hi hj⟩)
    obtain ⟨r', q, hr', hq, hout⟩ := r2.outcome p hp
    obtain ⟨p', hp', rfl, hcm', hb'⟩ := compared_get hq
    have hdd : DetDist cfg f fr r' p' (d2 p.1 p.2) := ⟨_, hh1, r2.dist _ _ _ _ hr' hq⟩
    have hfin : p'.initId = o.initId ∧ r' = r := by
      rcases hpij with e | e
      · rw [e, hi] at hr'
        cases hr'
        refine ⟨?_, rfl⟩
        by_contra hne
        exact hothers p' hp' hcm' hne _ hdd (r2.greedy.below p hp)
      · rw [e, hj] at hq
        have hk : p'.initId = o.initId := by
          have := Option.some.inj hq
          have := congrArg (fun o => o.initId) this
          simpa using this.symm
        refine ⟨hk, ?_⟩
        by_contra hne
        have hpo := World.eq_of_mem_of_key hI.nodup hp' ho hk
        exact hunique r' (hrest1 r' (List.mem_of_getElem? hr')) hne _ (hpo ▸ hdd) (r2.greedy.below p hp)
    obtain ⟨c, hc, e⟩ := List.mem_map.mp ((hcandkey o.initId).mpr
      ⟨p.2, _, List.mem_map_of_mem hp, hq, by rw [stepped_initId]; exact hfin.1⟩)
    refine ⟨c, hc1 c hc, e, ?_⟩
    rw [(hout c (hc1 c hc) (by rw [e, ← hfin.1]; exact (stepped_initId cfg fr.ct p').symm)).1]
    exact hfin.2

theorem ReidCall.after {cfg : Cfg K L D F X} {f g} {fr : Frame K L D F X} {w0 : World K L D F X} {h2 cands olds d pairs}
    (C : ReidCall cfg f g fr w0 h2 cands olds d pairs) {o' : Obj K L D F} (ho' : o' ∈ fr.after.objs) :
    ∃ o ∈ w0.objs, o.initId = o'.initId ∧ ((∃ v, o' = { o with curMin := v }) ∨
      ∃ c x, ObjDist cfg g fr c o x ∧ x < cfg.reidThr ∧ o'.lastDet = c.lastDet) := by
  have hk : o'.initId ∈ fr.after.objs.map (·.initId) := List.mem_map_of_mem ho'
  rw [C.round.keys] at hk
  obtain ⟨hk, hnc⟩ := List.mem_filter.mp hk
  rw [decide_eq_true_eq] at hnc
  obtain ⟨o, ho, e⟩ := List.mem_map.mp hk
  refine ⟨o, ho, e, ?_⟩
  by_cases hm : o.initId ∈ pairs.filterMap (fun p => olds[p.2]?.map (·.initId))
  · right
    obtain ⟨p, hp, hpe⟩ := List.mem_filterMap.mp hm
    obtain ⟨c, q, past, hc, hq, hR, -⟩ := C.round.merged p hp
    rw [hq, Option.map_some, Option.some.injEq] at hpe
    obtain ⟨hqw, hqO⟩ := C.oldsOld q (List.mem_of_getElem? hq)
    obtain ⟨hcw, hcN⟩ := C.candsNew c (List.mem_of_getElem? hc)
    have : q = o := World.eq_of_mem_of_key C.nodup hqw ho hpe
    subst this
    obtain ⟨act0, hup⟩ := C.plain
    refine ⟨c, d p.1 p.2, ⟨⟨w0, act0, hup, hcw, ho⟩, hcN, hqO, h2, C.heap, C.round.dist _ _ _ _ hc hq⟩,
      C.round.greedy.below p hp, ?_⟩
    rw [← World.eq_of_mem_of_key C.nodupAfter hR ho' e]
    rfl
  · left
    obtain ⟨v, hv⟩ := C.round.others o ho (by rw [e]; exact hnc) hm
    exact ⟨v, (World.eq_of_mem_of_key C.nodupAfter hv ho' e).symm⟩

/-- The distances of this call confuse no targets; `truth r` is the target of the detection `r`. A distance of a
detection and an object below the threshold, or a ReID distance of a new and an old object below the ReID threshold,
is one of the same target. Nothing is asked of distances above the thresholds. -/
structure ConfusesNone (cfg : Cfg K L D F X) (f : Det K L X → ObjView K L D F X → Option (Option D))
    (g : ObjView K L D F X → ObjView K L D F X → Option (Option D)) (truth : Ref → T)
    (fr : Frame K L D F X) : Prop where
  dets : ∀ r ∈ given fr, ∀ o ∈ fr.before.objs, CanMatch cfg.reidMax o → ∀ x, DetDist cfg f fr r o x → x < cfg.thr →
    truth r = truth o.lastDet
  reid : ∀ c o x, ObjDist cfg g fr c o x → x < cfg.reidThr → truth c.lastDet = truth o.lastDet

theorem confusesNone_step {cfg : Cfg K L D F X} {f} (hf : cfg.dist = .scalar f) {g} (hg : cfg.reid = some g)
    {truth : Ref → T} {fr : Frame K L D F X} (hw : Reachable cfg fr.before) {act : List (Obj K L D F)}
    (h : update cfg fr.before fr.dets fr.period fr.ct = (fr.after, .ok act)) (hT : ConfusesNone cfg f g truth fr) :
    ∀ o ∈ fr.before.objs, ∀ o' ∈ fr.after.objs, o'.initId = o.initId → truth o'.lastDet = truth o.lastDet := by
  intro o ho o' ho' hk
  obtain ⟨w0, h2, cands, olds, d, pairs, C⟩ := reid_call hf hg hw h
  obtain ⟨o0, ho0, e, hcase⟩ := C.after ho'
  have h0 : truth o0.lastDet = truth o.lastDet := by
    rcases C.cases o ho o0 ho0 (e.trans hk) with h | ⟨hc, hr, x, hx, hlt⟩
    · rw [h]
    · exact hT.dets _ hr o ho hc x hx hlt
  rcases hcase with ⟨v, rfl⟩ | ⟨c, x, hx, hlt, hl⟩
  · exact h0
  · rw [hl, hT.reid c o0 x hx hlt, h0]

theorem confusesNone_from {cfg : Cfg K L D F X} {f} (hf : cfg.dist = .scalar f) {g} (hg : cfg.reid = some g)
    {truth : Ref → T} {w1 w : World K L D F X} (hw : Reachable cfg w1) {fs : List (Frame K L D F X)}
    (ht : Trace cfg w1 fs w) (hT : ∀ fr ∈ fs, Succeeds fr ∧ ConfusesNone cfg f g truth fr) :
    ∀ o ∈ w1.objs, ∀ o' ∈ w.objs, o.initId = o'.initId → truth o'.lastDet = truth o.lastDet := by
  induction ht with
  | nil =>
    intro o ho o' ho' hk
    rw [World.eq_of_mem_of_key hw.inv.nodup ho ho' hk]
  | env heap g _ he ih => exact ih hT
  | @call fs w2 dets period ct ht ih =>
    have ih2 := ih fun fr hfr => hT fr (List.mem_append_left _ hfr)
    obtain ⟨⟨act, hact⟩, hA⟩ := hT _ (List.mem_append_right _ (List.mem_singleton.mpr rfl))
    have hr2 := hw.trans ht.reaches
    have s2 := confusesNone_step hf hg hr2 (Prod.ext rfl hact) hA
    intro o ho o' ho' hk
    rcases (update_inv (cfg := cfg) hr2.inv dets period ct).2.origin o' ho' with hlt | ⟨p, hp, e, _⟩
    · have h1 := (hw.inv.bounded o ho).2
      have h2 := (ht.reaches.inv hw.inv).2.initCount
      omega
    · rw [s2 p hp o' ho' e.symm, ih2 o ho p hp (hk.trans e.symm)]

/-- **C98** With ReID: if no distance below its threshold is one of different targets, then an object and so an id
never changes its target: all detections ever matched to an object, or taken over by it through ReID, or matched to
objects with one id, are of one target. Detections may be missing, doubled or spurious, and distances of one target
may be above the thresholds. -/
theorem C98_never_switched {cfg : Cfg K L D F X} {f} (hf : cfg.dist = .scalar f) {g} (hg : cfg.reid = some g)
    {truth : Ref → T} {w0 w1 w2 : World K L D F X} (h0 : w0.Initial) {fs gs : List (Frame K L D F X)}
    (ht : Trace cfg w0 fs w1) (ht' : Trace cfg w1 gs w2)
    (hT : ∀ fr ∈ gs, Succeeds fr ∧ ConfusesNone cfg f g truth fr)
    {o1 o2 : Obj K L D F} (ho1 : o1 ∈ w1.objs) (ho2 : o2 ∈ w2.objs)
    (hk : o1.initId = o2.initId ∨ o1.id ≠ none ∧ o1.id = o2.id) : truth o1.lastDet = truth o2.lastDet := by
  have hr : Reachable cfg w1 := ⟨w0, h0, ht.reaches⟩
  have hk : o1.initId = o2.initId := by
    rcases hk with hk | ⟨hn, hk⟩
    · exact hk
    · obtain ⟨i, hi⟩ := Option.ne_none_iff_exists'.mp hn
      exact (C06_ids_unique hr ht'.reaches ho1 ho2 hi (hk ▸ hi)).1
  exact (confusesNone_from hf hg hr ht' hT o1 ho1 o2 ho2 hk).symm

/-- The distances of this call tell targets apart, those of ReID too. -/
structure TellsAll (cfg : Cfg K L D F X) (f : Det K L X → ObjView K L D F X → Option (Option D))
    (g : ObjView K L D F X → ObjView K L D F X → Option (Option D)) (truth : Ref → T)
    (fr : Frame K L D F X) : Prop extends TellsApart cfg f truth fr where
  reid : ∀ c o x, ObjDist cfg g fr c o x → (x < cfg.reidThr ↔ truth c.lastDet = truth o.lastDet)

theorem TellsAll.confusesNone {cfg : Cfg K L D F X} {f g} {truth : Ref → T} {fr : Frame K L D F X}
    (h : TellsAll cfg f g truth fr) : ConfusesNone cfg f g truth fr :=
  ⟨fun r hr o ho hc x ⟨h', hh, hx⟩ hlt => (h.told h' hh r hr o ho hc x hx).mp hlt,
    fun c o x hx hlt => (h.reid c o x hx).mp hlt⟩

/-- one call: a new and an old object of one target are merged -/
theorem recognized {cfg : Cfg K L D F X} {f g} {truth : Ref → T} {fr : Frame K L D F X} {w0 : World K L D F X}
    {h2 cands olds d pairs} (C : ReidCall cfg f g fr w0 h2 cands olds d pairs) (hT : TellsAll cfg f g truth fr)
    {c o : Obj K L D F} (hc : c ∈ w0.objs) (hcN : NewHere cfg fr c) (ho : o ∈ w0.objs) (hoO : OldHere cfg fr o)
    (he : truth c.lastDet = truth o.lastDet)
    (huc : ∀ c' ∈ w0.objs, NewHere cfg fr c' → truth c'.lastDet = truth o.lastDet → c'.initId = c.initId)
    (huo : ∀ o' ∈ w0.objs, OldHere cfg fr o' → truth o'.lastDet = truth c.lastDet → o'.initId = o.initId) :
    (∃ past, Recognized o c past ∈ fr.after.objs ∧ ∀ r ∈ past, r ∈ o.past ∨ r ∈ c.past) ∧
      c.initId ∉ fr.after.objs.map (·.initId) := by
  obtain ⟨act0, hup⟩ := C.plain
  obtain ⟨i, hi⟩ := List.mem_iff_getElem?.mp (C.isCand hT.fresh c hc hcN)
  obtain ⟨j, hj⟩ := List.mem_iff_getElem?.mp (C.isOld hT.fresh o ho hoO)
  have hlt : d i j < cfg.reidThr :=
    (hT.reid c o _ ⟨⟨w0, act0, hup, hc, ho⟩, hcN, hoO, h2, C.heap, C.round.dist _ _ _ _ hi hj⟩).mpr he
  obtain ⟨p, hp, hpij, -⟩ := C.round.greedy.stable i (List.getElem?_eq_some_iff.mp hi).1 j
    (List.getElem?_eq_some_iff.mp hj).1 hlt
  obtain ⟨c', o', past, hc', ho', hR, hpast⟩ := C.round.merged p hp
  obtain ⟨hcw, hcN'⟩ := C.candsNew c' (List.mem_of_getElem? hc')
  obtain ⟨how, hoO'⟩ := C.oldsOld o' (List.mem_of_getElem? ho')
  have he' : truth c'.lastDet = truth o'.lastDet :=
    (hT.reid c' o' _ ⟨⟨w0, act0, hup, hcw, how⟩, hcN', hoO', h2, C.heap, C.round.dist _ _ _ _ hc' ho'⟩).mp
      (C.round.greedy.below p hp)
  have hboth : c' = c ∧ o' = o := by
    rcases hpij with e | e
    · rw [e, hi] at hc'
      cases hc'
      exact ⟨rfl, World.eq_of_mem_of_key C.nodup how ho (huo o' how hoO' he'.symm)⟩
    · rw [e, hj] at ho'
      cases ho'
      exact ⟨World.eq_of_mem_of_key C.nodup hcw hc (huc c' hcw hcN' he'), rfl⟩
  obtain ⟨rfl, rfl⟩ := hboth
  refine ⟨⟨past, hR, hpast⟩, fun hk => ?_⟩
  rw [C.round.keys, List.mem_filter, decide_eq_true_eq] at hk
  exact hk.2 (List.mem_filterMap.mpr ⟨p, hp, by rw [hc']; rfl⟩)

/-- **C98** ... and if in one call they also tell targets apart, a new object of a target that has one old object is
recognized: if the new object `c` and the old object `o` (in the state after the same call without ReID, which leads to
`w0`) are the only new and the only old object of their target, then `o` takes over `c`, and `c` disappears. -/
theorem C98_recognized {cfg : Cfg K L D F X} {f} (hf : cfg.dist = .scalar f) {g} (hg : cfg.reid = some g)
    {truth : Ref → T} {fr : Frame K L D F X} (hw : Reachable cfg fr.before) {act : List (Obj K L D F)}
    (h : update cfg fr.before fr.dets fr.period fr.ct = (fr.after, .ok act)) (hT : TellsAll cfg f g truth fr)
    {w0 : World K L D F X} {act0 : List (Obj K L D F)}
    (hup : update { cfg with reid := none } fr.before fr.dets fr.period fr.ct = (w0, .ok act0))
    {c o : Obj K L D F} (hc : c ∈ w0.objs) (hcN : NewHere cfg fr c) (ho : o ∈ w0.objs) (hoO : OldHere cfg fr o)
    (he : truth c.lastDet = truth o.lastDet)
    (huc : ∀ c' ∈ w0.objs, NewHere cfg fr c' → truth c'.lastDet = truth o.lastDet → c'.initId = c.initId)
    (huo : ∀ o' ∈ w0.objs, OldHere cfg fr o' → truth o'.lastDet = truth c.lastDet → o'.initId = o.initId) :
    (∃ past, Recognized o c past ∈ fr.after.objs ∧ ∀ r ∈ past, r ∈ o.past ∨ r ∈ c.past) ∧
      c.initId ∉ fr.after.objs.map (·.initId) := by
  obtain ⟨w0', h2, cands, olds, d, pairs, C⟩ := reid_call hf hg hw h
  obtain ⟨act0', hup'⟩ := C.plain
  have : w0' = w0 := congrArg Prod.fst (hup'.symm.trans hup)
  subst this
  exact recognized C hT hc hcN ho hoO he huc huo

theorem _root_.Norfair.Trace.nil_objs {cfg : Cfg K L D F X} {a b : World K L D F X} (h : Trace cfg a [] b) :
    b.objs = a.objs := by
  generalize hl : ([] : List (Frame K L D F X)) = l at h
  induction h with
  | nil => rfl
  | env heap g _ he ih => exact ih hl
  | call dets period ct ht ih => simp at hl

/-- two objects do not have one new detection -/
theorem one_owner {cfg : Cfg K L D F X} {fr : Frame K L D F X} (hw : Reachable cfg fr.before)
    {act : List (Obj K L D F)} (h : update cfg fr.before fr.dets fr.period fr.ct = (fr.after, .ok act))
    (hfresh : ∀ o ∈ fr.before.objs, o.lastDet ∉ given fr) (hnd : (given fr).Nodup) {r : Ref} (hr : r ∈ given fr) :
    ∀ a ∈ fr.after.objs, ∀ b ∈ fr.after.objs, a.lastDet = r → b.lastDet = r → a.initId = b.initId := by
  intro a ha b hb ea eb
  unfold given at hr hnd hfresh
  cases hd : fr.dets with
  | none => rw [hd] at hr; cases hr
  | some l =>
    rw [hd] at h hr hnd hfresh
    obtain ⟨n, _, _, hu⟩ := C10_unique_owner hw h hfresh hnd hr
    rw [hu a ha ea, hu b hb eb]

/-- one call in which the only, dead object of a target sees a detection of it: a new object is started -/
theorem starts_new {cfg : Cfg K L D F X} {f} (hf : cfg.dist = .scalar f) {g} (hg : cfg.reid = some g)
    {truth : Ref → T} {fr : Frame K L D F X} (hw : Reachable cfg fr.before) {act : List (Obj K L D F)}
    (h : update cfg fr.before fr.dets fr.period fr.ct = (fr.after, .ok act)) (hT : TellsAll cfg f g truth fr)
    {o : Obj K L D F} (ho : o ∈ fr.before.objs) (hW : Waits cfg.reidMax o)
    (hone : ∀ p ∈ fr.before.objs, truth p.lastDet = truth o.lastDet → p.initId = o.initId)
    {r : Ref} (hr : r ∈ given fr) (hrt : truth r = truth o.lastDet) :
    (∃ v, { stepped cfg fr.ct o with curMin := v } ∈ fr.after.objs) ∧
    ∃ n ∈ fr.after.objs, n.lastDet = r ∧ fr.before.initCount < n.initId ∧ n.hitCounter = fr.period ∧
      n.reidHitCounter = none ∧ n.isInit = decide (fr.period ≤ cfg.initDelay) ∧
      ∀ p ∈ fr.after.objs, truth p.lastDet = truth o.lastDet → p.initId = o.initId ∨ p.initId = n.initId := by
  have hI := hw.inv
  obtain ⟨w0, h2, cands, olds, d, pairs, C⟩ := reid_call hf hg hw h
  have hstep := confusesNone_step hf hg hw h hT.confusesNone
  have hnotcan : ¬ CanMatch cfg.reidMax o := fun hc => by have := hc.1; have := hW.2.1; omega
  -- no new object is of this target
  have hnonew : ∀ c ∈ w0.objs, NewHere cfg fr c → truth c.lastDet ≠ truth o.lastDet := by
    intro c hc ⟨_, p, hp, hpk, hcm, _⟩ he
    have hpt : truth p.lastDet = truth o.lastDet := by
      rcases C.cases p hp c hc hpk.symm with h | ⟨hc', hr', x, hx, hlt⟩
      · rw [← h]; exact he
      · rw [← hT.confusesNone.dets _ hr' p hp hc' x hx hlt]; exact he
    exact hnotcan (World.eq_of_mem_of_key hI.nodup hp ho (hone p hp hpt) ▸ hcm)
  have hs0 := C.waits o ho hW
  have hafter : ∀ o' ∈ fr.after.objs, o'.initId = o.initId → ∃ v, o' = { stepped cfg fr.ct o with curMin := v } := by
    intro o' ho' hk
    obtain ⟨o0, ho0, e, hcase⟩ := C.after ho'
    have : o0 = stepped cfg fr.ct o :=
      World.eq_of_mem_of_key C.nodup ho0 hs0 ((e.trans hk).trans (stepped_initId cfg fr.ct o).symm)
    subst this
    rcases hcase with h | ⟨c, x, hx, hlt, _⟩
    · exact h
    · exfalso
      have hcc : c ∈ w0.objs := by
        obtain ⟨⟨w0', act0', hup', hcw, _⟩, _⟩ := hx
        obtain ⟨act0, hup⟩ := C.plain
        have : w0' = w0 := congrArg Prod.fst (hup'.symm.trans hup)
        exact this ▸ hcw
      refine hnonew c hcc hx.2.1 ?_
      rw [(hT.reid c _ x hx).mp hlt]
      simp
  have hnew : ∀ p ∈ fr.after.objs, p.initId ∉ fr.before.objs.map (·.initId) → p.lastDet ∈ given fr ∧
      fr.before.initCount < p.initId ∧ p.hitCounter = fr.period ∧ p.reidHitCounter = none ∧
      p.isInit = decide (fr.period ≤ cfg.initDelay) := by
    intro p hp hk
    obtain ⟨o0, ho0, e, hcase⟩ := C.after hp
    have hn := C.news o0 ho0 (by rw [e]; exact hk)
    rcases hcase with ⟨v, rfl⟩ | ⟨c, x, hx, _⟩
    · exact hn
    · obtain ⟨q, hq, hqk, _⟩ := hx.2.2.1
      exact absurd (List.mem_map.mpr ⟨q, hq, hqk.trans e⟩) hk
  constructor
  · have hk : o.initId ∈ fr.after.objs.map (·.initId) := by
      rw [C.round.keys, List.mem_filter, decide_eq_true_eq]
      refine ⟨List.mem_map.mpr ⟨_, hs0, stepped_initId cfg fr.ct o⟩, fun hk => ?_⟩
      obtain ⟨p, _, hpe⟩ := List.mem_filterMap.mp hk
      obtain ⟨c, hc, e⟩ := Option.map_eq_some_iff.mp hpe
      obtain ⟨_, _, q, hq, hqk, hqc, _⟩ := C.candsNew c (List.mem_of_getElem? hc)
      exact hnotcan (World.eq_of_mem_of_key hI.nodup hq ho (hqk.trans e) ▸ hqc)
    obtain ⟨o', ho', e⟩ := List.mem_map.mp hk
    obtain ⟨v, rfl⟩ := hafter o' ho' e
    exact ⟨v, ho'⟩
  · obtain ⟨n, hn, hnl, hnu⟩ : ∃ n ∈ fr.after.objs, n.lastDet = r ∧ ∀ p ∈ fr.after.objs, p.lastDet = r → p = n := by
      have hr0 := hr
      have hn := hT.nodup
      have hfr := hT.fresh
      unfold given at hr0 hn hfr
      cases hd : fr.dets with
      | none => rw [hd] at hr0; cases hr0
      | some l =>
        rw [hd] at h hr0 hn hfr
        exact C10_unique_owner hw h hfr hn hr0
    have hnk : n.initId ∉ fr.before.objs.map (·.initId) := by
      intro hk
      obtain ⟨p, hp, e⟩ := List.mem_map.mp hk
      have hpt : truth p.lastDet = truth o.lastDet := by rw [← hstep p hp n hn e.symm, hnl, hrt]
      obtain ⟨v, rfl⟩ := hafter n hn (e.symm.trans (hone p hp hpt))
      apply hT.fresh o ho
      have : (stepped cfg fr.ct o).lastDet = r := hnl
      rw [stepped_lastDet] at this
      rw [this]
      exact hr
    obtain ⟨_, a1, a2, a3, a4⟩ := hnew n hn hnk
    refine ⟨n, hn, hnl, a1, a2, a3, a4, fun p hp hpt => ?_⟩
    by_cases hpk : p.initId ∈ fr.before.objs.map (·.initId)
    · left
      obtain ⟨q, hq, e⟩ := List.mem_map.mp hpk
      rw [← e]
      exact hone q hq ((hstep q hq p hp e.symm).symm.trans hpt)
    · right
      have := hT.once _ (hnew p hp hpk).1 r hr (hpt.trans hrt.symm)
      rw [hnu p hp this]

/-- **C98** ... so a target that comes back gets its id back. Let a dead object `o`, kept for ReID for at least two
more calls, be the only object of its target (of which there may have been any detections before, in any calls), and
let the target be detected in two calls in a row, with distances that tell targets apart. The first call starts a new
object; the second recognizes it: then `o`, with its id, has the detection of the second call and is the only object
of the target, the new object is gone, and `o` is returned if it was ever returned (had an id). -/
theorem C98_comes_back {cfg : Cfg K L D F X} {f} (hf : cfg.dist = .scalar f) {g} (hg : cfg.reid = some g)
    {truth : Ref → T} {w0 w1 w2 : World K L D F X} (h0 : w0.Initial) {fs : List (Frame K L D F X)}
    {fr1 fr2 : Frame K L D F X} (ht : Trace cfg w0 fs w1) (ht' : Trace cfg w1 [fr1, fr2] w2)
    {act1 act2 : List (Obj K L D F)} (hs1 : fr1.out = .ok act1) (hs2 : fr2.out = .ok act2)
    (hT1 : TellsAll cfg f g truth fr1) (hT2 : TellsAll cfg f g truth fr2)
    (hp0 : 0 ≤ fr1.period) (hpd : fr1.period ≤ cfg.initDelay)
    {o : Obj K L D F} (ho : o ∈ w1.objs) (hW : Waits cfg.reidMax o) {rc : Int} (hrc : o.reidHitCounter = some rc)
    (hrc1 : 1 ≤ rc) (hone : ∀ p ∈ w1.objs, truth p.lastDet = truth o.lastDet → p.initId = o.initId)
    {r1 r2 : Ref} (hr1 : r1 ∈ given fr1) (hr2 : r2 ∈ given fr2) (hrt1 : truth r1 = truth o.lastDet)
    (hrt2 : truth r2 = truth o.lastDet) :
    (∃ n ∈ fr1.after.objs, w1.initCount < n.initId ∧ n.lastDet = r1 ∧
      n.initId ∉ fr2.after.objs.map (·.initId)) ∧
    ∃ q ∈ fr2.after.objs, q.initId = o.initId ∧ q.id = o.id ∧ q.lastDet = r2 ∧ q.hitCounter = 2 * o.initialPeriod ∧
      q.reidHitCounter = none ∧ (∀ p ∈ fr2.after.objs, truth p.lastDet = truth o.lastDet → p = q) ∧
      (o.isInit = false → 0 ≤ o.initialPeriod → q ∈ act2) := by
  have hr : Reachable cfg w1 := ⟨w0, h0, ht.reaches⟩
  obtain ⟨ta, hup2⟩ := Trace.last (fs := [fr1]) ht'
  obtain ⟨tb, hup1⟩ := Trace.last (fs := []) ta
  rw [hs1] at hup1
  rw [hs2] at hup2
  have hb1 : Reachable cfg fr1.before := hr.trans tb.reaches
  have hb2 : Reachable cfg fr2.before := hr.trans ta.reaches
  have hobj1 : fr1.before.objs = w1.objs := tb.nil_objs
  have hinit1 : w1.initCount ≤ fr1.before.initCount := (tb.reaches.inv hr.inv).2.initCount
  have hobj2 : fr2.before.objs = fr1.after.objs := by
    generalize hl : [fr1] = l at ta
    clear hT2 hr2 hs2 hup2 hb2 tb ht'
    generalize fr2.before = w at ta
    induction ta with
    | nil => cases hl
    | env heap g _ he ih => exact ih hl
    | call dets period ct ht ih =>
      have := List.append_inj' (s₁ := []) (show [] ++ [fr1] = _ from hl) rfl
      obtain ⟨rfl, e⟩ := this
      simp only [List.cons.injEq, and_true] at e
      rw [e]
  obtain ⟨⟨v, hA⟩, n, hn, hnl, hni, hnc, hnr, hnI, honly⟩ := starts_new hf hg hb1 hup1 hT1 (hobj1 ▸ ho) hW
    (by rw [hobj1]; exact hone) hr1 hrt1
  rw [← hobj2] at hA hn honly
  set A : Obj K L D F := { stepped cfg fr1.ct o with curMin := v } with hAdef
  have hAk : A.initId = o.initId := stepped_initId cfg fr1.ct o
  have hAl : A.lastDet = o.lastDet := stepped_lastDet cfg fr1.ct o
  have hAh : A.hitCounter = o.hitCounter - 1 := stepped_hitCounter cfg fr1.ct o
  have hAW : Waits cfg.reidMax A := by
    have hAr : A.reidHitCounter = some (rc - 1) := by
      obtain ⟨x, hx⟩ := stepped_eq cfg fr1.ct o
      show (stepped cfg fr1.ct o).reidHitCounter = _
      rw [hx]
      show (o.trackerStep cfg).reidHitCounter = _
      unfold Obj.trackerStep
      rw [hrc]
    refine ⟨hW.1, ?_, fun r' hr' => ?_⟩
    · have := hW.2.1
      omega
    · rw [hAr, Option.some.injEq] at hr'
      omega
  have hnotA : ¬ CanMatch cfg.reidMax A := fun hc => by have := hc.1; have := hAW.2.1; omega
  have hnC : CanMatch cfg.reidMax n := ⟨by omega, Or.inr fun r' hr' => by rw [hnr] at hr'; cases hr'⟩
  have hnInit : n.isInit = true := by rw [hnI, decide_eq_true_eq]; exact hpd
  have hnt : truth n.lastDet = truth o.lastDet := by rw [hnl, hrt1]
  have hI2 := hb2.inv
  have hcan : ∀ p ∈ fr2.before.objs, truth p.lastDet = truth o.lastDet → p = A ∨ p = n := by
    intro p hp hpt
    rcases honly p hp hpt with e | e
    · exact Or.inl (World.eq_of_mem_of_key hI2.nodup hp hA (e.trans hAk.symm))
    · exact Or.inr (World.eq_of_mem_of_key hI2.nodup hp hn e)
  obtain ⟨u0, h2, cands, olds, d, pairs, C⟩ := reid_call hf hg hb2 hup2
  have htold : ∀ r' ∈ given fr2, ∀ p ∈ fr2.before.objs, CanMatch cfg.reidMax p → ∀ x, DetDist cfg f fr2 r' p x →
      (x < cfg.thr ↔ truth r' = truth p.lastDet) :=
    fun r' hr' p hp hc x ⟨h', hh, hx⟩ => hT2.told h' hh r' hr' p hp hc x hx
  obtain ⟨c, hc, hck, hcl⟩ := C.hit n hn hnC hnInit r2 hr2
    (fun x hx => (htold r2 hr2 n hn hnC x hx).mpr (hrt2.trans hnt.symm))
    (fun p hp hpc hne x hx hlt => by
      rcases hcan p hp (((htold r2 hr2 p hp hpc x hx).mp hlt).symm.trans hrt2) with rfl | rfl
      · exact hnotA hpc
      · exact hne rfl)
    (fun r' hr' hne x hx hlt => hne (hT2.once r' hr' r2 hr2
      (((htold r' hr' n hn hnC x hx).mp hlt).trans (hnt.trans hrt2.symm))))
  have hcN : NewHere cfg fr2 c := ⟨hcl ▸ hr2, n, hn, hck.symm, hnC, hnInit⟩
  have hs0 := C.waits A hA hAW
  have hsO : OldHere cfg fr2 (stepped cfg fr2.ct A) :=
    ⟨A, hA, (stepped_initId cfg fr2.ct A).symm, stepped_lastDet cfg fr2.ct A, Or.inr hAW⟩
  have hsl : (stepped cfg fr2.ct A).lastDet = o.lastDet := by rw [stepped_lastDet]; exact hAl
  have hct : truth c.lastDet = truth o.lastDet := by rw [hcl, hrt2]
  have huc : ∀ c' ∈ u0.objs, NewHere cfg fr2 c' → truth c'.lastDet = truth (stepped cfg fr2.ct A).lastDet →
      c'.initId = c.initId := by
    intro c' hc' ⟨_, p, hp, hpk, hcm, _⟩ he
    rw [hsl] at he
    have hpt : truth p.lastDet = truth o.lastDet := by
      rcases C.cases p hp c' hc' hpk.symm with h | ⟨hc', hr', x, hx, hlt⟩
      · rw [← h]; exact he
      · rw [← hT2.confusesNone.dets _ hr' p hp hc' x hx hlt]; exact he
    rcases hcan p hp hpt with rfl | rfl
    · exact absurd hcm hnotA
    · rw [← hpk, hck]
  have huo : ∀ o' ∈ u0.objs, OldHere cfg fr2 o' → truth o'.lastDet = truth c.lastDet →
      o'.initId = (stepped cfg fr2.ct A).initId := by
    intro o' ho' ⟨p, hp, hpk, hpl, hcase⟩ he
    rw [hpl, hct] at he
    rcases hcan p hp he with rfl | rfl
    · exact hpk.symm.trans (stepped_initId cfg fr2.ct _).symm
    · exfalso
      rcases hcase with ⟨_, hb⟩ | hW'
      · rw [hnInit] at hb; cases hb
      · have := hW'.2.1
        omega
  obtain ⟨⟨past, hR, _⟩, hgone⟩ := recognized C hT2 hc hcN hs0 hsO (hct.trans (by rw [hsl])) huc huo
  have hI3 : Inv fr2.after := by
    have := (update_inv (cfg := cfg) hI2 fr2.dets fr2.period fr2.ct).1
    rw [hup2] at this; exact this
  have hqk : (Recognized (stepped cfg fr2.ct A) c past).initId = o.initId := (stepped_initId cfg fr2.ct A).trans hAk
  have hip : (stepped cfg fr2.ct A).initialPeriod = o.initialPeriod := by
    rw [stepped_initialPeriod]
    exact stepped_initialPeriod cfg fr1.ct o
  refine ⟨⟨n, hobj2 ▸ hn, by omega, hnl, hck ▸ hgone⟩, _, hR, hqk, ?_, hcl, ?_, rfl, ?_, ?_⟩
  · show (stepped cfg fr2.ct A).id = _
    rw [stepped_id]
    exact stepped_id cfg fr1.ct o
  · show 2 * (stepped cfg fr2.ct A).initialPeriod = _
    rw [hip]
  · intro p hp hpt
    apply World.eq_of_mem_of_key hI3.nodup hp hR
    rw [hqk]
    by_cases hpk : p.initId ∈ fr2.before.objs.map (·.initId)
    · obtain ⟨q, hq, e⟩ := List.mem_map.mp hpk
      have hqt := (confusesNone_step hf hg hb2 hup2 hT2.confusesNone q hq p hp e.symm).symm.trans hpt
      rcases hcan q hq hqt with rfl | rfl
      · rw [← e, hAk]
      · exfalso
        apply hgone
        rw [hck, e]
        exact List.mem_map_of_mem hp
    · exfalso
      obtain ⟨o0, ho0, e, hcase⟩ := C.after hp
      have hnw := C.news o0 ho0 (by rw [e]; exact hpk)
      rcases hcase with ⟨v', rfl⟩ | ⟨c', x, hx, _⟩
      · have e2 : o0.lastDet = r2 := hT2.once _ hnw.1 r2 hr2 (hpt.trans hrt2.symm)
        have e1 := (one_owner hb2 hup2 hT2.fresh hT2.nodup hr2) _ hR _ hp hcl e2
        apply hpk
        rw [← e1]
        show (stepped cfg fr2.ct A).initId ∈ _
        rw [stepped_initId]
        exact List.mem_map_of_mem hA
      · obtain ⟨q, hq, hqk', _⟩ := hx.2.2.1
        exact hpk (List.mem_map.mpr ⟨q, hq, hqk'.trans e⟩)
  · intro hi h0
    rw [(update_ok hI2.nodup hup2).1, mem_activeObjects]
    refine ⟨hR, ?_, ?_⟩
    · show (stepped cfg fr2.ct A).isInit = _
      rw [stepped_isInit]
      exact (stepped_isInit cfg fr1.ct o).trans hi
    · show 0 ≤ 2 * (stepped cfg fr2.ct A).initialPeriod
      rw [hip]
      omega

end

/-- what is to be checked of a call of the tracker of the examples with ReID, without a transformation -/
theorem toy_tells_all {truth : Ref → Nat} {w w' : TWorld} {l : List Ref} {p : Int} {out}
    (h1 : l.Nodup) (h2 : ∀ r ∈ l, ∀ r' ∈ l, truth r = truth r' → r = r') (h3 : ∀ o ∈ w.objs, o.lastDet ∉ l)
    (h4 : ∀ r ∈ l, ∀ o ∈ w.objs, 0 ≤ o.hitCounter → (w.heap r).label = o.label ∧
      ((Toy.dist (w.heap r) (((o.trackerStep Toy.cfg).updateCT none).view w.heap)).getD none).elim false
        (fun v => decide (v < 10) == decide (truth r = truth o.lastDet)) = true)
    (h5 : ∀ c ∈ (update { rcfg with reid := none } w (some l) p none).1.objs,
      ∀ o ∈ (update { rcfg with reid := none } w (some l) p none).1.objs, c.label = o.label ∧
      ((Toy.reidDist (c.view w.heap) (o.view w.heap)).getD none).elim false
        (fun v => decide (v < 100) == decide (truth c.lastDet = truth o.lastDet)) = true) :
    TellsAll rcfg Toy.dist Toy.reidDist truth ⟨some l, p, none, w, w', out⟩ := by
  refine ⟨⟨h1, h2, h3, fun h hh r hr o ho hc x hx => ?_⟩, ?_⟩
  · obtain ⟨e1, e2⟩ := h4 r hr o ho hc.1
    obtain ⟨a, ha⟩ := hh r
    have hst : startHeap w (some l) none r = w.heap r := rfl
    have hd : Toy.dist (h r) (((o.trackerStep rcfg).updateCT none).view h) =
        Toy.dist (w.heap r) (((o.trackerStep Toy.cfg).updateCT none).view w.heap) := by
      rw [ha]; rfl
    rcases hx with ⟨_, hx⟩ | ⟨hx, _⟩
    · rw [hd] at hx
      rw [hx] at e2
      simp only [Option.getD_some, Option.elim_some, beq_iff_eq] at e2
      exact decide_eq_decide.mp e2
    · exfalso
      apply hx
      rw [ha]
      exact e1
  · rintro c o x ⟨⟨u, act, hu, hc, ho⟩, _, _, h, _, hx⟩
    dsimp only at hu
    rw [hu] at h5
    obtain ⟨e1, e2⟩ := h5 c hc o ho
    have hd : Toy.reidDist (c.view h) (o.view h) = Toy.reidDist (c.view w.heap) (o.view w.heap) := rfl
    rcases hx with ⟨_, hx⟩ | ⟨hx, _⟩
    · rw [hd] at hx
      rw [hx] at e2
      simp only [Option.getD_some, Option.elim_some, beq_iff_eq] at e2
      exact decide_eq_decide.mp e2
    · exact absurd e1 hx

/-- Target 2 is always seen; target 0 is seen twice, missed in four calls and then seen twice elsewhere -/
def returns : List (List Ref) := [[0, 200], [1, 201], [202], [203], [204], [205], [50, 206], [51, 207]]

theorem returns_told : ∀ fr ∈ runFrames rcfg w0 returns, Succeeds fr ∧ TellsAll rcfg Toy.dist Toy.reidDist hundreds fr := by
  simp only [returns, runFrames, List.forall_mem_cons, List.not_mem_nil, false_imp_iff, implies_true, and_true]
  refine ⟨⟨?_, toy_tells_all ?_ ?_ ?_ ?_ ?_⟩, ⟨?_, toy_tells_all ?_ ?_ ?_ ?_ ?_⟩, ⟨?_, toy_tells_all ?_ ?_ ?_ ?_ ?_⟩,
    ⟨?_, toy_tells_all ?_ ?_ ?_ ?_ ?_⟩, ⟨?_, toy_tells_all ?_ ?_ ?_ ?_ ?_⟩, ⟨?_, toy_tells_all ?_ ?_ ?_ ?_ ?_⟩,
    ⟨?_, toy_tells_all ?_ ?_ ?_ ?_ ?_⟩, ⟨?_, toy_tells_all ?_ ?_ ?_ ?_ ?_⟩⟩ <;>
  first
  | decide +kernel
  | exact succeeds_of (by decide +kernel)

theorem runFrames_split (c : TCfg) (ls ls' : List (List Ref)) : ∀ w : TWorld,
    run c w (ls ++ ls') = run c (run c w ls) ls' ∧
    runFrames c w (ls ++ ls') = runFrames c w ls ++ runFrames c (run c w ls) ls' := by
  induction ls with
  | nil => exact fun _ => ⟨rfl, rfl⟩
  | cons l ls ih =>
    intro w
    obtain ⟨a, b⟩ := ih (update c w (some l) 1 none).1
    simp only [List.cons_append, runFrames, run, a, b, and_self]

theorem returns_run : run rcfg w0 returns = run rcfg (run rcfg w0 (returns.take 6)) (returns.drop 6) :=
  (runFrames_split rcfg (returns.take 6) (returns.drop 6) w0).1

theorem returns_late : ∀ fr ∈ runFrames rcfg (run rcfg w0 (returns.take 6)) (returns.drop 6),
    Succeeds fr ∧ TellsAll rcfg Toy.dist Toy.reidDist hundreds fr := by
  intro fr hfr
  refine returns_told fr ?_
  have := (runFrames_split rcfg (returns.take 6) (returns.drop 6) w0).2
  rw [List.take_append_drop] at this
  rw [this]
  exact List.mem_append_right _ hfr

/-- the object of target 0 is the first object before and after -/
example : ∀ o ∈ (run rcfg w0 (returns.take 6)).objs, ∀ o' ∈ (run rcfg w0 returns).objs, o.id ≠ none → o.id = o'.id →
    hundreds o.lastDet = hundreds o'.lastDet := by
  intro o ho o' ho' hn he
  refine C98_never_switched (cfg := rcfg) rfl rfl (w0 := w0) ⟨rfl, rfl, rfl⟩ (runFrames_trace _ _ _)
    (runFrames_trace rcfg (returns.drop 6) _) (fun fr hfr => ?_) ho (returns_run ▸ ho') (Or.inr ⟨hn, he⟩)
  obtain ⟨a, b⟩ := returns_late fr hfr
  exact ⟨a, b.confusesNone⟩

/-- the dead object of target 0 gets the detection 51, and is returned -/
example : ∃ q ∈ (run rcfg w0 returns).objs, q.id = some 1 ∧ q.lastDet = 51 ∧
    ∀ p ∈ (run rcfg w0 returns).objs, hundreds p.lastDet = 0 → p = q := by
  set o := (run rcfg w0 (returns.take 6)).objs.head (by decide +kernel) with ho
  have ho1 : o.lastDet = 1 ∧ o.reidHitCounter = some 4 ∧ o.hitCounter = -2 ∧ o.id = some 1 ∧ o.initId = 1 := by
    decide +kernel
  have hsub := returns_late
  simp only [returns, List.drop, runFrames, List.forall_mem_cons, List.not_mem_nil, false_imp_iff, implies_true,
    and_true] at hsub
  obtain ⟨⟨⟨act1, a1⟩, t1⟩, ⟨act2, a2⟩, t2⟩ := hsub
  rw [returns_run]
  obtain ⟨_, q, hq, _, hid, hl, _, _, hu, _⟩ := C98_comes_back (cfg := rcfg) (f := Toy.dist) (truth := hundreds) rfl rfl
    (w0 := w0) ⟨rfl, rfl, rfl⟩ (runFrames_trace _ (returns.take 6) _)
    (runFrames_trace rcfg [[50, 206], [51, 207]] (run rcfg w0 (returns.take 6))) a1 a2 t1 t2 (by decide) (by decide)
    (List.head_mem (by decide +kernel)) (by rw [← ho]; exact ⟨by decide, by omega, fun r hr => by
      rw [ho1.2.1] at hr; cases hr; decide⟩) (rc := 4) ho1.2.1 (by decide)
    (by decide +kernel) (r1 := 50) (r2 := 51) (by decide) (by decide) (by decide +kernel) (by decide +kernel)
  refine ⟨q, hq, hid.trans ho1.2.2.2.1, hl, fun p hp he => hu p hp ?_⟩
  rw [he, ← ho, ho1.1]
  rfl

/-- The condition that the dead object is the only one of its target is needed: target 0 is seen once more while its
object 1 is dead, by object 3 that is never initialized and dies too. -/
def glimpse : List (List Ref) := [[0], [1], [], [], [], [50], [], [], [80], [81]]

theorem glimpse_told : ∀ fr ∈ runFrames rcfg w0 glimpse, Succeeds fr ∧ TellsAll rcfg Toy.dist Toy.reidDist hundreds fr := by
  simp only [glimpse, runFrames, List.forall_mem_cons, List.not_mem_nil, false_imp_iff, implies_true, and_true]
  refine ⟨⟨?_, toy_tells_all ?_ ?_ ?_ ?_ ?_⟩, ⟨?_, toy_tells_all ?_ ?_ ?_ ?_ ?_⟩, ⟨?_, toy_tells_all ?_ ?_ ?_ ?_ ?_⟩,
    ⟨?_, toy_tells_all ?_ ?_ ?_ ?_ ?_⟩, ⟨?_, toy_tells_all ?_ ?_ ?_ ?_ ?_⟩, ⟨?_, toy_tells_all ?_ ?_ ?_ ?_ ?_⟩,
    ⟨?_, toy_tells_all ?_ ?_ ?_ ?_ ?_⟩, ⟨?_, toy_tells_all ?_ ?_ ?_ ?_ ?_⟩, ⟨?_, toy_tells_all ?_ ?_ ?_ ?_ ?_⟩,
    ⟨?_, toy_tells_all ?_ ?_ ?_ ?_ ?_⟩⟩ <;>
  first
  | decide +kernel
  | exact succeeds_of (by decide +kernel)

/-- **C98** (limit) ... The condition that the dead object is the only one of its target is needed. Though all
distances tell targets apart, and the target is detected in two calls in a row while its object with id 1 is kept for
ReID, that object does not get the detection: an object that was started by a single detection, has never been
returned and is dead as well, is nearer and takes it. -/
theorem C98_glimpse_witness :
    (∀ fr ∈ runFrames rcfg w0 glimpse, Succeeds fr ∧ TellsAll rcfg Toy.dist Toy.reidDist hundreds fr) ∧
    ((run rcfg w0 (glimpse.take 8)).objs.map fun o => (o.initId, o.id, o.reidHitCounter, o.lastDet)) =
      [(1, some 1, some 2, 1), (2, none, some 5, 50)] ∧
    ((run rcfg w0 glimpse).objs.map fun o => (o.initId, o.id, o.reidHitCounter, o.lastDet)) =
      [(1, some 1, some 0, 1), (2, none, none, 81)] :=
  ⟨glimpse_told, by decide +kernel, by decide +kernel⟩

end Norfair.Props
