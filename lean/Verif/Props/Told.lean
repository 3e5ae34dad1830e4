import Verif.Props.Separated
import Verif.Props.VectorizedTracker

/-! C94: if the distances tell targets apart, targets may come and go and are not confused. -/

set_option linter.unusedSectionVars false

namespace Norfair.Props

open Norfair Norfair.Spec Norfair.Toy

variable {K L D F X T : Type}

section
variable [LinearOrder K] [Zero K] [LinearOrder D] [OrderTop D] [Zero D] [DecidableEq L]

/-- The distances of this call tell targets apart; `truth r` is the target of the detection `r`. No two detections
of the call show the same target, the detections are new, and the distance of a detection and an object that can
be matched (it is taken after the prediction of this call) is below the threshold exactly if the last detection of
the object shows the same target. (`h`: between the two rounds of matching only `age`s of detections change.)
Any targets may be missing. -/
structure TellsApart (cfg : Cfg K L D F X) (f : Det K L X → ObjView K L D F X → Option (Option D)) (truth : Ref → T)
    (fr : Frame K L D F X) : Prop where
  nodup : (given fr).Nodup
  once : ∀ r ∈ given fr, ∀ r' ∈ given fr, truth r = truth r' → r = r'
  fresh : ∀ o ∈ fr.before.objs, o.lastDet ∉ given fr
  told : ∀ h : Ref → Det K L X, (∀ r, ∃ a, h r = { startHeap fr.before fr.dets fr.ct r with age := a }) →
    ∀ r ∈ given fr, ∀ o ∈ fr.before.objs, CanMatch cfg.reidMax o →
      ∀ x, ScalarDist f (h r) (((o.trackerStep cfg).updateCT fr.ct).view h) x →
        (x < cfg.thr ↔ truth r = truth o.lastDet)

/-- objects that can be matched are of different targets -/
def OnePerTarget (cfg : Cfg K L D F X) (truth : Ref → T) (w : World K L D F X) : Prop :=
  ∀ o ∈ w.objs, ∀ o' ∈ w.objs, CanMatch cfg.reidMax o → CanMatch cfg.reidMax o' →
    truth o.lastDet = truth o'.lastDet → o.initId = o'.initId

theorem canMatch_of_survivor {cfg : Cfg K L D F X} {objs : List (Obj K L D F)} {o : Obj K L D F}
    (h : o ∈ survivors cfg objs) (h0 : 0 ≤ o.hitCounter) : CanMatch cfg.reidMax o := by
  refine ⟨h0, ?_⟩
  unfold survivors at h
  split at h
  · rename_i e; exact Or.inl e
  · right
    intro r hr
    have := (List.mem_filter.mp h).2
    unfold Obj.reidPos at this
    rw [hr] at this
    simpa using this

/-- one call: what becomes of the objects and of the detections -/
theorem told_step {cfg : Cfg K L D F X} {f} (hf : cfg.dist = .scalar f) (hre : cfg.reid = none) {truth : Ref → T}
    {fr : Frame K L D F X} (hw : Reachable cfg fr.before) {act : List (Obj K L D F)}
    (h : update cfg fr.before fr.dets fr.period fr.ct = (fr.after, .ok act)) (hT : TellsApart cfg f truth fr)
    (hone : OnePerTarget cfg truth fr.before) :
    OnePerTarget cfg truth fr.after ∧
    (∀ o ∈ fr.before.objs, ∀ o' ∈ fr.after.objs, o.initId = o'.initId → truth o'.lastDet = truth o.lastDet) ∧
    (∀ o ∈ fr.before.objs, CanMatch cfg.reidMax o → ∀ r ∈ given fr, truth r = truth o.lastDet →
      ∃ o' ∈ fr.after.objs, o'.initId = o.initId ∧ o'.lastDet = r) ∧
    (∀ r ∈ given fr, (∀ o ∈ fr.before.objs, CanMatch cfg.reidMax o → truth o.lastDet ≠ truth r) →
      ∃ o' ∈ fr.after.objs, fr.before.initCount < o'.initId ∧ o'.lastDet = r) ∧
    (∀ o ∈ fr.before.objs, CanMatch cfg.reidMax o → (∀ r ∈ given fr, truth r ≠ truth o.lastDet) →
      ∃ o' ∈ fr.after.objs, o'.initId = o.initId ∧ o'.lastDet = o.lastDet ∧ o'.hitCounter = o.hitCounter - 1) ∧
    (∀ o' ∈ fr.after.objs, (∃ o ∈ fr.before.objs, o.initId = o'.initId) ∨ o'.lastDet ∈ given fr) := by
  have hI := hw.inv
  have hB : Gated cfg f fr.before fr.dets fr.ct
      (fun r k => ∃ o ∈ fr.before.objs, o.initId = k ∧ truth r = truth o.lastDet) := by
    intro h' hh r hr o ho hc x hx
    rw [hT.told h' hh r hr o ho hc x hx]
    constructor
    · intro e; exact ⟨o, ho, rfl, e⟩
    · rintro ⟨q, hq, e1, e2⟩
      rw [World.eq_of_mem_of_key hI.nodup hq ho e1] at e2
      exact e2
  have hBo : ∀ {r} {o : Obj K L D F}, o ∈ fr.before.objs →
      ((∃ q ∈ fr.before.objs, q.initId = o.initId ∧ truth r = truth q.lastDet) ↔ truth r = truth o.lastDet) := by
    intro r o ho
    constructor
    · rintro ⟨q, hq, e1, e2⟩
      rw [World.eq_of_mem_of_key hI.nodup hq ho e1] at e2
      exact e2
    · intro e; exact ⟨o, ho, rfl, e⟩
  obtain ⟨hold, old, news, e1, e2, e3, e4, e5⟩ := C88_one_call hf hre hw h hT.nodup hT.fresh hB
    (by
      intro r hr r' hr' o ho hc hb hb'
      rw [hBo ho] at hb hb'
      exact hT.once r hr r' hr' (hb.trans hb'.symm))
    (by
      intro r hr o ho o' ho' hc hc' hb hb'
      rw [hBo ho] at hb
      rw [hBo ho'] at hb'
      exact hone o ho o' ho' hc hc' (hb.symm.trans hb'))
  have hI' : Inv fr.after := by
    have := (update_inv (cfg := cfg) hI fr.dets fr.period fr.ct).1
    rw [h] at this; exact this
  have hE : Evolve fr.before fr.after := by
    have := (update_inv (cfg := cfg) hI fr.dets fr.period fr.ct).2
    rw [h] at this; exact this
  -- an old object that can be matched afterwards could be matched before
  have hcan : ∀ o ∈ fr.before.objs, ∀ o' ∈ fr.after.objs, o.initId = o'.initId → CanMatch cfg.reidMax o' →
      CanMatch cfg.reidMax o := by
    intro o ho o' ho' hk hc
    obtain ⟨hs, h1 | h1 | h1⟩ := update_obj_cases hI h ho ho' hk
    · obtain ⟨v, rfl⟩ := h1
      refine canMatch_of_survivor hs ?_
      have : (0 : Int) ≤ (stepped cfg fr.ct o).hitCounter := hc.1
      simp at this
      omega
    · obtain ⟨r, _, _, h0⟩ := h1
      exact canMatch_of_survivor hs h0
    · exact absurd hre h1.1
  have hkeep : ∀ o ∈ fr.before.objs, ∀ o' ∈ fr.after.objs, o.initId = o'.initId →
      truth o'.lastDet = truth o.lastDet := by
    intro o ho o' ho' hk
    obtain ⟨hs, h1 | h1 | h1⟩ := update_obj_cases hI h ho ho' hk
    · obtain ⟨v, rfl⟩ := h1
      show truth (stepped cfg fr.ct o).lastDet = _
      simp
    · obtain ⟨r, hr, hH, h0⟩ := h1
      obtain ⟨q, hq, hqk, hq1, hq2⟩ := hold o ho (canMatch_of_survivor hs h0)
      have : q = o' := World.eq_of_mem_of_key hI'.nodup hq ho' (hqk.trans hk)
      subst this
      by_cases hex : ∃ r ∈ fr.dets.getD [], ∃ p ∈ fr.before.objs, p.initId = o.initId ∧ truth r = truth p.lastDet
      · obtain ⟨r', hr', hb⟩ := hex
        rw [hq1 r' hr' hb, (hBo ho).mp hb]
      · push Not at hex
        rw [hq2 (fun r' hr' ⟨p, hp, ep, eb⟩ => hex r' hr' p hp ep eb)]
    · exact absurd hre h1.1
  have hcase : ∀ o' ∈ fr.after.objs, (∃ o ∈ fr.before.objs, o.initId = o'.initId) ∨ o' ∈ news := by
    intro o' ho'
    rw [e1] at ho'
    rcases List.mem_append.mp ho' with ho' | ho'
    · obtain ⟨o, ho, e⟩ := List.mem_map.mp (e2 o' ho')
      exact Or.inl ⟨o, ho, e⟩
    · exact Or.inr ho'
  have hnd : (news.map (·.lastDet)).Nodup := e4.nodup hT.nodup
  refine ⟨?_, hkeep, ?_, ?_, ?_, fun o' ho' => (hcase o' ho').imp id fun hn =>
    e4.subset (List.mem_map_of_mem hn)⟩
  · intro o' ho' p' hp' hc hc' ht
    rcases hcase o' ho' with ⟨o, ho, hk⟩ | hn <;> rcases hcase p' hp' with ⟨p, hp, hk'⟩ | hn'
    · rw [hkeep o ho o' ho' hk, hkeep p hp p' hp' hk'] at ht
      rw [← hk, ← hk']
      exact hone o ho p hp (hcan o ho o' ho' hk hc) (hcan p hp p' hp' hk' hc') ht
    · exfalso
      have hr := e4.subset (List.mem_map_of_mem (f := (·.lastDet)) hn')
      refine (e5 _ hr).mp (List.mem_map_of_mem hn') o ho (hcan o ho o' ho' hk hc) ((hBo ho).mpr ?_)
      rw [← hkeep o ho o' ho' hk]; exact ht.symm
    · exfalso
      have hr := e4.subset (List.mem_map_of_mem (f := (·.lastDet)) hn)
      refine (e5 _ hr).mp (List.mem_map_of_mem hn) p hp (hcan p hp p' hp' hk' hc') ((hBo hp).mpr ?_)
      rw [← hkeep p hp p' hp' hk']; exact ht
    · have hr := e4.subset (List.mem_map_of_mem (f := (·.lastDet)) hn)
      have hr' := e4.subset (List.mem_map_of_mem (f := (·.lastDet)) hn')
      have := hT.once _ hr _ hr' ht
      rw [List.inj_on_of_nodup_map hnd hn hn' this]
  · intro o ho hc r hr ht
    obtain ⟨q, hq, hqk, hq1, _⟩ := hold o ho hc
    exact ⟨q, hq, hqk, hq1 r hr ((hBo ho).mpr ht)⟩
  · intro r hr hno
    have := (e5 r hr).mpr fun o ho hc hb => hno o ho hc ((hBo ho).mp hb).symm
    obtain ⟨n, hn, e⟩ := List.mem_map.mp this
    have hn' : n ∈ fr.after.objs := by rw [e1]; exact List.mem_append_right _ hn
    refine ⟨n, hn', ?_, e⟩
    rcases hE.origin n hn' with h | ⟨o, ho, hk, _⟩
    · exact h
    · exact absurd (hk ▸ List.mem_map_of_mem ho) (e3 n hn)
  · intro o ho hc hno
    obtain ⟨q, hq, hqk, hq1, hq2⟩ := hold o ho hc
    have hl := hq2 fun r hr hb => hno r hr ((hBo ho).mp hb)
    obtain ⟨hs, h1 | h1 | h1⟩ := update_obj_cases hI h ho hq hqk.symm
    · obtain ⟨v, rfl⟩ := h1
      exact ⟨_, hq, hqk, hl, by simp⟩
    · obtain ⟨r, hr, hH, h0⟩ := h1
      exfalso
      rw [hH.lastDet] at hl
      exact hT.fresh o ho (hl ▸ hr)
    · exact absurd hre h1.1

/-- all calls return, and their distances tell targets apart -/
def AlwaysTold (cfg : Cfg K L D F X) (f : Det K L X → ObjView K L D F X → Option (Option D)) (truth : Ref → T)
    (fs : List (Frame K L D F X)) : Prop := ∀ fr ∈ fs, Succeeds fr ∧ TellsApart cfg f truth fr

theorem _root_.Norfair.Trace.append {cfg : Cfg K L D F X} {a b c : World K L D F X} {fs gs : List (Frame K L D F X)}
    (h : Trace cfg a fs b) (h' : Trace cfg b gs c) : Trace cfg a (fs ++ gs) c := by
  induction h' with
  | nil => rw [List.append_nil]; exact h
  | env heap g _ he ih => exact .env heap g ih he
  | call dets period ct _ ih => rw [← List.append_assoc]; exact .call dets period ct ih

/-- the last call, and the others -/
theorem _root_.Norfair.Trace.last {cfg : Cfg K L D F X} {a b : World K L D F X} {fs : List (Frame K L D F X)}
    {fr : Frame K L D F X} (h : Trace cfg a (fs ++ [fr]) b) : Trace cfg a fs fr.before ∧
      update cfg fr.before fr.dets fr.period fr.ct = (fr.after, fr.out) := by
  generalize hl : fs ++ [fr] = l at h
  induction h with
  | nil => simp at hl
  | env heap g _ he ih => exact ih hl
  | call dets period ct ht ih =>
    obtain ⟨rfl, e⟩ := List.append_inj' hl rfl
    simp only [List.cons.injEq, and_true] at e
    subst e
    exact ⟨ht, rfl⟩

theorem told_from {cfg : Cfg K L D F X} {f} (hf : cfg.dist = .scalar f) (hre : cfg.reid = none) {truth : Ref → T}
    {w1 w : World K L D F X} (hw : Reachable cfg w1) (hone : OnePerTarget cfg truth w1)
    {fs : List (Frame K L D F X)} (ht : Trace cfg w1 fs w) (hT : AlwaysTold cfg f truth fs) :
    OnePerTarget cfg truth w ∧
      ∀ o ∈ w1.objs, ∀ o' ∈ w.objs, o.initId = o'.initId → truth o'.lastDet = truth o.lastDet := by
  induction ht with
  | nil =>
    refine ⟨hone, fun o ho o' ho' hk => ?_⟩
    rw [World.eq_of_mem_of_key hw.inv.nodup ho ho' hk]
  | env heap g _ he ih => exact ih hT
  | @call fs w2 dets period ct ht ih =>
    obtain ⟨ih1, ih2⟩ := ih fun fr hfr => hT fr (List.mem_append_left _ hfr)
    obtain ⟨⟨act, hact⟩, hA⟩ := hT _ (List.mem_append_right _ (List.mem_singleton.mpr rfl))
    have hr2 := hw.trans ht.reaches
    obtain ⟨s1, s2, _⟩ := told_step hf hre hr2 (Prod.ext rfl hact) hA ih1
    refine ⟨s1, fun o ho o' ho' hk => ?_⟩
    rcases (update_inv (cfg := cfg) hr2.inv dets period ct).2.origin o' ho' with hlt | ⟨p, hp, e, _⟩
    · have h1 := (hw.inv.bounded o ho).2
      have h2 := (ht.reaches.inv hw.inv).2.initCount
      omega
    · rw [s2 p hp o' ho' e, ih2 o ho p hp (hk.trans e.symm)]

theorem onePerTarget_initial {cfg : Cfg K L D F X} {truth : Ref → T} {w : World K L D F X} (h : w.Initial) :
    OnePerTarget cfg truth w := by
  intro o ho
  rw [h.1] at ho
  cases ho

/-- **C94** If the distances of all calls tell targets apart (targets may come, go, and be missed in any calls),
then there are never two objects of one target that can be matched. -/
theorem C94_one_per_target {cfg : Cfg K L D F X} {f} (hf : cfg.dist = .scalar f) (hre : cfg.reid = none)
    {truth : Ref → T} {w0 w : World K L D F X} (h0 : w0.Initial) {fs : List (Frame K L D F X)}
    (ht : Trace cfg w0 fs w) (hT : AlwaysTold cfg f truth fs) :
    ∀ o ∈ w.objs, ∀ o' ∈ w.objs, CanMatch cfg.reidMax o → CanMatch cfg.reidMax o' →
      truth o.lastDet = truth o'.lastDet → o = o' := by
  intro o ho o' ho' hc hc' e
  exact World.eq_of_mem_of_key (Reachable.inv ⟨w0, h0, ht.reaches⟩).nodup ho ho'
    ((told_from hf hre ⟨w0, h0, .refl _⟩ (onePerTarget_initial h0) ht hT).1 o ho o' ho' hc hc' e)

/-- **C94** ... an object and so an id never changes its target: all detections ever matched to an object, or to
objects with one id, are of one target, -/
theorem C94_never_switched {cfg : Cfg K L D F X} {f} (hf : cfg.dist = .scalar f) (hre : cfg.reid = none)
    {truth : Ref → T} {w0 w1 w2 : World K L D F X} (h0 : w0.Initial) {fs gs : List (Frame K L D F X)}
    (ht : Trace cfg w0 fs w1) (ht' : Trace cfg w1 gs w2) (hT : AlwaysTold cfg f truth (fs ++ gs))
    {o1 o2 : Obj K L D F} (ho1 : o1 ∈ w1.objs) (ho2 : o2 ∈ w2.objs)
    (hk : o1.initId = o2.initId ∨ o1.id ≠ none ∧ o1.id = o2.id) : truth o1.lastDet = truth o2.lastDet := by
  have hr : Reachable cfg w1 := ⟨w0, h0, ht.reaches⟩
  have hone := (told_from hf hre ⟨w0, h0, .refl _⟩ (onePerTarget_initial h0) ht
    fun fr h => hT fr (List.mem_append_left _ h)).1
  have hk : o1.initId = o2.initId := by
    rcases hk with hk | ⟨hn, hk⟩
    · exact hk
    · obtain ⟨i, hi⟩ := Option.ne_none_iff_exists'.mp hn
      exact (C06_ids_unique hr ht'.reaches ho1 ho2 hi (hk ▸ hi)).1
  exact ((told_from hf hre hr hone ht' fun fr h => hT fr (List.mem_append_right _ h)).2 o1 ho1 o2 ho2 hk).symm

theorem told_gap {cfg : Cfg K L D F X} {f} (hf : cfg.dist = .scalar f) (hre : cfg.reid = none)
    (hmax : cfg.reidMax = none) {truth : Ref → T} {w1 w2 : World K L D F X} (hr : Reachable cfg w1)
    (hone : OnePerTarget cfg truth w1) {gs : List (Frame K L D F X)} (ht : Trace cfg w1 gs w2)
    (hT : AlwaysTold cfg f truth gs) {o : Obj K L D F} (ho : o ∈ w1.objs) (hpos : 0 ≤ o.hitCounter)
    (hmiss : ∀ fr ∈ gs, ∀ r ∈ given fr, truth r ≠ truth o.lastDet) :
    ((gs.length : Int) ≤ o.hitCounter + 1 → ∃ o' ∈ w2.objs, o'.initId = o.initId ∧ o'.lastDet = o.lastDet ∧
      o'.hitCounter = o.hitCounter - gs.length) ∧
    (o.hitCounter < gs.length → ∀ o' ∈ w2.objs, truth o'.lastDet = truth o.lastDet → o'.hitCounter < 0) := by
  induction ht with
  | nil => exact ⟨fun _ => ⟨o, ho, rfl, rfl, by simp⟩, fun h => by simp at h; omega⟩
  | env heap g _ he ih => exact ih hT hmiss
  | @call fs w2 dets period ct ht ih =>
    obtain ⟨ih1, ih2⟩ := ih (fun fr hfr => hT fr (List.mem_append_left _ hfr))
      (fun fr hfr => hmiss fr (List.mem_append_left _ hfr))
    obtain ⟨⟨act, hact⟩, hA⟩ := hT _ (List.mem_append_right _ (List.mem_singleton.mpr rfl))
    have hm := hmiss _ (List.mem_append_right _ (List.mem_singleton.mpr rfl))
    have hr2 := hr.trans ht.reaches
    have hone2 := (told_from hf hre hr hone ht fun fr hfr => hT fr (List.mem_append_left _ hfr)).1
    obtain ⟨s1, s2, s3, s4, s5, s6⟩ := told_step hf hre hr2 (Prod.ext rfl hact) hA hone2
    simp only [List.length_append, List.length_singleton, Nat.cast_add, Nat.cast_one]
    refine ⟨fun hle => ?_, fun hlt o' ho' he => ?_⟩
    · obtain ⟨p, hp, hk, hl, hc⟩ := ih1 (by omega)
      obtain ⟨q, hq, e1, e2, e3⟩ := s5 p hp ⟨by omega, Or.inl hmax⟩ (by rw [hl]; exact hm)
      exact ⟨q, hq, e1.trans hk, e2.trans hl, by omega⟩
    · rcases s6 o' ho' with ⟨p, hp, hk⟩ | hn
      · obtain ⟨hs, -⟩ := update_obj_cases hr2.inv (Prod.ext rfl hact) hp ho' hk
        have hp0 : 0 ≤ p.hitCounter := by
          rcases (mem_survivors.mp hs).2 with h | h
          · exact h.2
          · exact absurd hmax h.1
        have hpt : truth p.lastDet = truth o.lastDet := by rw [← s2 p hp o' ho' hk]; exact he
        by_cases hle : o.hitCounter < fs.length
        · have := ih2 hle p hp hpt
          omega
        · obtain ⟨q, hq, hqk, hql, hqc⟩ := ih1 (by omega)
          have hqp := hone2 q hq p hp ⟨by omega, Or.inl hmax⟩ ⟨hp0, Or.inl hmax⟩ (by rw [hql, hpt])
          obtain ⟨q', hq', e1, e2, e3⟩ := s5 q hq ⟨by omega, Or.inl hmax⟩ (by rw [hql]; exact hm)
          have hI' := (update_inv (cfg := cfg) hr2.inv dets period ct).1
          have : q' = o' := World.eq_of_mem_of_key hI'.nodup hq' ho' (e1.trans (hqp.trans hk))
          rw [← this]
          omega
      · exact absurd he (hm _ hn)

/-- **C94** ... and a target that is missed is found again: if an object has hit counter `h ≥ 0`, and its target is
missed in the next `n` calls and detected in the call after them, then the object, with its id, gets this detection
if `n ≤ h`, and a new object is started if `n > h`. -/
theorem C94_found_again {cfg : Cfg K L D F X} {f} (hf : cfg.dist = .scalar f) (hre : cfg.reid = none)
    (hmax : cfg.reidMax = none) {truth : Ref → T} {w0 w1 w2 : World K L D F X} (h0 : w0.Initial)
    {fs gs : List (Frame K L D F X)} {fr : Frame K L D F X} (ht : Trace cfg w0 fs w1)
    (ht' : Trace cfg w1 (gs ++ [fr]) w2) (hT : AlwaysTold cfg f truth (fs ++ gs ++ [fr]))
    {o : Obj K L D F} (ho : o ∈ w1.objs) (hpos : 0 ≤ o.hitCounter)
    (hmiss : ∀ g ∈ gs, ∀ r ∈ given g, truth r ≠ truth o.lastDet)
    {r : Ref} (hr : r ∈ given fr) (hrt : truth r = truth o.lastDet) :
    ∃ o' ∈ fr.after.objs, o'.lastDet = r ∧ (∀ p ∈ fr.after.objs, p.lastDet = r → p = o') ∧
      ((gs.length : Int) ≤ o.hitCounter → o'.initId = o.initId ∧ (o.id ≠ none → o'.id = o.id)) ∧
      (o.hitCounter < gs.length → o'.initId ≠ o.initId ∧ fr.before.initCount < o'.initId) := by
  have hrw : Reachable cfg w1 := ⟨w0, h0, ht.reaches⟩
  have hone := (told_from hf hre ⟨w0, h0, .refl _⟩ (onePerTarget_initial h0) ht
    fun fr h => hT fr (by simp [h])).1
  have hTg : AlwaysTold cfg f truth gs := fun fr h => hT fr (by simp [h])
  obtain ⟨⟨act, hact⟩, hA⟩ := hT fr (by simp)
  obtain ⟨htg, hup⟩ := ht'.last
  rw [hact] at hup
  have hr2 := hrw.trans htg.reaches
  have hone2 := (told_from hf hre hrw hone htg hTg).1
  obtain ⟨s1, s2, s3, s4, s5, s6⟩ := told_step hf hre hr2 hup hA hone2
  obtain ⟨g1, g2⟩ := told_gap hf hre hmax hrw hone htg hTg ho hpos hmiss
  have huniq : ∃ o' ∈ fr.after.objs, o'.lastDet = r ∧ ∀ p ∈ fr.after.objs, p.lastDet = r → p = o' := by
    unfold given at hr
    cases hd : fr.dets with
    | none => rw [hd] at hr; cases hr
    | some l =>
      rw [hd] at hup hr
      have hn := hA.nodup
      have hfr := hA.fresh
      unfold given at hn hfr
      rw [hd] at hn hfr
      exact C10_unique_owner hr2 hup hfr hn hr
  obtain ⟨q, hq, hql, hqu⟩ := huniq
  refine ⟨q, hq, hql, hqu, fun hle => ?_, fun hlt => ?_⟩
  · obtain ⟨p, hp, hk, hl, hc⟩ := g1 (by omega)
    obtain ⟨o', ho', e1, e2⟩ := s3 p hp ⟨by omega, Or.inl hmax⟩ r hr (by rw [hl]; exact hrt)
    have : o' = q := hqu o' ho' e2
    subst this
    refine ⟨e1.trans hk, fun hid => ?_⟩
    obtain ⟨i, hi⟩ := Option.ne_none_iff_exists'.mp hid
    have hre' : Reaches' cfg w1 fr.after := by
      have := Reaches.call (E := fun _ _ => True) (P := fun _ _ _ _ => True) fr.dets fr.period fr.ct htg.reaches trivial
      rw [hup] at this
      exact this
    rw [hi]
    exact (C07_identity_stable hrw hre' ho ho' (e1.trans hk).symm).2.2.2.2.2.1 i hi
  · obtain ⟨o', ho', e1, e2⟩ := s4 r hr fun p hp hc he => by
      have := g2 hlt p hp (he.trans hrt)
      have := hc.1
      omega
    have : o' = q := hqu o' ho' e2
    subst this
    have h1 := (hrw.inv.bounded o ho).2
    have h2 := (htg.reaches.inv hrw.inv).2.initCount
    exact ⟨by omega, e1⟩

theorem told_vectorized {cfg : Cfg K L D F X} {g : List K → List K → Option (Option D)} {truth : Ref → T}
    {fs : List (Frame K L D F X)}
    (hT : AlwaysTold cfg (fun d v => g d.points.data (v.obj.estimate cfg.flt).data) truth fs) :
    AlwaysTold { cfg with dist := rowDist cfg.flt g } (fun d v => g d.points.data (v.obj.estimate cfg.flt).data)
      truth fs := by
  intro fr hfr
  obtain ⟨a, b⟩ := hT fr hfr
  exact ⟨a, b.nodup, b.once, b.fresh, b.told⟩

/-- **C94** for vectorized distances that compare rows one by one, such as `iou` (by C92): one object per target, -/
theorem C94_vectorized_one_per_target {cfg : Cfg K L D F X} {str : L → String} {f} (hf : cfg.dist = .vectorized str f)
    {g : List K → List K → Option (Option D)} (hfg : Rowwise f g) (hstr : Function.Injective str)
    (hre : cfg.reid = none) {truth : Ref → T} {w0 w : World K L D F X} (h0 : w0.Initial)
    {fs : List (Frame K L D F X)} (ht : Trace cfg w0 fs w)
    (hT : AlwaysTold cfg (fun d v => g d.points.data (v.obj.estimate cfg.flt).data) truth fs) :
    ∀ o ∈ w.objs, ∀ o' ∈ w.objs, CanMatch cfg.reidMax o → CanMatch cfg.reidMax o' →
      truth o.lastDet = truth o'.lastDet → o = o' :=
  C94_one_per_target (cfg := { cfg with dist := rowDist cfg.flt g }) rfl hre h0 ((C92_trace hf hfg hstr).mp ht)
    (told_vectorized hT)

/-- **C94** ... ids are never switched, -/
theorem C94_vectorized_never_switched {cfg : Cfg K L D F X} {str : L → String} {f} (hf : cfg.dist = .vectorized str f)
    {g : List K → List K → Option (Option D)} (hfg : Rowwise f g) (hstr : Function.Injective str)
    (hre : cfg.reid = none) {truth : Ref → T} {w0 w1 w2 : World K L D F X} (h0 : w0.Initial)
    {fs gs : List (Frame K L D F X)} (ht : Trace cfg w0 fs w1) (ht' : Trace cfg w1 gs w2)
    (hT : AlwaysTold cfg (fun d v => g d.points.data (v.obj.estimate cfg.flt).data) truth (fs ++ gs))
    {o1 o2 : Obj K L D F} (ho1 : o1 ∈ w1.objs) (ho2 : o2 ∈ w2.objs)
    (hk : o1.initId = o2.initId ∨ o1.id ≠ none ∧ o1.id = o2.id) : truth o1.lastDet = truth o2.lastDet :=
  C94_never_switched (cfg := { cfg with dist := rowDist cfg.flt g }) rfl hre h0
    ((C92_trace hf hfg hstr).mp ht) ((C92_trace hf hfg hstr).mp ht') (told_vectorized hT) ho1 ho2 hk

/-- **C94** ... and missed targets are found again. -/
theorem C94_vectorized_found_again {cfg : Cfg K L D F X} {str : L → String} {f} (hf : cfg.dist = .vectorized str f)
    {g : List K → List K → Option (Option D)} (hfg : Rowwise f g) (hstr : Function.Injective str)
    (hre : cfg.reid = none) (hmax : cfg.reidMax = none) {truth : Ref → T} {w0 w1 w2 : World K L D F X}
    (h0 : w0.Initial) {fs gs : List (Frame K L D F X)} {fr : Frame K L D F X} (ht : Trace cfg w0 fs w1)
    (ht' : Trace cfg w1 (gs ++ [fr]) w2)
    (hT : AlwaysTold cfg (fun d v => g d.points.data (v.obj.estimate cfg.flt).data) truth (fs ++ gs ++ [fr]))
    {o : Obj K L D F} (ho : o ∈ w1.objs) (hpos : 0 ≤ o.hitCounter)
    (hmiss : ∀ g ∈ gs, ∀ r ∈ given g, truth r ≠ truth o.lastDet)
    {r : Ref} (hr : r ∈ given fr) (hrt : truth r = truth o.lastDet) :
    ∃ o' ∈ fr.after.objs, o'.lastDet = r ∧ (∀ p ∈ fr.after.objs, p.lastDet = r → p = o') ∧
      ((gs.length : Int) ≤ o.hitCounter → o'.initId = o.initId ∧ (o.id ≠ none → o'.id = o.id)) ∧
      (o.hitCounter < gs.length → o'.initId ≠ o.initId ∧ fr.before.initCount < o'.initId) :=
  C94_found_again (cfg := { cfg with dist := rowDist cfg.flt g }) rfl hre hmax h0 ((C92_trace hf hfg hstr).mp ht)
    ((C92_trace hf hfg hstr).mp ht') (told_vectorized hT) ho hpos hmiss hr hrt

end

/-! ### Examples -/

/-- the calls of `run` -/
def runFrames (c : TCfg) (w : TWorld) : List (List Ref) → List (Frame Int Nat (WithTop Nat) (NoFilter Int) Unit)
  | [] => []
  | l :: ls => ⟨some l, 1, none, w, (update c w (some l) 1 none).1, (update c w (some l) 1 none).2⟩ ::
      runFrames c (update c w (some l) 1 none).1 ls

theorem runFrames_trace (c : TCfg) (ls : List (List Ref)) : ∀ w, Trace c w (runFrames c w ls) (run c w ls) := by
  induction ls with
  | nil => exact fun w => .nil w
  | cons l ls ih =>
    intro w
    exact Trace.append (.call (some l) 1 none (.nil w)) (ih _)

/-- what is to be checked of a call of the tracker of the examples without a transformation -/
theorem toy_tells {truth : Ref → Nat} {w w' : TWorld} {l : List Ref} {p : Int} {out}
    (h1 : l.Nodup) (h2 : ∀ r ∈ l, ∀ r' ∈ l, truth r = truth r' → r = r') (h3 : ∀ o ∈ w.objs, o.lastDet ∉ l)
    (h4 : ∀ r ∈ l, ∀ o ∈ w.objs, (w.heap r).label = o.label ∧
      ((Toy.dist (w.heap r) (((o.trackerStep Toy.cfg).updateCT none).view w.heap)).getD none).elim false
        (fun v => decide (v < 10) == decide (truth r = truth o.lastDet)) = true) :
    TellsApart Toy.cfg Toy.dist truth ⟨some l, p, none, w, w', out⟩ := by
  refine ⟨h1, h2, h3, fun h hh r hr o ho _ x hx => ?_⟩
  obtain ⟨e1, e2⟩ := h4 r hr o ho
  obtain ⟨a, ha⟩ := hh r
  have hst : startHeap w (some l) none r = w.heap r := rfl
  have hd : Toy.dist (h r) (((o.trackerStep Toy.cfg).updateCT none).view h) =
      Toy.dist (w.heap r) (((o.trackerStep Toy.cfg).updateCT none).view w.heap) := by
    rw [ha]; rfl
  rcases hx with ⟨_, hx⟩ | ⟨hx, _⟩
  · rw [hd] at hx
    rw [hx] at e2
    simp only [Option.getD_some, Option.elim_some, beq_iff_eq] at e2
    exact decide_eq_decide.mp e2
  · exfalso
    apply hx
    rw [ha]
    exact e1

/-- the target of a detection: those at 0..99 are of target 0, those at 100..199 of target 1, ... -/
def hundreds (r : Ref) : Nat := r / 100

/-- Target 0 is seen, missed in one call, seen, missed in three calls and seen; target 2 is always seen, target 4
comes and goes. -/
def comings : List (List Ref) := [[5, 200], [203], [206, 7], [400, 209], [212], [405, 215], [218, 9, 409]]

theorem succeeds_of {fr : Frame K L D F X} (h : fr.out.toOption.isSome = true) : Succeeds fr := by
  unfold Succeeds
  cases e : fr.out with
  | ok act => exact ⟨act, rfl⟩
  | error x => rw [e] at h; cases h

theorem comings_told : AlwaysTold Toy.cfg Toy.dist hundreds (runFrames Toy.cfg w0 comings) := by
  simp only [AlwaysTold, comings, runFrames, List.forall_mem_cons, List.not_mem_nil, false_imp_iff, implies_true, and_true]
  refine ⟨⟨?_, toy_tells ?_ ?_ ?_ ?_⟩, ⟨?_, toy_tells ?_ ?_ ?_ ?_⟩, ⟨?_, toy_tells ?_ ?_ ?_ ?_⟩, ⟨?_, toy_tells ?_ ?_ ?_ ?_⟩,
    ⟨?_, toy_tells ?_ ?_ ?_ ?_⟩, ⟨?_, toy_tells ?_ ?_ ?_ ?_⟩, ⟨?_, toy_tells ?_ ?_ ?_ ?_⟩⟩ <;>
  first
  | decide +kernel
  | exact succeeds_of (by decide +kernel)

theorem comings_split (n : Nat) : runFrames Toy.cfg w0 comings =
    runFrames Toy.cfg w0 (comings.take n) ++ runFrames Toy.cfg (run Toy.cfg w0 (comings.take n)) (comings.drop n) := by
  have : ∀ (ls ls' : List (List Ref)) (w : TWorld), runFrames Toy.cfg w (ls ++ ls') =
      runFrames Toy.cfg w ls ++ runFrames Toy.cfg (run Toy.cfg w ls) ls' := by
    intro ls ls'
    induction ls with
    | nil => intro w; rfl
    | cons l ls ih => intro w; simp only [List.cons_append, runFrames, run, ih]
  rw [← this, List.take_append_drop]

/-- the objects of the last state are of the targets 2, 4 and 0; the object of target 2 is the second of the first
state, and has got only detections of target 2 -/
example : ((run Toy.cfg w0 comings).objs.map fun o => (o.initId, o.lastDet)) = [(2, 218), (3, 409), (4, 9)] ∧
    ∀ n ≤ 7, ∀ o ∈ (run Toy.cfg w0 (comings.take n)).objs, o.initId = 2 → hundreds o.lastDet = 2 := by
  refine ⟨by decide +kernel, fun n _ o ho hk => ?_⟩
  have hT := comings_told
  rw [comings_split n] at hT
  obtain ⟨p, hp, hpk, hpl⟩ : ∃ p ∈ (run Toy.cfg (run Toy.cfg w0 (comings.take n)) (comings.drop n)).objs,
      p.initId = 2 ∧ p.lastDet = 218 := by
    have : run Toy.cfg (run Toy.cfg w0 (comings.take n)) (comings.drop n) = run Toy.cfg w0 comings := by
      have : ∀ (ls ls' : List (List Ref)) (w : TWorld), run Toy.cfg w (ls ++ ls') = run Toy.cfg (run Toy.cfg w ls) ls' := by
        intro ls ls'
        induction ls with
        | nil => intro w; rfl
        | cons l ls ih => intro w; exact ih _
      rw [← this, List.take_append_drop]
    rw [this]
    decide +kernel
  rw [C94_never_switched (cfg := Toy.cfg) rfl rfl (w0 := w0) ⟨rfl, rfl, rfl⟩ (runFrames_trace _ _ _)
    (runFrames_trace _ (comings.drop n) _) hT ho hp (Or.inl (hk.trans hpk.symm)), hpl]
  rfl

/-- target 0 is missed in one call and found again by its object (with hit counter 1), in the third call -/
example : ∃ o' ∈ (run Toy.cfg w0 (comings.take 3)).objs, o'.lastDet = 7 ∧ o'.initId = 1 := by
  have hT := comings_told
  rw [comings_split 3] at hT
  obtain ⟨o', h1, h2, _, h3, _⟩ := C94_found_again (cfg := Toy.cfg) (f := Toy.dist) (truth := hundreds) rfl rfl rfl
    (w0 := w0) ⟨rfl, rfl, rfl⟩ (fs := runFrames Toy.cfg w0 (comings.take 1))
    (gs := runFrames Toy.cfg (run Toy.cfg w0 (comings.take 1)) [[203]])
    (fr := ⟨some [206, 7], 1, none, run Toy.cfg w0 (comings.take 2), run Toy.cfg w0 (comings.take 3), _⟩)
    (runFrames_trace _ _ _) (runFrames_trace Toy.cfg [[203], [206, 7]] _)
    (fun fr hfr => hT fr (List.mem_append_left _ (by simpa [comings, runFrames, run] using hfr)))
    (o := (run Toy.cfg w0 (comings.take 1)).objs.head (by decide +kernel)) (List.head_mem _) (by decide +kernel)
    (by
      intro g hg
      simp only [runFrames, List.mem_singleton] at hg
      subst hg
      decide +kernel) (r := 7) (by decide +kernel) (by decide +kernel)
  refine ⟨o', h1, h2, (h3 (by decide +kernel)).1.trans (by decide +kernel)⟩

/-- target 0 is missed in three calls after the third call, its object has hit counter 1: a new object is started -/
example : ∃ o' ∈ (run Toy.cfg w0 comings).objs, o'.lastDet = 9 ∧ o'.initId ≠ 1 := by
  have hT := comings_told
  obtain ⟨o', h1, h2, _, _, h3⟩ := C94_found_again (cfg := Toy.cfg) (f := Toy.dist) (truth := hundreds) rfl rfl rfl
    (w0 := w0) ⟨rfl, rfl, rfl⟩ (fs := runFrames Toy.cfg w0 (comings.take 3))
    (gs := runFrames Toy.cfg (run Toy.cfg w0 (comings.take 3)) [[400, 209], [212], [405, 215]])
    (fr := ⟨some [218, 9, 409], 1, none, run Toy.cfg w0 (comings.take 6), run Toy.cfg w0 comings, _⟩)
    (runFrames_trace _ _ _) (runFrames_trace Toy.cfg [[400, 209], [212], [405, 215], [218, 9, 409]] _)
    (fun fr hfr => hT fr (by simpa [comings, runFrames, run] using hfr))
    (o := (run Toy.cfg w0 (comings.take 3)).objs.head (by decide +kernel)) (List.head_mem _) (by decide +kernel)
    (by
      intro g hg
      simp only [runFrames, List.mem_cons, List.not_mem_nil, or_false] at hg
      rcases hg with rfl | rfl | rfl <;> decide +kernel) (r := 9) (by decide +kernel) (by decide +kernel)
  refine ⟨o', h1, h2, fun e => (h3 (by decide +kernel)).1 (e.trans (by decide +kernel))⟩

/-- boxes of two targets that do not meet: even detections are of one target, odd ones of another -/
def heapTwo : Ref → Det ℚ String Unit := fun r =>
  let x : ℚ := (if r % 2 = 0 then 0 else 50) + r
  ⟨⟨2, 2, [x, x, x + 20, x + 20]⟩, none, "a", (), ⟨2, 2, [x, x, x + 20, x + 20]⟩, none⟩

/-- states of a tracker with `iou` and threshold 1; the second target is missed in the second call -/
def wTwo : World ℚ String (WithTop ℚ) (NoFilter ℚ) Unit := ⟨heapTwo, 0, 0, 0, []⟩
@[inherit_doc wTwo] def wTwo1 := (update (textCfg id) wTwo (some [0, 1]) 1 none).1
@[inherit_doc wTwo] def wTwo2 := (update (textCfg id) wTwo1 (some [2]) 1 none).1
@[inherit_doc wTwo] def wTwo3 := (update (textCfg id) wTwo2 (some [5, 4]) 1 none).1

theorem iou_tells {w w' : World ℚ String (WithTop ℚ) (NoFilter ℚ) Unit} {l : List Ref} {p : Int} {out}
    (h1 : l.Nodup) (h2 : ∀ r ∈ l, ∀ r' ∈ l, r % 2 = r' % 2 → r = r') (h3 : ∀ o ∈ w.objs, o.lastDet ∉ l)
    (h4 : ∀ r ∈ l, ∀ o ∈ w.objs, (w.heap r).label = o.label ∧
      ((iouRow (w.heap r).points.data (((o.trackerStep (textCfg id)).updateCT none).estimate noFilterOps).data).getD
        none).elim false (fun v => decide (v < 1) == decide (r % 2 = o.lastDet % 2)) = true) :
    TellsApart (textCfg id) (fun d v => iouRow d.points.data (v.obj.estimate (textCfg id).flt).data) (· % 2)
      ⟨some l, p, none, w, w', out⟩ := by
  refine ⟨h1, h2, h3, fun h hh r hr o ho _ x hx => ?_⟩
  obtain ⟨e1, e2⟩ := h4 r hr o ho
  obtain ⟨a, ha⟩ := hh r
  have hd : (h r).points = (w.heap r).points := by rw [ha]; rfl
  rcases hx with ⟨_, hx⟩ | ⟨hx, _⟩
  · dsimp only at hx
    rw [hd] at hx
    have hx' : iouRow (w.heap r).points.data
      (((o.trackerStep (textCfg id)).updateCT none).estimate noFilterOps).data = some (some x) := hx
    rw [hx'] at e2
    simp only [Option.getD_some, Option.elim_some, beq_iff_eq] at e2
    exact decide_eq_decide.mp e2
  · exfalso
    apply hx
    rw [ha]
    exact e1

/-- the second target, with hit counter 1, is missed in one call and found again; here with `iou` -/
example : ∃ o' ∈ wTwo3.objs, o'.lastDet = 5 ∧ o'.initId = 2 := by
  obtain ⟨o', h1, h2, _, h3, _⟩ := C94_vectorized_found_again (cfg := textCfg id) (truth := (· % 2)) rfl
    C92_iou_rowwise (fun _ _ h => h) rfl rfl (w0 := wTwo) ⟨rfl, rfl, rfl⟩
    (fs := [⟨some [0, 1], 1, none, wTwo, wTwo1, _⟩]) (gs := [⟨some [2], 1, none, wTwo1, wTwo2, _⟩])
    (fr := ⟨some [5, 4], 1, none, wTwo2, wTwo3, _⟩) (.call (some [0, 1]) 1 none (.nil wTwo))
    (.call (some [5, 4]) 1 none (.call (some [2]) 1 none (.nil wTwo1)))
    (by
      simp only [AlwaysTold, List.cons_append, List.nil_append, List.forall_mem_cons, List.not_mem_nil, false_imp_iff,
        implies_true, and_true]
      refine ⟨⟨?_, iou_tells ?_ ?_ ?_ ?_⟩, ⟨?_, iou_tells ?_ ?_ ?_ ?_⟩, ⟨?_, iou_tells ?_ ?_ ?_ ?_⟩⟩ <;>
      first
      | decide +kernel
      | exact succeeds_of (by decide +kernel))
    (o := wTwo1.objs.getLast (by decide +kernel)) (List.getLast_mem _) (by decide +kernel)
    (by
      intro g hg
      rw [List.mem_singleton.mp hg]
      decide +kernel) (r := 5) (by decide +kernel) (by decide +kernel)
  exact ⟨o', h1, h2, (h3 (by decide +kernel)).1.trans (by decide +kernel)⟩

end Norfair.Props
