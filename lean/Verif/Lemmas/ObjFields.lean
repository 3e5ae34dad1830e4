import Verif.Lemmas.StageExact
import Verif.Lemmas.Past

/-! Which fields `hit` can change, and its effect on last detection and past detections. -/

set_option linter.unusedSectionVars false

namespace Norfair

variable {K L D F X : Type}

section
variable [LinearOrder K] [Zero K] [LinearOrder D] [OrderTop D] [Zero D] [DecidableEq L]

theorem hitObj_shape (cfg : Cfg K L D F X) (h : Ref → Det K L X) (g c : Nat) (o : Obj K L D F)
    (r : Ref) (period : Int) :
    ∃ a b hc d e f ph fl on, (hitObj cfg h g c o r period).obj =
      { o with
        past := a, lastDet := b, hitCounter := hc, isInit := d, id := e, globalId := f,
        pointHits := ph, filter := fl, once := on } := by
  cases hc : condAdd cfg.pastLen o.age h o.past r with
  | none => rw [hitObj_none hc]; exact ⟨_, _, _, _, _, _, _, _, _, rfl⟩
  | some p =>
    rw [hitObj_some (heap' := p.1) (past' := p.2) hc]
    obtain ⟨ph, fl, on, e⟩ := hitSensors_obj cfg (p.1 r) period (hitCounters cfg g c o r period p.2)
    simp only [e]
    unfold hitCounters
    split <;> exact ⟨_, _, _, _, _, _, _, _, _, rfl⟩

/-- the last detection after `hit`, whatever happened -/
theorem hitObj_lastDet (cfg : Cfg K L D F X) (h : Ref → Det K L X) (g c : Nat) (o : Obj K L D F)
    (r : Ref) (period : Int) :
    (hitObj cfg h g c o r period).obj.lastDet = r ∨
      (hitObj cfg h g c o r period).obj.lastDet = o.lastDet := by
  cases hc : condAdd cfg.pastLen o.age h o.past r with
  | none => rw [hitObj_none hc]; exact Or.inr rfl
  | some p =>
    rw [hitObj_some (heap' := p.1) (past' := p.2) hc]
    obtain ⟨ph, fl, on, e⟩ := hitSensors_obj cfg (p.1 r) period (hitCounters cfg g c o r period p.2)
    simp only [e]
    unfold hitCounters
    split <;> exact Or.inl rfl

/-- the past detections after `hit`, whatever happened -/
theorem hitObj_past_eq (cfg : Cfg K L D F X) (h : Ref → Det K L X) (g c : Nat) (o : Obj K L D F)
    (r : Ref) (period : Int) :
    (condAdd cfg.pastLen o.age h o.past r = none ∧ (hitObj cfg h g c o r period).obj.past = o.past ∧
      (hitObj cfg h g c o r period).heap = h) ∨
    condAdd cfg.pastLen o.age h o.past r = some ((hitObj cfg h g c o r period).heap,
      (hitObj cfg h g c o r period).obj.past) := by
  cases hc : condAdd cfg.pastLen o.age h o.past r with
  | none => rw [hitObj_none hc]; exact Or.inl ⟨rfl, rfl, rfl⟩
  | some p =>
    rw [hitObj_some (heap' := p.1) (past' := p.2) hc]
    simp only [hitSensors_past, hitCounters_past]
    exact Or.inr trivial

theorem newObj_none_fields (cfg : Cfg K L D F X) (w : World K L D F X) (r : Ref) (period : Int)
    (ct : Option (CoordTrans K)) :
    (newObj cfg w r period ct).hitCounter = period ∧ (newObj cfg w r period ct).initialPeriod = period ∧
    (newObj cfg w r period ct).lastDistance = none ∧ (newObj cfg w r period ct).curMin = none ∧
    (newObj cfg w r period ct).label = (w.heap r).label ∧ (newObj cfg w r period ct).lastDet = r ∧
    (newObj cfg w r period ct).age = 0 ∧
    (newObj cfg w r period ct).past = (if 0 < cfg.pastLen then [r] else []) ∧
    (newObj cfg w r period ct).pwMax = max cfg.pwMax period ∧
    (newObj cfg w r period ct).numPoints = (w.heap r).absPoints.n ∧
    (newObj cfg w r period ct).dimPoints = (w.heap r).absPoints.dim := by
  obtain ⟨g, hg⟩ := newObj_fields cfg w r period ct
  rw [hg]
  exact ⟨rfl, rfl, rfl, rfl, rfl, rfl, rfl, rfl, rfl, rfl, rfl⟩

theorem condAdd_length {n : Nat} {age : Int} {h h' : Ref → Det K L X} {past past' : List Ref} {r : Ref}
    (hc : condAdd n age h past r = some (h', past')) (hl : past.length ≤ n) : past'.length ≤ n := by
  unfold condAdd at hc
  split at hc
  · cases hc; exact hl
  · split at hc
    · cases hc
      rw [List.length_append, List.length_singleton]; omega
    · split at hc
      · cases hc; exact hl
      · split at hc
        · cases hc
        · split at hc
          · cases hc
            simp only [List.length_cons] at hl
            rw [List.length_append, List.length_singleton]; exact hl
          · cases hc; exact hl

theorem condAddAll_mem {n : Nat} {age : Int} (rs : List Ref) (h : Ref → Det K L X) (past : List Ref) :
    ∀ q ∈ (condAddAll n age h past rs).2.1, q ∈ past ∨ q ∈ rs := by
  induction rs generalizing h past with
  | nil => exact fun q hq => Or.inl hq
  | cons r rs ih =>
    unfold condAddAll
    split
    · exact fun q hq => Or.inl hq
    · rename_i hc
      intro q hq
      rcases ih _ _ q hq with h1 | h1
      · rcases condAdd_mem hc q h1 with h2 | ⟨rfl, _⟩
        · exact Or.inl h2
        · exact Or.inr (by simp)
      · exact Or.inr (by simp [h1])

theorem condAddAll_length {n : Nat} {age : Int} (rs : List Ref) (h : Ref → Det K L X) (past : List Ref)
    (hl : past.length ≤ n) : (condAddAll n age h past rs).2.1.length ≤ n := by
  induction rs generalizing h past with
  | nil => exact hl
  | cons r rs ih =>
    unfold condAddAll
    split
    · exact hl
    · rename_i hc
      exact ih _ _ (condAdd_length hc hl)

/-! ### No initializing objects, no ReID -/

/-- with a period above the delay, nothing ever becomes initializing -/
theorem initialized_inv (cfg : Cfg K L D F X) (dets : List Ref) (period : Int)
    (ct : Option (CoordTrans K)) (hp : cfg.initDelay < period) :
    ObjInv cfg dets period ct (fun _ => True) (fun _ o => o.isInit = false) where
  heapAges := fun _ _ _ _ => trivial
  heapTransform := fun _ _ _ _ _ _ => trivial
  ages := fun _ _ _ _ h => h
  transform := fun _ _ _ _ _ _ h => h
  step := by
    intro h o _ hq
    obtain ⟨g, e⟩ := updateCT_fields ct (o.trackerStep cfg)
    rw [e]; exact hq
  setMin := fun _ _ _ _ h => h
  hit := fun h g c o r d _ _ _ _ hq _ => (hitObj_basic cfg h g c o r period).2.2 hq
  hitErr := fun h g c o r _ _ _ hq _ => (hitObj_basic cfg h g c o r period).2.2 hq
  merge := fun _ _ _ _ _ hq _ => hq
  create := by
    intro w r _ _
    obtain ⟨g, hg⟩ := newObj_fields cfg w r period ct
    rw [hg]
    simpa [newObj, Obj.updateCT] using hp

theorem updateCore_noReid (cfg : Cfg K L D F X) (w : World K L D F X)
    (hi : ∀ o ∈ w.objs, o.isInit = false) (dets : List Ref) (period : Int)
    (ct : Option (CoordTrans K)) (hp : cfg.initDelay < period) :
    updateCore cfg w dets period ct = updateCore cfg.noReid w dets period ct := by
  have hi0 : ∀ o ∈ (advance cfg ct w).objs, o.isInit = false := by
    intro o ho
    simp only [advance, List.mem_map] at ho
    obtain ⟨p, hp', rfl⟩ := ho
    obtain ⟨g, e⟩ := updateCT_fields ct (p.trackerStep cfg)
    rw [e]
    exact hi p ((survivors_sublist cfg w.objs).subset hp')
  have hkeys1 : ∀ k ∈ stage1Keys cfg ct w, k ∈ (advance cfg ct w).keys := by
    intro k hk
    rw [advance_keys]
    exact aliveKeys_sub _ _ (World.mem_keysWhere.mp hk).1
  have hi1 : ∀ o ∈ (stageDet cfg period (advance cfg ct w) (stage1Keys cfg ct w) dets).1.objs,
      o.isInit = false :=
    ((stageDet_micros (adv := false) cfg dets period ct (advance cfg ct w) (stage1Keys cfg ct w) dets
      (fun _ h => h) hkeys1).1.objInv (initialized_inv cfg dets period ct hp) trivial hi0).2
  unfold updateCore
  simp only
  have e0 : advance cfg.noReid ct w = advance cfg ct w := rfl
  have e1 : aliveKeys cfg.noReid w.objs = aliveKeys cfg w.objs := rfl
  have e2 : deadKeys cfg.noReid w.objs = deadKeys cfg w.objs := rfl
  simp only [e0, e1, e2, stageDet_noReid]
  rw [show ((advance cfg ct w).keysWhere (aliveKeys cfg w.objs) fun o => !o.isInit) =
    stage1Keys cfg ct w from rfl]
  cases hs1 : stageDet cfg period (advance cfg ct w) (stage1Keys cfg ct w) dets with
  | mk w1 res1 =>
    rw [hs1] at hi1
    cases res1 with
    | error e => rfl
    | ok out1 =>
      simp only
      have hks2 : w1.keysWhere (aliveKeys cfg w.objs) (fun o => o.isInit) = [] := by
        rw [List.eq_nil_iff_forall_not_mem]
        intro k hk
        obtain ⟨_, o, ho, hoi⟩ := World.mem_keysWhere.mp hk
        rw [hi1 o (World.find_some ho).1] at hoi
        cases hoi
      rw [hks2]
      cases hs2 : stageDet cfg period w1 [] out1.unmatchedC with
      | mk w2 res2 =>
        cases res2 with
        | error e => rfl
        | ok out2 =>
          simp only
          have hm : out2.matchedO = [] := by
            rw [List.eq_nil_iff_forall_not_mem]
            intro k hk
            exact absurd ((stageDet_out_sub cfg period w1 [] out1.unmatchedC hs2).2.1 k hk) (by simp)
          rw [hm]
          have : ∀ ks, ∃ out, reidStage cfg w2 ks [] = (w2, .ok out) := by
            intro ks
            unfold reidStage
            split
            · exact ⟨_, rfl⟩
            · unfold stageReid
              exact ⟨_, rfl⟩
          obtain ⟨o3, h3⟩ := this (out1.unmatchedO ++ deadKeys cfg w.objs)
          rw [h3]
          rfl

/-- when nothing is initializing, the ReID distance is never used -/
theorem update_noReid (cfg : Cfg K L D F X) (w : World K L D F X)
    (hi : ∀ o ∈ w.objs, o.isInit = false) (dets : Option (List Ref)) (period : Int)
    (ct : Option (CoordTrans K)) (hp : cfg.initDelay < period) :
    update cfg w dets period ct = update cfg.noReid w dets period ct := by
  unfold update
  simp only [updateCoreNone_eq]
  split
  · rfl
  · rename_i c l
    exact updateCore_noReid cfg { w with heap := l.foldl (transformDet c) w.heap } hi _ _ _ hp
  · exact updateCore_noReid cfg w hi _ _ _ hp
  · exact updateCore_noReid cfg w hi _ _ _ hp

end

end Norfair
