import Verif.Lemmas.Stages

/-! How `age` moves in one `update`, whether it succeeds or raises. -/

set_option linter.unusedSectionVars false

namespace Norfair

variable {K L D F X : Type}

section
variable [LinearOrder K] [Zero K] [LinearOrder D] [OrderTop D] [Zero D] [DecidableEq L]

/-- every object of `w'` has the age it had in `w`, or is new and has age 0 -/
structure AgeRel (w w' : World K L D F X) : Prop where
  initCount : w.initCount ≤ w'.initCount
  ages : ∀ o' ∈ w'.objs, (∃ o ∈ w.objs, o.initId = o'.initId ∧ o.age = o'.age) ∨
    (w.initCount < o'.initId ∧ o'.age = 0)

theorem AgeRel.refl (w : World K L D F X) : AgeRel w w :=
  ⟨le_refl _, fun o ho => Or.inl ⟨o, ho, rfl, rfl⟩⟩

theorem AgeRel.trans {a b c : World K L D F X} (h : AgeRel a b) (h' : AgeRel b c) : AgeRel a c := by
  refine ⟨h.initCount.trans h'.initCount, fun o ho => ?_⟩
  rcases h'.ages o ho with ⟨p, hp, e1, e2⟩ | ⟨h1, h2⟩
  · rcases h.ages p hp with ⟨q, hq, e3, e4⟩ | ⟨h3, h4⟩
    · exact Or.inl ⟨q, hq, e3.trans e1, e4.trans e2⟩
    · exact Or.inr ⟨e1 ▸ h3, e2 ▸ h4⟩
  · exact Or.inr ⟨lt_of_le_of_lt h.initCount h1, h2⟩

theorem hitObj_age (cfg : Cfg K L D F X) (heap : Ref → Det K L X)
    (gcount count : Nat) (o : Obj K L D F) (r : Ref) (period : Int) :
    (hitObj cfg heap gcount count o r period).obj.age = o.age := by
  cases h : condAdd cfg.pastLen o.age heap o.past r with
  | none => rw [hitObj_none h]
  | some p =>
    rw [hitObj_some (heap' := p.1) (past' := p.2) h]
    obtain ⟨ph, fl, on, e⟩ := hitSensors_obj cfg (p.1 r) period
      (hitCounters cfg gcount count o r period p.2)
    simp only [e]
    unfold hitCounters
    split <;> rfl

theorem AgeRel.after {w : World K L D F X} {o o' : Obj K L D F} {heap g c}
    (ho : w.find o.initId = some o) (hk : o'.initId = o.initId) (ha : o'.age = o.age) :
    AgeRel w (w.after heap g c o') := by
  refine ⟨le_refl _, fun p hp => Or.inl ?_⟩
  rcases World.mem_after hp with rfl | ⟨hp, _⟩
  · exact ⟨o, (World.find_some ho).1, hk.symm, ha.symm⟩
  · exact ⟨p, hp, rfl, rfl⟩

theorem Micro.ageRel {cfg : Cfg K L D F X} {dets period ct} {w w' : World K L D F X}
    (h : Micro false cfg dets period ct w w') (hb : ∀ o ∈ w.objs, o.initId ≤ w.initCount) :
    AgeRel w w' := by
  cases h with
  | transform c r _ h1 h2 => exact ⟨le_refl _, fun o ho => Or.inl ⟨o, ho, rfl, rfl⟩⟩
  | advance h => cases h
  | setMin o v h1 h2 =>
    refine ⟨le_refl _, fun p hp => Or.inl ?_⟩
    rcases World.mem_put hp with ⟨rfl, _⟩ | ⟨hp, _⟩
    · exact ⟨o, (World.find_some h1).1, rfl, rfl⟩
    · exact ⟨p, hp, rfl, rfl⟩
  | hit o r d res h1 h2 h3 h4 h5 h6 =>
    subst h5
    exact .after h1 (hitObj_basic cfg _ _ _ _ _ _).1 (hitObj_age cfg _ _ _ _ _ _)
  | hitErr o r e res h1 h2 h3 h5 h6 =>
    subst h5
    exact .after h1 (hitObj_basic cfg _ _ _ _ _ _).1 (hitObj_age cfg _ _ _ _ _ _)
  | merge o c heap' o' h1 h2 h3 h4 h5 h6 =>
    have e : o' = (mergeObj cfg w.heap o c).2.1 := by rw [h6]
    have := AgeRel.after (heap := heap') (g := w.gcount) (c := w.count) (o' := o') h1
      (by rw [e]; rfl) (by rw [e]; rfl)
    exact ⟨this.initCount, fun p hp => this.ages p (World.mem_remove hp).1⟩
  | mergeErr o c e heap' o' h1 h2 h3 h4 h5 h6 =>
    have e : o' = (mergeObj cfg w.heap o c).2.1 := by rw [h6]
    exact AgeRel.after (heap := heap') (g := w.gcount) (c := w.count) (o' := o') h1
      (by rw [e]; rfl) (by rw [e]; rfl)
  | create r hr =>
    rw [createObj_eq]
    refine ⟨Nat.le_succ _, fun p hp => ?_⟩
    rcases List.mem_append.mp hp with hp | hp
    · exact Or.inl ⟨p, hp, rfl, rfl⟩
    · rw [List.mem_singleton.mp hp]
      obtain ⟨g, hg⟩ := newObj_fields cfg w r period ct
      rw [hg]
      exact Or.inr ⟨Nat.lt_succ_self _, rfl⟩

theorem Micros.ageRel {cfg : Cfg K L D F X} {dets period ct} {w w' : World K L D F X}
    (h : Micros false cfg dets period ct w w') (hI : Inv w) : AgeRel w w' := by
  induction h with
  | refl => exact .refl _
  | tail h1 h2 ih => exact ih.trans (h2.ageRel fun o ho => ((Micros.inv h1 hI).1.bounded o ho).2)

theorem advance_inv {cfg : Cfg K L D F X} {ct : Option (CoordTrans K)} {w : World K L D F X}
    (hI : Inv w) : Inv (advance cfg ct w) :=
  (Micro.inv (Micro.advance (adv := true) (dets := []) (period := 0) w rfl) hI).1

/-- objects of the result of an update: survivors, one frame older, or new -/
theorem update_survivors {cfg : Cfg K L D F X} {w : World K L D F X} (hI : Inv w)
    (dets : Option (List Ref)) (period : Int) (ct : Option (CoordTrans K))
    (hr : ¬ (ct ≠ none ∧ dets = none)) :
    ∀ o' ∈ (update cfg w dets period ct).1.objs,
      (∃ o ∈ survivors cfg w.objs, o.initId = o'.initId ∧ o'.age = o.age + 1) ∨
      (w.initCount < o'.initId ∧ o'.age = 0) := by
  have main : ∀ (heap : Ref → Det K L X) l, ∀ o' ∈ (updateCore cfg { w with heap := heap } l period ct).1.objs,
      (∃ o ∈ survivors cfg w.objs, o.initId = o'.initId ∧ o'.age = o.age + 1) ∨
      (w.initCount < o'.initId ∧ o'.age = 0) := by
    intro heap l o' ho'
    have hI' : Inv ({ w with heap := heap } : World K L D F X) := ⟨hI.1, hI.2, hI.3, hI.4, hI.5, hI.6, hI.7, hI.8⟩
    have hm := updateCore_micros' (adv := false) cfg { w with heap := heap } hI.nodup l period ct
    rcases (Micros.ageRel hm (advance_inv hI')).ages o' ho' with ⟨p, hp, e1, e2⟩ | h
    · obtain ⟨o, ho, rfl⟩ := List.mem_map.mp hp
      refine Or.inl ⟨o, ho, ?_, ?_⟩
      · rw [← e1]; exact (stepped_initId cfg ct o).symm
      · rw [← e2]
        obtain ⟨g, hg⟩ := stepped_eq cfg ct o
        exact (congrArg Obj.age hg).trans rfl
    · exact Or.inr h
  unfold update
  simp only [updateCoreNone_eq]
  cases ct with
  | none => cases dets <;> exact main _ _
  | some c =>
    cases dets with
    | none => exact absurd ⟨by simp, rfl⟩ hr
    | some l => exact main _ _

/-- objects of the result of an update: one frame older, or new -/
theorem update_age {cfg : Cfg K L D F X} {w : World K L D F X} (hI : Inv w)
    (dets : Option (List Ref)) (period : Int) (ct : Option (CoordTrans K))
    (hr : ¬ (ct ≠ none ∧ dets = none)) :
    ∀ o' ∈ (update cfg w dets period ct).1.objs,
      (∃ o ∈ w.objs, o.initId = o'.initId ∧ o'.age = o.age + 1) ∨
      (w.initCount < o'.initId ∧ o'.age = 0) := fun o' ho' =>
  (update_survivors hI dets period ct hr o' ho').imp_left fun ⟨o, ho, h⟩ =>
    ⟨o, (survivors_sublist cfg w.objs).subset ho, h⟩

end

end Norfair
