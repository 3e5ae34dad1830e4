import Verif.Lemmas.Age
import Verif.Lemmas.Sim
import Verif.Lemmas.Trace

/-! How the coordinate transformation of objects and the positions of detections move in one `update`,
whether it succeeds or raises. -/

set_option linter.unusedSectionVars false

namespace Norfair

variable {K L D F X : Type}

section
variable [LinearOrder K] [Zero K] [LinearOrder D] [OrderTop D] [Zero D] [DecidableEq L]

/-- every object of `w'` has the transformation it had in `w`, or is new and has that of the call -/
structure CtRel (ct : Option (CoordTrans K)) (w w' : World K L D F X) : Prop where
  initCount : w.initCount ≤ w'.initCount
  cts : ∀ o' ∈ w'.objs, (∃ o ∈ w.objs, o.initId = o'.initId ∧ o.absToRel = o'.absToRel) ∨
    (w.initCount < o'.initId ∧ o'.absToRel = ct.map (·.absToRel))
  heap : ∀ r, (w'.heap r).points = (w.heap r).points ∧ (w'.heap r).absPoints = (w.heap r).absPoints

theorem CtRel.refl (ct : Option (CoordTrans K)) (w : World K L D F X) : CtRel ct w w :=
  ⟨le_refl _, fun o ho => Or.inl ⟨o, ho, rfl, rfl⟩, fun _ => ⟨rfl, rfl⟩⟩

theorem CtRel.trans {ct : Option (CoordTrans K)} {a b c : World K L D F X} (h : CtRel ct a b)
    (h' : CtRel ct b c) : CtRel ct a c := by
  refine ⟨h.initCount.trans h'.initCount, fun o ho => ?_, fun r =>
    ⟨(h'.heap r).1.trans (h.heap r).1, (h'.heap r).2.trans (h.heap r).2⟩⟩
  rcases h'.cts o ho with ⟨p, hp, e1, e2⟩ | ⟨h1, h2⟩
  · rcases h.cts p hp with ⟨q, hq, e3, e4⟩ | ⟨h3, h4⟩
    · exact Or.inl ⟨q, hq, e3.trans e1, e4.trans e2⟩
    · exact Or.inr ⟨e1 ▸ h3, e2 ▸ h4⟩
  · exact Or.inr ⟨lt_of_le_of_lt h.initCount h1, h2⟩

theorem hitObj_ct (cfg : Cfg K L D F X) (heap : Ref → Det K L X)
    (gcount count : Nat) (o : Obj K L D F) (r : Ref) (period : Int) :
    (hitObj cfg heap gcount count o r period).obj.absToRel = o.absToRel := by
  cases h : condAdd cfg.pastLen o.age heap o.past r with
  | none => rw [hitObj_none h]
  | some p =>
    rw [hitObj_some (heap' := p.1) (past' := p.2) h]
    obtain ⟨ph, fl, on, e⟩ := hitSensors_obj cfg (p.1 r) period
      (hitCounters cfg gcount count o r period p.2)
    simp only [e]
    unfold hitCounters
    split <;> rfl

theorem AgesOnly.pts {h h' : Ref → Det K L X} (a : AgesOnly h h') (r : Ref) :
    (h' r).points = (h r).points ∧ (h' r).absPoints = (h r).absPoints := by
  obtain ⟨x, e⟩ := (a r).1
  rw [e]
  exact ⟨rfl, rfl⟩

theorem CtRel.after {ct : Option (CoordTrans K)} {w : World K L D F X} {o o' : Obj K L D F} {heap g c}
    (ho : w.find o.initId = some o) (hk : o'.initId = o.initId) (ha : o'.absToRel = o.absToRel)
    (hh : AgesOnly w.heap heap) : CtRel ct w (w.after heap g c o') := by
  refine ⟨le_refl _, fun p hp => Or.inl ?_, fun r => hh.pts r⟩
  rcases World.mem_after hp with rfl | ⟨hp, _⟩
  · exact ⟨o, (World.find_some ho).1, hk.symm, ha.symm⟩
  · exact ⟨p, hp, rfl, rfl⟩

/-- all steps but the transformation of detections and the advance -/
theorem Micro.ctRel {cfg : Cfg K L D F X} {dets period ct} {w w' : World K L D F X}
    (h : Micro false cfg dets period ct w w') : CtRel ct w w' := by
  cases h with
  | transform c r h1 => cases h1
  | advance h => cases h
  | setMin o v h1 h2 =>
    refine ⟨le_refl _, fun p hp => Or.inl ?_, fun _ => ⟨rfl, rfl⟩⟩
    rcases World.mem_put hp with ⟨rfl, _⟩ | ⟨hp, _⟩
    · exact ⟨o, (World.find_some h1).1, rfl, rfl⟩
    · exact ⟨p, hp, rfl, rfl⟩
  | hit o r d res h1 h2 h3 h4 h5 h6 =>
    subst h5
    exact .after h1 (hitObj_basic cfg _ _ _ _ _ _).1 (hitObj_ct cfg _ _ _ _ _ _)
      (hitObj_heap cfg _ _ _ _ _ _)
  | hitErr o r e res h1 h2 h3 h5 h6 =>
    subst h5
    exact .after h1 (hitObj_basic cfg _ _ _ _ _ _).1 (hitObj_ct cfg _ _ _ _ _ _)
      (hitObj_heap cfg _ _ _ _ _ _)
  | merge o c heap' o' h1 h2 h3 h4 h5 h6 =>
    have e : o' = (mergeObj cfg w.heap o c).2.1 := by rw [h6]
    have eh : heap' = (mergeObj cfg w.heap o c).1 := by rw [h6]
    have := CtRel.after (ct := ct) (heap := heap') (g := w.gcount) (c := w.count) (o' := o') h1
      (by rw [e]; rfl) (by rw [e]; rfl) (by rw [eh]; exact agesOnly_condAddAll _ _ _)
    exact ⟨this.initCount, fun p hp => this.cts p (World.mem_remove hp).1, this.heap⟩
  | mergeErr o c e heap' o' h1 h2 h3 h4 h5 h6 =>
    have e : o' = (mergeObj cfg w.heap o c).2.1 := by rw [h6]
    have eh : heap' = (mergeObj cfg w.heap o c).1 := by rw [h6]
    exact CtRel.after (heap := heap') (g := w.gcount) (c := w.count) (o' := o') h1
      (by rw [e]; rfl) (by rw [e]; rfl) (by rw [eh]; exact agesOnly_condAddAll _ _ _)
  | create r hr =>
    rw [createObj_eq]
    refine ⟨Nat.le_succ _, fun p hp => ?_, fun q => (agesOnly_setAge w.heap r 0).pts q⟩
    rcases List.mem_append.mp hp with hp | hp
    · exact Or.inl ⟨p, hp, rfl, rfl⟩
    · rw [List.mem_singleton.mp hp]
      refine Or.inr ⟨?_, ?_⟩
      · obtain ⟨g, hg⟩ := newObj_fields cfg w r period ct
        rw [hg]
        exact Nat.lt_succ_self _
      · cases ct <;> rfl

theorem Micros.ctRel {cfg : Cfg K L D F X} {dets period ct} {w w' : World K L D F X}
    (h : Micros false cfg dets period ct w w') : CtRel ct w w' := by
  induction h with
  | refl => exact .refl _ _
  | tail _ h2 ih => exact ih.trans h2.ctRel

/-- the transformation of every object after a call that gets past the first lines -/
theorem update_ct {cfg : Cfg K L D F X} {w : World K L D F X} (hI : Inv w)
    (dets : Option (List Ref)) (period : Int) (ct : Option (CoordTrans K))
    (hr : ct = none ∨ dets ≠ none) :
    (∀ o' ∈ (update cfg w dets period ct).1.objs,
      (∃ o ∈ w.objs, o.initId = o'.initId ∧ o'.absToRel = (o.updateCT ct).absToRel) ∨
      (w.initCount < o'.initId ∧ o'.absToRel = ct.map (·.absToRel))) ∧
    ∀ r, ((update cfg w dets period ct).1.heap r).points = (startHeap w dets ct r).points ∧
      ((update cfg w dets period ct).1.heap r).absPoints = (startHeap w dets ct r).absPoints := by
  have main : ∀ (heap : Ref → Det K L X) l,
      (∀ o' ∈ (updateCore cfg { w with heap := heap } l period ct).1.objs,
        (∃ o ∈ w.objs, o.initId = o'.initId ∧ o'.absToRel = (o.updateCT ct).absToRel) ∨
        (w.initCount < o'.initId ∧ o'.absToRel = ct.map (·.absToRel))) ∧
      ∀ r, ((updateCore cfg { w with heap := heap } l period ct).1.heap r).points = (heap r).points ∧
        ((updateCore cfg { w with heap := heap } l period ct).1.heap r).absPoints = (heap r).absPoints := by
    intro heap l
    have hm := Micros.ctRel (updateCore_micros' (adv := false) cfg { w with heap := heap } hI.nodup l period ct)
    refine ⟨fun o' ho' => ?_, hm.heap⟩
    rcases hm.cts o' ho' with ⟨p, hp, e1, e2⟩ | h
    · obtain ⟨o, ho, rfl⟩ := List.mem_map.mp hp
      refine Or.inl ⟨o, (survivors_sublist cfg w.objs).subset ho, ?_, ?_⟩
      · rw [← e1]; exact (stepped_initId cfg ct o).symm
      · rw [← e2]
        cases ct <;> rfl
    · exact Or.inr h
  unfold update
  simp only [updateCoreNone_eq]
  cases ct with
  | none => cases dets <;> exact main _ _
  | some c =>
    cases dets with
    | none => rcases hr with h | h <;> simp at h
    | some l => exact main _ _

theorem foldl_transform_rest (c : CoordTrans K) (l : List Ref) : ∀ (h : Ref → Det K L X) (r : Ref),
    l.foldl (transformDet c) h r = { h r with absPoints := (l.foldl (transformDet c) h r).absPoints } := by
  induction l with
  | nil => intro h r; rfl
  | cons q l ih =>
    intro h r
    rw [List.foldl_cons, ih]
    unfold transformDet
    by_cases hrq : r = q
    · subst hrq
      simp
    · simp [hrq]

theorem foldl_transform_apply (c : CoordTrans K) (l : List Ref) : ∀ (h : Ref → Det K L X), l.Nodup →
    ∀ r, (l.foldl (transformDet c) h r).points = (h r).points ∧
      (l.foldl (transformDet c) h r).absPoints =
        if r ∈ l then c.relToAbs (h r).absPoints else (h r).absPoints := by
  induction l with
  | nil => intro h _ r; simp
  | cons q l ih =>
    intro h hl r
    obtain ⟨hq, hl⟩ := List.nodup_cons.mp hl
    obtain ⟨i1, i2⟩ := ih (transformDet c h q) hl r
    rw [List.foldl_cons, i1, i2]
    unfold transformDet
    by_cases hrq : r = q
    · subst hrq
      simp [hq]
    · simp [hrq]

end

end Norfair
