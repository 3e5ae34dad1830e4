import Verif.Lemmas.Errors
import Verif.Lemmas.Trace

/-! Past detections always have an age, so `None * int` never happens. -/

set_option linter.unusedSectionVars false

namespace Norfair

variable {K L D F X : Type}

theorem setAge_self (h : Ref → Det K L X) (r : Ref) (a : Int) : (setAge h r a r).age = some a := by
  simp [setAge]

theorem condAdd_none {n : Nat} {age : Int} {h : Ref → Det K L X} {past : List Ref} {r : Ref}
    (hc : condAdd n age h past r = none) : ∃ p ∈ past, (h p).age = none := by
  unfold condAdd at hc
  split at hc
  · cases hc
  · split at hc
    · cases hc
    · split at hc
      · cases hc
      · split at hc
        · rename_i p _ _ _ ha
          exact ⟨p, by simp, ha⟩
        · split at hc <;> cases hc

/-- what can be in the list of past detections after one conditional addition -/
theorem condAdd_mem {n : Nat} {age : Int} {h h' : Ref → Det K L X} {past past' : List Ref} {r : Ref}
    (hc : condAdd n age h past r = some (h', past')) :
    ∀ q ∈ past', q ∈ past ∨ (q = r ∧ (h' r).age = some age) := by
  unfold condAdd at hc
  split at hc
  · cases hc; exact fun q hq => Or.inl hq
  · split at hc
    · cases hc
      intro q hq
      rcases List.mem_append.mp hq with hq | hq
      · exact Or.inl hq
      · simp only [List.mem_singleton] at hq
        exact Or.inr ⟨hq, setAge_self _ _ _⟩
    · split at hc
      · cases hc; exact fun q hq => Or.inl hq
      · split at hc
        · cases hc
        · split at hc
          · cases hc
            intro q hq
            rcases List.mem_append.mp hq with hq | hq
            · exact Or.inl (List.mem_cons_of_mem _ hq)
            · simp only [List.mem_singleton] at hq
              exact Or.inr ⟨hq, setAge_self _ _ _⟩
          · cases hc; exact fun q hq => Or.inl hq

theorem condAddAll_past {n : Nat} {age : Int} (rs : List Ref) (h : Ref → Det K L X) (past : List Ref)
    (hp : ∀ q ∈ past, (h q).age ≠ none) :
    (condAddAll n age h past rs).2.2 = false ∧
    (∀ q ∈ (condAddAll n age h past rs).2.1, ((condAddAll n age h past rs).1 q).age ≠ none) ∧
    ∀ q ∈ (condAddAll n age h past rs).2.1, q ∈ past ∨ q ∈ rs := by
  induction rs generalizing h past with
  | nil => exact ⟨rfl, hp, fun q hq => Or.inl hq⟩
  | cons r rs ih =>
    unfold condAddAll
    split
    · rename_i hc
      obtain ⟨p, hp', ha⟩ := condAdd_none hc
      exact absurd ha (hp p hp')
    · rename_i h' past' hc
      obtain ⟨h1, h2, h3⟩ := ih h' past' (by
        intro q hq
        rcases condAdd_mem hc q hq with h1 | ⟨rfl, h1⟩
        · exact (agesOnly_condAdd hc q).2 (hp q h1)
        · rw [h1]; simp)
      refine ⟨h1, h2, fun q hq => ?_⟩
      rcases h3 q hq with h4 | h4
      · rcases condAdd_mem hc q h4 with h5 | ⟨rfl, _⟩
        · exact Or.inl h5
        · exact Or.inr (by simp)
      · exact Or.inr (by simp [h4])

section
variable [LinearOrder K] [Zero K] [LinearOrder D] [OrderTop D] [Zero D] [DecidableEq L]

theorem hitSensors_past (cfg : Cfg K L D F X) (d : Det K L X) (period : Int) (o : Obj K L D F) :
    (hitSensors cfg d period o).1.past = o.past := by
  obtain ⟨ph, fl, on, e⟩ := hitSensors_obj cfg d period o
  rw [e]

@[simp] theorem hitCounters_past (cfg : Cfg K L D F X) (g c : Nat) (o : Obj K L D F) (r : Ref)
    (period : Int) (past' : List Ref) : (hitCounters cfg g c o r period past').past = past' := by
  unfold hitCounters; split <;> rfl

/-- `hit` on the past detections -/
theorem hitObj_past {cfg : Cfg K L D F X} {h : Ref → Det K L X} {g c : Nat} {o : Obj K L D F} {r : Ref}
    {period : Int} (hp : ∀ q ∈ o.past, (h q).age ≠ none) :
    (∀ q ∈ (hitObj cfg h g c o r period).obj.past,
      ((hitObj cfg h g c o r period).heap q).age ≠ none) ∧
    (∀ q ∈ (hitObj cfg h g c o r period).obj.past, q ∈ o.past ∨ q = r) ∧
    (hitObj cfg h g c o r period).err ≠ some .typeError := by
  cases hc : condAdd cfg.pastLen o.age h o.past r with
  | none =>
    obtain ⟨p, hp', ha⟩ := condAdd_none hc
    exact absurd ha (hp p hp')
  | some p =>
    rw [hitObj_some (heap' := p.1) (past' := p.2) hc]
    simp only [hitSensors_past, hitCounters_past]
    refine ⟨?_, ?_, ?_⟩
    · intro q hq
      rcases condAdd_mem (h' := p.1) (past' := p.2) hc q hq with h1 | ⟨rfl, h1⟩
      · exact (agesOnly_condAdd (h' := p.1) (past' := p.2) hc q).2 (hp q h1)
      · rw [h1]; simp
    · intro q hq
      rcases condAdd_mem (h' := p.1) (past' := p.2) hc q hq with h1 | ⟨rfl, h1⟩
      · exact Or.inl h1
      · exact Or.inr rfl
    · unfold hitSensors
      simp only
      split
      · simp
      · split
        · simp
        · split <;> simp

theorem newObj_past (cfg : Cfg K L D F X) (w : World K L D F X) (r : Ref) (period : Int)
    (ct : Option (CoordTrans K)) : ∀ q ∈ (newObj cfg w r period ct).past, q = r := by
  obtain ⟨g0, hg0⟩ := updateCT_fields ct (newObj cfg w r period none)
  have : newObj cfg w r period ct = { newObj cfg w r period none with absToRel := g0 } := by
    rw [← hg0]; rfl
  rw [this]
  simp only [newObj, Obj.updateCT]
  split <;> simp

theorem stepped_past' (cfg : Cfg K L D F X) (ct : Option (CoordTrans K)) (o : Obj K L D F) :
    ((o.trackerStep cfg).updateCT ct).past = o.past := by
  obtain ⟨g, h⟩ := updateCT_fields ct (o.trackerStep cfg); rw [h]; rfl

/-- past detections always have an age -/
theorem pastAges_inv (cfg : Cfg K L D F X) (dets : List Ref) (period : Int)
    (ct : Option (CoordTrans K)) :
    ObjInv cfg dets period ct (fun _ => True) (fun h o => ∀ q ∈ o.past, (h q).age ≠ none) where
  heapAges := fun _ _ _ _ => trivial
  heapTransform := fun _ _ _ _ _ _ => trivial
  ages := fun h h' o ha hq q hqm => (ha q).2 (hq q hqm)
  transform := by
    intro h c r o _ _ hq q hqm
    obtain ⟨a, ha⟩ := transformDet_fields c h r q
    rw [ha]; exact hq q hqm
  step := by
    intro h o _ hq q hqm
    rw [stepped_past'] at hqm
    exact hq q hqm
  setMin := fun h o v _ hq => hq
  hit := fun h g c o r d _ _ _ _ hq _ => (hitObj_past hq).1
  hitErr := fun h g c o r _ _ _ hq _ => (hitObj_past hq).1
  merge := fun h o c _ _ hq _ => (condAddAll_past c.past h o.past hq).2.1
  create := by
    intro w r _ _ q hq
    rw [newObj_past _ _ _ _ _ q hq, setAge_self]; simp

theorem Reachable.pastAges {cfg : Cfg K L D F X} {w : World K L D F X} (h : Reachable cfg w) :
    ∀ o ∈ w.objs, ∀ q ∈ o.past, (w.heap q).age ≠ none := by
  obtain ⟨w0, h0, h⟩ := h
  refine Reaches.objInv h (Inv.initial h0) (fun dets period ct w _ =>
    ⟨_, trivial, pastAges_inv cfg (dets.getD []) period ct⟩) ?_ ?_
  · exact fun h h' o _ ha hq q hqm => ha q (hq q hqm)
  · rw [h0.1]; simp

/-- in a reachable state no cause can produce a `TypeError` -/
theorem ErrCause.no_typeError {cfg : Cfg K L D F X} {dets : List Ref} {period : Int}
    {w : World K L D F X} {e : Err} (h : ErrCause cfg dets period w e)
    (hp : ∀ o ∈ w.objs, ∀ q ∈ o.past, (w.heap q).age ≠ none) : e ≠ .typeError := by
  cases h with
  | hit o r e hf hr hc he =>
    intro h; subst h
    exact (hitObj_past (hp o (World.find_some hf).1)).2.2 he
  | merge o c e hf hfc hne hr he =>
    have := (condAddAll_past (n := cfg.pastLen) (age := o.age) c.past w.heap o.past
      (hp o (World.find_some hf).1)).1
    simp only [mergeObj, this] at he
    cases he
  | _ => simp

/-- the only `TypeError` is the documented-looking call with a transformation and no detections -/
theorem typeError_iff {cfg : Cfg K L D F X} {w : World K L D F X} (h : Reachable cfg w)
    (dets : Option (List Ref)) (period : Int) (ct : Option (CoordTrans K)) :
    (update cfg w dets period ct).2 = .error .typeError ↔ ct ≠ none ∧ dets = none := by
  constructor
  · intro he
    rcases update_error cfg w h.inv.nodup dets period ct
      (w' := (update cfg w dets period ct).1) (Prod.ext rfl he) with ⟨_, h1, h2, _⟩ | ⟨w1, hm, hc⟩
    · exact ⟨h1, h2⟩
    · exact absurd rfl (hc.no_typeError
        (hm.objInv (pastAges_inv cfg (dets.getD []) period ct) trivial h.pastAges).2)
  · rintro ⟨h1, rfl⟩
    cases ct with
    | none => exact absurd rfl h1
    | some c => rfl

end

end Norfair
