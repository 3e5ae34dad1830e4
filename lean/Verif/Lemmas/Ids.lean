import Verif.Lemmas.Past
import Verif.Lemmas.Exact

/-! Lemmas about ids and their counters, and about errors, used by the property theorems. -/

set_option linter.unusedSectionVars false

namespace Norfair

variable {K L D F X : Type}

section
variable [LinearOrder K] [Zero K] [LinearOrder D] [OrderTop D] [Zero D] [DecidableEq L]
variable {adv : Bool}

/-! ### kinds of errors -/

theorem hitSensors_err (cfg : Cfg K L D F X) (d : Det K L X) (period : Int) (o : Obj K L D F) :
    (hitSensors cfg d period o).2 = none ∨ (hitSensors cfg d period o).2 = some .shape := by
  unfold hitSensors
  simp only
  split
  · simp
  · split
    · simp
    · split <;> simp

theorem hitObj_err (cfg : Cfg K L D F X) (h : Ref → Det K L X) (g c : Nat) (o : Obj K L D F) (r : Ref)
    (period : Int) : (hitObj cfg h g c o r period).err = none ∨
      (hitObj cfg h g c o r period).err = some .shape ∨
      (hitObj cfg h g c o r period).err = some .typeError := by
  cases hc : condAdd cfg.pastLen o.age h o.past r with
  | none => rw [hitObj_none hc]; simp
  | some p =>
    rw [hitObj_some (heap' := p.1) (past' := p.2) hc]
    rcases hitSensors_err cfg (p.1 r) period (hitCounters cfg g c o r period p.2) with h | h
    · exact Or.inl h
    · exact Or.inr (Or.inl h)

theorem hitLoop_err_kind (cfg : Cfg K L D F X) (thr : D) (period : Int) (M : Mat D) (dets : List Ref)
    (keys : List Nat) (ps : List (Nat × Nat)) (w : World K L D F X) (out : StageOut Ref) {e}
    (h : (hitLoop cfg thr period M dets keys ps w out).2 = .error e) : e = .shape ∨ e = .typeError := by
  induction ps generalizing w out with
  | nil => unfold hitLoop at h; cases h
  | cons p ps ih =>
    obtain ⟨i, j⟩ := p
    unfold hitLoop at h
    split at h
    · rename_i r k hr hkj
      split at h
      · split at h
        · rename_i o ho
          simp only at h
          split at h
          · rename_i e' he
            cases h
            rcases hitObj_err cfg w.heap w.gcount w.count o r period with h1 | h1 | h1 <;>
              rw [h1] at he <;> cases he <;> simp
          · exact ih _ _ h
        · exact ih _ _ h
      · exact ih _ _ h
    · exact ih _ _ h

theorem mergeLoop_err_kind (cfg : Cfg K L D F X) (thr : D) (M : Mat D) (cands keys : List Nat)
    (ps : List (Nat × Nat)) (w : World K L D F X) (out : StageOut Nat) {e}
    (h : (mergeLoop cfg thr M cands keys ps w out).2 = .error e) : e = .typeError := by
  induction ps generalizing w out with
  | nil => unfold mergeLoop at h; cases h
  | cons p ps ih =>
    obtain ⟨i, j⟩ := p
    unfold mergeLoop at h
    split at h
    · split at h
      · split at h
        · rename_i oc o _ ho
          simp only at h
          split at h
          · rename_i e' he
            cases h
            simp only [mergeObj] at he
            split at he
            · cases he; rfl
            · cases he
          · exact ih _ _ h
        · exact ih _ _ h
      · exact ih _ _ h
    · exact ih _ _ h

/-! ### ids handed out by one update -/

theorem advance_count (cfg : Cfg K L D F X) (ct : Option (CoordTrans K)) (w : World K L D F X) :
    (advance cfg ct w).count = w.count := rfl

/-- effect of `hit` on id and counter -/
theorem hitObj_hc (cfg : Cfg K L D F X) (h : Ref → Det K L X) (g c : Nat) (o : Obj K L D F) (r : Ref)
    (period : Int) :
    (hitObj cfg h g c o r period).obj.hitCounter = o.hitCounter ∧
      (hitObj cfg h g c o r period).obj.id = o.id ∧ (hitObj cfg h g c o r period).count = c ∨
    (hitObj cfg h g c o r period).obj.hitCounter = min (o.hitCounter + 2 * period) cfg.hitCounterMax ∧
      (((hitObj cfg h g c o r period).obj.id = o.id ∧ (hitObj cfg h g c o r period).count = c) ∨
        (o.isInit = true ∧
          cfg.initDelay < min (o.hitCounter + 2 * period) cfg.hitCounterMax ∧
          (hitObj cfg h g c o r period).obj.id = some (c + 1) ∧
          (hitObj cfg h g c o r period).count = c + 1)) := by
  cases hc : condAdd cfg.pastLen o.age h o.past r with
  | none => rw [hitObj_none hc]; exact Or.inl ⟨rfl, rfl, rfl⟩
  | some p =>
    right
    rw [hitObj_some (heap' := p.1) (past' := p.2) hc]
    obtain ⟨ph, fl, on, e⟩ := hitSensors_obj cfg (p.1 r) period (hitCounters cfg g c o r period p.2)
    simp only [e]
    unfold hitCounters hitIds
    split
    · rename_i hcond
      exact ⟨rfl, Or.inr ⟨hcond.1, hcond.2, rfl, rfl⟩⟩
    · exact ⟨rfl, Or.inl ⟨rfl, rfl⟩⟩

/-- every id above `n` is carried by a tracked object with a hit counter that is not negative -/
def IdsHeld (n : Nat) (w : World K L D F X) : Prop :=
  ∀ i, n < i → i ≤ w.count → ∃ o ∈ w.objs, o.id = some i ∧ 0 ≤ o.hitCounter

theorem mem_after_self {w : World K L D F X} {o o' : Obj K L D F} {heap g c}
    (hf : w.find o.initId = some o) (e : o'.initId = o.initId) : o' ∈ (w.after heap g c o').objs :=
  (World.find_some (find_after_self (heap := heap) (g := g) (c := c) hf e)).1

theorem mem_after_other {w : World K L D F X} (hn : w.keys.Nodup) {o' p : Obj K L D F} {heap g c}
    (hp : p ∈ w.objs) (e : p.initId ≠ o'.initId) : p ∈ (w.after heap g c o').objs := by
  have h1 := World.find_of_mem hn hp
  have h2 := find_after_ne (w := w) (heap := heap) (g := g) (c := c) e
  rw [h1] at h2
  exact (World.find_some h2).1

theorem IdsHeld.after {n : Nat} {w : World K L D F X} (hI : Inv w) (h : IdsHeld n w)
    {o o' : Obj K L D F} {heap g c} (hf : w.find o.initId = some o) (e : o'.initId = o.initId)
    (hc : (c = w.count ∧ o'.id = o.id) ∨
      (c = w.count + 1 ∧ o.isInit = true ∧ o'.id = some (w.count + 1) ∧ 0 ≤ o'.hitCounter))
    (hhc : 0 ≤ o.hitCounter → 0 ≤ o'.hitCounter) : IdsHeld n (w.after heap g c o') := by
  intro i h1 h2
  have h2' : i ≤ c := h2
  have hmem := (World.find_some hf).1
  by_cases hi : i ≤ w.count
  · obtain ⟨p, hp, hid, hp0⟩ := h i h1 hi
    by_cases hpo : p.initId = o.initId
    · have : p = o := World.eq_of_mem_of_key hI.nodup hp hmem hpo
      subst this
      refine ⟨o', mem_after_self hf e, ?_, hhc hp0⟩
      rcases hc with ⟨_, hc⟩ | ⟨_, hc, _⟩
      · rw [hc, hid]
      · rw [(hI.initIff p hmem).mp hc] at hid; cases hid
    · exact ⟨p, mem_after_other hI.nodup hp (by rw [e]; exact hpo), hid, hp0⟩
  · rcases hc with ⟨hc, _⟩ | ⟨hc, _, hc2, hc3⟩
    · omega
    · have : i = w.count + 1 := by omega
      subst this
      exact ⟨o', mem_after_self hf e, hc2, hc3⟩

theorem Micro.idsHeld {cfg : Cfg K L D F X} {dets period ct} {w w' : World K L D F X}
    (hreid : cfg.reid = none) (hd : 0 ≤ cfg.initDelay) (hm : 0 ≤ cfg.hitCounterMax) (hp : 0 ≤ period)
    (h : Micro false cfg dets period ct w w') (hI : Inv w) {n : Nat} (hh : IdsHeld n w) :
    IdsHeld n w' := by
  have hhit : ∀ o r, (hitObj cfg w.heap w.gcount w.count o r period).obj.hitCounter ≥ 0 ∨
      ¬ 0 ≤ o.hitCounter := by
    intro o r
    by_cases ho : 0 ≤ o.hitCounter
    · left
      rcases hitObj_hc cfg w.heap w.gcount w.count o r period with ⟨h1, _⟩ | ⟨h1, _⟩
      · rw [h1]; exact ho
      · rw [h1]; apply le_min <;> omega
    · exact Or.inr ho
  have hid : ∀ o r, ((hitObj cfg w.heap w.gcount w.count o r period).count = w.count ∧
        (hitObj cfg w.heap w.gcount w.count o r period).obj.id = o.id) ∨
      ((hitObj cfg w.heap w.gcount w.count o r period).count = w.count + 1 ∧ o.isInit = true ∧
        (hitObj cfg w.heap w.gcount w.count o r period).obj.id = some (w.count + 1) ∧
        0 ≤ (hitObj cfg w.heap w.gcount w.count o r period).obj.hitCounter) := by
    intro o r
    rcases hitObj_hc cfg w.heap w.gcount w.count o r period with ⟨_, h2, h3⟩ | ⟨h1, ⟨h2, h3⟩ | ⟨h2, h3, h4, h5⟩⟩
    · exact Or.inl ⟨h3, h2⟩
    · exact Or.inl ⟨h3, h2⟩
    · exact Or.inr ⟨h5, h2, h4, by rw [h1]; omega⟩
  cases h with
  | transform c r _ hc hr => exact hh
  | advance hadv => cases hadv
  | setMin o v hf hv =>
    exact hh.after (heap := w.heap) (g := w.gcount) (c := w.count) (o' := { o with curMin := v }) hI hf rfl
      (Or.inl ⟨rfl, rfl⟩) id
  | hit o r d res hf hr hc hd' hres he =>
    subst hres
    have := hhit o r
    exact hh.after hI (o' := { (hitObj cfg w.heap w.gcount w.count o r period).obj with
      lastDistance := some d }) hf (hitObj_basic cfg w.heap w.gcount w.count o r period).1
      (hid o r) (fun h0 => this.resolve_right (not_not.mpr h0))
  | hitErr o r e res hf hr hc hres he =>
    subst hres
    have := hhit o r
    exact hh.after hI hf (hitObj_basic cfg w.heap w.gcount w.count o r period).1
      (hid o r) (fun h0 => this.resolve_right (not_not.mpr h0))
  | merge o c heap' o' hf hfc hne hl hr hm => exact absurd hreid hr
  | mergeErr o c e heap' o' hf hfc hne hl hr hm => exact absurd hreid hr
  | create r hr =>
    rw [createObj_eq]
    intro i h1 h2
    simp only at h2
    by_cases hi : i ≤ w.count
    · obtain ⟨p, hp, hq⟩ := hh i h1 hi
      exact ⟨p, List.mem_append_left _ hp, hq⟩
    · refine ⟨_, List.mem_append_right _ (List.mem_singleton.mpr rfl), ?_, ?_⟩
      · have hpd : ¬ period ≤ cfg.initDelay := by
          intro hle; rw [if_pos hle] at h2; omega
        rw [if_neg hpd] at h2
        have : i = w.count + 1 := by omega
        obtain ⟨g0, hg0⟩ := updateCT_fields ct (newObj cfg w r period none)
        have hnew : newObj cfg w r period ct = { newObj cfg w r period none with absToRel := g0 } := by
          rw [← hg0]; rfl
        rw [hnew]
        simp [newObj, Obj.updateCT, hpd, this]
      · obtain ⟨g0, hg0⟩ := updateCT_fields ct (newObj cfg w r period none)
        have hnew : newObj cfg w r period ct = { newObj cfg w r period none with absToRel := g0 } := by
          rw [← hg0]; rfl
        rw [hnew]
        simpa [newObj, Obj.updateCT] using hp

theorem Micros.idsHeld {cfg : Cfg K L D F X} {dets period ct} {w w' : World K L D F X}
    (hreid : cfg.reid = none) (hd : 0 ≤ cfg.initDelay) (hm : 0 ≤ cfg.hitCounterMax) (hp : 0 ≤ period)
    (h : Micros false cfg dets period ct w w') (hI : Inv w) {n : Nat} (hh : IdsHeld n w) :
    Inv w' ∧ IdsHeld n w' := by
  induction h with
  | refl => exact ⟨hI, hh⟩
  | tail _ hm' ih => exact ⟨(hm'.inv ih.1).1, hm'.idsHeld hreid hd hm hp ih.1 ih.2⟩

/-- without ReID: the ids handed out by an `update` are carried by active objects -/
theorem update_idsHeld {cfg : Cfg K L D F X} {w : World K L D F X} (hI : Inv w)
    (hreid : cfg.reid = none) (hd : 0 ≤ cfg.initDelay) (hm : 0 ≤ cfg.hitCounterMax)
    (dets : Option (List Ref)) (period : Int) (hp : 0 ≤ period) (ct : Option (CoordTrans K)) :
    IdsHeld w.count (update cfg w dets period ct).1 := by
  have core : ∀ (w0 : World K L D F X) l ct, Inv w0 →
      IdsHeld w0.count (updateCore cfg w0 l period ct).1 := by
    intro w0 l ct hI0
    have hIa := (Micro.inv (Micro.advance (cfg := cfg) (dets := l) (period := period) (ct := ct)
      (adv := true) w0 rfl) hI0).1
    refine ((updateCore_micros' (adv := false) cfg w0 hI0.nodup l period ct).idsHeld hreid hd hm hp hIa
      (n := w0.count) ?_).2
    intro i h1 h2
    rw [advance_count] at h2
    omega
  unfold update
  simp only [updateCoreNone_eq]
  split
  · intro i h1 h2; simp only at h2; omega
  · rename_i c l
    exact core { w with heap := l.foldl (transformDet c) w.heap } l _
      ⟨hI.sorted, hI.bounded, hI.initIff, hI.globIff, hI.idRange, hI.gidRange, hI.idInj, hI.gidInj⟩
  · exact core w [] none hI
  · exact core w _ none hI

theorem mem_activeObjects {w : World K L D F X} {o : Obj K L D F} :
    o ∈ activeObjects w ↔ o ∈ w.objs ∧ o.isInit = false ∧ 0 ≤ o.hitCounter := by
  unfold activeObjects
  simp [Obj.hcPos]

/-- a list of different numbers between 1 and `n` has at most `n` elements -/
theorem length_le_of_nodup_range {l : List Nat} {n : Nat} (hn : l.Nodup)
    (h : ∀ i ∈ l, 1 ≤ i ∧ i ≤ n) : l.length ≤ n := by
  have hs : l.length ≤ (List.range' 1 n).length := by
    refine (List.Nodup.subperm hn ?_).length_le
    intro i hi
    have := h i hi
    simp only [List.mem_range'_1]
    omega
  simpa using hs

end

end Norfair
