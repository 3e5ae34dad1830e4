import Verif.Lemmas.PartStage
import Verif.Lemmas.Rounds

/-! `update` of a tracker that has a part of the detections and objects of another one. -/

set_option linter.unusedSectionVars false

namespace Norfair

open Norfair.Spec

variable {K L D F X : Type}

section
variable [LinearOrder K] [Zero K] [LinearOrder D] [OrderTop D] [Zero D] [DecidableEq L] {S : L → Bool} {lab : Ref → L}
  {c e : Nat → Nat} {sk : Nat → Bool}

/-- does the object stay (lines 184-200)? -/
def surv (cfg : Cfg K L D F X) (o : Obj K L D F) : Bool :=
  match cfg.reidMax with
  | none => o.hcPos
  | some _ => o.reidPos

theorem survivors_eq (cfg : Cfg K L D F X) (objs : List (Obj K L D F)) : survivors cfg objs = objs.filter (surv cfg) := by
  unfold survivors surv
  cases cfg.reidMax <;> rfl

theorem keysWhere_self {w : World K L D F X} (hn : w.keys.Nodup) (p : Obj K L D F → Bool) :
    (w.objs.filter p).map (·.initId) = w.keysWhere w.keys p := by
  have hf : ∀ o ∈ w.objs, w.find o.initId = some o := fun o ho => World.find_of_mem hn ho
  unfold World.keysWhere World.keys
  rw [List.filter_map]
  congr 1
  apply List.filter_congr
  intro o ho
  simp only [Function.comp]
  rw [hf o ho]

theorem keysWhere_part {a b : World K L D F X} (h : Part S lab c e sk a b) {keysA keysB : List Nat}
    (hkB : ∀ k ∈ keysB, k ∈ b.keys) (hkeys : keysB.map c = keysA.filter sk) (p : Obj K L D F → Bool)
    (hp : ∀ o q, Good S e o q → p q = p o) :
    (b.keysWhere keysB p).map c = (a.keysWhere keysA p).filter sk := by
  unfold World.keysWhere
  rw [List.filter_filter]
  have hc : ∀ (p q : Nat → Bool) (l : List Nat), l.filter (fun x => p x && q x) = (l.filter p).filter q := by
    intro p q l
    rw [List.filter_filter]
    congr 1
    funext x
    rw [Bool.and_comm]
  rw [hc]
  rw [← hkeys, List.filter_map]
  congr 1
  apply List.filter_congr
  intro k hk
  simp only [Function.comp]
  obtain ⟨q, hq⟩ := World.find_isSome_of_mem (hkB k hk)
  obtain ⟨o, ho, hg⟩ := h.objs k q hq
  rw [hq, ho]
  exact hp o q hg

theorem find_advance_iff {cfg : Cfg K L D F X} {ct : Option (CoordTrans K)} {w : World K L D F X} (hn : w.keys.Nodup)
    {k : Nat} {o' : Obj K L D F} :
    (advance cfg ct w).find k = some o' ↔ ∃ o, w.find k = some o ∧ surv cfg o = true ∧ o' = stepped cfg ct o := by
  constructor
  · intro h
    obtain ⟨h1, h2⟩ := World.find_some h
    unfold advance at h1
    simp only [survivors_eq] at h1
    obtain ⟨o, ho, rfl⟩ := List.mem_map.mp h1
    rw [List.mem_filter] at ho
    have : o.initId = k := by rw [← h2]; exact (stepped_initId cfg ct o).symm
    exact ⟨o, by rw [← this]; exact World.find_of_mem hn ho.1, ho.2, rfl⟩
  · rintro ⟨o, h1, h2, rfl⟩
    obtain ⟨h3, h4⟩ := World.find_some h1
    rw [← h4]
    exact find_advance hn (by rw [survivors_eq]; exact List.mem_filter.mpr ⟨h3, h2⟩)

theorem surv_same (cfg : Cfg K L D F X) {o p : Obj K L D F} (h : SameBut o p) : surv cfg p = surv cfg o := by
  unfold SameBut at h
  rw [h]
  rfl

theorem stepped_same (cfg : Cfg K L D F X) (ct : Option (CoordTrans K)) {o p : Obj K L D F} (h : SameBut o p) :
    SameBut (stepped cfg ct o) (stepped cfg ct p) := by
  unfold SameBut at h ⊢
  rw [h]
  cases ct <;> rfl

theorem stepped_refs (cfg : Cfg K L D F X) (ct : Option (CoordTrans K)) {o : Obj K L D F} (h : Refs S lab o) :
    Refs S lab (stepped cfg ct o) := by
  cases ct <;> exact h

theorem advance_keys' (cfg : Cfg K L D F X) (ct : Option (CoordTrans K)) {w : World K L D F X} (hn : w.keys.Nodup) :
    (advance cfg ct w).keys = w.keysWhere w.keys (surv cfg) := by
  rw [advance_keys, survivors_eq, keysWhere_self hn]

theorem Part.step {a b : World K L D F X} (h : Part S lab c e sk a b)
    (cfg : Cfg K L D F X) (ct : Option (CoordTrans K)) :
    Part S lab c e sk (Norfair.advance cfg ct a) (Norfair.advance cfg ct b) := by
  have hkb : ∀ k ∈ (Norfair.advance cfg ct b).keys, k ∈ b.keys := by
    intro k hk
    rw [advance_keys] at hk
    exact ((survivors_sublist cfg b.objs).map _).subset hk
  have hka : ∀ k ∈ (Norfair.advance cfg ct a).keys, k ∈ a.keys := by
    intro k hk
    rw [advance_keys] at hk
    exact ((survivors_sublist cfg a.objs).map _).subset hk
  refine ⟨h.heap, ?_, ?_, fun k hk => h.boundA k (hka k hk), fun k hk => h.boundB k (hkb k hk),
    fun k hk k' hk' => h.inj k (hkb k hk) k' (hkb k' hk'), ?_, ?_, ?_, ?_, ?_, h.emono, h.ebound, h.eall⟩
  · rw [advance_keys]; exact ((survivors_sublist cfg a.objs).map _).nodup h.nodupA
  · rw [advance_keys]; exact ((survivors_sublist cfg b.objs).map _).nodup h.nodupB
  · intro k p' hp'
    obtain ⟨p, hp, hs, rfl⟩ := (find_advance_iff h.nodupB).mp hp'
    obtain ⟨o, ho, hg⟩ := h.objs k p hp
    refine ⟨stepped cfg ct o, (find_advance_iff h.nodupA).mpr ⟨o, ho, by rw [← surv_same cfg hg.same]; exact hs, rfl⟩,
      ?_, stepped_same cfg ct hg.same, ?_, ?_⟩
    · rw [stepped_label]; exact hg.label
    · simpa using hg.id
    · simpa using hg.gid
  · intro k o' ho' hl
    obtain ⟨o, ho, hs, rfl⟩ := (find_advance_iff h.nodupA).mp ho'
    obtain ⟨k', hk', e⟩ := h.all k o ho (by simpa using hl)
    refine ⟨k', ?_, e⟩
    obtain ⟨p, hp⟩ := World.find_isSome_of_mem hk'
    obtain ⟨o0, ho0, hg⟩ := h.objs k' p hp
    rw [e, ho] at ho0
    cases ho0
    exact World.mem_keys_of_find ((find_advance_iff h.nodupB).mpr ⟨p, hp, by rw [surv_same cfg hg.same]; exact hs, rfl⟩)
  · intro k o' ho'
    obtain ⟨o, ho, hs, rfl⟩ := (find_advance_iff h.nodupA).mp ho'
    rw [stepped_label]
    exact h.sk k o ho
  · intro k o' ho'
    obtain ⟨o, ho, hs, rfl⟩ := (find_advance_iff h.nodupA).mp ho'
    exact stepped_refs cfg ct (h.refs k o ho)
  · intro k p' hp'
    obtain ⟨p, hp, hs, rfl⟩ := (find_advance_iff h.nodupB).mp hp'
    rw [stepped_id]
    exact h.idle k p hp

theorem Part.advance {a b : World K L D F X} (h : Part S lab c e sk a b) (hord : b.keys.map c = a.keys.filter sk)
    (cfg : Cfg K L D F X) (ct : Option (CoordTrans K)) :
    Part S lab c e sk (Norfair.advance cfg ct a) (Norfair.advance cfg ct b) ∧
    (Norfair.advance cfg ct b).keys.map c = (Norfair.advance cfg ct a).keys.filter sk := by
  refine ⟨h.step cfg ct, ?_⟩
  rw [advance_keys' cfg ct h.nodupB, advance_keys' cfg ct h.nodupA]
  exact keysWhere_part h (fun _ h => h) hord _ (fun o q hg => surv_same cfg hg.same)

/-! ### Creating objects -/

theorem find_createObj_ne (cfg : Cfg K L D F X) (w : World K L D F X) (r : Ref) (period : Int)
    (ct : Option (CoordTrans K)) {k : Nat} (h : k ≠ w.initCount + 1) : (createObj cfg w r period ct).find k = w.find k := by
  rw [createObj_eq]
  unfold World.find
  simp only [List.find?_append]
  have : (newObj cfg w r period ct).initId = w.initCount + 1 := by
    obtain ⟨g, hg⟩ := newObj_fields cfg w r period ct
    rw [hg]; rfl
  cases hf : w.objs.find? (fun o => decide (o.initId = k)) with
  | some o => rfl
  | none => simp [this, Ne.symm h]

theorem find_createObj_new (cfg : Cfg K L D F X) {w : World K L D F X} (hb : ∀ k ∈ w.keys, k ≤ w.initCount) (r : Ref)
    (period : Int) (ct : Option (CoordTrans K)) :
    (createObj cfg w r period ct).find (w.initCount + 1) = some (newObj cfg w r period ct) := by
  rw [createObj_eq]
  unfold World.find
  simp only [List.find?_append]
  have hid : (newObj cfg w r period ct).initId = w.initCount + 1 := by
    obtain ⟨g, hg⟩ := newObj_fields cfg w r period ct
    rw [hg]; rfl
  have : w.objs.find? (fun o => decide (o.initId = w.initCount + 1)) = none := by
    rw [List.find?_eq_none]
    intro o ho
    have := hb o.initId (List.mem_map_of_mem ho)
    simp
    omega
  rw [this]
  simp [hid]

theorem createObj_keys (cfg : Cfg K L D F X) (w : World K L D F X) (r : Ref) (period : Int)
    (ct : Option (CoordTrans K)) : (createObj cfg w r period ct).keys = w.keys ++ [w.initCount + 1] := by
  have hid : (newObj cfg w r period ct).initId = w.initCount + 1 := by
    obtain ⟨g, hg⟩ := newObj_fields cfg w r period ct
    rw [hg]; rfl
  rw [createObj_eq]
  unfold World.keys
  simp [hid]

theorem newObj_refs (cfg : Cfg K L D F X) (w : World K L D F X) (hl : ∀ r, (w.heap r).label = lab r) (r : Ref)
    (period : Int) (ct : Option (CoordTrans K)) : Refs S lab (newObj cfg w r period ct) := by
  obtain ⟨g, hg⟩ := newObj_fields cfg w r period ct
  rw [hg]
  unfold Refs
  simp only [newObj]
  rw [hl]
  refine ⟨rfl, fun s hs => ?_⟩
  have hs' : s ∈ (if 0 < cfg.pastLen then [r] else []) := hs
  show S (lab s) = S (lab r)
  split at hs'
  · rw [List.mem_singleton.mp hs']
  · cases hs'

theorem newObj_label (cfg : Cfg K L D F X) (w : World K L D F X) (r : Ref) (period : Int) (ct : Option (CoordTrans K)) :
    (newObj cfg w r period ct).label = (w.heap r).label := by
  obtain ⟨g, hg⟩ := newObj_fields cfg w r period ct
  rw [hg]; rfl

theorem newObj_same (cfg : Cfg K L D F X) {a b : World K L D F X} {r : Ref} (hh : b.heap r = a.heap r) (period : Int)
    (ct : Option (CoordTrans K)) : SameBut (newObj cfg a r period ct) (newObj cfg b r period ct) := by
  unfold SameBut newObj
  rw [hh]
  cases ct <;> rfl

theorem newObj_ids (cfg : Cfg K L D F X) (w : World K L D F X) (r : Ref) (period : Int) (ct : Option (CoordTrans K)) :
    (newObj cfg w r period ct).id = (if period ≤ cfg.initDelay then none else some (w.count + 1)) ∧
    (newObj cfg w r period ct).globalId = (if period ≤ cfg.initDelay then none else some (w.gcount + 1)) := by
  unfold newObj
  cases ct <;> exact ⟨rfl, rfl⟩

/-- both trackers create an object -/
theorem Part.create {a b : World K L D F X} (h : Part S lab c e sk a b) (cfg : Cfg K L D F X) {r : Ref}
    (hr : S (lab r) = true) (period : Int) (ct : Option (CoordTrans K)) :
    Part S lab (Function.update c (b.initCount + 1) (a.initCount + 1))
      (estep (!decide (period ≤ cfg.initDelay)) e b.count a.count) (Function.update sk (a.initCount + 1) true)
      (createObj cfg a r period ct) (createObj cfg b r period ct) := by
  have kb := createObj_keys cfg b r period ct
  have ka := createObj_keys cfg a r period ct
  have hca : (createObj cfg a r period ct).count = a.count + (if period ≤ cfg.initDelay then 0 else 1) := by rw [createObj_eq]
  have hcb : (createObj cfg b r period ct).count = b.count + (if period ≤ cfg.initDelay then 0 else 1) := by rw [createObj_eq]
  have hga : (createObj cfg a r period ct).gcount = a.gcount + (if period ≤ cfg.initDelay then 0 else 1) := by rw [createObj_eq]
  have hgb : (createObj cfg b r period ct).gcount = b.gcount + (if period ≤ cfg.initDelay then 0 else 1) := by rw [createObj_eq]
  have hia : (createObj cfg a r period ct).initCount = a.initCount + 1 := by rw [createObj_eq]
  have hib : (createObj cfg b r period ct).initCount = b.initCount + 1 := by rw [createObj_eq]
  have fa := find_createObj_new cfg h.boundA r period ct
  have fb := find_createObj_new cfg h.boundB r period ct
  have fa' : ∀ {k}, k ≠ a.initCount + 1 → (createObj cfg a r period ct).find k = a.find k :=
    fun hk => find_createObj_ne cfg a r period ct hk
  have fb' : ∀ {k}, k ≠ b.initCount + 1 → (createObj cfg b r period ct).find k = b.find k :=
    fun hk => find_createObj_ne cfg b r period ct hk
  obtain ⟨ia, ga⟩ := newObj_ids cfg a r period ct
  obtain ⟨ib, gb⟩ := newObj_ids cfg b r period ct
  have hlabel : S (newObj cfg a r period ct).label = true := by rw [newObj_label, (h.heap r).1]; exact hr
  have hcold : ∀ k ∈ b.keys, Function.update c (b.initCount + 1) (a.initCount + 1) k = c k := by
    intro k hk
    have := h.boundB k hk
    rw [Function.update_of_ne (by omega)]
  have hcnew : Function.update c (b.initCount + 1) (a.initCount + 1) (b.initCount + 1) = a.initCount + 1 := by simp
  have hcle : ∀ k ∈ b.keys, c k ≤ a.initCount := fun k hk => h.boundA _ (h.mem_a hk)
  refine ⟨?_, ?_, ?_, ?_, ?_, ?_, ?_, ?_, ?_, ?_, ?_, ?_, ?_, ?_⟩
  · rw [createObj_eq, createObj_eq]; exact h.heap.setAge_both r 0
  · rw [ka]
    refine List.Nodup.append h.nodupA (by simp) ?_
    intro x hx hx'
    have := h.boundA x hx
    simp at hx'
    omega
  · rw [kb]
    refine List.Nodup.append h.nodupB (by simp) ?_
    intro x hx hx'
    have := h.boundB x hx
    simp at hx'
    omega
  · rw [ka, hia]
    intro k hk
    rcases List.mem_append.mp hk with hk | hk
    · have := h.boundA k hk; omega
    · rw [List.mem_singleton.mp hk]
  · rw [kb, hib]
    intro k hk
    rcases List.mem_append.mp hk with hk | hk
    · have := h.boundB k hk; omega
    · rw [List.mem_singleton.mp hk]
  · rw [kb]
    intro k hk k' hk' he
    rcases List.mem_append.mp hk with hk | hk <;> rcases List.mem_append.mp hk' with hk' | hk'
    · rw [hcold k hk, hcold k' hk'] at he; exact h.inj k hk k' hk' he
    · rw [List.mem_singleton.mp hk', hcold k hk, hcnew] at he
      have := hcle k hk
      omega
    · rw [List.mem_singleton.mp hk, hcold k' hk', hcnew] at he
      have := hcle k' hk'
      omega
    · rw [List.mem_singleton.mp hk, List.mem_singleton.mp hk']
  · intro k p hp
    by_cases hk : k = b.initCount + 1
    · subst hk
      rw [fb] at hp
      cases hp
      rw [hcnew]
      refine ⟨_, fa, hlabel, newObj_same cfg ((h.heap r).2.2 hr) period ct, ?_, ?_⟩
      · rw [ia, ib]
        by_cases hi : period ≤ cfg.initDelay
        · simp [hi]
        · simp [hi, estep]
      · intro hall
        rw [ga, gb, (h.eall hall).2.2]
    · rw [fb' hk] at hp
      obtain ⟨o, ho, hg⟩ := h.objs k p hp
      have hkb := World.mem_keys_of_find hp
      have := hcle k hkb
      exact ⟨o, by rw [hcold k hkb, fa' (by omega)]; exact ho, hg.estep _ (h.idle k p hp)⟩
  · intro k o ho hs
    rw [kb]
    by_cases hk : k = a.initCount + 1
    · exact ⟨b.initCount + 1, by simp, by rw [hcnew, hk]⟩
    · rw [fa' hk] at ho
      obtain ⟨k', hk', he⟩ := h.all k o ho hs
      exact ⟨k', by simp [hk'], by rw [hcold k' hk', he]⟩
  · intro k o ho
    by_cases hk : k = a.initCount + 1
    · subst hk
      rw [fa] at ho
      cases ho
      rw [hlabel]
      simp
    · rw [fa' hk] at ho
      rw [Function.update_of_ne hk]
      exact h.sk k o ho
  · intro k o ho
    by_cases hk : k = a.initCount + 1
    · subst hk
      rw [fa] at ho
      cases ho
      exact newObj_refs cfg a (fun r => (h.heap r).1) r period ct
    · rw [fa' hk] at ho
      exact h.refs k o ho
  · intro k p hp i hi
    rw [hcb]
    by_cases hk : k = b.initCount + 1
    · subst hk
      rw [fb] at hp
      cases hp
      rw [ib] at hi
      by_cases hd : period ≤ cfg.initDelay
      · simp [hd] at hi
      · simp only [hd, if_false, Option.some.injEq] at hi ⊢
        omega
    · rw [fb' hk] at hp
      have := h.idle k p hp i hi
      omega
  · intro i j hij hj
    rw [hcb] at hj
    by_cases hd : period ≤ cfg.initDelay
    · simp only [hd, if_true, Nat.add_zero, decide_true, Bool.not_true] at hj ⊢
      exact h.emono i j hij hj
    · simp only [hd, if_false, decide_false, Bool.not_false] at hj ⊢
      rw [estep_le true e (show i ≤ b.count by omega)]
      by_cases hj' : j ≤ b.count
      · rw [estep_le true e hj']; exact h.emono i j hij hj'
      · have : j = b.count + 1 := by omega
        have h2 : estep true e b.count a.count (b.count + 1) = a.count + 1 := by simp [estep]
        rw [this, h2]
        have := h.ebound i (by omega)
        omega
  · intro i hi
    rw [hcb] at hi
    rw [hca]
    by_cases hd : period ≤ cfg.initDelay
    · simp only [hd, if_true, Nat.add_zero, decide_true, Bool.not_true] at hi ⊢
      exact h.ebound i hi
    · simp only [hd, if_false, decide_false, Bool.not_false] at hi ⊢
      by_cases hi' : i ≤ b.count
      · rw [estep_le true e hi']; have := h.ebound i hi'; omega
      · have : i = b.count + 1 := by omega
        have h2 : estep true e b.count a.count (b.count + 1) = a.count + 1 := by simp [estep]
        rw [this, h2]
  · intro hall
    obtain ⟨h1, h2, h3⟩ := h.eall hall
    rw [hca, hcb, hga, hgb]
    refine ⟨?_, by rw [h2], by rw [h3]⟩
    intro i hi
    by_cases hd : period ≤ cfg.initDelay
    · simp only [hd, if_true, Nat.add_zero, decide_true, Bool.not_true] at hi ⊢
      exact h1 i hi
    · simp only [hd, if_false, decide_false, Bool.not_false] at hi ⊢
      by_cases hi' : i ≤ b.count
      · rw [estep_le true e hi']; exact h1 i hi'
      · have : i = b.count + 1 := by omega
        have h2' : estep true e b.count a.count (b.count + 1) = a.count + 1 := by simp [estep]
        rw [this, h2', h2]

/-- the big tracker creates an object that is not in the part -/
theorem Part.create_left {a b : World K L D F X} (h : Part S lab c e sk a b) (cfg : Cfg K L D F X) {r : Ref}
    (hr : S (lab r) = false) (period : Int) (ct : Option (CoordTrans K)) :
    Part S lab c e (Function.update sk (a.initCount + 1) false) (createObj cfg a r period ct) b := by
  have ka := createObj_keys cfg a r period ct
  have hca : (createObj cfg a r period ct).count = a.count + (if period ≤ cfg.initDelay then 0 else 1) := by rw [createObj_eq]
  have hia : (createObj cfg a r period ct).initCount = a.initCount + 1 := by rw [createObj_eq]
  have fa := find_createObj_new cfg h.boundA r period ct
  have fa' : ∀ {k}, k ≠ a.initCount + 1 → (createObj cfg a r period ct).find k = a.find k :=
    fun hk => find_createObj_ne cfg a r period ct hk
  have hlabel : S (newObj cfg a r period ct).label = false := by rw [newObj_label, (h.heap r).1]; exact hr
  refine ⟨?_, ?_, h.nodupB, ?_, h.boundB, h.inj, ?_, ?_, ?_, ?_, h.idle, h.emono, ?_, ?_⟩
  · rw [createObj_eq]; exact h.heap.setAge_left 0 hr
  · rw [ka]
    refine List.Nodup.append h.nodupA (by simp) ?_
    intro x hx hx'
    have := h.boundA x hx
    simp at hx'
    omega
  · rw [ka, hia]
    intro k hk
    rcases List.mem_append.mp hk with hk | hk
    · have := h.boundA k hk; omega
    · rw [List.mem_singleton.mp hk]
  · intro k p hp
    obtain ⟨o, ho, hg⟩ := h.objs k p hp
    have := h.boundA _ (World.mem_keys_of_find ho)
    exact ⟨o, by rw [fa' (by omega)]; exact ho, hg⟩
  · intro k o ho hs
    by_cases hk : k = a.initCount + 1
    · subst hk
      rw [fa] at ho
      cases ho
      rw [hlabel] at hs
      cases hs
    · rw [fa' hk] at ho
      exact h.all k o ho hs
  · intro k o ho
    by_cases hk : k = a.initCount + 1
    · subst hk
      rw [fa] at ho
      cases ho
      rw [hlabel]
      simp
    · rw [fa' hk] at ho
      rw [Function.update_of_ne hk]
      exact h.sk k o ho
  · intro k o ho
    by_cases hk : k = a.initCount + 1
    · subst hk
      rw [fa] at ho
      cases ho
      exact newObj_refs cfg a (fun r => (h.heap r).1) r period ct
    · rw [fa' hk] at ho
      exact h.refs k o ho
  · intro i hi
    rw [hca]
    have := h.ebound i hi
    omega
  · intro hall
    rw [hall] at hr
    cases hr

theorem foldl_create_part (cfg : Cfg K L D F X) (period : Int) (ct : Option (CoordTrans K)) (rs : List Ref)
    (c e : Nat → Nat) (sk : Nat → Bool) (a b : World K L D F X) (h : Part S lab c e sk a b)
    (hord : b.keys.map c = a.keys.filter sk) :
    ∃ c' e' sk', Part S lab c' e' sk' (rs.foldl (fun w r => createObj cfg w r period ct) a)
        ((rs.filter fun r => S (lab r)).foldl (fun w r => createObj cfg w r period ct) b) ∧
      ((rs.filter fun r => S (lab r)).foldl (fun w r => createObj cfg w r period ct) b).keys.map c' =
        (rs.foldl (fun w r => createObj cfg w r period ct) a).keys.filter sk' := by
  induction rs generalizing c e sk a b with
  | nil => exact ⟨c, e, sk, h, hord⟩
  | cons r rs ih =>
    rw [List.foldl_cons]
    cases hr : S (lab r) with
    | true =>
      rw [List.filter_cons_of_pos (p := fun r => S (lab r)) hr, List.foldl_cons]
      refine ih _ _ _ _ _ (h.create cfg hr period ct) ?_
      rw [createObj_keys, createObj_keys, List.map_append, List.filter_append]
      congr 1
      · rw [show List.filter (Function.update sk (a.initCount + 1) true) a.keys = a.keys.filter sk from ?_, ← hord]
        · apply List.map_congr_left
          intro k hk
          have := h.boundB k hk
          rw [Function.update_of_ne (by omega)]
        · apply List.filter_congr
          intro k hk
          have := h.boundA k hk
          rw [Function.update_of_ne (by omega)]
      · simp
    | false =>
      rw [List.filter_cons_of_neg (p := fun r => S (lab r)) (by rw [hr]; simp)]
      refine ih _ _ _ _ _ (h.create_left cfg hr period ct) ?_
      rw [createObj_keys, List.filter_append]
      rw [show List.filter (Function.update sk (a.initCount + 1) false) a.keys = a.keys.filter sk from ?_, ← hord]
      · simp
      · apply List.filter_congr
        intro k hk
        have := h.boundA k hk
        rw [Function.update_of_ne (by omega)]

/-! ### `update` -/

theorem aliveKeys_part {a b : World K L D F X} (h : Part S lab c e sk a b) (hord : b.keys.map c = a.keys.filter sk)
    (cfg : Cfg K L D F X) : (aliveKeys cfg b.objs).map c = (aliveKeys cfg a.objs).filter sk := by
  rw [aliveKeys_eq, aliveKeys_eq, keysWhere_self h.nodupA, keysWhere_self h.nodupB]
  refine keysWhere_part h (fun _ h => h) hord _ (fun o q hg => ?_)
  have := hg.same
  unfold SameBut at this
  rw [this]
  rfl

theorem deadKeys_eq (cfg : Cfg K L D F X) (objs : List (Obj K L D F)) : deadKeys cfg objs =
    (objs.filter fun o => cfg.reidMax.isSome && surv cfg o && !o.hcPos).map (·.initId) := by
  unfold deadKeys
  cases hr : cfg.reidMax with
  | none => simp
  | some n =>
    simp only
    rw [survivors_eq, List.filter_filter]
    congr 1
    apply List.filter_congr
    intro o _
    simp [Bool.and_comm]

theorem deadKeys_part {a b : World K L D F X} (h : Part S lab c e sk a b) (hord : b.keys.map c = a.keys.filter sk)
    (cfg : Cfg K L D F X) : (deadKeys cfg b.objs).map c = (deadKeys cfg a.objs).filter sk := by
  rw [deadKeys_eq, deadKeys_eq, keysWhere_self h.nodupA, keysWhere_self h.nodupB]
  refine keysWhere_part h (fun _ h => h) hord _ (fun o q hg => ?_)
  rw [surv_same cfg hg.same]
  have := hg.same
  unfold SameBut at this
  rw [this]
  rfl

theorem isInit_good {o q : Obj K L D F} (h : Good S e o q) : q.isInit = o.isInit := by
  have := h.same
  unfold SameBut at this
  rw [this]

theorem updateCore_part {cfg : Cfg K L D F X} (hbl : BlindTo cfg S) {a b : World K L D F X} (h : Part S lab c e sk a b)
    (hord : b.keys.map c = a.keys.filter sk) {dets : List Ref} {period : Int} {ct : Option (CoordTrans K)}
    {a' : World K L D F X} {actA : List (Obj K L D F)} (hrun : updateCore cfg a dets period ct = (a', .ok actA)) :
    ∃ c' e' sk' b', updateCore cfg b (dets.filter fun r => S (lab r)) period ct = (b', .ok (activeObjects b')) ∧
      Part S lab c' e' sk' a' b' ∧ b'.keys.map c' = a'.keys.filter sk' := by
  obtain ⟨a1, a2, a3, out1, out2, ks2, ks3, m3, T⟩ := updateCore_stages h.nodupA hrun
  obtain ⟨h0, hord0⟩ := h.advance hord cfg ct
  have hal := aliveKeys_part h hord cfg
  have hde := deadKeys_part h hord cfg
  have halB : ∀ k ∈ aliveKeys cfg b.objs, k ∈ (advance cfg ct b).keys := by
    intro k hk; rw [advance_keys]; exact aliveKeys_sub _ _ hk
  have hdeB : ∀ k ∈ deadKeys cfg b.objs, k ∈ (advance cfg ct b).keys := by
    intro k hk; rw [advance_keys]; exact deadKeys_sub _ _ hk
  have hdeA : ∀ k ∈ deadKeys cfg a.objs, k ∈ (advance cfg ct a).keys := by
    intro k hk; rw [advance_keys]; exact deadKeys_sub _ _ hk
  have halA : ∀ k ∈ aliveKeys cfg a.objs, k ∈ (advance cfg ct a).keys := by
    intro k hk; rw [advance_keys]; exact aliveKeys_sub _ _ hk
  have kw : ∀ {w : World K L D F X} {ks p}, ∀ k ∈ w.keysWhere ks p, k ∈ w.keys := by
    intro w ks p k hk
    obtain ⟨_, o, ho, _⟩ := World.mem_keysWhere.mp hk
    exact World.mem_keys_of_find ho
  have hk1 : (stage1Keys cfg ct b).map c = (stage1Keys cfg ct a).filter sk :=
    keysWhere_part h0 halB hal _ (fun o q hg => by rw [isInit_good hg])
  obtain ⟨e1, b1, outB1, r1, h1, ka1, kb1, u1, uo1, mo1⟩ := stageDet_part hbl period h0 kw kw hk1 T.s1
  have hk2 : (b1.keysWhere (aliveKeys cfg b.objs) (fun o => o.isInit)).map c = ks2.filter sk := by
    rw [T.ks2eq]
    exact keysWhere_part h1 (by rw [kb1]; exact halB) hal _ (fun o q hg => isInit_good hg)
  obtain ⟨e2, b2, outB2, r2, h2, ka2, kb2, u2, uo2, mo2⟩ := stageDet_part hbl period h1
    (by rw [T.ks2eq]; exact kw) kw hk2 T.s2
  rw [← u1] at r2
  have hord2 : b2.keys.map c = a2.keys.filter sk := by rw [kb2, kb1, ka2, ka1]; exact hord0
  have hks3 : (outB1.unmatchedO ++ deadKeys cfg b.objs).map c = ks3.filter sk := by
    rw [T.ks3eq, List.map_append, List.filter_append, uo1, hde]
  obtain ⟨_, _, sB1⟩ := stageDet_out_sub cfg period (advance cfg ct b) _ _ r1
  obtain ⟨_, _, sA1⟩ := stageDet_out_sub cfg period (advance cfg ct a) _ _ T.s1
  obtain ⟨_, sB2, _⟩ := stageDet_out_sub cfg period b1 _ _ r2
  have hcn : out2.matchedO.Nodup := by
    obtain ⟨m, _, mn, _, _, mo, _⟩ := stageDet_ok cfg period a1 ks2 T.ks2Nodup out1.unmatchedC
      (by rw [T.ks2eq]; exact kw) T.s2
    rw [mo]; exact mn
  obtain ⟨e3, b3, outB3, r3, h3, hord3⟩ : ∃ e' b' outB, reidStage cfg b2 (outB1.unmatchedO ++ deadKeys cfg b.objs)
      outB2.matchedO = (b', .ok outB) ∧ Part S lab c e' sk a3 b' ∧ b'.keys.map c = a3.keys.filter sk := by
    obtain ⟨out3, s3⟩ := T.s3
    unfold reidStage at s3 ⊢
    cases hf : cfg.reid with
    | none =>
      rw [hf] at s3
      simp only at s3 ⊢
      cases s3
      exact ⟨e2, b2, _, rfl, h2, hord2⟩
    | some f =>
      rw [hf] at s3
      simp only at s3 ⊢
      refine stageReid_part (hbl.2 f hf) h2 hord2 ?_ ?_ hks3 ?_ ?_ mo2 hcn T.disj23 s3
      · intro k hk
        rw [T.ks3eq] at hk
        rw [ka2, ka1]
        rcases List.mem_append.mp hk with hk | hk
        · exact kw k (sA1 k hk)
        · exact hdeA k hk
      · intro k hk
        rw [kb2, kb1]
        rcases List.mem_append.mp hk with hk | hk
        · exact kw k (sB1 k hk)
        · exact hdeB k hk
      · intro k hk
        have := T.candsSub k hk
        rw [T.ks2eq] at this
        rw [ka2]
        exact kw k this
      · intro k hk
        rw [kb2]
        exact kw k (sB2 k hk)
  obtain ⟨c', e', sk', h4, hord4⟩ := foldl_create_part cfg period ct out2.unmatchedC c e3 sk a3 b3 h3 hord3
  rw [← T.s4] at h4 hord4
  rw [← u2] at h4 hord4
  refine ⟨c', e', sk', _, ?_, h4, hord4⟩
  unfold updateCore
  simp only
  rw [r1]
  simp only
  rw [r2]
  simp only
  rw [r3]

theorem HeapPart.transform (g : CoordTrans K) (rs : List Ref) (h1 h2 : Ref → Det K L X) (h : HeapPart S lab h1 h2) :
    HeapPart S lab (rs.foldl (transformDet g) h1) ((rs.filter fun r => S (lab r)).foldl (transformDet g) h2) := by
  induction rs generalizing h1 h2 with
  | nil => exact h
  | cons r rs ih =>
    rw [List.foldl_cons]
    cases hr : S (lab r) with
    | true =>
      rw [List.filter_cons_of_pos (p := fun r => S (lab r)) hr, List.foldl_cons]
      apply ih
      intro s
      obtain ⟨l1, l2, l3⟩ := h s
      unfold transformDet
      by_cases e : s = r
      · subst e
        simp only [if_true]
        exact ⟨l1, l2, fun hs => by rw [l3 hs]⟩
      · simp only [e, if_false]
        exact h s
    | false =>
      rw [List.filter_cons_of_neg (p := fun r => S (lab r)) (by rw [hr]; simp)]
      apply ih
      intro s
      obtain ⟨l1, l2, l3⟩ := h s
      unfold transformDet
      by_cases e : s = r
      · subst e
        simp only [if_true]
        exact ⟨l1, l2, fun hs => by rw [hr] at hs; cases hs⟩
      · simp only [e, if_false]
        exact h s

theorem update_part {cfg : Cfg K L D F X} (hbl : BlindTo cfg S) {a b : World K L D F X} (h : Part S lab c e sk a b)
    (hord : b.keys.map c = a.keys.filter sk) {dets : Option (List Ref)} {period : Int} {ct : Option (CoordTrans K)}
    {a' : World K L D F X} {actA : List (Obj K L D F)} (hrun : update cfg a dets period ct = (a', .ok actA)) :
    ∃ c' e' sk' b', update cfg b (dets.map (·.filter fun r => S (lab r))) period ct = (b', .ok (activeObjects b')) ∧
      Part S lab c' e' sk' a' b' ∧ b'.keys.map c' = a'.keys.filter sk' := by
  unfold update at hrun ⊢
  cases ct with
  | none =>
    cases dets with
    | none => exact updateCore_part (dets := []) hbl h hord hrun
    | some l => exact updateCore_part hbl h hord hrun
  | some g =>
    cases dets with
    | none => cases hrun
    | some l =>
      refine updateCore_part (e := e) (a := { a with heap := l.foldl (transformDet g) a.heap })
        (b := { b with heap := (l.filter fun r => S (lab r)).foldl (transformDet g) b.heap }) hbl ?_ hord hrun
      exact ⟨h.heap.transform g l _ _, h.nodupA, h.nodupB, h.boundA, h.boundB, h.inj, h.objs, h.all, h.sk, h.refs, h.idle,
        h.emono, h.ebound, h.eall⟩

/-- the objects of the part in the same order -/
theorem Part.forall₂ {a b : World K L D F X} (h : Part S lab c e sk a b) (hord : b.keys.map c = a.keys.filter sk) :
    List.Forall₂ (fun o p => SameBut o p ∧ o.id = p.id.map e) (a.objs.filter fun o => S o.label) b.objs := by
  have hk : (a.objs.filter fun o => S o.label).map (·.initId) = b.objs.map fun p => c p.initId := by
    have h1 : (a.objs.filter fun o => S o.label).map (·.initId) = a.keys.filter sk := by
      rw [keysWhere_self h.nodupA]
      unfold World.keysWhere
      apply List.filter_congr
      intro k hk
      obtain ⟨o, ho⟩ := World.find_isSome_of_mem hk
      rw [ho]
      exact h.sk k o ho
    rw [h1, ← hord]
    unfold World.keys
    rw [List.map_map]
    rfl
  have : ∀ (l : List (Obj K L D F)) (m : List (Obj K L D F)), (∀ o ∈ l, o ∈ a.objs) → (∀ p ∈ m, p ∈ b.objs) →
      l.map (·.initId) = m.map (fun p => c p.initId) →
      List.Forall₂ (fun o p => SameBut o p ∧ o.id = p.id.map e) l m := by
    intro l
    induction l with
    | nil =>
      intro m _ _ hm
      cases m with
      | nil => exact .nil
      | cons p m => simp at hm
    | cons o l ih =>
      intro m hl hm he
      cases m with
      | nil => simp at he
      | cons p m =>
        simp only [List.map_cons, List.cons.injEq] at he
        refine .cons ?_ (ih m (fun o ho => hl o (by simp [ho])) (fun p hp => hm p (by simp [hp])) he.2)
        obtain ⟨o', ho', hg⟩ := h.objs p.initId p (World.find_of_mem h.nodupB (hm p (by simp)))
        rw [← he.1, World.find_of_mem h.nodupA (hl o (by simp))] at ho'
        cases ho'
        exact ⟨hg.same, hg.id⟩
  exact this _ _ (fun o ho => (List.mem_filter.mp ho).1) (fun p hp => hp) hk

end

end Norfair
