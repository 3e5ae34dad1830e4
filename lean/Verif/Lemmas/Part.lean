import Verif.Lemmas.Exact
import Verif.Lemmas.SubMatching
import Verif.Spec.Labels

/-! Two trackers, one of which has only a part of the detections and objects of the other. -/

set_option linter.unusedSectionVars false

namespace Norfair

open Norfair.Spec

variable {K L D F X : Type}

/-- all detections that the object refers to are on the same side as the object -/
def Refs (S : L → Bool) (lab : Ref → L) (o : Obj K L D F) : Prop :=
  S (lab o.lastDet) = S o.label ∧ ∀ r ∈ o.past, S (lab r) = S o.label

/-- the object `p` of the small tracker for the object `o` of the big one; `e` takes ids to ids -/
structure Good (S : L → Bool) (e : Nat → Nat) (o p : Obj K L D F) : Prop where
  label : S o.label = true
  same : SameBut o p
  id : o.id = p.id.map e
  gid : (∀ l, S l = true) → p.globalId = o.globalId

/-- heaps that agree on the detections of the part -/
def HeapPart (S : L → Bool) (lab : Ref → L) (h g : Ref → Det K L X) : Prop :=
  ∀ r, (h r).label = lab r ∧ (g r).label = lab r ∧ (S (lab r) = true → g r = h r)

/-- `b` is the part of `a` with the labels in `S`; the object `k` of `b` is the object `c k` of `a`, the id `i`
of `b` is the id `e i` of `a`; `sk` tells which objects of `a` are in the part -/
structure Part (S : L → Bool) (lab : Ref → L) (c e : Nat → Nat) (sk : Nat → Bool) (a b : World K L D F X) :
    Prop where
  heap : HeapPart S lab a.heap b.heap
  nodupA : a.keys.Nodup
  nodupB : b.keys.Nodup
  boundA : ∀ k ∈ a.keys, k ≤ a.initCount
  boundB : ∀ k ∈ b.keys, k ≤ b.initCount
  inj : ∀ k ∈ b.keys, ∀ k' ∈ b.keys, c k = c k' → k = k'
  objs : ∀ k p, b.find k = some p → ∃ o, a.find (c k) = some o ∧ Good S e o p
  all : ∀ k o, a.find k = some o → S o.label = true → ∃ k' ∈ b.keys, c k' = k
  sk : ∀ k o, a.find k = some o → S o.label = sk k
  refs : ∀ k o, a.find k = some o → Refs S lab o
  idle : ∀ k p, b.find k = some p → ∀ i, p.id = some i → i ≤ b.count
  emono : ∀ i j, i < j → j ≤ b.count → e i < e j
  ebound : ∀ i, i ≤ b.count → e i ≤ a.count
  eall : (∀ l, S l = true) → (∀ i, i ≤ b.count → e i = i) ∧ b.count = a.count ∧ b.gcount = a.gcount

section
variable {S : L → Bool} {lab : Ref → L}

theorem HeapPart.setAge_both {h g : Ref → Det K L X} (H : HeapPart S lab h g) (r : Ref) (age : Int) :
    HeapPart S lab (setAge h r age) (setAge g r age) := by
  intro s
  unfold setAge
  obtain ⟨h1, h2, h3⟩ := H s
  by_cases e : s = r
  · subst e
    simp only [if_true]
    exact ⟨h1, h2, fun hs => by rw [h3 hs]⟩
  · simp only [e, if_false]
    exact H s

theorem HeapPart.setAge_left {h g : Ref → Det K L X} (H : HeapPart S lab h g) {r : Ref} (age : Int)
    (hr : S (lab r) = false) : HeapPart S lab (setAge h r age) g := by
  intro s
  unfold setAge
  obtain ⟨h1, h2, h3⟩ := H s
  by_cases e : s = r
  · subst e
    simp only [if_true]
    exact ⟨h1, h2, fun hs => by rw [hr] at hs; cases hs⟩
  · simp only [e, if_false]
    exact H s

theorem condAdd_same (n : Nat) (age : Int) (past : List Ref) (r : Ref) {h g : Ref → Det K L X}
    (H : HeapPart S lab h g) (hp : ∀ s ∈ past, S (lab s) = true) :
    (condAdd n age h past r = none ∧ condAdd n age g past r = none) ∨
    ∃ h' g' past', condAdd n age h past r = some (h', past') ∧ condAdd n age g past r = some (g', past') ∧
      HeapPart S lab h' g' ∧ ∀ s ∈ past', s ∈ past ∨ s = r := by
  unfold condAdd
  by_cases h0 : n = 0
  · simp only [h0, if_true]
    exact Or.inr ⟨_, _, _, rfl, rfl, H, fun s hs => Or.inl hs⟩
  · simp only [h0, if_false]
    by_cases h1 : past.length < n
    · simp only [h1, if_true]
      exact Or.inr ⟨_, _, _, rfl, rfl, H.setAge_both r age, fun s hs => by simpa using hs⟩
    · simp only [h1, if_false]
      cases past with
      | nil => exact Or.inr ⟨_, _, _, rfl, rfl, H, fun s hs => Or.inl hs⟩
      | cons p rest =>
        have e : (g p).age = (h p).age := by rw [(H p).2.2 (hp p (by simp))]
        simp only [e]
        cases (h p).age with
        | none => exact Or.inl ⟨rfl, rfl⟩
        | some a =>
          simp only
          by_cases h2 : a * n ≤ age
          · simp only [h2, if_true]
            refine Or.inr ⟨_, _, _, rfl, rfl, H.setAge_both r age, fun s hs => ?_⟩
            simp only [List.mem_append, List.mem_singleton] at hs
            exact hs.imp (fun h => by simp [h]) id
          · simp only [h2, if_false]
            exact Or.inr ⟨_, _, _, rfl, rfl, H, fun s hs => Or.inl hs⟩

theorem condAdd_left {n : Nat} {age : Int} {past : List Ref} {r : Ref} {h h' g : Ref → Det K L X} {past' : List Ref}
    (H : HeapPart S lab h g) (hr : S (lab r) = false) (hc : condAdd n age h past r = some (h', past')) :
    HeapPart S lab h' g := by
  unfold condAdd at hc
  split at hc
  · cases hc; exact H
  · split at hc
    · cases hc; exact H.setAge_left age hr
    · split at hc
      · cases hc; exact H
      · split at hc
        · cases hc
        · split at hc
          · cases hc; exact H.setAge_left age hr
          · cases hc; exact H

end

section
variable [LinearOrder K] [Zero K]

theorem hitSensors_same (cfg : Cfg K L D F X) (d : Det K L X) (period : Int) {o p : Obj K L D F} (h : SameBut o p) :
    (hitSensors cfg d period p).1 =
      { (hitSensors cfg d period o).1 with
        initId := p.initId, id := p.id, globalId := p.globalId, curMin := p.curMin } ∧
    (hitSensors cfg d period p).2 = (hitSensors cfg d period o).2 := by
  unfold SameBut at h
  generalize p.initId = a at h ⊢
  generalize p.id = b at h ⊢
  generalize p.globalId = e at h ⊢
  generalize p.curMin = f at h ⊢
  subst h
  unfold hitSensors
  simp only
  split
  · exact ⟨rfl, rfl⟩
  · split
    · exact ⟨rfl, rfl⟩
    · split
      · exact ⟨rfl, rfl⟩
      · exact ⟨rfl, rfl⟩

/-- with `t` the object has got new ids from the counters `n` and `m` -/
def IdStep (t : Bool) (n m : Nat) (o : Obj K L D F) (n' m' : Nat) (o' : Obj K L D F) : Prop :=
  if t then n' = n + 1 ∧ m' = m + 1 ∧ o'.id = some (n + 1) ∧ o'.globalId = some (m + 1)
  else n' = n ∧ m' = m ∧ o'.id = o.id ∧ o'.globalId = o.globalId

theorem hitCounters_same (cfg : Cfg K L D F X) (g c g' c' : Nat) {o p : Obj K L D F} (r : Ref) (period : Int)
    (past : List Ref) (h : SameBut o p) :
    SameBut (hitCounters cfg g c o r period past) (hitCounters cfg g' c' p r period past) ∧
    ∃ t, IdStep t c g o (c + hitIds cfg o period) (g + hitIds cfg o period) (hitCounters cfg g c o r period past) ∧
      IdStep t c' g' p (c' + hitIds cfg p period) (g' + hitIds cfg p period)
        (hitCounters cfg g' c' p r period past) := by
  have hi : p.isInit = o.isInit := by rw [h]
  have hh : p.hitCounter = o.hitCounter := by rw [h]
  unfold hitIds hitCounters IdStep
  rw [hi, hh]
  by_cases hc : o.isInit = true ∧ cfg.initDelay < min (o.hitCounter + 2 * period) cfg.hitCounterMax
  · simp only [if_pos hc]
    refine ⟨?_, true, by simp⟩
    unfold SameBut at h ⊢
    rw [h]
  · simp only [if_neg hc]
    refine ⟨?_, false, by simp⟩
    unfold SameBut at h ⊢
    rw [h]

variable {S : L → Bool} {lab : Ref → L}

theorem condAdd_sub {n : Nat} {age : Int} {past : List Ref} {r : Ref} {h h' : Ref → Det K L X} {past' : List Ref}
    (hc : condAdd n age h past r = some (h', past')) : ∀ s ∈ past', s ∈ past ∨ s = r := by
  unfold condAdd at hc
  split at hc
  · cases hc; exact fun s hs => Or.inl hs
  · split at hc
    · cases hc; exact fun s hs => by simpa using hs
    · split at hc
      · cases hc; exact fun s hs => Or.inl hs
      · split at hc
        · cases hc
        · split at hc
          · cases hc
            intro s hs
            simp only [List.mem_append, List.mem_singleton] at hs
            exact hs.imp (fun h => by simp [h]) _root_.id
          · cases hc; exact fun s hs => Or.inl hs

theorem hitObj_refs (cfg : Cfg K L D F X) (h : Ref → Det K L X) {o : Obj K L D F} (ho : Refs S lab o) {r : Ref}
    (hr : S (lab r) = S o.label) (g c : Nat) (period : Int) : Refs S lab (hitObj cfg h g c o r period).obj := by
  cases hc : condAdd cfg.pastLen o.age h o.past r with
  | none => rw [hitObj_none hc]; exact ho
  | some q =>
    rw [hitObj_some (heap' := q.1) (past' := q.2) hc]
    obtain ⟨ph, fl, on, e⟩ := hitSensors_obj cfg (q.1 r) period (hitCounters cfg g c o r period q.2)
    have elabel : (hitCounters cfg g c o r period q.2).label = o.label := by unfold hitCounters; split <;> rfl
    have elast : (hitCounters cfg g c o r period q.2).lastDet = r := by unfold hitCounters; split <;> rfl
    have epast : (hitCounters cfg g c o r period q.2).past = q.2 := by unfold hitCounters; split <;> rfl
    simp only
    rw [e]
    unfold Refs
    simp only
    rw [elabel, elast, epast]
    refine ⟨hr, fun s hs => ?_⟩
    rcases condAdd_sub hc s hs with h | rfl
    · exact ho.2 s h
    · exact hr

theorem hitObj_part (cfg : Cfg K L D F X) {h h' : Ref → Det K L X} (H : HeapPart S lab h h') {o p : Obj K L D F}
    (hs : SameBut o p) (hl : S o.label = true) (ho : Refs S lab o) {r : Ref} (hr : S (lab r) = true)
    (g c g' c' : Nat) (period : Int) :
    (hitObj cfg h' g' c' p r period).err = (hitObj cfg h g c o r period).err ∧
    HeapPart S lab (hitObj cfg h g c o r period).heap (hitObj cfg h' g' c' p r period).heap ∧
    SameBut (hitObj cfg h g c o r period).obj (hitObj cfg h' g' c' p r period).obj ∧
    ∃ t, IdStep t c g o (hitObj cfg h g c o r period).count (hitObj cfg h g c o r period).gcount
        (hitObj cfg h g c o r period).obj ∧
      IdStep t c' g' p (hitObj cfg h' g' c' p r period).count (hitObj cfg h' g' c' p r period).gcount
        (hitObj cfg h' g' c' p r period).obj := by
  have e1 : p.past = o.past := by rw [hs]
  have e2 : p.age = o.age := by rw [hs]
  have hpast : ∀ s ∈ o.past, S (lab s) = true := fun s h => by rw [ho.2 s h, hl]
  rcases condAdd_same cfg.pastLen o.age o.past r H hpast with ⟨h1, h2⟩ | ⟨k, k', past', h1, h2, Hk, hsub⟩
  · have h2' : condAdd cfg.pastLen p.age h' p.past r = none := by rw [e1, e2]; exact h2
    rw [hitObj_none h1, hitObj_none h2']
    exact ⟨rfl, H, hs, false, by simp [IdStep]⟩
  · have h2' : condAdd cfg.pastLen p.age h' p.past r = some (k', past') := by rw [e1, e2]; exact h2
    have ek : k' r = k r := (Hk r).2.2 hr
    rw [hitObj_some h1, hitObj_some h2', ek]
    obtain ⟨s1, t, s2, s3⟩ := hitCounters_same cfg g c g' c' r period past' hs
    obtain ⟨q1, q2⟩ := hitSensors_same cfg (k r) period s1
    obtain ⟨ph, fl, on, eq⟩ := hitSensors_obj cfg (k r) period (hitCounters cfg g c o r period past')
    refine ⟨q2, Hk, ?_, t, ?_, ?_⟩
    · unfold SameBut
      simp only
      rw [q1]
    · simp only
      rw [eq]
      exact s2
    · simp only
      rw [q1]
      exact s3

theorem hitObj_left (cfg : Cfg K L D F X) {h h' : Ref → Det K L X} (H : HeapPart S lab h h') (o : Obj K L D F)
    {r : Ref} (hr : S (lab r) = false) (g c : Nat) (period : Int) :
    HeapPart S lab (hitObj cfg h g c o r period).heap h' ∧ c ≤ (hitObj cfg h g c o r period).count := by
  cases hc : condAdd cfg.pastLen o.age h o.past r with
  | none => rw [hitObj_none hc]; exact ⟨H, le_rfl⟩
  | some q =>
    rw [hitObj_some (heap' := q.1) (past' := q.2) hc]
    exact ⟨condAdd_left H hr hc, Nat.le_add_right _ _⟩

end

section
variable [LinearOrder K] [Zero K] [LinearOrder D] [OrderTop D] [Zero D] [DecidableEq L] {S : L → Bool} {lab : Ref → L}
  {c e : Nat → Nat} {sk : Nat → Bool}

/-- the new map of ids after `IdStep` -/
def estep (t : Bool) (e : Nat → Nat) (n m : Nat) : Nat → Nat := if t then Function.update e (n + 1) (m + 1) else e

theorem estep_le (t : Bool) (e : Nat → Nat) {n m i : Nat} (h : i ≤ n) : estep t e n m i = e i := by
  unfold estep
  split
  · rw [Function.update_of_ne (by omega)]
  · rfl

theorem Part.mem_a {a b : World K L D F X} (h : Part S lab c e sk a b) {k : Nat} (hk : k ∈ b.keys) :
    c k ∈ a.keys := by
  obtain ⟨p, hp⟩ := World.find_isSome_of_mem hk
  obtain ⟨o, ho, _⟩ := h.objs k p hp
  exact World.mem_keys_of_find ho

/-- ids after both sides have taken a step -/
theorem Part.ids {a b : World K L D F X} (h : Part S lab c e sk a b) {k : Nat} {o p o' p' : Obj K L D F}
    (hp : b.find k = some p) (hg : Good S e o p) {g n g' n' : Nat} {t : Bool}
    (hA : IdStep t a.count a.gcount o n g o') (hB : IdStep t b.count b.gcount p n' g' p') :
    o'.id = p'.id.map (estep t e b.count a.count) ∧
    ((∀ l, S l = true) → p'.globalId = o'.globalId) ∧
    (∀ i, p'.id = some i → i ≤ n') ∧ b.count ≤ n' ∧
    (∀ i j, i < j → j ≤ n' → estep t e b.count a.count i < estep t e b.count a.count j) ∧
    (∀ i, i ≤ n' → estep t e b.count a.count i ≤ n) ∧
    ((∀ l, S l = true) → (∀ i, i ≤ n' → estep t e b.count a.count i = i) ∧ n' = n ∧ g' = g) := by
  unfold IdStep at hA hB
  cases t with
  | false =>
    simp only [Bool.false_eq_true, if_false] at hA hB
    obtain ⟨rfl, rfl, a3, a4⟩ := hA
    obtain ⟨rfl, rfl, b3, b4⟩ := hB
    have : estep false e b.count a.count = e := rfl
    rw [this, a3, b3, a4, b4]
    exact ⟨hg.id, hg.gid, h.idle k p hp, le_rfl, h.emono, h.ebound, h.eall⟩
  | true =>
    simp only [if_true] at hA hB
    obtain ⟨rfl, rfl, a3, a4⟩ := hA
    obtain ⟨rfl, rfl, b3, b4⟩ := hB
    have hself : estep true e b.count a.count (b.count + 1) = a.count + 1 := by simp [estep]
    rw [a3, b3, a4, b4]
    refine ⟨?_, ?_, ?_, by omega, ?_, ?_, ?_⟩
    · simp [hself]
    · intro hall; rw [(h.eall hall).2.2]
    · intro i hi; cases hi; omega
    · intro i j hij hj
      rw [estep_le true e (show i ≤ b.count by omega)]
      by_cases hj' : j ≤ b.count
      · rw [estep_le true e hj']; exact h.emono i j hij hj'
      · have : j = b.count + 1 := by omega
        rw [this, hself]
        have := h.ebound i (by omega)
        omega
    · intro i hi
      by_cases hi' : i ≤ b.count
      · rw [estep_le true e hi']; have := h.ebound i hi'; omega
      · have : i = b.count + 1 := by omega
        rw [this, hself]
    · intro hall
      obtain ⟨h1, h2, h3⟩ := h.eall hall
      refine ⟨?_, by omega, by omega⟩
      intro i hi
      by_cases hi' : i ≤ b.count
      · rw [estep_le true e hi']; exact h1 i hi'
      · have : i = b.count + 1 := by omega
        rw [this, hself, h2]

/-- an object whose ids are old ones -/
theorem Good.estep {o p : Obj K L D F} (hg : Good S e o p) (t : Bool) {n m : Nat} (h : ∀ i, p.id = some i → i ≤ n) :
    Good S (estep t e n m) o p := by
  refine ⟨hg.label, hg.same, ?_, hg.gid⟩
  rw [hg.id]
  cases hi : p.id with
  | none => rfl
  | some i => simp [estep_le t e (h i hi)]

/-- write back corresponding objects -/
theorem Part.after {a b : World K L D F X} (h : Part S lab c e sk a b) {k : Nat} {o p o' p' : Obj K L D F}
    (hp : b.find k = some p) (ho : a.find (c k) = some o) (eo : o'.initId = o.initId) (ep : p'.initId = p.initId)
    (el : o'.label = o.label) (hs : SameBut o' p') (hrefs : Refs S lab o') {ha hb : Ref → Det K L X}
    (H : HeapPart S lab ha hb) {g n g' n' : Nat} {t : Bool} (hA : IdStep t a.count a.gcount o n g o')
    (hB : IdStep t b.count b.gcount p n' g' p') :
    Part S lab c (estep t e b.count a.count) sk (a.after ha g n o') (b.after hb g' n' p') := by
  have hk1 : p.initId = k := (World.find_some hp).2
  have hk2 : o.initId = c k := (World.find_some ho).2
  have kb : (b.after hb g' n' p').keys = b.keys := World.after_keys ..
  have ka : (a.after ha g n o').keys = a.keys := World.after_keys ..
  have hkb : k ∈ b.keys := World.mem_keys_of_find hp
  have fb : (b.after hb g' n' p').find k = some p' := by
    rw [← hk1]; exact find_after_self (hk1 ▸ hp) ep
  have fa : (a.after ha g n o').find (c k) = some o' := by
    rw [← hk2]; exact find_after_self (hk2 ▸ ho) eo
  have fb' : ∀ k', k' ≠ k → (b.after hb g' n' p').find k' = b.find k' := by
    intro k' hk'; exact find_after_ne (by rw [ep, hk1]; exact hk')
  have fa' : ∀ k', k' ≠ c k → (a.after ha g n o').find k' = a.find k' := by
    intro k' hk'; exact find_after_ne (by rw [eo, hk2]; exact hk')
  obtain ⟨o0, ho0, hg⟩ := h.objs k p hp
  rw [ho] at ho0
  cases ho0
  obtain ⟨i1, i2, i3, i4, i5, i6, i7⟩ := h.ids hp hg hA hB
  refine ⟨H, by rw [ka]; exact h.nodupA, by rw [kb]; exact h.nodupB, by rw [ka]; exact h.boundA,
    by rw [kb]; exact h.boundB, by rw [kb]; exact h.inj, ?_, ?_, ?_, ?_, ?_, i5, i6, i7⟩
  · intro k' q hq
    by_cases e : k' = k
    · subst e
      rw [fb] at hq
      cases hq
      exact ⟨o', fa, by rw [el]; exact hg.label, hs, i1, i2⟩
    · rw [fb' k' e] at hq
      have : c k' ≠ c k := fun e' => e (h.inj k' (World.mem_keys_of_find hq) k hkb e')
      obtain ⟨u, hu, hgu⟩ := h.objs k' q hq
      exact ⟨u, by rw [fa' _ this]; exact hu, hgu.estep t (h.idle k' q hq)⟩
  · intro k' u hu hs
    rw [kb]
    by_cases e : k' = c k
    · exact ⟨k, hkb, e.symm⟩
    · rw [fa' k' e] at hu
      exact h.all k' u hu hs
  · intro k' u hu
    by_cases e : k' = c k
    · subst e
      rw [fa] at hu
      cases hu
      rw [el]
      exact h.sk _ _ ho
    · rw [fa' k' e] at hu
      exact h.sk _ _ hu
  · intro k' u hu
    by_cases e : k' = c k
    · subst e
      rw [fa] at hu
      cases hu
      exact hrefs
    · rw [fa' k' e] at hu
      exact h.refs _ _ hu
  · intro k' q hq i hi
    by_cases e : k' = k
    · subst e
      rw [fb] at hq
      cases hq
      exact i3 i hi
    · rw [fb' k' e] at hq
      exact le_trans (h.idle k' q hq i hi) i4

/-- write back an object that is not in the part -/
theorem Part.after_left {a b : World K L D F X} (h : Part S lab c e sk a b) {k : Nat} {o o' : Obj K L D F}
    (ho : a.find k = some o) (hs : S o.label = false) (eo : o'.initId = o.initId) (el : o'.label = o.label)
    (hrefs : Refs S lab o') {ha : Ref → Det K L X} (H : HeapPart S lab ha b.heap) (g : Nat) {n : Nat}
    (hn : a.count ≤ n) : Part S lab c e sk (a.after ha g n o') b := by
  have hk2 : o.initId = k := (World.find_some ho).2
  have ka : (a.after ha g n o').keys = a.keys := World.after_keys ..
  have fa : (a.after ha g n o').find k = some o' := by
    rw [← hk2]; exact find_after_self (hk2 ▸ ho) eo
  have fa' : ∀ k', k' ≠ k → (a.after ha g n o').find k' = a.find k' := by
    intro k' hk'; exact find_after_ne (by rw [eo, hk2]; exact hk')
  refine ⟨H, by rw [ka]; exact h.nodupA, h.nodupB, by rw [ka]; exact h.boundA, h.boundB, h.inj, ?_, ?_, ?_, ?_,
    h.idle, h.emono, fun i hi => le_trans (h.ebound i hi) hn, ?_⟩
  · intro k' q hq
    obtain ⟨u, hu, hgu⟩ := h.objs k' q hq
    have : c k' ≠ k := by
      intro e
      rw [e, ho] at hu
      cases hu
      have := hgu.label
      rw [hs] at this
      cases this
    exact ⟨u, by rw [fa' _ this]; exact hu, hgu⟩
  · intro k' u hu hs'
    by_cases e : k' = k
    · subst e
      rw [fa] at hu
      cases hu
      rw [el, hs] at hs'
      cases hs'
    · rw [fa' k' e] at hu
      exact h.all k' u hu hs'
  · intro k' u hu
    by_cases e : k' = k
    · subst e
      rw [fa] at hu
      cases hu
      rw [el]
      exact h.sk _ _ ho
    · rw [fa' k' e] at hu
      exact h.sk _ _ hu
  · intro k' u hu
    by_cases e : k' = k
    · subst e
      rw [fa] at hu
      cases hu
      exact hrefs
    · rw [fa' k' e] at hu
      exact h.refs _ _ hu
  · intro hall
    rw [hall] at hs
    cases hs

theorem World.find_remove_self (w : World K L D F X) (k : Nat) : (w.remove k).find k = none := by
  cases hf : (w.remove k).find k with
  | none => rfl
  | some o =>
    have := World.find_some hf
    simp only [World.remove, List.mem_filter] at this
    have h3 := this.1.2
    rw [this.2] at h3
    simp at h3

/-- remove corresponding objects -/
theorem Part.remove {a b : World K L D F X} (h : Part S lab c e sk a b) {k : Nat} (hk : k ∈ b.keys) :
    Part S lab c e sk (a.remove (c k)) (b.remove k) := by
  have ka : ∀ j, j ∈ (a.remove (c k)).keys ↔ j ∈ a.keys ∧ j ≠ c k := by intro j; simp [World.remove_keys]
  have kb : ∀ j, j ∈ (b.remove k).keys ↔ j ∈ b.keys ∧ j ≠ k := by intro j; simp [World.remove_keys]
  have fa : ∀ j o, (a.remove (c k)).find j = some o → a.find j = some o ∧ j ≠ c k := by
    intro j o hj
    have hne : j ≠ c k := by rintro rfl; rw [World.find_remove_self] at hj; cases hj
    exact ⟨by rw [← World.find_remove a hne]; exact hj, hne⟩
  have fb : ∀ j o, (b.remove k).find j = some o → b.find j = some o ∧ j ≠ k := by
    intro j o hj
    have hne : j ≠ k := by rintro rfl; rw [World.find_remove_self] at hj; cases hj
    exact ⟨by rw [← World.find_remove b hne]; exact hj, hne⟩
  refine ⟨h.heap, ?_, ?_, fun j hj => h.boundA j ((ka j).mp hj).1, fun j hj => h.boundB j ((kb j).mp hj).1, ?_, ?_, ?_,
    fun j o hj => h.sk j o (fa j o hj).1, fun j o hj => h.refs j o (fa j o hj).1,
    fun j p hj => h.idle j p (fb j p hj).1, h.emono, h.ebound, h.eall⟩
  · rw [World.remove_keys]; exact h.nodupA.filter _
  · rw [World.remove_keys]; exact h.nodupB.filter _
  · intro j hj j' hj'
    exact h.inj j ((kb j).mp hj).1 j' ((kb j').mp hj').1
  · intro j p hj
    obtain ⟨hj1, hj2⟩ := fb j p hj
    obtain ⟨o, ho, hg⟩ := h.objs j p hj1
    refine ⟨o, ?_, hg⟩
    rw [World.find_remove]
    · exact ho
    · intro e; exact hj2 (h.inj j (World.mem_keys_of_find hj1) k hk e)
  · intro j o hj hs
    obtain ⟨hj1, hj2⟩ := fa j o hj
    obtain ⟨j', hj', e⟩ := h.all j o hj1 hs
    exact ⟨j', (kb j').mpr ⟨hj', fun e' => hj2 (by rw [← e, e'])⟩, e⟩

/-- remove an object that is not in the part -/
theorem Part.remove_left {a b : World K L D F X} (h : Part S lab c e sk a b) {k : Nat} (hk : sk k = false) :
    Part S lab c e sk (a.remove k) b := by
  have ka : ∀ j, j ∈ (a.remove k).keys ↔ j ∈ a.keys ∧ j ≠ k := by intro j; simp [World.remove_keys]
  have fa : ∀ j o, (a.remove k).find j = some o → a.find j = some o ∧ j ≠ k := by
    intro j o hj
    have hne : j ≠ k := by rintro rfl; rw [World.find_remove_self] at hj; cases hj
    exact ⟨by rw [← World.find_remove a hne]; exact hj, hne⟩
  refine ⟨h.heap, ?_, h.nodupB, fun j hj => h.boundA j ((ka j).mp hj).1, h.boundB, h.inj, ?_, ?_,
    fun j o hj => h.sk j o (fa j o hj).1, fun j o hj => h.refs j o (fa j o hj).1, h.idle, h.emono, h.ebound, h.eall⟩
  · rw [World.remove_keys]; exact h.nodupA.filter _
  · intro j p hj
    obtain ⟨o, ho, hg⟩ := h.objs j p hj
    refine ⟨o, ?_, hg⟩
    rw [World.find_remove]
    · exact ho
    · rintro rfl
      have := h.sk _ _ ho
      rw [hg.label, hk] at this
      cases this
  · intro j o hj hs
    exact h.all j o (fa j o hj).1 hs

/-- worlds that differ from related ones in `current_min_distance` -/
theorem Part.mins {a b a' b' : World K L D F X} (h : Part S lab c e sk a b)
    (ha : a'.keys = a.keys ∧ a'.initCount = a.initCount ∧ a'.heap = a.heap ∧ a'.count = a.count ∧ a'.gcount = a.gcount ∧
      ∀ k o, a.find k = some o → ∃ v, a'.find k = some { o with curMin := v })
    (hb : b'.keys = b.keys ∧ b'.initCount = b.initCount ∧ b'.heap = b.heap ∧ b'.count = b.count ∧ b'.gcount = b.gcount ∧
      ∀ k o, b.find k = some o → ∃ v, b'.find k = some { o with curMin := v }) :
    Part S lab c e sk a' b' := by
  obtain ⟨a1, a2, a3, a4, a5, a6⟩ := ha
  obtain ⟨b1, b2, b3, b4, b5, b6⟩ := hb
  have fa : ∀ k o', a'.find k = some o' → ∃ o v, a.find k = some o ∧ o' = { o with curMin := v } := by
    intro k o' ho'
    have : k ∈ a.keys := by rw [← a1]; exact World.mem_keys_of_find ho'
    obtain ⟨o, ho⟩ := World.find_isSome_of_mem this
    obtain ⟨v, hv⟩ := a6 k o ho
    rw [hv] at ho'
    cases ho'
    exact ⟨o, v, ho, rfl⟩
  have fb : ∀ k o', b'.find k = some o' → ∃ o v, b.find k = some o ∧ o' = { o with curMin := v } := by
    intro k o' ho'
    have : k ∈ b.keys := by rw [← b1]; exact World.mem_keys_of_find ho'
    obtain ⟨o, ho⟩ := World.find_isSome_of_mem this
    obtain ⟨v, hv⟩ := b6 k o ho
    rw [hv] at ho'
    cases ho'
    exact ⟨o, v, ho, rfl⟩
  refine ⟨by rw [a3, b3]; exact h.heap, by rw [a1]; exact h.nodupA, by rw [b1]; exact h.nodupB,
    by rw [a1, a2]; exact h.boundA, by rw [b1, b2]; exact h.boundB, by rw [b1]; exact h.inj, ?_, ?_, ?_, ?_, ?_,
    by rw [b4]; exact h.emono, by rw [b4, a4]; exact h.ebound, by rw [b4, a4, b5, a5]; exact h.eall⟩
  · intro k p' hp'
    obtain ⟨p, v, hp, rfl⟩ := fb k p' hp'
    obtain ⟨o, ho, hg⟩ := h.objs k p hp
    obtain ⟨u, hu⟩ := a6 _ o ho
    refine ⟨_, hu, hg.label, ?_, hg.id, hg.gid⟩
    have := hg.same
    unfold SameBut at this ⊢
    rw [this]
  · intro k o' ho' hs
    obtain ⟨o, v, ho, rfl⟩ := fa k o' ho'
    rw [b1]
    exact h.all k o ho hs
  · intro k o' ho'
    obtain ⟨o, v, ho, rfl⟩ := fa k o' ho'
    exact h.sk k o ho
  · intro k o' ho'
    obtain ⟨o, v, ho, rfl⟩ := fa k o' ho'
    exact h.refs k o ho
  · intro k p' hp'
    obtain ⟨p, v, hp, rfl⟩ := fb k p' hp'
    rw [b4]
    exact h.idle k p hp

end

end Norfair
