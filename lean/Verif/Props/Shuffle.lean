import Verif.Lemmas.Shuffle
import Verif.Props.Labels

/-! C86: the order in which detections are given does not matter. -/

set_option linter.unusedSectionVars false

namespace Norfair.Props

open Norfair Norfair.Spec

variable {K L D F X : Type}

section
variable [LinearOrder K] [Zero K] [LinearOrder D] [OrderTop D] [Zero D] [DecidableEq L]

theorem foldl_transform_perm (g : CoordTrans K) {l m : List Ref} (h : l.Perm m) (heap : Ref → Det K L X) :
    l.foldl (transformDet g) heap = m.foldl (transformDet g) heap := by
  refine h.foldl_eq' ?_ heap
  intro r _ s _ z
  funext t
  unfold transformDet
  by_cases hr : t = r <;> by_cases hs : t = s
  · subst hr; subst hs; rfl
  · subst hr; simp [hs]
  · subst hs; simp [hr]
  · simp [hr, hs]

theorem foldl_transform_label (g : CoordTrans K) (l : List Ref) (heap : Ref → Det K L X) (r : Ref) :
    (l.foldl (transformDet g) heap r).label = (heap r).label := by
  induction l generalizing heap with
  | nil => rfl
  | cons s l ih =>
    rw [List.foldl_cons, ih]
    unfold transformDet
    split
    · rename_i e; rw [e]
    · rfl

theorem update_shuffle {cfg : Cfg K L D F X} {f} (hf : cfg.dist = .scalar f) (ht : Timeless f) (hr : cfg.reid = none)
    {a b : World K L D F X} {lab c e} (h : Part allL lab c e allK a b) (hord : (b.keys.map c).Perm a.keys)
    {dets dets' : List Ref} (hdets : dets'.Perm dets) (hnd : dets.Nodup) {period : Int} (hp : period ≤ cfg.initDelay)
    {ct : Option (CoordTrans K)}
    (hnt : NoTies f cfg.thr (seen a.heap dets ct) (advance cfg ct a).objs dets)
    {a' : World K L D F X} {actA : List (Obj K L D F)} (hrun : update cfg a (some dets) period ct = (a', .ok actA)) :
    ∃ c' e' b', update cfg b (some dets') period ct = (b', .ok (activeObjects b')) ∧
      Part allL lab c' e' allK a' b' ∧ (b'.keys.map c').Perm a'.keys := by
  cases ct with
  | none => exact updateCore_shuffle hf ht hr h hord hdets hnd hp hnt hrun
  | some g =>
    refine updateCore_shuffle (lab := lab) (c := c) (e := e)
      (a := { a with heap := dets.foldl (transformDet g) a.heap })
      (b := { b with heap := dets'.foldl (transformDet g) b.heap }) hf ht hr ?_ hord hdets hnd hp hnt hrun
    refine ⟨?_, h.nodupA, h.nodupB, h.boundA, h.boundB, h.inj, h.objs, h.all, h.sk, h.refs, h.idle,
        h.emono, h.ebound, h.eall⟩
    have hh : b.heap = a.heap := funext fun r => (h.heap r).2.2 rfl
    intro r
    simp only
    rw [foldl_transform_perm g hdets, hh, foldl_transform_label]
    exact ⟨(h.heap r).1, (h.heap r).1, fun _ => rfl⟩

theorem shuffled_part {cfg : Cfg K L D F X} {f} (hf : cfg.dist = .scalar f) (ht : Timeless f) (hr : cfg.reid = none)
    {a b : World K L D F X} (h : Shuffled cfg f a b) :
    ∃ lab c e, Part allL lab c e allK a b ∧ (b.keys.map c).Perm a.keys := by
  induction h with
  | @start a b ha hb hh hg =>
    have fa : ∀ k, a.find k = none := by intro k; unfold World.find; rw [ha.1]; rfl
    have fb : ∀ k, b.find k = none := by intro k; unfold World.find; rw [hb.1]; rfl
    have ka : a.keys = [] := by unfold World.keys; rw [ha.1]; rfl
    have kb : b.keys = [] := by unfold World.keys; rw [hb.1]; rfl
    refine ⟨fun r => (a.heap r).label, id, id, ⟨fun r => ⟨rfl, by rw [hh], fun _ => by rw [hh]⟩, ?_, ?_, ?_, ?_, ?_,
      ?_, ?_, ?_, ?_, ?_, fun i j h _ => h, ?_, ?_⟩, ?_⟩
    · rw [ka]; exact List.nodup_nil
    · rw [kb]; exact List.nodup_nil
    · rw [ka]; intro k hk; cases hk
    · rw [kb]; intro k hk; cases hk
    · rw [kb]; intro k hk; cases hk
    · intro k p hp; rw [fb] at hp; cases hp
    · intro k p hp; rw [fa] at hp; cases hp
    · intro k p hp; rfl
    · intro k p hp; rw [fa] at hp; cases hp
    · intro k p hp; rw [fb] at hp; cases hp
    · intro i hi; rw [ha.2.1]; rw [hb.2.1] at hi; exact hi
    · intro _; exact ⟨fun _ _ => rfl, by rw [ha.2.1, hb.2.1], hg⟩
    · rw [ka, kb]; exact .refl _
  | @call a b a' act dets dets' period ct _ hrun hdets hnd hp hnt ih =>
    obtain ⟨lab, c, e, hP, hord⟩ := ih
    obtain ⟨c', e', b', hb, hP', hord'⟩ := update_shuffle hf ht hr hP hord hdets hnd hp hnt hrun
    rw [hb]
    exact ⟨lab, c', e', hP', hord'⟩
  | @env a b h n _ ih =>
    obtain ⟨lab, c, e, hP, hord⟩ := ih
    exact ⟨fun r => (h r).label, c, e, ⟨fun r => ⟨rfl, rfl, fun _ => rfl⟩, hP.nodupA, hP.nodupB, hP.boundA, hP.boundB, hP.inj,
      hP.objs, hP.all, hP.sk, fun _ _ _ => ⟨rfl, fun _ _ => rfl⟩, hP.idle, hP.emono, hP.ebound,
      fun hall => ⟨(hP.eall hall).1, (hP.eall hall).2.1, rfl⟩⟩, hord⟩

/-- the objects one by one -/
theorem part_sameObj {lab c e} {a b : World K L D F X} (h : Part allL lab c e allK a b)
    (hord : (b.keys.map c).Perm a.keys) : ∃ l, l.Perm a.objs ∧ List.Forall₂ SameObj l b.objs := by
  have hall := h.eall (fun _ => rfl)
  have h1 : ∀ p ∈ b.objs, ∃ o, a.find (c p.initId) = some o ∧ SameObj o p := by
    intro p hp
    have hfp := World.find_of_mem h.nodupB hp
    obtain ⟨o, ho, hg⟩ := h.objs _ p hfp
    refine ⟨o, ho, ?_⟩
    have hid : p.id = o.id := by
      rw [hg.id]
      cases hi : p.id with
      | none => rfl
      | some i =>
        rw [Option.map_some, hall.1 i (h.idle _ p hfp i hi)]
    have hgid := hg.gid (fun _ => rfl)
    have := hg.same
    unfold SameBut at this
    unfold SameObj
    rw [← hid, ← hgid]
    exact this
  have h2 : ∀ m : List (Obj K L D F), (∀ p ∈ m, p ∈ b.objs) → ∃ l, l.map (·.initId) = m.map (fun p => c p.initId) ∧
      (∀ o ∈ l, o ∈ a.objs) ∧ List.Forall₂ SameObj l m := by
    intro m
    induction m with
    | nil => exact fun _ => ⟨[], rfl, by simp, .nil⟩
    | cons p m ih =>
      intro hm
      obtain ⟨l, q1, q2, q3⟩ := ih (fun q hq => hm q (by simp [hq]))
      obtain ⟨o, ho, hs⟩ := h1 p (hm p (by simp))
      obtain ⟨ho1, ho2⟩ := World.find_some ho
      refine ⟨o :: l, by rw [List.map_cons, List.map_cons, q1, ho2], ?_, .cons hs q3⟩
      intro x hx
      rcases List.mem_cons.mp hx with rfl | hx
      · exact ho1
      · exact q2 x hx
  obtain ⟨l, q1, q2, q3⟩ := h2 b.objs (fun _ h => h)
  refine ⟨l, ?_, q3⟩
  have hk : (l.map (·.initId)).Perm (a.objs.map (·.initId)) := by
    rw [q1]
    have : b.objs.map (fun p => c p.initId) = b.keys.map c := by unfold World.keys; rw [List.map_map]; rfl
    rw [this]
    exact hord
  have hnl : (l.map (·.initId)).Nodup := hk.nodup_iff.mpr h.nodupA
  have hna : a.objs.Nodup := List.Nodup.of_map _ h.nodupA
  refine (List.perm_ext_iff_of_nodup (List.Nodup.of_map _ hnl) hna).mpr fun o => ⟨q2 o, fun ho => ?_⟩
  obtain ⟨o', ho', e⟩ := List.mem_map.mp (hk.mem_iff.mpr (List.mem_map_of_mem (f := fun o => o.initId) ho))
  rw [← World.eq_of_mem_of_key h.nodupA (q2 o' ho') ho e]
  exact ho'

/-- **C86** Two trackers that are given the same detections in different orders have the same objects, with the same
ids; only the order of the list and the `initializing_id`s differ. This is for distances without ties. -/
theorem C86_objects {cfg : Cfg K L D F X} {f} (hf : cfg.dist = .scalar f) (ht : Timeless f) (hr : cfg.reid = none)
    {a b : World K L D F X} (h : Shuffled cfg f a b) :
    (∃ l, l.Perm a.objs ∧ List.Forall₂ SameObj l b.objs) ∧ b.count = a.count ∧ b.gcount = a.gcount ∧ b.heap = a.heap := by
  obtain ⟨lab, c, e, hP, hord⟩ := shuffled_part hf ht hr h
  have := hP.eall (fun _ => rfl)
  exact ⟨part_sameObj hP hord, this.2.1, this.2.2, funext fun r => (hP.heap r).2.2 rfl⟩

theorem perm_filter_forall₂ {A B : Type} {R : A → B → Prop} {p : A → Bool} {q : B → Bool} {l k : List A} {m : List B}
    (hl : l.Perm k) (h : List.Forall₂ R l m) (hpq : ∀ x y, R x y → p x = q y) :
    ∃ l', l'.Perm (k.filter p) ∧ List.Forall₂ R l' (m.filter q) :=
  ⟨l.filter p, hl.filter p, forall₂_filter h hpq⟩

/-- **C86** If the call with one order returns, so does the call with the other order, and both return the same
objects with the same ids, perhaps in another order. -/
theorem C86_returned {cfg : Cfg K L D F X} {f} (hf : cfg.dist = .scalar f) (ht : Timeless f) (hr : cfg.reid = none)
    {a b a' : World K L D F X} (h : Shuffled cfg f a b) {dets dets' : List Ref} {period : Int} {ct : Option (CoordTrans K)}
    {act : List (Obj K L D F)} (hrun : update cfg a (some dets) period ct = (a', .ok act)) (hdets : dets'.Perm dets)
    (hnd : dets.Nodup) (hp : period ≤ cfg.initDelay)
    (hnt : NoTies f cfg.thr (seen a.heap dets ct) (advance cfg ct a).objs dets) :
    ∃ act', (update cfg b (some dets') period ct).2 = .ok act' ∧ ∃ l, l.Perm act ∧ List.Forall₂ SameObj l act' := by
  obtain ⟨lab, c, e, hP, hord⟩ := shuffled_part hf ht hr h
  obtain ⟨c', e', b', hb, hP', hord'⟩ := update_shuffle hf ht hr hP hord hdets hnd hp hnt hrun
  rw [hb]
  refine ⟨_, rfl, ?_⟩
  have hact : act = activeObjects a' := (update_ok hP.nodupA hrun).1
  rw [hact]
  obtain ⟨l, h1, h2⟩ := part_sameObj hP' hord'
  refine perm_filter_forall₂ h1 h2 ?_
  intro o p hs
  unfold SameObj at hs
  rw [hs]
  rfl

end

section examples
open Toy

theorem cfg_timeless : Timeless Toy.dist := by
  intro d d' v v' hd hv _ _
  unfold Toy.dist
  rw [(C85_estimates hv noFilterOps).1]
  unfold AgeBut at hd
  rw [hd]

/-- the distances of the example below the threshold -/
def close (w : TWorld) (l : List Ref) : List (Bool × WithTop Nat × Ref × Nat) :=
  l.flatMap fun r => (advance cfg none w).objs.filterMap fun o =>
    if (w.heap r).label = o.label then
      match Toy.dist (w.heap r) (o.view w.heap) with
      | some (some d) => if d < 10 then some (o.isInit, d, r, o.initId) else none
      | _ => none
    else none

theorem noTies_of (w : TWorld) (l : List Ref)
    (h : ∀ x ∈ close w l, ∀ y ∈ close w l, x.1 = y.1 → x.2.1 = y.2.1 → x.2.2 = y.2.2) :
    NoTies Toy.dist cfg.thr w.heap (advance cfg none w).objs l := by
  intro r hr r' hr' o ho o' ho' d hi hl hl' hd hd' hlt
  have hlt : d < 10 := hlt
  have hm : ∀ r ∈ l, ∀ o ∈ (advance cfg none w).objs, (w.heap r).label = o.label →
      Toy.dist (w.heap r) (o.view w.heap) = some (some d) → (o.isInit, d, r, o.initId) ∈ close w l := by
    intro r hr o ho hl hd
    unfold close
    refine List.mem_flatMap.mpr ⟨r, hr, List.mem_filterMap.mpr ⟨o, ho, ?_⟩⟩
    rw [if_pos hl, hd]
    simp only
    rw [if_pos hlt]
  have := h _ (hm r hr o ho hl hd) _ (hm r' hr' o' ho' hl' hd') hi rfl
  exact Prod.mk.inj this

/-- two people, given in both orders -/
theorem people_shuffled : Shuffled cfg Toy.dist (run cfg w0 [[0, 50], [3, 51]]) (run cfg w0 [[50, 0], [51, 3]]) := by
  have s0 : Shuffled cfg Toy.dist w0 w0 := .start w0_initial w0_initial rfl rfl
  obtain ⟨_, h1⟩ := exists_ok (r := update cfg w0 (some [0, 50]) 1 none) (by decide +kernel)
  have s1 := Shuffled.call [0, 50] [50, 0] 1 none s0 h1 (by decide) (by decide) (by decide)
    (noTies_of _ _ (by decide +kernel))
  obtain ⟨_, h2⟩ := exists_ok (r := update cfg (run cfg w0 [[0, 50]]) (some [3, 51]) 1 none) (by decide +kernel)
  exact Shuffled.call [3, 51] [51, 3] 1 none s1 h2 (by decide) (by decide) (by decide)
    (noTies_of _ _ (by decide +kernel))

example : (∃ l, l.Perm (run cfg w0 [[0, 50], [3, 51]]).objs ∧
    List.Forall₂ SameObj l (run cfg w0 [[50, 0], [51, 3]]).objs) :=
  (C86_objects rfl cfg_timeless rfl people_shuffled).1

/-- the same ids: the person at 50 was nearer to its detection and got the id 1 -/
example : (run cfg w0 [[0, 50], [3, 51]]).objs.map (fun o => (o.initId, o.id, o.lastDet)) = [(1, some 2, 3), (2, some 1, 51)] ∧
    (run cfg w0 [[50, 0], [51, 3]]).objs.map (fun o => (o.initId, o.id, o.lastDet)) = [(1, some 1, 51), (2, some 2, 3)] := by
  decide +kernel

/-- the next call -/
example : ∃ act', (update cfg (run cfg w0 [[50, 0], [51, 3]]) (some [53, 4]) 1 none).2 = .ok act' ∧
    ∃ l, l.Perm (activeObjects (run cfg w0 [[0, 50], [3, 51], [4, 53]])) ∧ List.Forall₂ SameObj l act' := by
  obtain ⟨act, h2⟩ := exists_ok (r := update cfg (run cfg w0 [[0, 50], [3, 51]]) (some [4, 53]) 1 none) (by decide +kernel)
  have := C86_returned rfl cfg_timeless rfl people_shuffled h2 (dets' := [53, 4]) (by decide) (by decide) (by decide)
    (noTies_of _ _ (by decide +kernel))
  obtain ⟨lab, c, e, hP, _⟩ := shuffled_part (cfg := cfg) rfl cfg_timeless rfl people_shuffled
  rw [(update_ok hP.nodupA h2).1] at this
  exact this

/-- **C86** With ties the order matters: a person at 10 and detections at 9 and 11; the first detection in the list is
taken, the other one starts a new object. -/
theorem C86_ties : (run cfg w0 [[10], [9, 11]]).objs.map (fun o => o.lastDet) = [9, 11] ∧
    (run cfg w0 [[10], [11, 9]]).objs.map (fun o => o.lastDet) = [11, 9] ∧
    (run cfg w0 [[10], [9, 11]]).objs.map (fun o => o.id) = [some 1, none] ∧
    (run cfg w0 [[10], [11, 9]]).objs.map (fun o => o.id) = [some 1, none] := by decide +kernel

/-- **C86** With a period above `initialization_delay` new objects get ids at once, in the order of the list. -/
theorem C86_period : (update cfg w0 (some [0, 50]) 2 none).1.objs.map (fun o => (o.id, o.lastDet)) = [(some 1, 0), (some 2, 50)] ∧
    (update cfg w0 (some [50, 0]) 2 none).1.objs.map (fun o => (o.id, o.lastDet)) = [(some 1, 50), (some 2, 0)] := by
  decide +kernel

end examples

end Norfair.Props
