import Verif.Lemmas.PartUpdate
import Verif.Props.Parametric
import Mathlib.Order.Monotone.Defs

/-! C85: objects of some labels do not depend on the detections with other labels. -/

set_option linter.unusedSectionVars false

namespace Norfair.Props

open Norfair Norfair.Spec

variable {K L D F X : Type}

section
variable [LinearOrder K] [Zero K] [LinearOrder D] [OrderTop D] [Zero D] [DecidableEq L] {S : L → Bool}

theorem parted_part {cfg : Cfg K L D F X} (hS : ∃ l, S l = false) (hbl : BlindTo cfg S) {a b : World K L D F X}
    (h : Parted cfg S a b) : ∃ lab c e sk, Part S lab c e sk a b ∧ b.keys.map c = a.keys.filter sk := by
  have hnall : ¬ ∀ l, S l = true := by
    obtain ⟨l, hl⟩ := hS
    intro h
    rw [h l] at hl
    cases hl
  induction h with
  | @start a b ha hb hh =>
    have fa : ∀ k, a.find k = none := by intro k; unfold World.find; rw [ha.1]; rfl
    have fb : ∀ k, b.find k = none := by intro k; unfold World.find; rw [hb.1]; rfl
    have ka : a.keys = [] := by unfold World.keys; rw [ha.1]; rfl
    have kb : b.keys = [] := by unfold World.keys; rw [hb.1]; rfl
    refine ⟨fun r => (a.heap r).label, id, id, fun _ => true, ⟨fun r => ⟨rfl, (hh r).1, (hh r).2⟩, ?_, ?_, ?_, ?_, ?_,
      ?_, ?_, ?_, ?_, ?_, fun i j h _ => h, ?_, fun h => absurd h hnall⟩, ?_⟩
    · rw [ka]; exact List.nodup_nil
    · rw [kb]; exact List.nodup_nil
    · rw [ka]; intro k hk; cases hk
    · rw [kb]; intro k hk; cases hk
    · rw [kb]; intro k hk; cases hk
    · intro k p hp; rw [fb] at hp; cases hp
    · intro k p hp; rw [fa] at hp; cases hp
    · intro k p hp; rw [fa] at hp; cases hp
    · intro k p hp; rw [fa] at hp; cases hp
    · intro k p hp; rw [fb] at hp; cases hp
    · intro i hi; rw [ha.2.1]; rw [hb.2.1] at hi; exact hi
    · rw [ka, kb]; rfl
  | @call a b a' act dets period ct _ hrun ih =>
    obtain ⟨lab, c, e, sk, hP, hord⟩ := ih
    obtain ⟨c', e', sk', b', hb, hP', hord'⟩ := update_part hbl hP hord hrun
    have : (fun r => S (a.heap r).label) = fun r => S (lab r) := by funext r; rw [(hP.heap r).1]
    rw [this, hb]
    exact ⟨lab, c', e', sk', hP', hord'⟩
  | @env a b g h n m _ hh ih =>
    obtain ⟨lab, c, e, sk, hP, hord⟩ := ih
    refine ⟨lab, c, e, sk, ⟨?_, hP.nodupA, hP.nodupB, hP.boundA, hP.boundB, hP.inj, hP.objs, hP.all, hP.sk, hP.refs,
      hP.idle, hP.emono, hP.ebound, fun h => absurd h hnall⟩, hord⟩
    intro r
    obtain ⟨h1, h2, h3⟩ := hh r
    rw [(hP.heap r).1] at h1 h2 h3
    exact ⟨h1, h2, h3⟩

/-- **C85** Take any set of labels (not all of them). A tracker that is given only the detections with these labels
has, after any number of calls, exactly the objects of the tracker with all detections that have these labels, in
the same order, with the same state of the filter, counters, detections, age and label; and ids that are given in the
same order. This is for distances that do not look at the numbers of objects; other labels may come and go, the
threshold may be infinite, objects may be re-identified. -/
theorem C85_objects {cfg : Cfg K L D F X} (hS : ∃ l, S l = false) (hbl : BlindTo cfg S) {a b : World K L D F X}
    (h : Parted cfg S a b) : ∃ e : Nat → Nat, StrictMonoOn e { i | i ≤ b.count } ∧
      (∀ p ∈ b.objs, ∀ i, p.id = some i → i ≤ b.count) ∧
      List.Forall₂ (fun o p => SameBut o p ∧ o.id = p.id.map e) (a.objs.filter fun o => S o.label) b.objs := by
  obtain ⟨lab, c, e, sk, hP, hord⟩ := parted_part hS hbl h
  exact ⟨e, fun i _ j hj hij => hP.emono i j hij hj,
    fun p hp i hi => hP.idle _ p (World.find_of_mem hP.nodupB hp) i hi, hP.forall₂ hord⟩

/-- filtering of pairs -/
theorem forall₂_filter {A B : Type} {R : A → B → Prop} {p : A → Bool} {q : B → Bool} {l : List A} {m : List B}
    (h : List.Forall₂ R l m) (hpq : ∀ x y, R x y → p x = q y) : List.Forall₂ R (l.filter p) (m.filter q) := by
  induction h with
  | nil => exact .nil
  | @cons x y l m hxy _ ih =>
    cases hq : q y with
    | true => rw [List.filter_cons_of_pos (by rw [hpq x y hxy, hq]), List.filter_cons_of_pos hq]; exact .cons hxy ih
    | false =>
      rw [List.filter_cons_of_neg (by rw [hpq x y hxy, hq]; simp), List.filter_cons_of_neg (by rw [hq]; simp)]
      exact ih

/-- **C85** If the call with all detections returns, so does the call with the detections of these labels, and it
returns the objects of these labels, in the same order. -/
theorem C85_returned {cfg : Cfg K L D F X} (hS : ∃ l, S l = false) (hbl : BlindTo cfg S) {a b a' : World K L D F X}
    (h : Parted cfg S a b) {dets : Option (List Ref)} {period : Int} {ct : Option (CoordTrans K)}
    {act : List (Obj K L D F)} (hrun : update cfg a dets period ct = (a', .ok act)) :
    ∃ act', (update cfg b (dets.map (·.filter fun r => S (a.heap r).label)) period ct).2 = .ok act' ∧
      ∃ e : Nat → Nat, (∀ p ∈ act', ∀ q ∈ act', ∀ i j, p.id = some i → q.id = some j → i < j → e i < e j) ∧
        List.Forall₂ (fun o p => SameBut o p ∧ o.id = p.id.map e) (act.filter fun o => S o.label) act' := by
  obtain ⟨lab, c, e, sk, hP, hord⟩ := parted_part hS hbl h
  obtain ⟨c', e', sk', b', hb, hP', hord'⟩ := update_part hbl hP hord hrun
  have : (fun r => S (a.heap r).label) = fun r => S (lab r) := by funext r; rw [(hP.heap r).1]
  rw [this, hb]
  refine ⟨_, rfl, e', ?_, ?_⟩
  · intro p _ q hq i j _ hj hij
    refine hP'.emono i j hij ?_
    exact hP'.idle _ q (World.find_of_mem hP'.nodupB (List.mem_filter.mp hq).1) j hj
  · have hact : act = activeObjects a' := (update_ok hP.nodupA hrun).1
    rw [hact]
    unfold activeObjects
    rw [List.filter_filter]
    have hc : (fun o : Obj K L D F => S o.label && (!o.isInit && o.hcPos)) =
        fun o => (!o.isInit && o.hcPos) && S o.label := by funext o; rw [Bool.and_comm]
    rw [hc, ← List.filter_filter]
    refine forall₂_filter (hP'.forall₂ hord') ?_
    rintro o p ⟨hs, _⟩
    unfold SameBut at hs
    rw [hs]
    rfl

/-- **C85** Objects that differ in their numbers only have the same estimate, state of the filter and points to draw. -/
theorem C85_estimates {o p : Obj K L D F} (h : SameBut o p) (fo : FilterOps K F) :
    p.estimate fo = o.estimate fo ∧ p.filter = o.filter ∧ p.livePoints = o.livePoints ∧ p.label = o.label ∧
      p.lastDet = o.lastDet ∧ p.past = o.past ∧ p.age = o.age ∧ p.hitCounter = o.hitCounter := by
  unfold SameBut at h
  rw [h]
  exact ⟨rfl, rfl, rfl, rfl, rfl, rfl, rfl, rfl⟩

/-- **C85** Distances between the points of the detection and the estimate of the object do not look at numbers. -/
theorem C85_points_blind (fo : FilterOps K F) (g : Pts K → Pts K → Option (Option D)) (cfg : Cfg K L D F X)
    (hd : cfg.dist = ofPoints fo g) (hr : cfg.reid = none) : BlindTo cfg S := by
  refine ⟨?_, by rw [hr]; intro f hf; cases hf⟩
  rw [hd]
  intro d v u h
  show g d.points (u.obj.estimate fo) = g d.points (v.obj.estimate fo)
  rw [(C85_estimates h.obj fo).1]

end

section examples
open Toy

/-- the person tracker beside the tracker of everything -/
def only0 : Nat → Bool := fun l => l == 0

theorem rcfg_blind : BlindTo rcfg only0 := by
  refine ⟨?_, ?_⟩
  · intro d v u h
    show Toy.dist d u = Toy.dist d v
    unfold Toy.dist
    rw [(C85_estimates h.obj noFilterOps).1]
  · intro f hf v v' u u' h h'
    cases hf
    unfold reidDist
    rw [(C85_estimates h.obj noFilterOps).1, (C85_estimates h'.obj noFilterOps).1]

/-- frames with detections of both labels; the object at 0 is lost and re-identified at 50 -/
def mixed : List (List Ref) := [[1000, 0], [1001, 1], [1002, 2], [1003], [], [1004], [], [1050], [50, 1051], [51]]

theorem run_parted (ls : List (List Ref)) : ∀ a b : TWorld, Parted rcfg only0 a b →
    (∀ n < ls.length, (returned (update rcfg (run rcfg a (ls.take n)) (some (ls.getD n [])) 1 none)).isSome = true) →
    (∀ r, (a.heap r).label = (heap r).label) →
    Parted rcfg only0 (run rcfg a ls) (run rcfg b (ls.map (·.filter fun r => only0 (heap r).label))) := by
  induction ls with
  | nil => exact fun a b h _ _ => h
  | cons l ls ih =>
    intro a b h hok hl
    obtain ⟨act, hact⟩ : ∃ act, update rcfg a (some l) 1 none = ((update rcfg a (some l) 1 none).1, .ok act) :=
      exists_ok (hok 0 (by simp))
    obtain ⟨_, _, _, _, hP, _⟩ := parted_part ⟨1, rfl⟩ rcfg_blind h
    obtain ⟨_, _, _, _, _, hU⟩ := update_ok hP.nodupA hact
    have hI := Parted.call (some l) 1 none h hact
    refine ih _ _ ?_ ?_ ?_
    · simpa only [Option.map_some, hl] using hI
    · intro n hn
      exact hok (n + 1) (by simpa using hn)
    · intro r
      rw [← hl r]
      exact hU.heap.label r

theorem mixed_parted : Parted rcfg only0 (run rcfg w0 mixed) (run rcfg w0 (mixed.map (·.filter fun r => only0 (heap r).label))) :=
  run_parted mixed w0 w0 (.start w0_initial w0_initial (fun _ => ⟨rfl, fun _ => rfl⟩)) (by decide +kernel) (fun _ => rfl)

example : ∃ act, update rcfg (run rcfg w0 mixed) (some [1052, 52]) 1 none =
    ((update rcfg (run rcfg w0 mixed) (some [1052, 52]) 1 none).1, .ok act) := exists_ok (by decide +kernel)

example : ∃ e : Nat → Nat, StrictMonoOn e { i | i ≤ 2 } ∧ List.Forall₂ (fun o p => SameBut o p ∧ o.id = p.id.map e)
    ((run rcfg w0 mixed).objs.filter fun o => only0 o.label)
    (run rcfg w0 (mixed.map (·.filter fun r => only0 (heap r).label))).objs := by
  obtain ⟨e, h1, _, h2⟩ := C85_objects ⟨1, rfl⟩ rcfg_blind mixed_parted
  refine ⟨e, ?_, h2⟩
  rwa [show (run rcfg w0 (mixed.map (·.filter fun r => only0 (heap r).label))).count = 2 by decide +kernel] at h1

/-- the person has id 2 beside others and id 1 alone; it was lost and re-identified in both -/
example : ((run rcfg w0 mixed).objs.map fun o => (o.initId, o.id, o.label, o.lastDet)) =
      [(1, some 1, 1, 1051), (2, some 2, 0, 51)] ∧
    ((run rcfg w0 (mixed.map (·.filter fun r => only0 (heap r).label))).objs.map
      fun o => (o.initId, o.id, o.label, o.lastDet)) = [(1, some 1, 0, 51)] := by decide +kernel

/-- labels that have the same text are not kept apart by a vectorized distance: here with texts that are all equal, the
tracker of everything gives the detection of the other label to the object -/
example : (run { cfg with dist := .vectorized (fun _ => "x") (fun A B => some ⟨A.length, B.length, fun _ _ => some 0⟩) } w0
      [[0], [1000]]).objs.map (fun o => (o.initId, o.lastDet)) = [(1, 1000)] ∧
    (run { cfg with dist := .vectorized (fun _ => "x") (fun A B => some ⟨A.length, B.length, fun _ _ => some 0⟩) } w0
      [[0], []]).objs.map (fun o => (o.initId, o.lastDet)) = [(1, 0)] := by decide +kernel

end examples

end Norfair.Props
