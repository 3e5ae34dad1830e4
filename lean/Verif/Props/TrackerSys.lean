import Verif.Lemmas.Sim
import Verif.Lemmas.Sys
import Verif.Spec.Interference
import Verif.Props.Toy

/-! C24, C25: frames without detections; trackers do not interfere. -/

set_option linter.unusedSectionVars false

namespace Norfair.Props

open Norfair Norfair.Spec Norfair.Toy

section
variable {K L D F X : Type}
variable [LinearOrder K] [Zero K] [LinearOrder D] [OrderTop D] [Zero D] [DecidableEq L]

/-- **C24** (partial; the full statement "with or without a coordinate transformation" is false, see
`C24_none_with_transformation`) `update()` does the same and returns the same as `update([])`. -/
theorem C24_skipped_frame_partial (cfg : Cfg K L D F X) (w : World K L D F X) (period : Int) :
    update cfg w none period none = update cfg w (some []) period none := by
  unfold update
  simp only [updateCoreNone_eq]

/-- **C24** (the full statement is false) With a coordinate transformation, `update()` raises `TypeError`
and does nothing, in every state, while `update([])` succeeds in some. -/
theorem C24_none_with_transformation (c : CoordTrans K) :
    (∀ (cfg : Cfg K L D F X) w period, update cfg w none period (some c) = (w, .error .typeError)) ∧
    ∀ (cfg : Cfg K L D F X) (w : World K L D F X) period, w.objs = [] →
      ∃ w', update cfg w (some []) period (some c) = (w', .ok []) := by
  refine ⟨fun _ _ _ => rfl, fun cfg w period hw => ?_⟩
  have h1 : survivors cfg ([] : List (Obj K L D F)) = [] := by unfold survivors; split <;> rfl
  have h2 : aliveKeys cfg ([] : List (Obj K L D F)) = [] := by unfold aliveKeys; split <;> simp [h1]
  have h3 : deadKeys cfg ([] : List (Obj K L D F)) = [] := by unfold deadKeys; split <;> simp [h1]
  refine ⟨{ w with objs := [] }, ?_⟩
  unfold update updateCore
  simp only [hw, h2, h3, World.keysWhere, List.filter_nil, stageDet, List.length_nil, if_true,
    List.append_nil, List.foldl_nil, advance, h1, List.map_nil]
  unfold reidStage stageReid
  split
  · rename_i e he
    split at he <;> simp at he
  · rename_i e he
    split at he <;> simp at he <;> simp [activeObjects, ← he.1]

end

/-! ### C25 -/

section
variable {K L X ι : Type} {D F : ι → Type}
variable [DecidableEq ι] [LinearOrder K] [Zero K] [DecidableEq L]
  [∀ i, LinearOrder (D i)] [∀ i, OrderTop (D i)] [∀ i, Zero (D i)]

theorem Interleaved.sysReaches {cfg : (i : ι) → Cfg K L (D i) (F i) X} {i : ι} {S : Ref → Prop}
    {s s' : Sys K L X D F} {es outs} (h : Interleaved cfg i S s es outs s') : SysReaches cfg s s' := by
  induction h with
  | refl => exact .refl _
  | mine dets period ct _ _ ih => exact .call i dets period ct ih
  | other j dets period ct _ _ _ ih => exact .call j dets period ct ih
  | editMine r d _ _ hage ih =>
    refine .edit _ ih fun q hq => ?_
    unfold setDet
    split
    · rename_i e; subst e; exact hage hq
    · exact hq
  | editOther r d _ _ hage ih =>
    refine .edit _ ih fun q hq => ?_
    unfold setDet
    split
    · rename_i e; subst e; exact hage hq
    · exact hq

theorem solo_append {D F : Type} [LinearOrder D] [OrderTop D] [Zero D] (cfg : Cfg K L D F X)
    (es es' : List (Ev K L X)) : ∀ w : World K L D F X,
    solo cfg (es ++ es') w = ((solo cfg es' (solo cfg es w).1).1,
      (solo cfg es w).2 ++ (solo cfg es' (solo cfg es w).1).2) := by
  induction es with
  | nil => intro w; rfl
  | cons e es ih =>
    intro w
    cases e with
    | call dets period ct => simp only [List.cons_append, solo, ih, List.cons_append]
    | edit r d => simp only [List.cons_append, solo, ih]

theorem OSim.erase {D F : Type} {S : Ref → Prop} {a b : List (Obj K L D F)}
    (h : List.Forall₂ (OSim S) a b) : SameObjs a b := by
  unfold SameObjs
  induction h with
  | nil => rfl
  | cons hop _ ih =>
    simp only [List.map_cons, ih]
    congr 1
    rw [hop.same]

theorem _root_.Norfair.OutSim.same {D F : Type} {S : Ref → Prop} {a b : Except Err (List (Obj K L D F))}
    (h : OutSim S a b) : SameOut a b := by
  cases h with
  | error e => exact rfl
  | ok hab => exact OSim.erase hab

/-- what the simulation keeps track of: tracker `i` in the process against the same tracker alone -/
structure Apart (i : ι) (S : Ref → Prop) (s : Sys K L X D F) (v : World K L (D i) (F i) X) : Prop where
  heap : ∀ r, S r → v.heap r = s.heap r
  count : v.count = (s.world i).count
  initCount : v.initCount = (s.world i).initCount
  objs : List.Forall₂ (OSim S) (s.world i).objs v.objs
  others : ∀ j, j ≠ i → ∀ o ∈ (s.world j).objs, OSim (fun r => ¬ S r) o o

theorem Apart.sim {i : ι} {S : Ref → Prop} {s : Sys K L X D F} {v : World K L (D i) (F i) X}
    (h : Apart i S s v) : WSim S s.heap v.heap (s.world i) v :=
  ⟨⟨h.heap, fun _ _ => rfl, fun _ _ => rfl⟩, h.count, h.initCount, h.objs⟩

/-- **C25** Trackers do not interfere: in a process with other trackers that are given other detections,
the results of a tracker's calls and its state are, up to the values of `global_id`, what they are when
only its own calls happen (and the same edits of its own detections). -/
theorem C25_no_interference {cfg : (i : ι) → Cfg K L (D i) (F i) X} {i : ι}
    (hcfg : IgnoresGlobalId (cfg i)) {S : Ref → Prop} {s s' : Sys K L X D F} {es outs}
    (h0 : s.Initial) (h : Interleaved cfg i S s es outs s') :
    List.Forall₂ SameOut outs (solo (cfg i) es (s.world i)).2 ∧
    SameObjs (s'.world i).objs (solo (cfg i) es (s.world i)).1.objs ∧
    (solo (cfg i) es (s.world i)).1.count = (s'.world i).count ∧
    (solo (cfg i) es (s.world i)).1.initCount = (s'.world i).initCount ∧
    ∀ r, S r → (solo (cfg i) es (s.world i)).1.heap r = s'.heap r := by
  suffices hs : List.Forall₂ SameOut outs (solo (cfg i) es (s.world i)).2 ∧
      Apart i S s' (solo (cfg i) es (s.world i)).1 from
    ⟨hs.1, OSim.erase hs.2.objs, hs.2.count, hs.2.initCount, hs.2.heap⟩
  induction h with
  | refl =>
    refine ⟨.nil, fun _ _ => rfl, rfl, rfl, ?_, ?_⟩
    · rw [show (solo (cfg i) [] (s.world i)).1 = s.world i from rfl, (h0 i).1]
      exact .nil
    · intro j _ o ho
      rw [(h0 j).1] at ho
      cases ho
  | @mine es outs s' dets period ct hr hd ih =>
    obtain ⟨i1, i2⟩ := ih
    rw [solo_append]
    obtain ⟨a1, a2⟩ := update_sim hcfg i2.sim hd period ct
    refine ⟨List.rel_append i1 (.cons ?_ .nil), ?_⟩
    · exact a2.same
    · refine ⟨a1.heap.same, ?_, ?_, ?_, ?_⟩
      · rw [Sys.put_world_self]; exact a1.count
      · rw [Sys.put_world_self]; exact a1.initCount
      · rw [Sys.put_world_self]; exact a1.objs
      · intro j hj o ho
        rw [Sys.put_world_ne _ _ hj] at ho
        exact i2.others j hj o ho
  | @other es outs s' j dets period ct hr hj hd ih =>
    obtain ⟨i1, i2⟩ := ih
    have hn : (s'.world j).keys.Nodup :=
      ((Interleaved.sysReaches hr).inv (SysInv.initial h0)).1.inv j |>.nodup
    have hw := update_within (S := fun r => ¬ S r) (h0 := s'.heap) (cfg := cfg j) hn hd period ct
      ⟨⟨fun _ _ => rfl, fun _ _ => rfl, fun _ _ => rfl⟩, i2.others j hj⟩
    refine ⟨i1, ?_, ?_, ?_, ?_, ?_⟩
    · intro r hr
      rw [i2.heap r hr]
      exact (hw.heap.left r (fun hn => hn hr)).symm
    · rw [Sys.put_world_ne _ _ hj.symm]; exact i2.count
    · rw [Sys.put_world_ne _ _ hj.symm]; exact i2.initCount
    · rw [Sys.put_world_ne _ _ hj.symm]; exact i2.objs
    · intro k hk o ho
      by_cases hkj : k = j
      · subst hkj
        rw [Sys.put_world_self] at ho
        exact hw.objs o ho
      · rw [Sys.put_world_ne _ _ hkj] at ho
        exact i2.others k hk o ho
  | @editMine es outs s' r d hr hS _ ih =>
    obtain ⟨i1, i2⟩ := ih
    rw [solo_append]
    refine ⟨by simpa [solo] using i1, ?_, i2.count, i2.initCount, i2.objs, i2.others⟩
    intro q hq
    simp only [solo, setDet]
    split
    · rfl
    · exact i2.heap q hq
  | @editOther es outs s' r d hr hS _ ih =>
    obtain ⟨i1, i2⟩ := ih
    refine ⟨i1, ?_, i2.count, i2.initCount, i2.objs, i2.others⟩
    intro q hq
    simp only [setDet]
    rw [if_neg (fun e : q = r => hS (e ▸ hq))]
    exact i2.heap q hq

end

/-! ### Examples -/

/-- C24: one frame without detections -/
example : returned (update cfg (run cfg w0 [[0], [1]]) none 1 none) = some [(1, some 1, 1)] ∧
    returned (update cfg (run cfg w0 [[0], [1]]) (some []) 1 none) = some [(1, some 1, 1)] := by decide +kernel

/-- C25: two toy trackers in one process -/
def twoCfg : (b : Bool) → Cfg Int Nat (WithTop Nat) (NoFilter Int) Unit
  | true => cfg
  | false => rcfg

def twoSys : Sys Int Nat Unit (fun _ : Bool => WithTop Nat) (fun _ => NoFilter Int) :=
  ⟨heap, 0, fun _ => ⟨0, 0, []⟩⟩

theorem toy_ignores (b : Bool) : IgnoresGlobalId (twoCfg b) := by
  constructor
  · intro f hf d v g
    have : f = Toy.dist := by cases b <;> (unfold twoCfg at hf; cases hf; rfl)
    subst this
    rfl
  · intro f hf u v g g'
    cases b
    · unfold twoCfg at hf
      cases hf
      rfl
    · cases hf

/-- `call b l` : tracker `b` gets the detections `l` -/
def callSys (s : Sys Int Nat Unit (fun _ : Bool => WithTop Nat) (fun _ => NoFilter Int)) (b : Bool)
    (l : List Ref) : Sys Int Nat Unit (fun _ : Bool => WithTop Nat) (fun _ => NoFilter Int) :=
  s.put b (update (twoCfg b) (s.world b) (some l) 1 none).1

/-- the calls alternate, the first tracker gets small detections, the second one large ones -/
example : ∃ es outs, Interleaved twoCfg true (fun r => r < 100) twoSys es outs
    (callSys (callSys (callSys (callSys (callSys twoSys true [0]) false [500]) false [501]) true [1]) false [502]) :=
  ⟨_, _, .other false (some [502]) 1 none (.mine (some [1]) 1 none (.other false (some [501]) 1 none
    (.other false (some [500]) 1 none (.mine (some [0]) 1 none (.refl _) (by simp)) (by simp) (by simp))
    (by simp) (by simp)) (by simp)) (by simp) (by simp)⟩

/-- `global_id` is 2 in the process, 1 alone; everything else agrees -/
example : ((callSys (callSys (callSys (callSys twoSys true [0]) false [500]) false [501]) true [1]).world true).objs.map
      (fun o => (o.id, o.globalId, o.hitCounter)) = [(some 1, some 2, 2)] ∧
    (solo cfg [.call (some [0]) 1 none, .call (some [1]) 1 none] (twoSys.world true)).1.objs.map
      (fun o => (o.id, o.globalId, o.hitCounter)) = [(some 1, some 1, 2)] := by decide +kernel

end Norfair.Props
