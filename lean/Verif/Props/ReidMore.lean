import Verif.Props.Utils
import Verif.Props.TrackerRounds
import Verif.Props.Succeeds
import Verif.Props.Told

/-! C66, C67 and C75 for trackers with ReID. -/

set_option linter.unusedSectionVars false

namespace Norfair.Props

open Norfair Norfair.Spec Norfair.Toy

variable {K L D F X : Type}

section
variable [LinearOrder K] [Zero K] [LinearOrder D] [OrderTop D] [Zero D] [DecidableEq L]

/-- one successful call: initialized objects were matched -/
theorem matched_update {cfg : Cfg K L D F X} {w w' : World K L D F X} (hI : Inv w)
    {dets : Option (List Ref)} {period : Int} {ct : Option (CoordTrans K)} {act : List (Obj K L D F)}
    (h : update cfg w dets period ct = (w', .ok act)) (hp : period ≤ cfg.initDelay)
    (hw : ∀ o ∈ w.objs, o.isInit = false → o.lastDistance ≠ none) :
    ∀ o ∈ w'.objs, o.isInit = false → o.lastDistance ≠ none := by
  obtain ⟨_, _, hits, merges, news, S⟩ := update_ok hI.nodup h
  have hI' : Inv w' := by
    have := (update_inv (cfg := cfg) hI dets period ct).1
    rw [h] at this; exact this
  intro o' ho' hi
  rcases S.mem_cases hI'.nodup ho' with ⟨o, ho, _, _, hcase⟩ | ⟨r, _, _, wi, rfl, _⟩
  · rcases hcase with ⟨_, _, v, rfl⟩ | ⟨r, _, hf⟩ | ⟨r, oc, oc', _, _, _, hf, hm⟩
    · obtain ⟨g, e2⟩ := stepped_eq cfg ct o
      rw [e2] at hi ⊢
      exact hw o ((survivors_sublist cfg w.objs).subset ho) hi
    · obtain ⟨d, hd, _⟩ := hf.fields.distance
      rw [hd]; simp
    · obtain ⟨d, hd, _⟩ := hf.fields.distance
      rw [hm.fields.lastDistance, hd]; simp
  · obtain ⟨g, hg⟩ := newObj_fields cfg wi r period ct
    rw [hg] at hi
    simp [newObj, Obj.updateCT, hp] at hi

/-- **C75** with or without ReID: what a tracker returns can be printed as a table, one row per object, if all calls so far
returned normally and had a period of at most `initialization_delay`. (No assumption about shapes: such calls raise.)
Missing: see `C75_returned_partial`. -/
theorem C75_reid_returned_partial {cfg : Cfg K L D F X} {w w' : World K L D F X} (h0 : w.Initial)
    {fs : List (Frame K L D F X)} (ht : Trace cfg w fs w')
    (hfs : ∀ f ∈ fs, Succeeds f ∧ f.period ≤ cfg.initDelay) (str : Int → List Char) (fmt : D → List Char) :
    ∃ rows, printTable str fmt (activeObjects w') = some rows ∧ rows.length = (activeObjects w').length := by
  have hinv : ∀ o ∈ w'.objs, o.isInit = false → o.lastDistance ≠ none := by
    induction ht with
    | nil => rw [h0.1]; simp
    | env heap g _ _ ih => exact ih hfs
    | @call fs w2 dets period ct ht ih =>
      have h1 := ih fun f hf => hfs f (List.mem_append_left _ hf)
      obtain ⟨⟨act, ha⟩, hp⟩ := hfs _ (List.mem_append_right _ (List.mem_singleton.mpr rfl))
      exact matched_update (ht.reaches.inv (Inv.initial h0)).1 (Prod.ext rfl ha) hp h1
  obtain ⟨rows, h1, h2, -⟩ := (C75_table str fmt (activeObjects w')).2 (by
    intro o ho
    obtain ⟨ho1, ho2⟩ := List.mem_filter.mp ho
    refine hinv o ho1 ?_
    simp only [Bool.and_eq_true, Bool.not_eq_true'] at ho2
    exact ho2.1)
  exact ⟨rows, h1, h2⟩

end

/-- two objects are initialized and seen; then a third one appears -/
def recog3 : TWorld := run rcfg w0 [[0, 20], [0, 20], [0, 20, 50]]

/-- **C66** (false with ReID) In this call the only detection is at 53. The objects 1 and 2 (at 0 and 20) are not near it: by
the claim their `current_min_distance` should be `None`. The new object 3 (at 50) gets it and is recognized as object 2, the
nearer one: object 2 has 3, the distance of object 3. Object 1 has 53, its ReID distance from object 3, although
`distance_threshold` is 10. -/
theorem C66_false_reid : Reachable rcfg recog3 ∧
    recog3.objs.map (fun o => (o.initId, o.id, o.curMin)) = [(1, some 1, some 0), (2, some 2, some 0), (3, none, none)] ∧
    (∀ o ∈ recog3.objs, CanMatch rcfg.reidMax o) ∧
    recog3.objs.map (fun o => Toy.dist (startHeap recog3 (some [53]) none 53)
      (((o.trackerStep rcfg).updateCT none).view (startHeap recog3 (some [53]) none))) =
      [some (some 53), some (some 33), some (some 3)] ∧ rcfg.thr = 10 ∧
    ∃ w' act, update rcfg recog3 (some [53]) 1 none = (w', .ok act) ∧
      w'.objs.map (fun o => (o.initId, o.id, o.curMin)) = [(1, some 1, some 53), (2, some 2, some 3)] := by
  refine ⟨run_reachable _ _, by decide +kernel, by decide +kernel, by decide +kernel, rfl, ?_⟩
  obtain ⟨act, h⟩ := exists_ok (r := update rcfg recog3 (some [53]) 1 none) (by decide +kernel)
  exact ⟨_, act, h, by decide +kernel⟩

/-- the hypotheses of `C66_reid_partial`: a tracker with ReID, an object at 0, the detections of the call are at 3 and 7 -/
example : ∃ w', ∃ o' ∈ w'.objs, (∃ act, update rcfg (run rcfg w0 [[0], [0]]) (some [3, 7]) 1 none = (w', .ok act)) ∧
    o'.curMin = some 3 := by
  obtain ⟨act, h⟩ := exists_ok (r := update rcfg (run rcfg w0 [[0], [0]]) (some [3, 7]) 1 none) (by decide +kernel)
  let o := (run rcfg w0 [[0], [0]]).objs.head (by decide +kernel)
  let o' := (update rcfg (run rcfg w0 [[0], [0]]) (some [3, 7]) 1 none).1.objs.head (by decide +kernel)
  obtain ⟨r, hr, _, hm⟩ := C66_reid_partial (cfg := rcfg) rfl (run_reachable _ _) (Or.inr (by decide +kernel)) h
    (o := o) (o' := o') (List.head_mem _) (by decide +kernel) (by decide +kernel) (List.head_mem _) (by decide +kernel)
    (δ := fun r => if r = 3 then 3 else 7) (by
      intro r hr
      have : r = 3 ∨ r = 7 := by simpa using hr
      rcases this with rfl | rfl <;> exact Or.inl ⟨by decide +kernel, by decide +kernel⟩) ⟨3, by decide, by decide⟩
  exact ⟨_, o', List.head_mem _, ⟨act, h⟩, by decide +kernel⟩

/-- the hypotheses of `C75_reid_returned_partial`: the calls of `C66_false_reid`; object 2 was recognized -/
example : ∃ rows, printTable (fun _ => []) (fun _ => []) (activeObjects (run rcfg w0 [[0, 20], [0, 20], [0, 20, 50], [53]])) =
    some rows ∧ rows.length = 2 := by
  have ht := runFrames_trace rcfg [[0, 20], [0, 20], [0, 20, 50], [53]] w0
  obtain ⟨rows, h1, h2⟩ := C75_reid_returned_partial w0_initial ht (by
    have key : ∀ f ∈ runFrames rcfg w0 [[0, 20], [0, 20], [0, 20, 50], [53]],
        f.out.isOk = true ∧ f.period ≤ rcfg.initDelay := by decide +kernel
    intro f hf
    refine ⟨?_, (key f hf).2⟩
    have := (key f hf).1
    unfold Succeeds
    cases ho : f.out with
    | ok act => exact ⟨act, rfl⟩
    | error e => rw [ho] at this; cases this) (fun _ => []) (fun _ => [])
  exact ⟨rows, h1, by rw [h2]; decide +kernel⟩

/-- the hypotheses of `C67_shaped_reid`: the ReID distance of the examples is defined for objects of one point -/
theorem rcfg_shapedReid : ShapedReid (D := WithTop Nat) (X := Unit) noFilterOps (fun _ : Nat => (1, 1)) reidDist := by
  intro c o hl hc ho
  obtain ⟨_, _, hc⟩ := hc
  obtain ⟨_, _, ho⟩ := ho
  unfold reidDist
  obtain ⟨a, ha⟩ := List.length_eq_one_iff.mp hc
  obtain ⟨b, hb⟩ := List.length_eq_one_iff.mp ho
  rw [ha, hb]
  exact ⟨_, rfl⟩

theorem rcfg_shapedDist : ShapedDist (D := WithTop Nat) (X := Unit) noFilterOps (fun _ : Nat => (1, 1)) (.scalar Toy.dist) := by
  intro d v hl hd hv
  obtain ⟨_, _, hd⟩ := hd
  obtain ⟨_, _, hv⟩ := hv
  unfold Toy.dist
  obtain ⟨a, ha⟩ := List.length_eq_one_iff.mp hd
  obtain ⟨b, hb⟩ := List.length_eq_one_iff.mp hv
  rw [ha, hb]
  exact ⟨_, rfl⟩

example (ls : List (List Ref))
    (hls : Reaches rcfg (fun _ _ => True) (fun dets _ ct w =>
      CallShaped (fun _ : Nat => (1, 1)) (dets.getD []) ct w.heap) w0 (run rcfg w0 ls)) (l : List Ref)
    (hl : CallShaped (fun _ : Nat => (1, 1)) l none (run rcfg w0 ls).heap) :
    ∃ act, (update rcfg (run rcfg w0 ls) (some l) 1 none).2 = .ok act :=
  C67_shaped_reid noFilter_laws (fun _ _ _ => rfl) rcfg_shapedDist (by decide)
    (fun g hg => by cases hg; exact ⟨by decide, rcfg_shapedReid⟩) w0_initial hls _ _ _ hl (Or.inl rfl)

end Norfair.Props
