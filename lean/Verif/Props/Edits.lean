import Verif.Lemmas.Edits
import Verif.Props.DistanceNames
import Verif.Props.Toy

/-! C102: programs that write to detections after they gave them to the tracker. -/

set_option linter.unusedSectionVars false

namespace Norfair.Props

open Norfair Norfair.Spec Norfair.Edits

variable {K L D F X Y : Type}

section
variable [LinearOrder K] [Zero K] [LinearOrder D] [OrderTop D] [Zero D] [DecidableEq L] {cfg : Cfg K L D F X}
  {obs : Det K L X → Y}

/-- Two programs that make the same calls of `update`, each time with detections of the same content, and differ in what
they do with all other detections: these may differ in everything that `obs` does not show, except for `age`. -/
inductive Edited (cfg : Cfg K L D F X) (obs : Det K L X → Y) : World K L D F X → World K L D F X → Prop
  | start (w) : Edited cfg obs w w
  | call {w v} (dets : Option (List Ref)) (period : Int) (ct : Option (CoordTrans K)) : Edited cfg obs w v →
      (∀ r ∈ dets.getD [], v.heap r = w.heap r) →
      Edited cfg obs (update cfg w dets period ct).1 (update cfg v dets period ct).1
  | edit {w v} {h h' : Ref → Det K L X} (gcount : Nat) : Edited cfg obs w v → AgreeOn (fun _ => False) obs h h' →
      Edited cfg obs { w with heap := h, gcount := gcount } { v with heap := h', gcount := gcount }

theorem Edited.ag (hc : LooksAt obs cfg) (ho : Ageless obs) {w v : World K L D F X} (h : Edited cfg obs w v) :
    Ag (fun _ => False) obs w v := by
  induction h with
  | start w => exact ⟨w.heap, fun r => ⟨rfl, rfl, fun h => h.elim⟩, rfl⟩
  | @call w v dets period ct _ hd ih =>
    have h1 : Ag (fun r => r ∈ dets.getD []) obs w v := by
      obtain ⟨h', hh, rfl⟩ := ih
      exact ⟨h', fun r => ⟨(hh r).1, (hh r).2.1, hd r⟩, rfl⟩
    obtain ⟨⟨h', hh, e⟩, _⟩ := update_same hc ho h1 (dets := dets) (fun _ hr => hr) period ct
    exact ⟨h', fun r => ⟨(hh r).1, (hh r).2.1, fun h => h.elim⟩, e⟩
  | edit gcount _ hh ih =>
    obtain ⟨h1, _, rfl⟩ := ih
    exact ⟨_, hh, rfl⟩

/-- **C102** What a program does with detections after it gave them to the tracker does not change what the tracker does
later, as long as the distances do not look at it: all tracked objects are the same, and the next call (with detections of
the same content) raises the same exception or returns the same objects. -/
theorem C102_edits (hc : LooksAt obs cfg) (ho : Ageless obs) {w v : World K L D F X} (h : Edited cfg obs w v) :
    v.objs = w.objs ∧ v.count = w.count ∧
    ∀ (dets : Option (List Ref)) (period : Int) (ct : Option (CoordTrans K)), (∀ r ∈ dets.getD [], v.heap r = w.heap r) →
      (update cfg v dets period ct).2 = (update cfg w dets period ct).2 ∧
      (update cfg v dets period ct).1.objs = (update cfg w dets period ct).1.objs := by
  obtain ⟨h', hh, rfl⟩ := h.ag hc ho
  refine ⟨rfl, rfl, fun dets period ct hd => ?_⟩
  obtain ⟨⟨h1, _, e⟩, e2⟩ := update_same hc ho (N := fun r => r ∈ dets.getD [])
    ⟨h', fun r => ⟨(hh r).1, (hh r).2.1, hd r⟩, rfl⟩ (dets := dets) (fun _ hr => hr) period ct
  exact ⟨e2, by rw [e]⟩

end

section
variable {L F X : Type} (str : L → String)
  (cdist : String → List (List ℝ) → List (List ℝ) → Option (Mat (Option (WithTop ℝ))))

/-- **C102** (distances given by name) A tracker whose distance is given by name, without ReID, looks at nothing of the
detections it got in earlier calls. -/
theorem C102_by_name {a : TrackerArgs L F X} {s : String} (hs : a.distance = .name s) (hr : a.reidDistance = none)
    {cfg : Cfg ℝ L (WithTop ℝ) F X} (h : mkTracker str cdist a = some cfg) :
    LooksAt (fun _ : Det ℝ L X => ()) cfg := by
  unfold mkTracker at h
  rw [hs] at h
  simp only [DistArg.resolve] at h
  cases e : getDistanceByName s with
  | none => rw [e] at h; cases h
  | some d =>
    rw [e] at h
    simp only [Option.map_some] at h
    split at h
    · split at h
      · cases h
      · cases h
        refine ⟨?_, ?_⟩
        · intro f hf _ v u hu
          cases d <;> simp only [Named.distFn, ptsDistance] at hf
          all_goals first
            | (cases hf; simp only [hu.obj])
            | cases hf
        · intro f hf
          simp only [hr] at hf
          cases hf
    · cases h

/-- **C102** (keypoints voting) The distance of `create_keypoints_voting_distance` looks at the scores of the last
detection and at nothing else of it. -/
theorem C102_keypoints_voting (kthr dthr : ℝ) {cfg : Cfg ℝ L (WithTop ℝ) F X}
    (hd : cfg.dist = .scalar fun d v => (keypointsVoting kthr dthr d.points d.scores (v.obj.estimate cfg.flt)
      v.last.scores).map (·.map (fun x : ℝ => (x : WithTop ℝ)))) (hr : cfg.reid = none) :
    LooksAt (fun d : Det ℝ L X => d.scores) cfg := by
  refine ⟨?_, ?_⟩
  · intro f hf d v u hu
    rw [hd] at hf
    cases hf
    simp only [hu.obj, hu.last.1]
  · intro f hf
    rw [hr] at hf
    cases hf

end

/-- C102: such a tracker -/
example : ∃ cfg, mkTracker id (fun _ _ _ => none) (sampleArgs 15 (some 14)) = some cfg ∧
    LooksAt (fun _ => ()) cfg := by
  obtain ⟨cfg, h⟩ := (C27_valid_iff id (fun _ _ _ => none) (sampleArgs 15 (some 14))).mpr
    ⟨⟨.meanEuclidean, by decide +kernel⟩, by decide, by intro d hd; cases hd; decide⟩
  exact ⟨cfg, h, C102_by_name _ _ rfl rfl h⟩

open Norfair.Toy

/-- the toy distance looks at the object only -/
theorem toy_looks : LooksAt (fun _ : TDet => ()) cfg := by
  refine ⟨?_, ?_⟩
  · intro f hf d v u hu
    cases hf
    unfold Toy.dist
    rw [hu.obj]
  · intro f hf
    cases hf

/-- all detections but those in `keep` get the same array of points, and scores -/
def overwrite (keep : List Ref) (h : Ref → TDet) : Ref → TDet := fun r =>
  if r ∈ keep then h r else { h r with points := ⟨1, 1, [7]⟩, absPoints := ⟨1, 1, [8]⟩, scores := some [0], label := 5 }

/-- the program that overwrites earlier detections after each call -/
def overwritten (c : TCfg) (w : TWorld) : List (List Ref) → TWorld
  | [] => w
  | l :: ls =>
    let w1 := (update c w (some l) 1 none).1
    overwritten c { w1 with heap := overwrite ls.flatten w1.heap } ls

/-- C102: two programs with three calls, one overwrites all earlier detections after each call -/
theorem edited_example : Edited cfg (fun _ : TDet => ()) (run cfg w0 [[0, 50], [1, 51], [2, 52]])
    (overwritten cfg w0 [[0, 50], [1, 51], [2, 52]]) := by
  have key : ∀ (ls : List (List Ref)) (w v : TWorld), Edited cfg (fun _ : TDet => ()) w v →
      (∀ r ∈ ls.flatten, v.heap r = w.heap r) → ls.flatten.Nodup →
      Edited cfg (fun _ : TDet => ()) (run cfg w ls) (overwritten cfg v ls) := by
    intro ls
    induction ls with
    | nil => exact fun _ _ h _ _ => h
    | cons l ls ih =>
      intro w v h hk hn
      have hl : ∀ r ∈ (some l).getD [], v.heap r = w.heap r := fun r hr => hk r (by
        rw [List.flatten_cons]; exact List.mem_append_left _ hr)
      have h1 : Edited cfg (fun _ : TDet => ()) (update cfg w (some l) 1 none).1 (update cfg v (some l) 1 none).1 :=
        .call _ _ _ h hl
      obtain ⟨h', hh, e⟩ := h.ag toy_looks fun _ _ => rfl
      obtain ⟨⟨h1', hh1, e1⟩, _⟩ := update_same (N := fun r => r ∈ (l :: ls).flatten) toy_looks (fun _ _ => rfl)
        (v := v) (w := w) ⟨h', fun r => ⟨(hh r).1, (hh r).2.1, by rw [← (by rw [e] : v.heap = h')]; exact hk r⟩, e⟩
        (dets := some l) (fun r hr => by rw [List.flatten_cons]; exact List.mem_append_left _ hr) 1 none
      refine ih _ _ ?_ ?_ ?_
      · have := Edited.edit (h := (update cfg w (some l) 1 none).1.heap)
          (h' := overwrite ls.flatten (update cfg v (some l) 1 none).1.heap) (update cfg w (some l) 1 none).1.gcount h1 ?_
        · rw [e1] at this ⊢
          exact this
        · intro r
          rw [e1]
          refine ⟨?_, rfl, fun h => h.elim⟩
          unfold overwrite
          split
          · exact (hh1 r).1
          · exact (hh1 r).1
      · intro r hr
        simp only [overwrite, if_pos hr, e1]
        exact (hh1 r).2.2 (by rw [List.flatten_cons]; exact List.mem_append_right _ hr)
      · rw [List.flatten_cons] at hn
        exact (List.nodup_append.mp hn).2.1
  exact key _ _ _ (.start _) (fun _ _ => rfl) (by decide)

example : (overwritten cfg w0 [[0, 50], [1, 51], [2, 52]]).objs = (run cfg w0 [[0, 50], [1, 51], [2, 52]]).objs :=
  (C102_edits toy_looks (fun _ _ => rfl) edited_example).1

example : (run cfg w0 [[0, 50], [1, 51], [2, 52]]).objs.map (fun o => (o.id, o.past)) =
      [(some 1, [1, 2]), (some 2, [51, 52])] ∧
    ((overwritten cfg w0 [[0, 50], [1, 51], [2, 52]]).heap 0).points.data = [7] ∧
    ((run cfg w0 [[0, 50], [1, 51], [2, 52]]).heap 0).points.data = [0] := by decide +kernel

/-- a distance that looks at the last detection, as keypoints voting does: infinite if its score is 0 -/
def lastScoreDist (d : TDet) (v : ObjView Int Nat (WithTop Nat) (NoFilter Int) Unit) : Option (Option (WithTop Nat)) :=
  if v.last.scores = some [0] then some (some ⊤) else Toy.dist d v

/-- a tracker with it -/
def lastScoreCfg : TCfg := { cfg with dist := .scalar lastScoreDist }

/-- **C102** (the condition is needed) With a distance that looks at the scores of the last detection, overwriting earlier
detections makes the tracker lose its objects. -/
theorem C102_last_detection :
    (run lastScoreCfg w0 [[0, 50], [1, 51], [2, 52]]).objs.map (fun o => (o.id, o.lastDet)) = [(some 1, 2), (some 2, 52)] ∧
    (overwritten lastScoreCfg w0 [[0, 50], [1, 51], [2, 52]]).objs.map (fun o => (o.id, o.lastDet)) =
      [(none, 0), (none, 50), (none, 1), (none, 51), (none, 2), (none, 52)] := by decide +kernel

end Norfair.Props
