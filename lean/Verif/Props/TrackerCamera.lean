import Verif.Lemmas.Camera
import Verif.Lemmas.Rounds
import Verif.Lemmas.FilterLaws
import Verif.Spec.Points
import Verif.Props.Toy

/-! C26: estimates follow the camera. -/

set_option linter.unusedSectionVars false

namespace Norfair.Props

open Norfair Norfair.Spec Norfair.Toy

variable {K L D F X : Type}

section
variable [LinearOrder K] [Zero K] [LinearOrder D] [OrderTop D] [Zero D] [DecidableEq L]

/-- **C26** (partial: for lists without repetitions; the full statement is false for a detection that
occurs twice in the list, see `C26_repeated_detection`) A call with a transformation converts exactly its
detections to absolute coordinates, once, also if it raises later; `points` is never changed. -/
theorem C26_detections_absolute_partial {cfg : Cfg K L D F X} {w : World K L D F X} (hw : Reachable cfg w)
    {l : List Ref} (hl : l.Nodup) (period : Int) (c : CoordTrans K) (r : Ref) :
    ((update cfg w (some l) period (some c)).1.heap r).points = (w.heap r).points ∧
    ((update cfg w (some l) period (some c)).1.heap r).absPoints =
      if r ∈ l then c.relToAbs (w.heap r).absPoints else (w.heap r).absPoints := by
  obtain ⟨w0, h0, hr⟩ := hw
  obtain ⟨a, b⟩ := (update_ct (hr.inv (Inv.initial h0)).1 (some l) period (some c) (Or.inr (by simp))).2 r
  obtain ⟨c1, c2⟩ := foldl_transform_apply c l w.heap hl r
  exact ⟨a.trans c1, b.trans c2⟩

/-- **C26** Without a transformation no position of a detection changes. -/
theorem C26_detections_unchanged {cfg : Cfg K L D F X} {w : World K L D F X} (hw : Reachable cfg w)
    (dets : Option (List Ref)) (period : Int) (r : Ref) :
    ((update cfg w dets period none).1.heap r).points = (w.heap r).points ∧
    ((update cfg w dets period none).1.heap r).absPoints = (w.heap r).absPoints := by
  obtain ⟨w0, h0, hr⟩ := hw
  obtain ⟨a, b⟩ := (update_ct (hr.inv (Inv.initial h0)).1 dets period none (Or.inl rfl)).2 r
  exact ⟨a, b⟩

/-- **C26** After a call with a transformation (also one that raises later), the absolute estimate of
every tracked object is the position in its filter, and the relative one is `abs_to_rel` of it, for the
transformation of this call. -/
theorem C26_estimates_follow_camera {cfg : Cfg K L D F X} {w : World K L D F X} (hw : Reachable cfg w)
    (l : List Ref) (period : Int) (c : CoordTrans K) {o : Obj K L D F}
    (ho : o ∈ (update cfg w (some l) period (some c)).1.objs) :
    let pos : Pts K := ⟨o.numPoints, o.dimPoints, (cfg.flt.getX o.filter).take (o.dimPoints * o.numPoints)⟩
    o.getEstimate cfg.flt true = some pos ∧ o.getEstimate cfg.flt false = some (c.absToRel pos) ∧
      o.estimate cfg.flt = c.absToRel pos := by
  obtain ⟨w0, h0, hr⟩ := hw
  have h1 := (update_ct (hr.inv (Inv.initial h0)).1 (some l) period (some c) (Or.inr (by simp))).1 o ho
  have h2 : o.absToRel = some c.absToRel := by
    rcases h1 with ⟨_, _, _, e⟩ | ⟨_, e⟩
    · exact e
    · exact e
  unfold Obj.getEstimate Obj.estimate
  rw [h2]
  exact ⟨rfl, rfl, rfl⟩

/-- **C26** A call without transformation leaves every object with the transformation it had; objects it
creates have none. -/
theorem C26_transformation_kept {cfg : Cfg K L D F X} {w : World K L D F X} (hw : Reachable cfg w)
    (dets : Option (List Ref)) (period : Int) {o' : Obj K L D F}
    (ho' : o' ∈ (update cfg w dets period none).1.objs) :
    (∃ o ∈ w.objs, o.initId = o'.initId ∧ o'.absToRel = o.absToRel) ∨
      (o'.initId ∉ w.objs.map (·.initId) ∧ o'.absToRel = none) := by
  obtain ⟨w0, h0, hr⟩ := hw
  have hI := (hr.inv (Inv.initial h0)).1
  rcases (update_ct hI dets period none (Or.inl rfl)).1 o' ho' with h | ⟨h, e⟩
  · exact Or.inl h
  · refine Or.inr ⟨fun hm => ?_, e⟩
    obtain ⟨p, hp, e2⟩ := List.mem_map.mp hm
    have := (hI.bounded p hp).2
    omega

/-- **C26** As long as no transformation was passed, absolute estimates raise `ValueError` (`none`) and
relative ones are the positions in the filter. -/
theorem C26_no_transformation {cfg : Cfg K L D F X} {w0 w : World K L D F X} (h0 : w0.Initial)
    (hr : Reaches cfg (fun _ _ => True) (fun _ _ ct _ => ct = none) w0 w) {o : Obj K L D F} (ho : o ∈ w.objs) :
    o.getEstimate cfg.flt true = none ∧
    o.getEstimate cfg.flt false =
      some ⟨o.numPoints, o.dimPoints, (cfg.flt.getX o.filter).take (o.dimPoints * o.numPoints)⟩ := by
  suffices h : o.absToRel = none by
    unfold Obj.getEstimate
    rw [h]
    exact ⟨rfl, rfl⟩
  have hI : ∀ {v}, Reaches cfg (fun _ _ => True) (fun _ _ ct _ => ct = none) w0 v → Inv v :=
    fun hv => (hv.inv (Inv.initial h0)).1
  induction hr generalizing o with
  | refl => rw [h0.1] at ho; cases ho
  | call dets period ct hr' hct ih =>
    subst hct
    rcases (update_ct (hI hr') dets period none (Or.inl rfl)).1 o ho with ⟨p, hp, _, e⟩ | ⟨_, e⟩
    · rw [e]; exact ih hp
    · exact e
  | env heap g _ _ _ ih => exact ih ho

/-- **C26** An object just started by a detection is reported at the detection's own relative position,
if the transformation is invertible there (and its absolute estimate is the detection's absolute
position). -/
theorem C26_new_object_in_place {cfg : Cfg K L D F X} {Ok : F → Prop} (hL : FilterLaws cfg.flt Ok)
    {w : World K L D F X} (hw : Reachable cfg w) {l : List Ref} (hl : l.Nodup) {period : Int}
    {c : CoordTrans K} {w' act} (h : update cfg w (some l) period (some c) = (w', .ok act))
    {n : Obj K L D F} (hn : n ∈ w'.objs) (hnew : n.initId ∉ w.objs.map (·.initId))
    (hfresh : (w.heap n.lastDet).absPoints = (w.heap n.lastDet).points)
    (hshape : (c.relToAbs (w.heap n.lastDet).points).data.length =
      (c.relToAbs (w.heap n.lastDet).points).dim * (c.relToAbs (w.heap n.lastDet).points).n)
    (hinv : c.absToRel (c.relToAbs (w.heap n.lastDet).points) = (w.heap n.lastDet).points) :
    n.lastDet ∈ l ∧ n.getEstimate cfg.flt false = some (w.heap n.lastDet).points ∧
      n.getEstimate cfg.flt true = some (c.relToAbs (w.heap n.lastDet).points) := by
  have hw2 := hw
  obtain ⟨w0, h0, hr⟩ := hw
  have hI := (hr.inv (Inv.initial h0)).1
  obtain ⟨r, hrl, wi, rfl, hages⟩ := update_obj_new hI h hn hnew
  have hlast : (newObj cfg wi r period (some c)).lastDet = r := rfl
  rw [hlast] at hfresh hshape hinv ⊢
  have hpts : (wi.heap r).absPoints = c.relToAbs (w.heap r).points := by
    rw [(hages.pts r).2, ← hfresh]
    have := (foldl_transform_apply c l w.heap hl r).2
    rw [if_pos (show r ∈ l from hrl)] at this
    exact this
  obtain ⟨e1, e2, -⟩ := C26_estimates_follow_camera hw2 l period c (o := newObj cfg wi r period (some c))
    (by rw [h]; exact hn)
  have hpos : (⟨(newObj cfg wi r period (some c)).numPoints, (newObj cfg wi r period (some c)).dimPoints,
      (cfg.flt.getX (newObj cfg wi r period (some c)).filter).take
        ((newObj cfg wi r period (some c)).dimPoints * (newObj cfg wi r period (some c)).numPoints)⟩ : Pts K) =
      c.relToAbs (w.heap r).points := by
    have hf : (newObj cfg wi r period (some c)).filter = cfg.flt.create (wi.heap r).absPoints := rfl
    have hnp : (newObj cfg wi r period (some c)).numPoints = (wi.heap r).absPoints.n := rfl
    have hdp : (newObj cfg wi r period (some c)).dimPoints = (wi.heap r).absPoints.dim := rfl
    rw [hf, hnp, hdp, hpts, (hL.create _ hshape).2.2, ← hshape, List.take_left]
  rw [hpos] at e1 e2
  rw [hinv] at e2
  exact ⟨hrl, e2, e1⟩

end

/-! ### Examples -/

/-- the camera moved by 100 -/
def shift100 : CoordTrans Int := ⟨fun p => { p with data := p.data.map (· + 100) },
  fun p => { p with data := p.data.map (· - 100) }⟩

example : (update cfg (run cfg w0 [[0], [1]]) (some [2, 50]) 1 (some shift100)).1.objs.map
      (fun o => ((o.getEstimate cfg.flt true).map (·.data), (o.getEstimate cfg.flt false).map (·.data))) =
    [(some [1], some [-99]), (some [102], some [2]), (some [150], some [50])] := by decide +kernel

example : ∃ w' act, update cfg (run cfg w0 [[0], [1]]) (some [2, 50]) 1 (some shift100) = (w', .ok act) ∧
    ∃ n ∈ w'.objs, n.initId ∉ (run cfg w0 [[0], [1]]).objs.map (·.initId) ∧ n.lastDet = 50 ∧
      ((run cfg w0 [[0], [1]]).heap 50).absPoints = ((run cfg w0 [[0], [1]]).heap 50).points ∧
      shift100.absToRel (shift100.relToAbs ((run cfg w0 [[0], [1]]).heap 50).points) =
        ((run cfg w0 [[0], [1]]).heap 50).points := by
  obtain ⟨act, h⟩ := exists_ok (r := update cfg (run cfg w0 [[0], [1]]) (some [2, 50]) 1 (some shift100))
    (by decide +kernel)
  exact ⟨_, act, h, (update cfg (run cfg w0 [[0], [1]]) (some [2, 50]) 1 (some shift100)).1.objs[2]'
    (by decide +kernel), List.getElem_mem _, by decide +kernel, by decide +kernel, by decide +kernel,
    by decide +kernel⟩

/-- **C26** (the full statement is false) A detection that occurs twice in the list is converted twice. -/
theorem C26_repeated_detection : ∃ w, Reachable cfg w ∧
    ((update cfg w (some [0, 0]) 1 (some shift100)).1.heap 0).absPoints.data = [200] ∧
    (shift100.relToAbs (w.heap 0).absPoints).data = [100] :=
  ⟨w0, run_reachable cfg [], by decide +kernel⟩

/-- C26: a run without transformations -/
example : (run cfg w0 [[0], [1]]).objs.map (fun o => ((o.getEstimate cfg.flt true).map (·.data),
    (o.getEstimate cfg.flt false).map (·.data))) = [(none, some [1])] := by decide +kernel

end Norfair.Props
