import Verif.Lemmas.PointsInv

/-! What one successful `update` does to the points of one object. -/

set_option linter.unusedSectionVars false

namespace Norfair

open Norfair.Spec

variable {K L D F X : Type}

section
variable [LinearOrder K] [Zero K] [LinearOrder D] [OrderTop D] [Zero D] [DecidableEq L]

theorem startHeap_fields (w : World K L D F X) (dets : Option (List Ref)) (ct : Option (CoordTrans K))
    (q : Ref) : ∃ a, startHeap w dets ct q = { w.heap q with absPoints := a } := by
  have key : ∀ (c : CoordTrans K) (l : List Ref) (h : Ref → Det K L X),
      ∃ a, l.foldl (transformDet c) h q = { h q with absPoints := a } := by
    intro c l
    induction l with
    | nil => exact fun h => ⟨_, rfl⟩
    | cons r l ih =>
      intro h
      obtain ⟨a, ha⟩ := ih (transformDet c h r)
      obtain ⟨b, hb⟩ := transformDet_fields c h r q
      refine ⟨a, ?_⟩
      rw [List.foldl_cons, ha, hb]
  unfold startHeap
  split
  · exact key _ _ _
  · exact ⟨_, rfl⟩

theorem seen_congr {thr : K} {d d' : Det K L X} (h : d.scores = d'.scores) (i : Nat) :
    Seen thr d i ↔ Seen thr d' i := by unfold Seen; rw [h]

/-- the object advanced by `tracker_step`, as seen by the sensors part of `hit` -/
structure SteppedPoints (cfg : Cfg K L D F X) (o p : Obj K L D F) : Prop where
  numPoints : p.numPoints = o.numPoints
  dimPoints : p.dimPoints = o.dimPoints
  label : p.label = o.label
  once : p.once = o.once
  pwMax : p.pwMax = o.pwMax
  pointHits : p.pointHits = o.pointHits.map (fun c => c - 1)
  filter : p.filter = cfg.flt.predict o.filter

theorem SteppedPoints.dimZ {cfg : Cfg K L D F X} {o p : Obj K L D F} (h : SteppedPoints cfg o p) :
    p.dimZ = o.dimZ := by unfold Obj.dimZ; rw [h.numPoints, h.dimPoints]

theorem stepped_points (cfg : Cfg K L D F X) (ct : Option (CoordTrans K)) (o : Obj K L D F) :
    SteppedPoints cfg o (stepped cfg ct o) := by
  obtain ⟨g, e⟩ := stepped_eq cfg ct o
  rw [e]
  exact ⟨rfl, rfl, rfl, rfl, rfl, rfl, rfl⟩

/-- an object that is not merged is either only advanced, or advanced and hit -/
theorem update_points {cfg : Cfg K L D F X} {w w' : World K L D F X} (hI : Inv w)
    {dets : Option (List Ref)} {period : Int} {ct : Option (CoordTrans K)} {act : List (Obj K L D F)}
    (h : update cfg w dets period ct = (w', .ok act)) {o o' : Obj K L D F} (ho : o ∈ w.objs)
    (ho' : o' ∈ w'.objs) (hk : o.initId = o'.initId)
    (hre : cfg.reid = none ∨ (o.isInit = true ∧ 0 ≤ o.hitCounter))
    (hl : o.pointHits.length = o.numPoints) :
    (∃ v, o' = { stepped cfg ct o with curMin := v }) ∨
    ∃ r ∈ dets.getD [], o'.lastDet = r ∧ ∃ d : Det K L X, d.scores = (w.heap r).scores ∧
      d.label = (w.heap r).label ∧ d.absPoints = (startHeap w dets ct r).absPoints ∧
      Compat cfg (w.heap r).label o.label ∧
      ∃ p o'', SteppedPoints cfg o p ∧ SensorsOk cfg d period p o'' ∧
        o'.pointHits = o''.pointHits ∧ o'.once = o''.once ∧ o'.filter = o''.filter ∧
        o'.numPoints = o''.numPoints ∧ o'.dimPoints = o''.dimPoints ∧ o'.pwMax = o''.pwMax := by
  obtain ⟨_, _, hits, merges, news, S⟩ := update_ok hI.nodup h
  have hI' : Inv w' := by
    have := (update_inv (cfg := cfg) hI dets period ct).1
    rw [h] at this; exact this
  rcases S.mem_cases hI'.nodup ho' with ⟨p, hp, hpk, hpm, hcase⟩ | ⟨r, hr, hlt, _⟩
  · have hpo : p = o := World.eq_of_mem_of_key hI.nodup ((survivors_sublist cfg w.objs).subset hp) ho
      (hpk.trans hk.symm)
    subst hpo
    rcases hcase with ⟨_, _, hv⟩ | ⟨r, hr, v, h0, g, c, dd, hag, he, _, hcompat, rfl⟩ |
      ⟨r, oc, oc', hoc, hm, hr, hf, hmf⟩
    · exact Or.inl hv
    · right
      have hrd : r ∈ dets.getD [] :=
        S.perm.mem_iff.mp (List.mem_append_left _ (List.mem_map_of_mem (f := Prod.fst) hr))
      have hsp := stepped_points cfg ct p
      have hl' : ({ stepped cfg ct p with curMin := v } : Obj K L D F).pointHits.length =
          ({ stepped cfg ct p with curMin := v } : Obj K L D F).numPoints := by
        show (stepped cfg ct p).pointHits.length = (stepped cfg ct p).numPoints
        rw [hsp.pointHits, hsp.numPoints, List.length_map, hl]
      have hlast := (hitObj_ok_fields he).1
      obtain ⟨x1, x2, x3, x4, x5, x6, hS⟩ := hitObj_sensors hl' he
      obtain ⟨a1, ha1⟩ := (hag r).1
      obtain ⟨a2, ha2⟩ := startHeap_fields w dets ct r
      refine ⟨r, hrd, hlast, h0 r, ?_, ?_, ?_, ?_, _, _, ?_, hS, rfl, rfl, rfl, rfl, rfl, rfl⟩
      · rw [ha1]; simp only [ha2]
      · rw [ha1]; simp only [ha2]
      · rw [ha1]
      · have : (startHeap w dets ct r).label = (w.heap r).label := by rw [ha2]
        rw [← this, ← hsp.label]
        exact hcompat
      · exact ⟨hsp.numPoints, hsp.dimPoints, hsp.label, hsp.once, hsp.pwMax, hsp.pointHits, hsp.filter⟩
    · exfalso
      rcases hre with hre | ⟨h1, h2⟩
      · rw [S.noreid hre] at hm; cases hm
      · obtain ⟨_, q, hq, hqk, hq'⟩ := S.targets _ (List.mem_map_of_mem (f := Prod.snd) hm)
        have : q = p := World.eq_of_mem_of_key hI.nodup ((survivors_sublist cfg w.objs).subset hq) ho hqk
        subst this
        rcases hq' with ⟨_, e⟩ | ⟨e, _⟩
        · rw [h1] at e; cases e
        · simp [Obj.hcPos] at e; omega
  · have := (hI.bounded o ho).2
    simp only at hlt
    omega

/-- counters of single points: any history, whatever is raised -/
theorem hitObj_hits (cfg : Cfg K L D F X) (h : Ref → Det K L X) (g c : Nat) (o : Obj K L D F) (r : Ref)
    (period : Int) :
    (hitObj cfg h g c o r period).obj.pointHits = o.pointHits ∨
      ∃ cs : List Int, cs.length = o.pointHits.length ∧
        (hitObj cfg h g c o r period).obj.pointHits = clampPoints o.pwMax cs := by
  cases hc : condAdd cfg.pastLen o.age h o.past r with
  | none => rw [hitObj_none hc]; exact Or.inl rfl
  | some p =>
    rw [hitObj_some (heap' := p.1) (past' := p.2) hc]
    simp only
    have e1 : (hitCounters cfg g c o r period p.2).pointHits = o.pointHits := by
      unfold hitCounters; split <;> rfl
    have e2 : (hitCounters cfg g c o r period p.2).pwMax = o.pwMax := by
      unfold hitCounters; split <;> rfl
    unfold hitSensors
    simp only
    split
    · exact Or.inl e1
    · right
      rw [e1, e2]
      cases hs : (p.1 r).scores with
      | none =>
        refine ⟨o.pointHits.map (fun c => c + 2 * period), by simp, ?_⟩
        split
        · rfl
        · split <;> rfl
      | some s =>
        refine ⟨bumpPoints (2 * period) (overThreshold cfg.detThr
          (hitCounters cfg g c o r period p.2).numPoints (p.1 r)) o.pointHits,
          bumpPoints_length _ _ _, ?_⟩
        split
        · rfl
        · split <;> rfl

end

end Norfair
