import Verif.Lemmas.Points

/-! The arrays of every tracked object have the right sizes, and velocities of points that were never
seen are zero. -/

set_option linter.unusedSectionVars false

namespace Norfair

open Norfair.Spec

variable {K L D F X : Type}

section
variable [LinearOrder K] [Zero K] [LinearOrder D] [OrderTop D] [Zero D] [DecidableEq L]

structure PointsOk (fo : FilterOps K F) (Ok : F → Prop) (shape : L → Nat × Nat) (o : Obj K L D F) :
    Prop where
  n : o.numPoints = (shape o.label).1
  dim : o.dimPoints = (shape o.label).2
  hits : o.pointHits.length = o.numPoints
  once : o.once.length = o.numPoints
  ok : Ok o.filter
  dimZ : fo.dimZ o.filter = o.dimZ
  still : ∀ i j, i < o.numPoints → j < o.dimPoints → o.once[i]? = some false →
    (fo.getX o.filter)[o.dimZ + (i * o.dimPoints + j)]? = some 0

theorem detOk_age {shape : L → Nat × Nat} {d : Det K L X} (h : DetOk shape d) (a) :
    DetOk shape { d with age := a } := h

theorem callOk_ages {shape : L → Nat × Nat} {dets : List Ref} {ct : Option (CoordTrans K)}
    {h h' : Ref → Det K L X} (ha : AgesOnly h h') (hc : CallOk shape dets ct h) :
    CallOk shape dets ct h' := by
  refine ⟨hc.1, fun r hr => ?_⟩
  obtain ⟨a, e⟩ := (ha r).1
  rw [e]
  exact detOk_age (hc.2 r hr) a

theorem callOk_transform {shape : L → Nat × Nat} {dets : List Ref} {ct : Option (CoordTrans K)}
    {h : Ref → Det K L X} {c : CoordTrans K} (hct : ct = some c) (r : Ref)
    (hc : CallOk shape dets ct h) : CallOk shape dets ct (transformDet c h r) := by
  refine ⟨hc.1, fun q hq => ?_⟩
  unfold transformDet
  split
  · rename_i e
    subst e
    obtain ⟨d1, d2, d3, d4⟩ := hc.2 q hq
    obtain ⟨h1, h2, h3⟩ := hc.1 c hct _ (h q).absPoints d1 d2 d3
    exact ⟨h1.trans d1, h2.trans d2, by simp only [h1, h2, h3]; exact d3, by simp only [h1]; exact d4⟩
  · exact hc.2 q hq

/-- a well-formed detection never makes `hit` fail, except for a missing age -/
theorem hitSensors_noErr {cfg : Cfg K L D F X} {Ok : F → Prop} {shape : L → Nat × Nat}
    {d : Det K L X} {period : Int} {o : Obj K L D F} (ho : PointsOk cfg.flt Ok shape o)
    (hd : DetOk shape d) (hs : shape d.label = shape o.label) :
    (hitSensors cfg d period o).2 = none := by
  obtain ⟨d1, d2, d3, d4⟩ := hd
  have hn : d.absPoints.n = o.numPoints := by rw [d1, hs, ho.n]
  have hdim : d.absPoints.dim = o.dimPoints := by rw [d2, hs, ho.dim]
  have hml : (overThreshold cfg.detThr o.numPoints d).length = o.numPoints :=
    overThreshold_length _ _ _ (fun s hs => (d4 s hs).trans hn)
  have hz : cfg.flt.dimZ o.filter = o.dimPoints * o.numPoints := ho.dimZ
  unfold hitSensors
  simp only
  rw [if_neg (by rw [hml, ho.hits]; simp), if_neg (by
    rw [hml, hz, d3, hn, hdim]; simp [Nat.mul_comm]), if_neg (by rw [hml, ho.once]; simp)]

theorem PointsOk.counters {fo : FilterOps K F} {Ok : F → Prop} {shape : L → Nat × Nat}
    {o : Obj K L D F} (h : PointsOk fo Ok shape o) (a b hc d e f) :
    PointsOk fo Ok shape { o with
      past := a, lastDet := b, hitCounter := hc, isInit := d, id := e, globalId := f } :=
  ⟨h.n, h.dim, h.hits, h.once, h.ok, h.dimZ, h.still⟩

theorem hitObj_noShape {cfg : Cfg K L D F X} {Ok : F → Prop} {shape : L → Nat × Nat}
    {h : Ref → Det K L X} {g c : Nat} {o : Obj K L D F} {r : Ref} {period : Int}
    (ho : PointsOk cfg.flt Ok shape o) (hd : DetOk shape (h r))
    (hs : shape (h r).label = shape o.label) :
    (hitObj cfg h g c o r period).err = none ∨
      ((hitObj cfg h g c o r period).err = some .typeError ∧ (hitObj cfg h g c o r period).obj = o) := by
  cases hc : condAdd cfg.pastLen o.age h o.past r with
  | none => rw [hitObj_none hc]; exact Or.inr ⟨rfl, rfl⟩
  | some p =>
    left
    obtain ⟨a, ha⟩ := ((agesOnly_condAdd (h' := p.1) (past' := p.2) hc) r).1
    rw [hitObj_some (heap' := p.1) (past' := p.2) hc]
    have e : (hitCounters cfg g c o r period p.2).label = o.label := by
      unfold hitCounters; split <;> rfl
    refine hitSensors_noErr (Ok := Ok) (shape := shape) ?_ (by rw [ha]; exact detOk_age hd a)
      (by rw [ha, e]; exact hs)
    unfold hitCounters
    split
    · exact ho.counters _ _ _ _ _ _
    · exact ho.counters _ _ _ _ _ _

theorem PointsOk.sensors {cfg : Cfg K L D F X} {Ok : F → Prop} (hL : FilterLaws cfg.flt Ok)
    {shape : L → Nat × Nat} {d : Det K L X} {period : Int} {o o' : Obj K L D F}
    (ho : PointsOk cfg.flt Ok shape o) (hS : SensorsOk cfg d period o o') :
    PointsOk cfg.flt Ok shape o' := by
  obtain ⟨_, h1, h2, h3⟩ := hS.coords hL ho.ok
  have hr := hS.rest
  have e1 : o'.numPoints = o.numPoints := by rw [hr]
  have e2 : o'.dimPoints = o.dimPoints := by rw [hr]
  have e3 : o'.label = o.label := by rw [hr]
  have e4 : o'.dimZ = o.dimZ := by unfold Obj.dimZ; rw [e1, e2]
  refine ⟨by rw [e1, e3, ho.n], by rw [e2, e3, ho.dim], by rw [hS.hitsLen, ho.hits, e1],
    by rw [hS.onceLen', e1], h1, by rw [h2, e4], ?_⟩
  intro i j hi hj hon
  rw [e1] at hi
  rw [e2] at hj ⊢
  rw [e4]
  refine (h3 i j hi hj).2.2.1 ?_
  have hio : i < o.once.length := by rw [ho.once]; exact hi
  rw [List.getElem?_eq_getElem hio]
  have := hS.once i hi
  rw [hon] at this
  have hnt : o.once[i]? ≠ some true := fun h => by simpa using this.mpr (Or.inl h)
  rw [List.getElem?_eq_getElem hio] at hnt
  cases h : o.once[i] with
  | false => rfl
  | true => rw [h] at hnt; exact absurd rfl hnt

theorem pointsOk_inv {cfg : Cfg K L D F X} {Ok : F → Prop} (hL : FilterLaws cfg.flt Ok)
    {shape : L → Nat × Nat} (hs : ∀ a b, Compat cfg a b → shape a = shape b)
    (dets : List Ref) (period : Int) (ct : Option (CoordTrans K)) :
    ObjInv cfg dets period ct (CallOk shape dets ct) (fun _ o => PointsOk cfg.flt Ok shape o) where
  heapAges := fun _ _ ha hc => callOk_ages ha hc
  heapTransform := fun _ _ r hct _ hc => callOk_transform hct r hc
  ages := fun _ _ _ _ h => h
  transform := fun _ _ _ _ _ _ h => h
  step := by
    intro h o _ hq
    obtain ⟨g, e⟩ := updateCT_fields ct (o.trackerStep cfg)
    rw [e]
    obtain ⟨p1, p2, p3⟩ := hL.predict o.filter hq.ok
    refine ⟨hq.n, hq.dim, ?_, hq.once, p1, p2.trans hq.dimZ, ?_⟩
    · simp only [Obj.trackerStep, List.length_map]; exact hq.hits
    · intro i j hi hj hon
      have := hq.still i j hi hj hon
      rw [← List.getElem?_drop, ← hq.dimZ] at this
      rw [← List.getElem?_drop]
      show ((cfg.flt.getX (cfg.flt.predict o.filter)).drop o.dimZ)[_]? = _
      rw [← hq.dimZ, p3]
      exact this
  setMin := fun _ _ _ _ h => ⟨h.n, h.dim, h.hits, h.once, h.ok, h.dimZ, h.still⟩
  hit := by
    intro h g c o r d hH hr hc _ hq he
    obtain ⟨x1, x2, x3, x4, x5, x6, hS⟩ := hitObj_sensors hq.hits he
    have := (hq.counters x1 x2 x3 x4 x5 x6).sensors hL hS
    exact ⟨this.n, this.dim, this.hits, this.once, this.ok, this.dimZ, this.still⟩
  hitErr := by
    intro h g c o r hH hr hc hq he
    rcases hitObj_noShape (g := g) (c := c) (period := period) hq (hH.2 r hr) (hs _ _ hc) with
      e | ⟨_, e⟩
    · exact absurd e he
    · rw [e]; exact hq
  merge := by
    intro h o c _ hl hq hc
    have e1 : c.numPoints = o.numPoints := by rw [hc.n, hq.n, hl]
    have e2 : c.dimPoints = o.dimPoints := by rw [hc.dim, hq.dim, hl]
    have e3 : c.dimZ = o.dimZ := by unfold Obj.dimZ; rw [e1, e2]
    refine ⟨hq.n, hq.dim, hc.hits.trans e1, hc.once.trans e1, hc.ok, hc.dimZ.trans e3, ?_⟩
    intro i j hi hj hon
    have := hc.still i j (by rw [e1]; exact hi) (by rw [e2]; exact hj) hon
    rw [e2, e3] at this
    exact this
  create := by
    intro w r hH hr
    obtain ⟨g, hg⟩ := newObj_fields cfg w r period ct
    rw [hg]
    obtain ⟨d1, d2, d3, d4⟩ := hH.2 r hr
    obtain ⟨c1, c2, c3⟩ := hL.create (w.heap r).absPoints d3
    have hol : (match (w.heap r).scores with
        | none => List.replicate (w.heap r).absPoints.n true
        | some s => s.map (fun x => decide (cfg.detThr < x))).length = (w.heap r).absPoints.n := by
      split
      · simp
      · rename_i s hs; simpa using d4 s hs
    refine ⟨d1, d2, ?_, ?_, c1, c2, ?_⟩
    · simp only [newObj, Obj.updateCT, List.length_map]; exact hol
    · exact hol
    · intro i j hi hj _
      change i < (w.heap r).absPoints.n at hi
      change j < (w.heap r).absPoints.dim at hj
      show (cfg.flt.getX (cfg.flt.create (w.heap r).absPoints))[
        (w.heap r).absPoints.dim * (w.heap r).absPoints.n + (i * (w.heap r).absPoints.dim + j)]? = _
      rw [c3, List.getElem?_append_right (by omega), d3, Nat.add_sub_cancel_left,
        List.getElem?_replicate, if_pos]
      calc i * (w.heap r).absPoints.dim + j < (i + 1) * (w.heap r).absPoints.dim := by
            rw [Nat.add_mul]; omega
        _ ≤ (w.heap r).absPoints.n * (w.heap r).absPoints.dim := Nat.mul_le_mul_right _ hi
        _ = _ := Nat.mul_comm _ _

/-- histories in which all calls get well-formed detections -/
abbrev WfReaches (cfg : Cfg K L D F X) (shape : L → Nat × Nat) :
    World K L D F X → World K L D F X → Prop :=
  Reaches cfg (fun _ _ => True) (fun dets _ ct w => CallOk shape (dets.getD []) ct w.heap)

theorem WfReaches.pointsOk {cfg : Cfg K L D F X} {Ok : F → Prop} (hL : FilterLaws cfg.flt Ok)
    {shape : L → Nat × Nat} (hs : ∀ a b, Compat cfg a b → shape a = shape b)
    {w0 w : World K L D F X} (h0 : w0.Initial) (h : WfReaches cfg shape w0 w) :
    ∀ o ∈ w.objs, PointsOk cfg.flt Ok shape o :=
  Reaches.objInv h (Inv.initial h0) (fun dets period ct _ hc =>
    ⟨_, hc, pointsOk_inv hL hs (dets.getD []) period ct⟩) (fun _ _ _ _ _ h => h) (by rw [h0.1]; simp)

end

end Norfair
