import Verif.Lemmas.PointsInv
import Verif.Lemmas.FilterLaws
import Verif.Lemmas.Camera
import Verif.Lemmas.Trace
import Verif.Props.Toy
import Verif.Props.Drawing

/-! C78: what a tracker returns can be drawn. -/

set_option linter.unusedSectionVars false

namespace Norfair.Props

open Norfair Norfair.Spec Norfair.Toy

variable {K L D F X H : Type}

/-- from points of an agreed shape, the function gives as many points, of the same dimension -/
def FunKeepsShape (shape : L → Nat × Nat) (g : Pts K → Pts K) : Prop :=
  ∀ a p, p.n = (shape a).1 → p.dim = (shape a).2 → p.data.length = p.dim * p.n →
    (g p).n = p.n ∧ (g p).dim = p.dim ∧ (g p).data.length = p.data.length

/-- the transformation to relative coordinates keeps the agreed shapes -/
def KeepsShapeBack (shape : L → Nat × Nat) (c : CoordTrans K) : Prop := FunKeepsShape shape c.absToRel

section
variable [LinearOrder K] [Zero K] [LinearOrder D] [OrderTop D] [Zero D] [DecidableEq L]

/-- an object whose arrays have the right sizes and whose transformation keeps shapes -/
structure DrawOk (fo : FilterOps K F) (Ok : F → Prop) (shape : L → Nat × Nat) (o : Obj K L D F) : Prop where
  points : PointsOk fo Ok shape o
  back : ∀ g, o.absToRel = some g → FunKeepsShape shape g

theorem drawOk_inv {cfg : Cfg K L D F X} {Ok : F → Prop} (hL : FilterLaws cfg.flt Ok)
    {shape : L → Nat × Nat} (hs : ∀ a b, Compat cfg a b → shape a = shape b)
    (dets : List Ref) (period : Int) (ct : Option (CoordTrans K))
    (hct : ∀ c, ct = some c → KeepsShapeBack shape c) :
    ObjInv cfg dets period ct (CallOk shape dets ct) (fun _ o => DrawOk cfg.flt Ok shape o) :=
  let base := pointsOk_inv hL hs dets period ct
  { heapAges := base.heapAges
    heapTransform := base.heapTransform
    ages := fun _ _ _ _ h => h
    transform := fun _ _ _ _ _ _ h => h
    step := by
      intro h o hc hq
      refine ⟨base.step h o hc hq.points, ?_⟩
      cases ct with
      | none => exact hq.back
      | some c =>
        intro g hg
        cases hg
        exact hct c rfl
    setMin := fun h o v hv hq => ⟨base.setMin h o v hv hq.points, hq.back⟩
    hit := by
      intro h g c o r d hH hr hc hd hq he
      refine ⟨base.hit h g c o r d hH hr hc hd hq.points he, ?_⟩
      simp only [hitObj_ct]
      exact hq.back
    hitErr := by
      intro h g c o r hH hr hc hq he
      refine ⟨base.hitErr h g c o r hH hr hc hq.points he, ?_⟩
      rw [hitObj_ct]
      exact hq.back
    merge := fun h o c hr hl hq hc => ⟨base.merge h o c hr hl hq.points hc.points, hq.back⟩
    create := by
      intro w r hH hr
      refine ⟨base.create w r hH hr, ?_⟩
      cases ct with
      | none => intro g hg; cases hg
      | some c =>
        intro g hg
        cases hg
        exact hct c rfl }

/-- histories in which all calls get well-formed detections and transformations that keep shapes -/
abbrev DrawReaches (cfg : Cfg K L D F X) (shape : L → Nat × Nat) :
    World K L D F X → World K L D F X → Prop :=
  Reaches cfg (fun _ _ => True) (fun dets _ ct w =>
    CallOk shape (dets.getD []) ct w.heap ∧ ∀ c, ct = some c → KeepsShapeBack shape c)

theorem DrawReaches.drawOk {cfg : Cfg K L D F X} {Ok : F → Prop} (hL : FilterLaws cfg.flt Ok)
    {shape : L → Nat × Nat} (hs : ∀ a b, Compat cfg a b → shape a = shape b)
    {w0 w : World K L D F X} (h0 : w0.Initial) (h : DrawReaches cfg shape w0 w) :
    ∀ o ∈ w.objs, DrawOk cfg.flt Ok shape o :=
  Reaches.objInv (Q := fun _ o => DrawOk cfg.flt Ok shape o) h (Inv.initial h0)
    (fun dets period ct _ hc => ⟨_, hc.1, drawOk_inv hL hs (dets.getD []) period ct hc.2⟩)
    (fun _ _ _ _ _ h => h) (by rw [h0.1]; simp)

theorem estimate_shape {cfg : Cfg K L D F X} {Ok : F → Prop} (hL : FilterLaws cfg.flt Ok)
    {shape : L → Nat × Nat} {o : Obj K L D F} (hq : DrawOk cfg.flt Ok shape o) :
    (o.estimate cfg.flt).n = o.numPoints ∧ (o.estimate cfg.flt).dim = o.dimPoints ∧
      (o.estimate cfg.flt).data.length = o.dimPoints * o.numPoints := by
  have hlen : (o.positions cfg.flt).data.length = o.dimPoints * o.numPoints := by
    simp only [Obj.positions, List.length_take, hL.len _ hq.points.ok, hq.points.dimZ, Obj.dimZ]
    omega
  unfold Obj.estimate
  cases hg : o.absToRel with
  | none => exact ⟨rfl, rfl, hlen⟩
  | some g =>
    obtain ⟨e1, e2, e3⟩ := hq.back g hg o.label (o.positions cfg.flt) hq.points.n hq.points.dim hlen
    exact ⟨e1, e2, e3.trans hlen⟩

/-- **C78**: every tracked object has one row of coordinates and one entry of `live_points` for each point
agreed on for its label, whatever detections it was matched with. -/
theorem C78_rows {cfg : Cfg K L D F X} {Ok : F → Prop} (hL : FilterLaws cfg.flt Ok)
    {shape : L → Nat × Nat} (hs : ∀ a b, Compat cfg a b → shape a = shape b)
    {w0 w : World K L D F X} (h0 : w0.Initial) (h : DrawReaches cfg shape w0 w)
    (idOf : Nat → H) (lab : L → Option H) (o : Obj K L D F) (ho : o ∈ w.objs) :
    (Drawable.ofObj cfg.flt idOf lab o).points.length = (shape o.label).1 ∧
    (Drawable.ofObj cfg.flt idOf lab o).live.length = (shape o.label).1 ∧
    ∀ row ∈ (Drawable.ofObj cfg.flt idOf lab o).points, row.length = (shape o.label).2 := by
  have hq := DrawReaches.drawOk hL hs h0 h o ho
  have hest := estimate_shape hL hq
  refine ⟨?_, ?_, ?_⟩
  · simp only [Drawable.ofObj, Pts.rows, List.length_map, List.length_range]
    rw [hest.1, hq.points.n]
  · simp only [Drawable.ofObj, Obj.livePoints, List.length_map]
    rw [hq.points.hits, hq.points.n]
  · intro row hrow
    simp only [Drawable.ofObj, Pts.rows, List.mem_map, List.mem_range] at hrow
    obtain ⟨i, hi, rfl⟩ := hrow
    rw [List.length_take, List.length_drop, hest.2.1, hest.2.2, ← hq.points.dim]
    rw [hest.1] at hi
    have h1 : (i + 1) * o.dimPoints ≤ o.numPoints * o.dimPoints := Nat.mul_le_mul_right _ hi
    rw [Nat.add_mul, Nat.one_mul, Nat.mul_comm o.numPoints] at h1
    omega

end

/-- **C78**: if all detections are boxes (two points in the plane), `draw_boxes` does not raise for any
objects of the tracker, with any palette that is not empty, and draws one rectangle per object. -/
theorem C78_boxes [Field K] [LinearOrder K] [FloorRing K] [LinearOrder D] [OrderTop D] [Zero D] [DecidableEq L]
    {cfg : Cfg K L D F X} {Ok : F → Prop} (hL : FilterLaws cfg.flt Ok) {w0 w : World K L D F X}
    (h0 : w0.Initial) (h : DrawReaches cfg (fun _ => (2, 2)) w0 w) (env : DrawEnv K H)
    (hpal : env.palette.colors ≠ []) (frame : List Nat) (idOf : Nat → H) (lab : L → Option H)
    (objs : List (Obj K L D F)) (hobjs : ∀ o ∈ objs, o ∈ w.objs) :
    ∃ c, drawBoxes env frame {} (some (objs.map (Drawable.ofObj cfg.flt idOf lab))) = some c ∧
      (rectangles c).length = objs.length := by
  obtain ⟨c, t, h1, -, -, -, h2, -⟩ := C69_boxes env hpal frame {} rfl rfl rfl rfl rfl rfl
    (objs.map (Drawable.ofObj cfg.flt idOf lab)) (by
      intro d hd
      obtain ⟨o, ho, rfl⟩ := List.mem_map.mp hd
      obtain ⟨r1, -, r3⟩ := C78_rows hL (shape := fun _ => (2, 2)) (fun _ _ _ => rfl) h0 h idOf lab o (hobjs o ho)
      generalize (Drawable.ofObj cfg.flt idOf lab o).points = ps at r1 r3
      match ps, r1, r3 with
      | [p, q], _, r3 =>
        match p, q, r3 p (by simp), r3 q (by simp) with
        | [x0, y0], [x1, y1], _, _ => exact ⟨x0, y0, x1, y1, rfl⟩)
  refine ⟨c, h1, ?_⟩
  have := congrArg List.length h2
  simpa using this

/-- **C78** ... and each rectangle is at the current estimate of its object, in the coordinates of the frame (not
the absolute ones), in whole pixels, in the color of the palette for its id. -/
theorem C78_where [Field K] [LinearOrder K] [FloorRing K] [LinearOrder D] [OrderTop D] [Zero D] [DecidableEq L]
    {cfg : Cfg K L D F X} {Ok : F → Prop} (hL : FilterLaws cfg.flt Ok) {w0 w : World K L D F X}
    (h0 : w0.Initial) (h : DrawReaches cfg (fun _ => (2, 2)) w0 w) (env : DrawEnv K H)
    (hpal : env.palette.colors ≠ []) (frame : List Nat) (idOf : Nat → H) (lab : L → Option H)
    (objs : List (Obj K L D F)) (hobjs : ∀ o ∈ objs, o ∈ w.objs) {c : Canvas K}
    (hc : drawBoxes env frame {} (some (objs.map (Drawable.ofObj cfg.flt idOf lab))) = some c)
    {k : Nat} {o : Obj K L D F} (hk : objs[k]? = some o) :
    ∃ x0 y0 x1 y1 t col, (rectangles c)[k]? = some ([x0, y0], [x1, y1], t, col) ∧
      (o.estimate cfg.flt).data.map truncInt = [x0, y0, x1, y1] ∧
      env.palette.choose ((o.id.map idOf).map env.hash) = some col := by
  have hbox : ∀ o ∈ w.objs, ∃ a b c' d, (o.estimate cfg.flt).data = [a, b, c', d] ∧
      (Drawable.ofObj cfg.flt idOf lab o).points = [[a, b], [c', d]] := by
    intro o ho
    have hq := DrawReaches.drawOk hL (shape := fun _ => (2, 2)) (fun _ _ _ => rfl) h0 h o ho
    obtain ⟨e1, e2, e3⟩ := estimate_shape hL hq
    rw [hq.points.n] at e1 e3
    rw [hq.points.dim] at e2 e3
    simp only at e1 e2 e3
    match hdt : (o.estimate cfg.flt).data, e3 with
    | [a, b, c', d], _ =>
      refine ⟨a, b, c', d, rfl, ?_⟩
      simp [Drawable.ofObj, Pts.rows, e1, e2, hdt, List.range_succ]
  have ho := hobjs o (List.mem_of_getElem? hk)
  obtain ⟨c1, t, h1, -, -, -, h2, -⟩ := C69_boxes env hpal frame {} rfl rfl rfl rfl rfl rfl
    (objs.map (Drawable.ofObj cfg.flt idOf lab)) (by
      intro d hd
      obtain ⟨o, ho, rfl⟩ := List.mem_map.mp hd
      obtain ⟨a, b, c', d, -, e⟩ := hbox o (hobjs o ho)
      exact ⟨_, _, _, _, e⟩)
  rw [hc] at h1
  cases h1
  obtain ⟨a, b, c', d, e1, e2⟩ := hbox o ho
  have h3 := congrArg (fun l => l[k]?) h2
  simp only [List.getElem?_map, hk, Option.map_some] at h3
  cases hr : (rectangles c)[k]? with
  | none => simp [hr] at h3
  | some r =>
    obtain ⟨p, q, t', col⟩ := r
    simp only [hr, Option.map_some, Option.some.injEq, Prod.mk.injEq, boxOf, e2, List.map_cons,
      List.map_nil, List.cons.injEq, and_true] at h3
    obtain ⟨⟨rfl, rfl⟩, rfl, h4⟩ := h3
    exact ⟨_, _, _, _, _, _, rfl, by rw [e1]; rfl, h4.symm⟩

/-- **C78**: for any objects of the tracker and any palette that is not empty, `draw_points` with
`hide_dead_points=False` does not raise and draws one circle per point agreed on for the label of each object. -/
theorem C78_points [Field K] [LinearOrder K] [FloorRing K] [LinearOrder D] [OrderTop D] [Zero D] [DecidableEq L]
    {cfg : Cfg K L D F X} {Ok : F → Prop} (hL : FilterLaws cfg.flt Ok) {shape : L → Nat × Nat}
    (hs : ∀ a b, Compat cfg a b → shape a = shape b) {w0 w : World K L D F X}
    (h0 : w0.Initial) (h : DrawReaches cfg shape w0 w) (env : DrawEnv K H)
    (hpal : env.palette.colors ≠ []) (frame : List Nat) (idOf : Nat → H) (lab : L → Option H)
    (objs : List (Obj K L D F)) (hobjs : ∀ o ∈ objs, o ∈ w.objs) :
    ∃ c, drawPoints env frame { hideDeadPoints := false }
        (some (objs.map (Drawable.ofObj cfg.flt idOf lab))) = some (some c) ∧
      (circles c).length = (objs.map fun o => (shape o.label).1).sum := by
  have hrows : ∀ o ∈ objs, _ := fun o ho => C78_rows hL hs h0 h idOf lab o (hobjs o ho)
  obtain ⟨c, hc⟩ := C53_does_not_raise env hpal frame { hideDeadPoints := false } rfl (Or.inr (Or.inl rfl))
    (objs.map (Drawable.ofObj cfg.flt idOf lab))
  have hcirc := C53_all_circles env frame { hideDeadPoints := false } rfl rfl _ (by
    intro d hd
    obtain ⟨o, ho, rfl⟩ := List.mem_map.mp hd
    rw [(hrows o ho).1, (hrows o ho).2.1]) c hc
  refine ⟨c, hc, ?_⟩
  rw [← List.length_map (f := fun x => x.1), hcirc, List.length_flatMap, List.map_map]
  refine congrArg List.sum (List.map_congr_left fun o ho => ?_)
  simp only [Function.comp, List.length_map]
  exact (hrows o ho).1

/-- **C78**: by default `draw_points` does not raise for any objects of the tracker; its circles are at the current
estimates of exactly those points that have a positive counter. -/
theorem C78_live [Field K] [LinearOrder K] [FloorRing K] [LinearOrder D] [OrderTop D] [Zero D] [DecidableEq L]
    {cfg : Cfg K L D F X} {Ok : F → Prop} (hL : FilterLaws cfg.flt Ok) {shape : L → Nat × Nat}
    (hs : ∀ a b, Compat cfg a b → shape a = shape b) {w0 w : World K L D F X}
    (h0 : w0.Initial) (h : DrawReaches cfg shape w0 w) (env : DrawEnv K H)
    (hpal : env.palette.colors ≠ []) (frame : List Nat) (idOf : Nat → H) (lab : L → Option H)
    (objs : List (Obj K L D F)) (hobjs : ∀ o ∈ objs, o ∈ w.objs) :
    ∃ c, drawPoints env frame {} (some (objs.map (Drawable.ofObj cfg.flt idOf lab))) = some (some c) ∧
      (circles c).map (·.1) = objs.flatMap fun o => (List.range (shape o.label).1).filterMap fun i =>
        if (o.pointHits[i]?.any fun n => decide (0 < n)) = true then
          some ((((o.estimate cfg.flt).data.drop (i * (shape o.label).2)).take (shape o.label).2).map truncInt)
        else none := by
  obtain ⟨c, hc⟩ := C53_does_not_raise env hpal frame {} rfl (Or.inr (Or.inl rfl))
    (objs.map (Drawable.ofObj cfg.flt idOf lab))
  refine ⟨c, hc, ?_⟩
  rw [C53_circles env frame {} rfl rfl _ c hc, List.flatMap_map]
  refine List.flatMap_congr fun o ho => ?_
  have hq := DrawReaches.drawOk hL hs h0 h o (hobjs o ho)
  obtain ⟨e1, e2, -⟩ := estimate_shape hL hq
  unfold livePositions
  rw [(C78_rows hL hs h0 h idOf lab o (hobjs o ho)).1]
  refine List.filterMap_congr fun i hi => ?_
  have hi := List.mem_range.mp hi
  have hrow : (Drawable.ofObj cfg.flt idOf lab o).points[i]? =
      some (((o.estimate cfg.flt).data.drop (i * (shape o.label).2)).take (shape o.label).2) := by
    simp only [Drawable.ofObj, Pts.rows, List.getElem?_map]
    rw [List.getElem?_range (by rw [e1, hq.points.n]; exact hi), e2, hq.points.dim]
    rfl
  have hlive : ((Drawable.ofObj cfg.flt idOf lab o).live[i]? = some true) ↔
      (o.pointHits[i]?.any fun n => decide (0 < n)) = true := by
    simp only [Drawable.ofObj, Obj.livePoints, List.getElem?_map]
    cases o.pointHits[i]? <;> simp
  rw [hrow]
  by_cases hp : (o.pointHits[i]?.any fun n => decide (0 < n)) = true
  · rw [if_pos hp, if_pos (hlive.mpr hp)]; rfl
  · rw [if_neg hp, if_neg (mt hlive.mp hp)]

/-! a tracker of boxes with a moving camera -/

/-- a box of width 2 and height 3 at `(x, x)` -/
def boxDet (x : ℚ) : Det ℚ Nat Unit :=
  ⟨⟨2, 2, [x, x, x + 2, x + 3]⟩, none, 0, (), ⟨2, 2, [x, x, x + 2, x + 3]⟩, none⟩

/-- distance between upper left corners along the first axis -/
def boxDist (d : Det ℚ Nat Unit) (o : ObjView ℚ Nat (WithTop Nat) (NoFilter ℚ) Unit) :
    Option (Option (WithTop Nat)) :=
  match d.absPoints.data, (o.obj.positions noFilterOps).data with
  | a :: _, b :: _ => some (some ((⌊a - b⌋).natAbs : Nat))
  | _, _ => none

def boxCfg : Cfg ℚ Nat (WithTop Nat) (NoFilter ℚ) Unit where
  dist := .scalar boxDist
  thr := 10
  fill := 11
  hitCounterMax := 4
  initDelay := 1
  pwMax := 4
  detThr := 0
  flt := noFilterOps
  pastLen := 2
  reid := none
  reidThr := 0
  reidFill := 1
  reidMax := none

def boxW0 : World ℚ Nat (WithTop Nat) (NoFilter ℚ) Unit := ⟨fun r => boxDet r, 0, 0, 0, []⟩

/-- the camera moved by 5 -/
def boxCt : CoordTrans ℚ where
  relToAbs p := { p with data := p.data.map (· + 5) }
  absToRel p := { p with data := p.data.map (· - 5) }

def boxW1 := (update boxCfg boxW0 (some [0, 50]) 1 none).1
def boxW2 := (update boxCfg boxW1 (some [1, 51]) 1 (some boxCt)).1

/-- such a history: two boxes, seen twice; the camera moves in between. Both objects are returned. -/
example : boxW0.Initial ∧ DrawReaches boxCfg (fun _ => (2, 2)) boxW0 boxW2 ∧
    (activeObjects boxW2).map (fun o => (o.initId, (o.estimate noFilterOps).data)) =
      [(1, [1, 1, 3, 4]), (2, [51, 51, 53, 54])] := by
  have h : ∀ r ∈ [1, 51], boxW1.heap r = boxDet r := by
    intro r hr
    simp only [List.mem_cons, List.not_mem_nil, or_false] at hr
    rcases hr with rfl | rfl <;> rfl
  refine ⟨⟨rfl, rfl, rfl⟩, .call (some [1, 51]) 1 (some boxCt) (.call (some [0, 50]) 1 none (.refl _)
    ⟨⟨by simp, ?_⟩, by simp⟩) ⟨⟨?_, ?_⟩, ?_⟩, by decide +kernel⟩
  · intro r hr
    exact ⟨rfl, rfl, rfl, by intro s hs; cases hs⟩
  · intro c hc
    cases hc
    intro p
    simp [boxCt]
  · intro r hr
    show DetOk _ (boxW1.heap r)
    rw [h r hr]
    exact ⟨rfl, rfl, rfl, by intro s hs; cases hs⟩
  · intro c hc
    cases hc
    intro p
    simp [boxCt]

/-- the boxes are drawn at the estimates, which are not the absolute positions -/
example :
    (drawBoxes toyEnv [100, 100, 3] {}
      (some ((activeObjects boxW2).map (Drawable.ofObj noFilterOps id some)))).map rectangles =
      some [([1, 1], [3, 4], 0, [1, 1, 1]), ([51, 51], [53, 54], 0, [2, 2, 2])] ∧
    (activeObjects boxW2).map (fun o => (o.positions noFilterOps).data) = [[6, 6, 8, 9], [56, 56, 58, 59]] := by
  decide +kernel

end Norfair.Props
