import Verif.Lemmas.Relations
import Verif.Props.IouSucceeds
import Verif.Model.CameraMotion

/-! C93: objects keep the linear relations between the coordinates of their detections. -/

set_option linter.unusedSectionVars false

namespace Norfair.Props

open Norfair Norfair.Spec

variable {K L D F X : Type}

section
variable [Field K] [LinearOrder K] [IsStrictOrderedRing K] [LinearOrder D] [OrderTop D] [Zero D] [DecidableEq L]

theorem _root_.Norfair.Spec.CallRelated.callOk {shape : L → Nat × Nat} {R : L → List K × K → Prop} {thr : K}
    {dets : List Ref} {ct : Option (CoordTrans K)} {h : Ref → Det K L X} (hc : CallRelated shape R thr dets ct h) :
    CallOk shape dets ct h := by
  refine ⟨fun c e a p h1 h2 h3 => ?_, fun r hr => ?_⟩
  · obtain ⟨k1, k2, k3⟩ := (hc.keepsShape c e a p ⟨h1, h2, by rw [h3, h1, h2]⟩).1
    exact ⟨k1.trans h1.symm, k2.trans h2.symm, by rw [k3, h3, h1, h2]⟩
  · obtain ⟨s1, s2, s3⟩ := (hc.abs r hr).1
    exact ⟨s1, s2, by rw [s1, s2, s3], fun s hs => ((hc.scores r hr s hs).1).trans s1.symm⟩

theorem callRelated_ages {shape : L → Nat × Nat} {R : L → List K × K → Prop} {thr : K} {dets : List Ref}
    {ct : Option (CoordTrans K)} {h h' : Ref → Det K L X} (ha : AgesOnly h h')
    (hc : CallRelated shape R thr dets ct h) : CallRelated shape R thr dets ct h' := by
  refine ⟨fun r hr => ?_, fun r hr => ?_, hc.keepsShape, hc.keeps⟩ <;> obtain ⟨⟨a, e⟩, _⟩ := ha r <;> rw [e]
  · exact hc.abs r hr
  · exact hc.scores r hr

theorem callRelated_transform {shape : L → Nat × Nat} {R : L → List K × K → Prop} {thr : K} {dets : List Ref}
    {ct : Option (CoordTrans K)} {h : Ref → Det K L X} {c : CoordTrans K} (hct : ct = some c) {q : Ref}
    (hq : q ∈ dets) (hc : CallRelated shape R thr dets ct h) :
    CallRelated shape R thr dets ct (transformDet c h q) := by
  refine ⟨fun r hr => ?_, fun r hr => ?_, hc.keepsShape, hc.keeps⟩ <;> unfold transformDet <;> split
  · obtain ⟨h1, h2⟩ := hc.abs q hq
    exact ⟨(hc.keepsShape c hct _ _ h1).1, (hc.keeps c hct _ _ h1 h2).1⟩
  · exact hc.abs r hr
  · exact hc.scores q hq
  · exact hc.scores r hr

theorem _root_.Norfair.Spec.CallRelated.mask {shape : L → Nat × Nat} {R : L → List K × K → Prop} {thr : K}
    {dets : List Ref} {ct : Option (CoordTrans K)} {h : Ref → Det K L X} (hc : CallRelated shape R thr dets ct h)
    {r : Ref} (hr : r ∈ dets) {n : Nat} (hn : n = (shape (h r).label).1) :
    ∃ b, overThreshold thr n (h r) = List.replicate n b := by
  unfold overThreshold
  split
  · rename_i s hs
    obtain ⟨h1, h2⟩ := hc.scores r hr s hs
    rw [hn, ← h1]
    rcases h2 with h2 | h2
    · refine ⟨true, List.eq_replicate_iff.mpr ⟨by simp, ?_⟩⟩
      intro b hb
      obtain ⟨a, ha, rfl⟩ := List.mem_map.mp hb
      simpa using h2 a ha
    · refine ⟨false, List.eq_replicate_iff.mpr ⟨by simp, ?_⟩⟩
      intro b hb
      obtain ⟨a, ha, rfl⟩ := List.mem_map.mp hb
      simpa using h2 a ha
  · exact ⟨true, rfl⟩

theorem repeatMask_replicate (dim n : Nat) (b : Bool) :
    repeatMask dim (List.replicate n b) = List.replicate (dim * n) b := by
  rw [List.eq_replicate_iff]
  refine ⟨by rw [repeatMask_length, List.length_replicate], ?_⟩
  intro b hb
  unfold repeatMask at hb
  simp only [List.map_replicate, List.mem_flatten, List.mem_replicate] at hb
  obtain ⟨l, ⟨_, rfl⟩, hb⟩ := hb
  exact (List.mem_replicate.mp hb).2

theorem tileMask_replicate (dim n : Nat) (b : Bool) :
    tileMask dim (List.replicate n b) = List.replicate (dim * n) b := by
  rw [List.eq_replicate_iff]
  unfold tileMask
  refine ⟨by simp, ?_⟩
  intro c hc
  simp only [List.mem_flatten, List.mem_replicate] at hc
  obtain ⟨l, ⟨_, rfl⟩, hc⟩ := hc
  exact (List.mem_replicate.mp hc).2

theorem maskAssign_true {n : Nat} {l z : List K} (hl : l.length = n) (hz : z.length = n) :
    maskAssign (List.replicate n true) l z = z := by
  subst hl
  induction l generalizing z with
  | nil =>
    have : z = [] := by simpa using hz
    simp [maskAssign, this]
  | cons x l ih =>
    match z, hz with
    | w :: z, hz =>
      rw [List.length_cons, List.replicate_succ, maskAssign, ih (by simpa using hz)]
      simp

theorem maskAssign_false {m : List Bool} (hm : ∀ b ∈ m, b = false) (l z : List K) : maskAssign m l z = l := by
  induction m generalizing l z with
  | nil => simp [maskAssign]
  | cons x m ih =>
    cases l with
    | nil => simp [maskAssign]
    | cons y l =>
      cases z with
      | nil => simp [maskAssign]
      | cons w z =>
        rw [maskAssign, ih (fun b hb => hm b (List.mem_cons_of_mem _ hb)), hm x (List.mem_cons_self ..)]
        simp

/-- if all points were seen before, the corrections after the update of the filter change nothing -/
theorem firstDetectionFix_same {fo : FilterOps K F} {mask : List Bool} {z : List K} {o : Obj K L D F}
    (ho : o.once = List.replicate o.numPoints true) (hs : fo.setX o.filter (fo.getX o.filter) = o.filter) :
    (firstDetectionFix fo mask z o).filter = o.filter := by
  unfold firstDetectionFix
  simp only
  rw [ho, repeatMask_replicate, maskAssign_false, maskAssign_false, List.take_append_drop, hs]
  · intro b hb
    rw [List.map_replicate] at hb
    exact (List.mem_replicate.mp hb).2
  · intro b hb
    rw [List.mem_iff_getElem?] at hb
    obtain ⟨i, hi⟩ := hb
    rw [List.getElem?_zipWith] at hi
    split at hi
    · rename_i x y h1 h2
      have := List.mem_of_getElem? h2
      rw [(List.mem_replicate.mp this).2] at hi
      cases hi
      simp
    · cases hi

theorem vop_and (n : Nat) (x y : Bool) :
    List.zipWith (fun a b => a && !b) (List.replicate n x) (List.replicate n y) = List.replicate n (x && !y) := by
  simp

/-- if no point was seen before, the corrections put the object to rest, where it is detected or where it was -/
theorem firstDetectionFix_first {fo : FilterOps K F} {b : Bool} {z : List K} {o : Obj K L D F}
    (ho : o.once = List.replicate o.numPoints false) (hd : fo.dimZ o.filter = o.dimPoints * o.numPoints)
    (hl : (fo.getX o.filter).length = 2 * fo.dimZ o.filter) (hz : z.length = fo.dimZ o.filter) :
    (firstDetectionFix fo (List.replicate o.numPoints b) z o).filter =
      fo.setX o.filter ((if b then z else (fo.getX o.filter).take (fo.dimZ o.filter)) ++
        List.replicate (fo.dimZ o.filter) 0) := by
  unfold firstDetectionFix
  simp only
  have e : o.dimZ = fo.dimZ o.filter := hd.symm
  rw [ho, repeatMask_replicate, tileMask_replicate, e, ← hd, List.map_replicate, vop_and, Bool.not_false, Bool.and_true]
  have h1 : ((fo.getX o.filter).drop (fo.dimZ o.filter)).length = fo.dimZ o.filter := by
    rw [List.length_drop]; omega
  have h2 : ((fo.getX o.filter).take (fo.dimZ o.filter)).length = fo.dimZ o.filter := by
    rw [List.length_take]; omega
  rw [maskAssign_true h1 (List.length_replicate ..)]
  cases b
  · rw [maskAssign_false fun b hb => (List.mem_replicate.mp hb).2]; simp
  · rw [maskAssign_true h2 hz]; simp

/-- the state of an object that keeps the relations -/
structure RelObj (fo : FilterOps K F) (Ok : F → Prop) (shape : L → Nat × Nat) (R : L → List K × K → Prop)
    (Rel : List K × K → F → Prop) (o : Obj K L D F) : Prop where
  points : PointsOk fo Ok shape o
  once : ∃ b, o.once = List.replicate o.numPoints b
  rel : ∀ q, R o.label q → Rel q o.filter
  keeps : ∀ g, o.absToRel = some g → ∀ p, HasShape (shape o.label) p → Satisfies (R o.label) p →
    HasShape (shape o.label) (g p) ∧ Satisfies (R o.label) (g p)

theorem RelObj.positions {fo : FilterOps K F} {Ok : F → Prop} (hL : FilterLaws fo Ok) {shape : L → Nat × Nat}
    {R : L → List K × K → Prop} {Rel : List K × K → F → Prop}
    (hR : ∀ q, RelationLaws fo Ok q.1 q.2 (Rel q)) {o : Obj K L D F} (h : RelObj fo Ok shape R Rel o) :
    HasShape (shape o.label) (o.positions fo) ∧ Satisfies (R o.label) (o.positions fo) := by
  constructor
  · refine ⟨h.points.n, h.points.dim, ?_⟩
    show ((fo.getX o.filter).take o.dimZ).length = _
    rw [List.length_take, hL.len _ h.points.ok, h.points.dimZ, ← h.points.n, ← h.points.dim]
    unfold Obj.dimZ
    omega
  · intro q hq
    show linComb q.1 ((fo.getX o.filter).take o.dimZ) = q.2
    rw [← h.points.dimZ]
    exact (hR q).pos _ h.points.ok (h.rel q hq)

theorem relObj_inv {cfg : Cfg K L D F X} {Ok : F → Prop} (hL : FilterLaws cfg.flt Ok) {shape : L → Nat × Nat}
    {R : L → List K × K → Prop} (hs : ∀ a b, Compat cfg a b → shape a = shape b ∧ ∀ q, R a q ↔ R b q)
    {Rel : List K × K → F → Prop} (hR : ∀ q, RelationLaws cfg.flt Ok q.1 q.2 (Rel q)) (dets : List Ref)
    (period : Int) (ct : Option (CoordTrans K))
    (hk : ∀ c, ct = some c → ∀ l p, HasShape (shape l) p → Satisfies (R l) p →
      HasShape (shape l) (c.absToRel p) ∧ Satisfies (R l) (c.absToRel p)) :
    ObjInv cfg dets period ct (CallRelated shape R cfg.detThr dets ct)
      (fun _ o => RelObj cfg.flt Ok shape R Rel o) := by
  have hP := pointsOk_inv (cfg := cfg) hL (shape := shape) (fun a b h => (hs a b h).1) dets period ct
  constructor
  case heapAges => exact fun _ _ ha hc => callRelated_ages ha hc
  case heapTransform => exact fun _ _ r hct hr hc => callRelated_transform hct hr hc
  case ages => exact fun _ _ _ _ h => h
  case transform => exact fun _ _ _ _ _ _ h => h
  case step =>
    intro h o h1 hq
    have hp := hP.step h o h1 hq.points
    obtain ⟨g, e⟩ := updateCT_fields ct (o.trackerStep cfg)
    refine ⟨hp, ?_, ?_, ?_⟩
    · rw [e]; exact hq.once
    · rw [e]; exact fun q hqq => (hR q).predict _ hq.points.ok (hq.rel q hqq)
    · cases ct with
      | none => exact hq.keeps
      | some c =>
        intro g hg
        cases hg
        exact hk c rfl _
  case setMin => exact fun h o v hv hq => ⟨hP.setMin h o v hv hq.points, hq.once, hq.rel, hq.keeps⟩
  case hit =>
    intro h g c o r d hH hr hc hd hq he
    obtain ⟨x1, x2, x3, x4, x5, x6, hS⟩ := hitObj_sensors hq.points.hits he
    obtain ⟨hsh, hRR⟩ := hs _ _ hc
    have hn : o.numPoints = (shape (h r).label).1 := by rw [hq.points.n, hsh]
    obtain ⟨m, hmask⟩ := hH.mask hr hn
    obtain ⟨b, honce⟩ := hq.once
    have hf := hS.filter
    simp only [hmask] at hf
    have hdz : cfg.flt.dimZ o.filter = o.dimPoints * o.numPoints := hq.points.dimZ
    rw [repeatMask_replicate, ← hdz] at hf
    have hzl : (h r).absPoints.data.length = cfg.flt.dimZ o.filter := by
      rw [hdz]; exact hS.zLen
    obtain ⟨hok', hdz'⟩ := hL.update o.filter (h r).absPoints.data (List.replicate (cfg.flt.dimZ o.filter) m)
      hq.points.ok hzl (List.length_replicate ..)
    obtain ⟨_, _, _, _, _, _, _, _, _, esh⟩ := hitObj_shape cfg h g c o r period
    refine ⟨hP.hit h g c o r d hH.callOk hr hc hd hq.points he, ⟨b || m, ?_⟩, ?_, ?_⟩
    · have hrest := hS.rest
      have e1 : (hitObj cfg h g c o r period).obj.numPoints = o.numPoints := by rw [hrest]
      show (hitObj cfg h g c o r period).obj.once =
        List.replicate (hitObj cfg h g c o r period).obj.numPoints (b || m)
      rw [e1]
      apply List.ext_getElem?
      intro i
      by_cases hi : i < o.numPoints
      · have hseen : Seen cfg.detThr (h r) i ↔ m = true := by
          rw [← overThreshold_get cfg.detThr o.numPoints (h r) i hi, hmask]; simp [hi]
        have hiff := hS.once i hi
        rw [show ({ o with past := x1, lastDet := x2, hitCounter := x3, isInit := x4, id := x5, globalId := x6 } :
          Obj K L D F).once = _ from honce, hseen] at hiff
        have hlen : i < (hitObj cfg h g c o r period).obj.once.length := by rw [hS.onceLen']; exact hi
        rw [List.getElem?_eq_getElem hlen] at hiff ⊢
        simp only [List.getElem?_replicate, hi, if_true, Option.some.injEq] at hiff ⊢
        rw [Bool.eq_iff_iff, hiff, Bool.or_eq_true]
      · rw [List.getElem?_eq_none (by rw [hS.onceLen']; show o.numPoints ≤ i; omega),
          List.getElem?_eq_none (by rw [List.length_replicate]; omega)]
    · intro q hqq
      have el : (hitObj cfg h g c o r period).obj.label = o.label := by rw [esh]
      change R (hitObj cfg h g c o r period).obj.label q at hqq
      rw [el] at hqq
      have hsat := (hH.abs r hr).2 q ((hRR q).mpr hqq)
      have hup := (hR q).update _ _ m hq.points.ok (hq.rel q hqq) hzl hsat
      show Rel q (hitObj cfg h g c o r period).obj.filter
      rw [hf]
      cases b with
      | true =>
        rw [firstDetectionFix_same (o := { o with
            past := x1, lastDet := x2, hitCounter := x3, isInit := x4, id := x5, globalId := x6
            filter := cfg.flt.update o.filter (h r).absPoints.data (List.replicate (cfg.flt.dimZ o.filter) m) })
          honce ((hR q).same _ hok')]
        exact hup
      | false =>
        rw [firstDetectionFix_first (o := { o with
            past := x1, lastDet := x2, hitCounter := x3, isInit := x4, id := x5, globalId := x6
            filter := cfg.flt.update o.filter (h r).absPoints.data (List.replicate (cfg.flt.dimZ o.filter) m) })
          honce (hdz'.trans hdz) (hL.len _ hok') (hzl.trans hdz'.symm)]
        refine (hR q).rest _ _ hok' hup ?_ ?_
        · split
          · exact hzl.trans hdz'.symm
          · simp only [List.length_take, hL.len _ hok']; omega
        · split
          · exact hsat
          · exact (hR q).pos _ hok' hup
    · rw [esh]; exact hq.keeps
  case hitErr =>
    intro h g c o r hH hr hc hq he
    rcases hitObj_noShape (g := g) (c := c) (period := period) hq.points (hH.callOk.2 r hr) (hs _ _ hc).1 with
      e | ⟨_, e⟩
    · exact absurd e he
    · rw [e]; exact hq
  case merge =>
    intro h o c h1 hl hq hc
    have hn : c.numPoints = o.numPoints := by rw [hc.points.n, hq.points.n, hl]
    refine ⟨hP.merge h o c h1 hl hq.points hc.points, ?_, ?_, hq.keeps⟩
    · show ∃ b, c.once = List.replicate o.numPoints b
      rw [← hn]; exact hc.once
    · intro q hqq
      exact hc.rel q (by rw [hl]; exact hqq)
  case create =>
    intro w r hH hr
    obtain ⟨hsh, hsat⟩ := hH.abs r hr
    obtain ⟨g, hg⟩ := newObj_fields cfg w r period ct
    refine ⟨hP.create w r hH.callOk hr, ?_, ?_, ?_⟩
    · rw [hg]
      obtain ⟨b, hm⟩ := hH.mask hr (n := (w.heap r).absPoints.n) hsh.1
      unfold overThreshold at hm
      refine ⟨b, ?_⟩
      show (match (w.heap r).scores with
        | none => List.replicate (w.heap r).absPoints.n true
        | some s => s.map (fun x => decide (cfg.detThr < x))) = List.replicate (w.heap r).absPoints.n b
      cases hsc : (w.heap r).scores with
      | none => rw [hsc] at hm; exact hm
      | some s => rw [hsc] at hm; exact hm
    · rw [hg]
      intro q hqq
      obtain ⟨s1, s2, s3⟩ := hsh
      exact (hR q).create _ (by rw [s1, s2, s3]) (hsat q hqq)
    · cases ct with
      | none => intro g hg; cases hg
      | some c =>
        intro g hg
        cases hg
        exact hk c rfl _

theorem RelObj.estimate {fo : FilterOps K F} {Ok : F → Prop} (hL : FilterLaws fo Ok) {shape : L → Nat × Nat}
    {R : L → List K × K → Prop} {Rel : List K × K → F → Prop}
    (hR : ∀ q, RelationLaws fo Ok q.1 q.2 (Rel q)) {o : Obj K L D F} (h : RelObj fo Ok shape R Rel o) :
    HasShape (shape o.label) (o.estimate fo) ∧ Satisfies (R o.label) (o.estimate fo) := by
  obtain ⟨p1, p2⟩ := h.positions hL hR
  unfold Obj.estimate
  cases hg : o.absToRel with
  | none => exact ⟨p1, p2⟩
  | some g => exact h.keeps g hg _ p1 p2

theorem relObj_keeps {shape : L → Nat × Nat} {R : L → List K × K → Prop} {thr : K} {dets : List Ref}
    {ct : Option (CoordTrans K)} {h : Ref → Det K L X} (hc : CallRelated shape R thr dets ct h) :
    ∀ c, ct = some c → ∀ l p, HasShape (shape l) p → Satisfies (R l) p →
      HasShape (shape l) (c.absToRel p) ∧ Satisfies (R l) (c.absToRel p) :=
  fun c e l p h1 h2 => ⟨(hc.keepsShape c e l p h1).2, (hc.keeps c e l p h1 h2).2⟩

theorem relObj_reaches {cfg : Cfg K L D F X} {Ok : F → Prop} (hL : FilterLaws cfg.flt Ok) {shape : L → Nat × Nat}
    {R : L → List K × K → Prop} (hs : ∀ a b, Compat cfg a b → shape a = shape b ∧ ∀ q, R a q ↔ R b q)
    {Rel : List K × K → F → Prop} (hR : ∀ q, RelationLaws cfg.flt Ok q.1 q.2 (Rel q))
    {w0 w : World K L D F X} (h0 : w0.Initial)
    (hw : Reaches cfg (fun _ _ => True)
      (fun dets _ ct w => CallRelated shape R cfg.detThr (dets.getD []) ct w.heap) w0 w) :
    ∀ o ∈ w.objs, RelObj cfg.flt Ok shape R Rel o :=
  Reaches.objInv hw (Inv.initial h0) (Q := fun _ o => RelObj cfg.flt Ok shape R Rel o)
    (fun dets period ct w hc => ⟨_, hc, relObj_inv hL hs hR (dets.getD []) period ct (relObj_keeps hc)⟩)
    (fun _ _ _ _ _ h => h) (by rw [h0.1]; simp)

/-- **C93** If the detections of a label satisfy linear relations between their coordinates (a width, a ratio of
sides, the shape of a rigid body, ...), and in each detection all points are seen or none, then the objects of this label satisfy them at all
times: in absolute coordinates and in the frame of the last call. -/
theorem C93_relations {cfg : Cfg K L D F X} {Ok : F → Prop} (hL : FilterLaws cfg.flt Ok) {shape : L → Nat × Nat}
    {R : L → List K × K → Prop} (hs : ∀ a b, Compat cfg a b → shape a = shape b ∧ ∀ q, R a q ↔ R b q)
    {Rel : List K × K → F → Prop} (hR : ∀ q, RelationLaws cfg.flt Ok q.1 q.2 (Rel q))
    {w0 w : World K L D F X} (h0 : w0.Initial)
    (hw : Reaches cfg (fun _ _ => True)
      (fun dets _ ct w => CallRelated shape R cfg.detThr (dets.getD []) ct w.heap) w0 w) :
    ∀ o ∈ w.objs, ∀ q, R o.label q →
      linComb q.1 (o.positions cfg.flt).data = q.2 ∧ linComb q.1 (o.estimate cfg.flt).data = q.2 := by
  intro o ho q hq
  have h := relObj_reaches hL hs hR h0 hw o ho
  exact ⟨(h.positions hL hR).2 q hq, (h.estimate hL hR).2 q hq⟩

/-- the relation that says where point `k / dim` is, relative to the first point -/
def copyRel (T : Pts K) (k : Nat) : List K × K :=
  ((List.range (T.dim * T.n)).map fun i => (if i = k then 1 else 0) - (if i = k % T.dim then 1 else 0),
    T.data.getD k 0 - T.data.getD (k % T.dim) 0)

theorem list_ofFn {d : Nat} {z : List K} (hz : z.length = d) : z = List.ofFn fun i : Fin d => z.getD i 0 := by
  apply List.ext_getElem?
  intro k
  rw [List.getElem?_ofFn]
  split
  · rename_i hk
    rw [← hz] at hk
    simp [List.getElem?_eq_getElem hk]
  · rw [List.getElem?_eq_none]; omega

theorem linComb_copyRel {T : Pts K} {l : List K} (hl : l.length = T.dim * T.n) {k : Nat} (hk : k < T.dim * T.n) :
    linComb (copyRel T k).1 l = l.getD k 0 - l.getD (k % T.dim) 0 := by
  have hk' : k % T.dim < T.dim * T.n := (Nat.mod_le _ _).trans_lt hk
  conv_lhs => rw [list_ofFn hl]
  rw [linComb_ofFn]
  have key : ∀ i : Fin (T.dim * T.n), (copyRel T k).1.getD i 0 * l.getD i 0 =
      (if i = ⟨k, hk⟩ then l.getD i 0 else 0) - (if i = ⟨k % T.dim, hk'⟩ then l.getD i 0 else 0) := by
    intro i
    have : (copyRel T k).1.getD i 0 = (if i.val = k then 1 else 0) - (if i.val = k % T.dim then 1 else 0) := by
      simp [copyRel]
    rw [this]
    simp only [Fin.ext_iff]
    split <;> split <;> ring
  rw [Finset.sum_congr rfl fun i _ => key i, Finset.sum_sub_distrib]
  simp

theorem isCopy_iff {T : Pts K} (hT : T.data.length = T.dim * T.n) {p : Pts K} :
    IsCopy T p ↔ HasShape (T.n, T.dim) p ∧ Satisfies (fun q => ∃ k < T.dim * T.n, q = copyRel T k) p := by
  have hlt : ∀ {i j}, i < T.n → j < T.dim → i * T.dim + j < T.dim * T.n := by
    intro i j hi hj
    calc i * T.dim + j < (i + 1) * T.dim := by rw [Nat.add_mul]; omega
      _ ≤ T.n * T.dim := Nat.mul_le_mul_right _ hi
      _ = _ := Nat.mul_comm _ _
  constructor
  · rintro ⟨hs, v, hv⟩
    refine ⟨hs, ?_⟩
    rintro q ⟨k, hk, rfl⟩
    have hpl : p.data.length = T.dim * T.n := hs.2.2
    rw [linComb_copyRel hpl hk]
    have hd0 : 0 < T.dim := by
      rcases Nat.eq_zero_or_pos T.dim with e | e
      · rw [e] at hk; omega
      · exact e
    have hi : k / T.dim < T.n := by
      rw [Nat.div_lt_iff_lt_mul hd0, Nat.mul_comm]; exact hk
    have hj : k % T.dim < T.dim := Nat.mod_lt _ hd0
    have e1 := hv _ hi _ hj
    have e2 := hv 0 (Nat.zero_lt_of_lt hi) _ hj
    have ek : k / T.dim * T.dim + k % T.dim = k := by rw [Nat.mul_comm]; exact Nat.div_add_mod _ _
    rw [ek] at e1
    rw [Nat.zero_mul, Nat.zero_add] at e2
    have hk' : k % T.dim < T.dim * T.n := (Nat.mod_le _ _).trans_lt hk
    rw [List.getElem?_eq_getElem (show k < T.data.length by omega)] at e1
    rw [List.getElem?_eq_getElem (show k % T.dim < T.data.length by omega)] at e2
    simp only [List.getD_eq_getElem?_getD, e1, e2, copyRel,
      List.getElem?_eq_getElem (show k < T.data.length by omega),
      List.getElem?_eq_getElem (show k % T.dim < T.data.length by omega), Option.map_some, Option.getD_some]
    ring
  · rintro ⟨hs, hq⟩
    refine ⟨hs, fun j => p.data.getD j 0 - T.data.getD j 0, fun i hi j hj => ?_⟩
    have hk := hlt hi hj
    have hpl : p.data.length = T.dim * T.n := hs.2.2
    have h := hq _ ⟨_, hk, rfl⟩
    rw [linComb_copyRel hpl hk] at h
    have hmod : (i * T.dim + j) % T.dim = j := by
      rw [Nat.add_comm, Nat.add_mul_mod_self_right, Nat.mod_eq_of_lt hj]
    simp only [copyRel, hmod] at h
    rw [List.getElem?_eq_getElem (show i * T.dim + j < T.data.length by omega),
      List.getElem?_eq_getElem (show i * T.dim + j < p.data.length by omega), Option.map_some]
    congr 1
    simp only [List.getD_eq_getElem?_getD, List.getElem?_eq_getElem (show i * T.dim + j < T.data.length by omega),
      List.getElem?_eq_getElem (show i * T.dim + j < p.data.length by omega), Option.getD_some] at h ⊢
    linear_combination h

/-- the relations of a copy -/
def copyRels (T : L → Pts K) (l : L) (q : List K × K) : Prop := ∃ k < (T l).dim * (T l).n, q = copyRel (T l) k

theorem _root_.Norfair.Spec.CallCopies.related {T : L → Pts K} (hT : ∀ l, (T l).data.length = (T l).dim * (T l).n)
    {thr : K} {dets : List Ref} {ct : Option (CoordTrans K)} {h : Ref → Det K L X}
    (hc : CallCopies T thr dets ct h) :
    CallRelated (fun l => ((T l).n, (T l).dim)) (copyRels T) thr dets ct h := by
  refine ⟨fun r hr => (isCopy_iff (hT _)).mp (hc.abs r hr), hc.scores, hc.keepsShape, fun c e l p h1 h2 => ?_⟩
  obtain ⟨k1, k2⟩ := hc.keeps c e l p ((isCopy_iff (hT l)).mpr ⟨h1, h2⟩)
  exact ⟨((isCopy_iff (hT l)).mp k1).2, ((isCopy_iff (hT l)).mp k2).2⟩

/-- **C93** If the detections of a label are copies of the same points, moved around, and in each of them all
points are seen or none, then so are the objects of this label, at all times, in absolute coordinates and in the frame. -/
theorem C93_rigid {cfg : Cfg K L D F X} {Ok : F → Prop} (hL : FilterLaws cfg.flt Ok) {T : L → Pts K}
    (hT : ∀ l, (T l).data.length = (T l).dim * (T l).n) (hs : ∀ a b, Compat cfg a b → T a = T b)
    {Rel : List K × K → F → Prop} (hR : ∀ q, RelationLaws cfg.flt Ok q.1 q.2 (Rel q))
    {w0 w : World K L D F X} (h0 : w0.Initial)
    (hw : Reaches cfg (fun _ _ => True)
      (fun dets _ ct w => CallCopies T cfg.detThr (dets.getD []) ct w.heap) w0 w) :
    ∀ o ∈ w.objs, IsCopy (T o.label) (o.positions cfg.flt) ∧ IsCopy (T o.label) (o.estimate cfg.flt) := by
  intro o ho
  have h := relObj_reaches hL (R := copyRels T) (fun a b hab => by simp only [copyRels, hs a b hab, true_and, implies_true]) hR h0
    (hw.mono (fun _ _ h => h) fun _ _ _ _ h => h.related hT) o ho
  exact ⟨(isCopy_iff (hT _)).mpr (h.positions hL hR), (isCopy_iff (hT _)).mpr (h.estimate hL hR)⟩

theorem isCopy_proper {s : K × K} (h1 : 0 < s.1) (h2 : 0 < s.2) {p : Pts K} (h : IsCopy (sizedBox s) p) :
    ProperBox p := by
  obtain ⟨⟨n1, n2, n3⟩, v, hv⟩ := h
  have e0 := hv 0 (by decide : 0 < 2) 0 (by decide : 0 < 2)
  have e1 := hv 0 (by decide : 0 < 2) 1 (by decide : 1 < 2)
  have e2 := hv 1 (by decide : 1 < 2) 0 (by decide : 0 < 2)
  have e3 := hv 1 (by decide : 1 < 2) 1 (by decide : 1 < 2)
  obtain ⟨n, dim, data⟩ := p
  change n = 2 at n1
  change dim = 2 at n2
  change data.length = 4 at n3
  subst n1 n2
  match data, n3 with
  | [a, b, c, d], _ =>
    simp only [sizedBox, Nat.zero_mul, Nat.zero_add, Nat.one_mul, List.getElem?_cons_zero, List.getElem?_cons_succ,
      Option.map_some, Option.some.injEq] at e0 e1 e2 e3
    refine ⟨a, b, c, d, rfl, ?_, ?_⟩
    · rw [e0, e2]; linarith
    · rw [e1, e3]; linarith

/-- **C91** also holds with the Kalman filters if the boxes of a label all have the same size: a tracker with `iou`
that is only called with such boxes never raises. -/
theorem C91_constant_size_partial {cfg : Cfg K L (WithTop K) F X} {Ok : F → Prop} (hL : FilterLaws cfg.flt Ok)
    {Rel : List K × K → F → Prop} (hR : ∀ q, RelationLaws cfg.flt Ok q.1 q.2 (Rel q))
    {str : L → String} (hdist : cfg.dist = iouDistFn str) {size : L → K × K}
    (hpos : ∀ l, 0 < (size l).1 ∧ 0 < (size l).2) (hs : ∀ a b, Compat cfg a b → size a = size b)
    (hfill : cfg.thr ≤ cfg.fill)
    (hreid : ∀ f, cfg.reid = some f → ∀ u v, ∃ x, f u v = some (some x))
    (hrfill : cfg.reid ≠ none → cfg.reidThr ≤ cfg.reidFill)
    {w0 w : World K L (WithTop K) F X} (h0 : w0.Initial)
    (hw : Reaches cfg (fun _ _ => True)
      (fun dets _ ct w => CallCopies (fun l => sizedBox (size l)) cfg.detThr (dets.getD []) ct w.heap) w0 w)
    (dets : Option (List Ref)) (period : Int) (ct : Option (CoordTrans K))
    (hcall : CallCopies (fun l => sizedBox (size l)) cfg.detThr (dets.getD []) ct w.heap)
    (hpts : ∀ r ∈ dets.getD [], IsCopy (sizedBox (size (w.heap r).label)) (w.heap r).points)
    (hct : ct = none ∨ dets ≠ none) :
    ∃ act, (update cfg w dets period ct).2 = .ok act := by
  have hT : ∀ l, (sizedBox (size l)).data.length = (sizedBox (size l)).dim * (sizedBox (size l)).n := fun _ => rfl
  have hs' : ∀ a b, Compat cfg a b → (fun _ : L => ((2, 2) : Nat × Nat)) a = (fun _ : L => ((2, 2) : Nat × Nat)) b ∧
      ∀ q, copyRels (fun l => sizedBox (size l)) a q ↔ copyRels (fun l => sizedBox (size l)) b q := by
    intro a b hab
    simp only [copyRels, hs a b hab, true_and, implies_true]
  have hrel := hcall.related hT
  have hobj := relObj_reaches hL hs' hR h0 (hw.mono (fun _ _ h => h) fun _ _ _ _ h => h.related hT)
  have hI := relObj_inv hL hs' hR (dets.getD []) period ct (relObj_keeps hrel)
  have hI2 : ObjInv cfg (dets.getD []) period ct
      (fun h => CallRelated (fun _ : L => (2, 2)) (copyRels fun l => sizedBox (size l)) cfg.detThr (dets.getD []) ct h ∧
        ∀ r ∈ dets.getD [], IsCopy (sizedBox (size (h r).label)) (h r).points)
      (fun _ o => RelObj cfg.flt Ok (fun _ : L => (2, 2)) (copyRels fun l => sizedBox (size l)) Rel o) :=
    { heapAges := fun h h' ha hh => ⟨hI.heapAges h h' ha hh.1, fun r hr => by
        obtain ⟨⟨a, e⟩, _⟩ := ha r
        rw [e]; exact hh.2 r hr⟩
      heapTransform := fun h c q e hq hh => ⟨hI.heapTransform h c q e hq hh.1, fun r hr => by
        unfold transformDet
        split
        · exact hh.2 q hq
        · exact hh.2 r hr⟩
      ages := hI.ages
      transform := hI.transform
      step := hI.step
      setMin := hI.setMin
      hit := fun h g c o r d hh => hI.hit h g c o r d hh.1
      hitErr := fun h g c o r hh => hI.hitErr h g c o r hh.1
      merge := hI.merge
      create := fun w r hh => hI.create w r hh.1 }
  refine update_succeeds_of hL (shape := fun _ => (2, 2)) (fun _ _ _ => rfl) h0
    (hw.mono (fun _ _ h => h) fun _ _ _ _ h => (h.related hT).callOk) dets period ct hrel.callOk hct
    hI2 ⟨hrel, hpts⟩ hobj ?_ ?_ hfill hrfill
  · intro w1 hH _ ho v hv
    unfold DistGives at hv
    rw [hdist] at hv
    obtain ⟨s, cs, os, n1, n2, h1, h2, h3⟩ := hv
    obtain ⟨M, hM, hx⟩ := iou_proper (cs := cs) (os := os)
      (fun c hc => by
        obtain ⟨r, hr, _, e⟩ := h1 c hc
        exact ⟨_, isCopy_proper (hpos _).1 (hpos _).2 (hH.2 r hr), e⟩)
      (fun b hb => by
        obtain ⟨o, hmo, _, e⟩ := h2 b hb
        exact ⟨_, isCopy_proper (hpos _).1 (hpos _).2 ((isCopy_iff (hT _)).mpr ((ho o hmo).1.estimate hL hR)), e⟩)
    rcases h3 with ⟨_, h3⟩ | ⟨N, i, j, h3, h4, h5, h6⟩
    · simp only [hM, Option.map_some] at h3; cases h3
    · simp only [hM, Option.map_some] at h3
      cases h3
      obtain ⟨x, hx⟩ := hx i h4 j h5
      exact ⟨x, h6.trans (by
        show some (Option.map _ (M.val i j)) = _
        rw [hx]; rfl)⟩
  · intro w1 _ v hv
    obtain ⟨f, hf, c, _, o, _, _, hv⟩ := hv
    obtain ⟨x, hx⟩ := hreid f hf (c.view w1.heap) (o.view w1.heap)
    exact ⟨x, hv.symm.trans hx⟩

/-- translations take copies to copies -/
theorem translation_copies (T : L → Pts K) (v : List K) :
    KeepsBoth (fun l => ((T l).n, (T l).dim)) (translation v) ∧
    ∀ l p, IsCopy (T l) p → IsCopy (T l) ((translation v).relToAbs p) ∧ IsCopy (T l) ((translation v).absToRel p) := by
  have hk : KeepsBoth (fun l => ((T l).n, (T l).dim)) (translation v) := by
    rintro l p ⟨h1, h2, h3⟩
    exact ⟨⟨h1, h2, by simpa [translation] using h3⟩, h1, h2, by simpa [translation] using h3⟩
  refine ⟨hk, fun l p hp => ?_⟩
  obtain ⟨hs, u, hu⟩ := hp
  have hd : p.dim = (T l).dim := hs.2.1
  have hmod : ∀ {i j}, j < (T l).dim → (i * (T l).dim + j) % p.dim = j := by
    intro i j hj
    rw [hd, Nat.add_comm, Nat.add_mul_mod_self_right, Nat.mod_eq_of_lt hj]
  refine ⟨⟨(hk l p hs).1, fun j => u j - v.getD j 0, fun i hi j hj => ?_⟩,
    ⟨(hk l p hs).2, fun j => u j + v.getD j 0, fun i hi j hj => ?_⟩⟩
  · show (p.data.mapIdx fun k x => x - v.getD (k % p.dim) 0)[i * (T l).dim + j]? = _
    rw [List.getElem?_mapIdx, hu i hi j hj, hmod hj, Option.map_map]
    congr 1
    funext x
    simp only [Function.comp]
    ring
  · show (p.data.mapIdx fun k x => x + v.getD (k % p.dim) 0)[i * (T l).dim + j]? = _
    rw [List.getElem?_mapIdx, hu i hi j hj, hmod hj, Option.map_map]
    congr 1
    funext x
    simp only [Function.comp]
    ring

end

/-! ### Example -/

/-- boxes of size 10 x 20 -/
def heapSized : Ref → Det ℚ Nat Unit
  | 0 => properDet [0, 0, 10, 20]
  | 1 => properDet [3, 1, 13, 21]
  | 2 => properDet [8, 5, 18, 25]
  | _ => { properDet [7, 4, 17, 24] with scores := some [0, 0] }

/-- a new tracker and its states after the calls; the camera moves before the second call -/
def wSized : World ℚ Nat (WithTop ℚ) (OKF ℚ) Unit := ⟨heapSized, 0, 0, 0, []⟩
@[inherit_doc wSized] def wSized1 := (update shrinkCfg wSized (some [0]) 1 none).1
@[inherit_doc wSized] def wSized2 := (update shrinkCfg wSized1 (some [1]) 1 (some (translation [1, 1]))).1

theorem copy_sized (a b c d s t : ℚ) (h1 : c = s + a) (h2 : d = t + b) :
    IsCopy (sizedBox (s, t)) ⟨2, 2, [a, b, c, d]⟩ := by
  refine ⟨⟨rfl, rfl, rfl⟩, fun j => if j = 0 then a else b, fun i hi j hj => ?_⟩
  change i < 2 at hi
  change j < 2 at hj
  subst h1 h2
  match i, hi, j, hj with
  | 0, _, 0, _ => simp [sizedBox]
  | 0, _, 1, _ => simp [sizedBox]
  | 1, _, 0, _ => simp [sizedBox]
  | 1, _, 1, _ => simp [sizedBox]

theorem sized_call {r : Ref} {h : Ref → Det ℚ Nat Unit} {a b c d : ℚ} (e : (h r).absPoints = ⟨2, 2, [a, b, c, d]⟩)
    (e' : (h r).scores = none) (h1 : c = 10 + a) (h2 : d = 20 + b) (ct : Option (CoordTrans ℚ))
    (hct : ct = none ∨ ∃ v, ct = some (translation v)) :
    CallCopies (fun _ => sizedBox (10, 20)) shrinkCfg.detThr [r] ct h := by
  refine ⟨?_, ?_, ?_, ?_⟩
  · intro q hq
    rw [List.mem_singleton.mp hq, e]
    exact copy_sized _ _ _ _ _ _ h1 h2
  · intro q hq s hs
    rw [List.mem_singleton.mp hq, e'] at hs
    cases hs
  · intro c hc
    rcases hct with rfl | ⟨v, rfl⟩
    · cases hc
    · cases hc; exact (translation_copies (fun _ : Nat => sizedBox (10, 20)) v).1
  · intro c hc
    rcases hct with rfl | ⟨v, rfl⟩
    · cases hc
    · cases hc; exact (translation_copies (fun _ : Nat => sizedBox (10, 20)) v).2

theorem sized_reaches : Reaches shrinkCfg (fun _ _ => True)
    (fun dets _ ct w => CallCopies (fun _ => sizedBox (10, 20)) shrinkCfg.detThr (dets.getD []) ct w.heap)
    wSized wSized2 := by
  refine .call (some [1]) 1 (some (translation [1, 1])) (.call (some [0]) 1 none (.refl _) ?_) ?_
  · exact sized_call (a := 0) (b := 0) (c := 10) (d := 20) rfl rfl (by norm_num) (by norm_num) _ (.inl rfl)
  · exact sized_call (a := 3) (b := 1) (c := 13) (d := 21) (h := wSized1.heap) (by decide +kernel) (by decide +kernel)
      (by norm_num) (by norm_num) _ (.inr ⟨_, rfl⟩)

/-- the default filter and `iou`: the object still has the size 10 x 20 after two calls, between them a movement of
the camera; the third call gets through -/
example : (wSized2.objs.map fun o => (o.numPoints, o.hitCounter)) = [(2, 2)] ∧
    (∀ o ∈ wSized2.objs, IsCopy (sizedBox (10, 20)) (o.estimate shrinkCfg.flt)) ∧
    ∃ act, (update shrinkCfg wSized2 (some [2]) 1 none).2 = .ok act := by
  have hR := fun q : List ℚ × ℚ => okf_relations okfDefaults (fun f => OKFValid okfDefaults.R f ∧ f.q = okfDefaults.Q)
    q.1 q.2
  refine ⟨by decide +kernel, fun o ho => ?_, ?_⟩
  · exact (C93_rigid (cfg := shrinkCfg) (T := fun _ => sizedBox (10, 20)) (okfDrift_laws okfDefaults_valid)
      (fun _ => rfl) (fun _ _ _ => rfl) hR (w0 := wSized) ⟨rfl, rfl, rfl⟩ sized_reaches o ho).2
  · refine C91_constant_size_partial (cfg := shrinkCfg) (okfDrift_laws okfDefaults_valid) hR rfl
      (size := fun _ => (10, 20)) (fun _ => ⟨by norm_num, by norm_num⟩) (fun _ _ _ => rfl) (by decide +kernel)
      (by intro f hf; cases hf) (fun h => absurd rfl h) (w0 := wSized) ⟨rfl, rfl, rfl⟩ sized_reaches _ _ _ ?_ ?_
      (Or.inl rfl)
    · exact sized_call (a := 8) (b := 5) (c := 18) (d := 25) (by decide +kernel) (by decide +kernel)
        (by norm_num) (by norm_num) _ (.inl rfl)
    · intro r hr
      rw [List.mem_singleton.mp hr]
      have : (wSized2.heap 2).points = ⟨2, 2, [8, 5, 18, 25]⟩ := by decide +kernel
      rw [this]
      exact copy_sized _ _ _ _ _ _ (by norm_num) (by norm_num)

/-- the state after a call with a box whose corners are not over the threshold, and after another one with a box whose
corners are -/
def wBlind1 := (update shrinkCfg wSized (some [3]) 1 none).1
@[inherit_doc wBlind1] def wBlind2 := (update shrinkCfg wBlind1 (some [2]) 1 none).1

/-- an object that comes from a box that is not seen: it is put to the place of the next box, with its size -/
example : (wBlind1.objs.map fun o => o.once) = [[false, false]] ∧ (wBlind2.objs.map fun o => o.once) = [[true, true]] ∧
    ∀ o ∈ wBlind2.objs, IsCopy (sizedBox (10, 20)) (o.estimate shrinkCfg.flt) := by
  refine ⟨by decide +kernel, by decide +kernel, fun o ho => ?_⟩
  refine (C93_rigid (cfg := shrinkCfg) (T := fun _ => sizedBox (10, 20)) (okfDrift_laws okfDefaults_valid)
    (fun _ => rfl) (fun _ _ _ => rfl) (fun q => okf_relations okfDefaults _ q.1 q.2) (w0 := wSized) ⟨rfl, rfl, rfl⟩
    (w := wBlind2) ?_ o ho).2
  refine .call (some [2]) 1 none (.call (some [3]) 1 none (.refl _) ?_) ?_
  · refine ⟨fun r hr => ?_, fun r hr s hs => ?_, (by intro c hc; cases hc), (by intro c hc; cases hc)⟩
    · rw [List.mem_singleton.mp hr]
      exact copy_sized _ _ _ _ _ _ (by norm_num) (by norm_num)
    · rw [List.mem_singleton.mp hr] at hs
      cases hs
      exact ⟨rfl, .inr (by decide +kernel)⟩
  · exact sized_call (a := 8) (b := 5) (c := 18) (d := 25) (by decide +kernel) (by decide +kernel)
      (by norm_num) (by norm_num) _ (.inl rfl)

/-- boxes twice as high as wide, of different sizes -/
def heapRatio : Ref → Det ℚ Nat Unit
  | 0 => properDet [0, 0, 10, 20]
  | _ => properDet [0, 1, 9, 19]

/-- a new tracker and its states after the calls -/
def wRatio : World ℚ Nat (WithTop ℚ) (OKF ℚ) Unit := ⟨heapRatio, 0, 0, 0, []⟩
@[inherit_doc wRatio] def wRatio1 := (update shrinkCfg wRatio (some [0]) 1 none).1
@[inherit_doc wRatio] def wRatio2 := (update shrinkCfg wRatio1 (some [1]) 1 none).1

/-- the default filter, boxes that are twice as high as wide (the size may change): so is the object -/
example : (wRatio2.objs.map fun o => (o.numPoints, o.hitCounter)) = [(2, 2)] ∧
    ∀ o ∈ wRatio2.objs, linComb [-2, 1, 2, -1] (o.positions shrinkCfg.flt).data = 0 := by
  refine ⟨by decide +kernel, fun o ho => ?_⟩
  refine (C93_relations (cfg := shrinkCfg) (shape := fun _ => (2, 2)) (R := fun _ q => q = ([-2, 1, 2, -1], 0))
    (okfDrift_laws okfDefaults_valid) (fun _ _ _ => ⟨rfl, fun _ => Iff.rfl⟩)
    (fun q => okf_relations okfDefaults _ q.1 q.2) (w0 := wRatio) ⟨rfl, rfl, rfl⟩ (w := wRatio2) ?_ o ho _ rfl).1
  refine .call (some [1]) 1 none (.call (some [0]) 1 none (.refl _) ?_) ?_
  · refine ⟨fun r hr => ?_, fun r hr s hs => ?_, (by intro c hc; cases hc), (by intro c hc; cases hc)⟩
    · rw [List.mem_singleton.mp hr]
      exact ⟨⟨rfl, rfl, rfl⟩, by rintro q rfl; decide +kernel⟩
    · rw [List.mem_singleton.mp hr] at hs; cases hs
  · have e : (wRatio1.heap 1).absPoints = ⟨2, 2, [0, 1, 9, 19]⟩ := by decide +kernel
    have e' : (wRatio1.heap 1).scores = none := by decide +kernel
    refine ⟨fun r hr => ?_, fun r hr s hs => ?_, (by intro c hc; cases hc), (by intro c hc; cases hc)⟩
    · rw [List.mem_singleton.mp hr]
      change HasShape (2, 2) (wRatio1.heap 1).absPoints ∧ Satisfies _ (wRatio1.heap 1).absPoints
      rw [e]
      exact ⟨⟨rfl, rfl, rfl⟩, by rintro q rfl; decide +kernel⟩
    · rw [List.mem_singleton.mp hr] at hs
      change (wRatio1.heap 1).scores = _ at hs
      rw [e'] at hs; cases hs

/-! ### Where the claim is false -/

/-- the second corner of the second box is not over the threshold -/
def heapHalf : Ref → Det ℚ Nat Unit
  | 0 => properDet [0, 0, 10, 20]
  | _ => { properDet [3, 1, 13, 21] with scores := some [1, 0] }

/-- a new tracker -/
def wHalf : World ℚ Nat (WithTop ℚ) (OKF ℚ) Unit := ⟨heapHalf, 0, 0, 0, []⟩

/-- **C93** is false if some points are not seen: both boxes have size 10 x 20, but only one corner of the second
one is over the threshold, and the object becomes smaller. -/
theorem C93_scores_needed :
    (∀ r < 2, IsCopy (sizedBox (10, 20)) (heapHalf r).absPoints) ∧
    ((update shrinkCfg (update shrinkCfg wHalf (some [0]) 1 none).1 (some [1]) 1 none).1.objs.map fun o =>
      linComb [-1, 0, 1, 0] (o.positions shrinkCfg.flt).data) = [1177 / 151] := by
  refine ⟨?_, by decide +kernel⟩
  intro r hr
  match r with
  | 0 => exact copy_sized _ _ _ _ _ _ (by norm_num) (by norm_num)
  | 1 => exact copy_sized _ _ _ _ _ _ (by norm_num) (by norm_num)

end Norfair.Props
