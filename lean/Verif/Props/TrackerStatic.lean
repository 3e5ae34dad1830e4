import Verif.Props.Filters
import Verif.Lemmas.Camera

/-!
Property theorems C34 and C35: objects that do not move, and trackers without a predictive filter.
-/

set_option linter.unusedSectionVars false

namespace Norfair.Props

open Norfair Norfair.Spec Norfair.Toy Matrix

variable {K L D F X : Type}

/-! ### C34: filters at rest -/

/-- the estimate of the filter is at `c` with velocity 0 -/
def AtRest [Zero K] (fo : FilterOps K F) (c : List K) (f : F) : Prop :=
  fo.getX f = c ++ List.replicate (fo.dimZ f) 0

/-- a filter at rest stays at rest when it is predicted or gets its own position, with any mask -/
structure StaticLaws [Zero K] (fo : FilterOps K F) (Ok : F → Prop) : Prop where
  predict : ∀ f c, Ok f → c.length = fo.dimZ f → AtRest fo c f → AtRest fo c (fo.predict f)
  update : ∀ f c mask, Ok f → c.length = fo.dimZ f → mask.length = fo.dimZ f → AtRest fo c f →
    AtRest fo c (fo.update f c mask)

theorem C34_noFilter_static [Ring K] : StaticLaws (noFilterOps (K := K)) NoFilter.Ok where
  predict := fun _ _ _ _ h => h
  update := by
    intro f c mask hok hc hm h
    change c.length = f.dimZ at hc
    change mask.length = f.dimZ at hm
    change f.x = c ++ List.replicate f.dimZ 0 at h
    have hok' := (noFilter_laws (K := K)).update f c mask hok hc hm
    show (f.update c (some (diagOf mask))).x = _
    apply List.ext_getElem?
    intro k
    by_cases hk : k < f.dimZ
    · have := (C33_noFilter hok hc hm hk).1
      change (f.update c (some (diagOf mask))).x[k]? = _ at this
      rw [this, h, List.getElem?_append_left (by omega), List.getElem?_append_left (by omega)]
      simp
    · by_cases hk2 : k < 2 * f.dimZ
      · obtain ⟨j, rfl⟩ : ∃ j, k = f.dimZ + j := ⟨k - f.dimZ, by omega⟩
        have := (C33_noFilter (k := j) hok hc hm (by omega)).2
        change (f.update c (some (diagOf mask))).x[f.dimZ + j]? = _ at this
        rw [this, h]
        rfl
      · have h1 : (f.update c (some (diagOf mask))).x.length = 2 * f.dimZ := hok'.1
        rw [List.getElem?_eq_none (by omega), List.getElem?_eq_none]
        simp only [List.length_append, List.length_replicate]
        show c.length + f.dimZ ≤ k
        omega

theorem getD_split [Zero K] {x c : List K} {d : Nat} (hx : x.length = 2 * d) (hc : c.length = d)
    (hp : ∀ i, i < d → x.getD i 0 = c.getD i 0) (hv : ∀ i, i < d → x.getD (d + i) 0 = 0) :
    x = c ++ List.replicate d 0 := by
  apply List.ext_getElem (by simp [hx, hc]; omega)
  intro k h1 h2
  by_cases hk : k < d
  · have := hp k hk
    rw [List.getElem_append_left (by omega)]
    simpa [List.getElem?_eq_getElem h1, List.getElem?_eq_getElem (show k < c.length by omega)]
      using this
  · obtain ⟨j, rfl⟩ : ∃ j, k = d + j := ⟨k - d, by omega⟩
    have := hv j (by omega)
    rw [List.getElem_append_right (by omega)]
    simpa [List.getElem?_eq_getElem h1] using this

theorem rest_coord [Zero K] {x c : List K} {d : Nat} (hc : c.length = d)
    (h : x = c ++ List.replicate d 0) {i : Nat} (hi : i < d) :
    x.getD i 0 = c.getD i 0 ∧ x.getD (d + i) 0 = 0 := by
  subst h
  constructor
  · rw [getD_append_left (by omega)]
  · rw [getD_append_right (by omega), List.getD_eq_getElem?_getD]
    simp [List.getElem?_replicate, hc, hi]

theorem C34_okf_static [Field K] (pr : OKFParams K) : StaticLaws (okfOps pr) OKF.Ok where
  predict := by
    intro f c hok hc h
    change c.length = f.dimZ at hc
    change f.x = c ++ List.replicate f.dimZ 0 at h
    have hok' : f.predict.Ok := ((okf_laws pr).predict f hok).1
    show f.predict.x = c ++ List.replicate f.dimZ 0
    refine getD_split hok'.x hc (fun i hi => ?_) (fun i hi => ?_)
    · have := congrArg KF2.p (OKF.coord_predict hok hi)
      change f.predict.x.getD i 0 = f.x.getD i 0 + f.x.getD (f.dimZ + i) 0 at this
      rw [this, (rest_coord hc h hi).1, (rest_coord hc h hi).2, add_zero]
    · have := congrArg KF2.v (OKF.coord_predict hok hi)
      change f.predict.x.getD (f.dimZ + i) 0 = f.x.getD (f.dimZ + i) 0 at this
      rw [this, (rest_coord hc h hi).2]
  update := by
    intro f c mask hok hc hm h
    change c.length = f.dimZ at hc
    change mask.length = f.dimZ at hm
    change f.x = c ++ List.replicate f.dimZ 0 at h
    have hok' : (f.update c none (some (diagOf mask))).Ok :=
      ((okf_laws pr).update f c mask hok hc hm).1
    show (f.update c none (some (diagOf mask))).x = c ++ List.replicate f.dimZ 0
    refine getD_split hok'.x hc (fun i hi => ?_) (fun i hi => ?_)
    all_goals
      have hcoord := OKF.coord_update (R := none) (H := some (diagOf mask)) hok hc
        (by intro r e; cases e) (by intro r e; cases e; simpa using hm) hi
      have hp : (f.coord i).p = c.getD i 0 := (rest_coord hc h hi).1
      have hv : (f.coord i).v = 0 := (rest_coord hc h hi).2
    · have := congrArg KF2.p hcoord
      change (f.update c none (some (diagOf mask))).x.getD i 0 = _ at this
      rw [this]
      simp only [okfStep, hp, sub_self, zero_mul, mul_zero, add_zero]
    · have := congrArg KF2.v hcoord
      change (f.update c none (some (diagOf mask))).x.getD (f.dimZ + i) 0 = _ at this
      rw [this]
      simp only [okfStep, hp, hv, sub_self, zero_mul, mul_zero, add_zero]

theorem list_atRest [Zero K] {d : Nat} {x : SIdx d → K} {c : List K} (hc : c.length = d) :
    FPKalman.list x = c ++ List.replicate d 0 ↔
      ∀ i : Fin d, x (.inl i) = c.getD i 0 ∧ x (.inr i) = 0 := by
  constructor
  · intro h i
    have h1 := FPKalman.list_pos x i
    have h2 := FPKalman.list_vel x i
    rw [h, List.getElem?_append_left (by omega)] at h1
    rw [h, List.getElem?_append_right (by omega)] at h2
    constructor
    · simp [h1]
    · rw [hc, Nat.add_sub_cancel_left, List.getElem?_replicate, if_pos i.2] at h2
      exact (Option.some.inj h2).symm
  · intro h
    refine getD_split (FPKalman.list_length x) hc (fun i hi => ?_) (fun i hi => ?_)
    · have := FPKalman.list_pos x ⟨i, hi⟩
      simp only at this
      rw [List.getD_eq_getElem?_getD, this]
      exact (h ⟨i, hi⟩).1
    · have := FPKalman.list_vel x ⟨i, hi⟩
      simp only at this
      rw [List.getD_eq_getElem?_getD, this]
      exact (h ⟨i, hi⟩).2

theorem C34_filterPy_static [Field K] [LinearOrder K] [IsStrictOrderedRing K] (pr : FPParams K) :
    StaticLaws (filterPyOps pr) (fun f => f.2.Good) where
  predict := by
    rintro ⟨d, f⟩ c hok hc h
    change c.length = d at hc
    change FPKalman.list f.x = c ++ List.replicate d 0 at h
    show FPKalman.list f.predict.x = c ++ List.replicate d 0
    rw [list_atRest hc] at h ⊢
    have e : f.predict.x = Sum.elim (f.x ∘ Sum.inl + f.x ∘ Sum.inr) (f.x ∘ Sum.inr) := by
      show f.F *ᵥ f.x = _
      rw [show f.F = cvF K d from hok.F, cvF, ← Sum.elim_comp_inl_inr f.x, fromBlocks_mulVec]
      simp
    intro i
    rw [e]
    simp [(h i).1, (h i).2]
  update := by
    rintro ⟨d, f⟩ c mask hok hc hm h
    change c.length = d at hc
    change FPKalman.list f.x = c ++ List.replicate d 0 at h
    show FPKalman.list (f.update (fun i => c.getD i 0) none (some (hitH K d mask))).x =
      c ++ List.replicate d 0
    rw [list_atRest hc] at h ⊢
    obtain ⟨s, hpsd, hg⟩ := hok.s
    obtain ⟨r, hr, hR⟩ := hok.R
    have S0 := splits_iff.mpr hg
    have S := C33_filterPy hok S0 hR (z := c) (mask := mask)
    intro i
    have h1 : (s i).p = c.getD i 0 := (S0.pos i).symm.trans (h i).1
    have h2 : (s i).v = 0 := (S0.vel i).symm.trans (h i).2
    have S1 := S.pos i
    have S2 := S.vel i
    simp only at S1 S2
    rw [S1, S2]
    cases mask.getD i false <;> simp [KF2.update, h1, h2]

/-! ### C34: objects that do not move -/

section
variable [LinearOrder K] [Zero K] [LinearOrder D] [OrderTop D] [Zero D] [DecidableEq L]

theorem maskAssign_same (m : List Bool) (a : List K) : maskAssign m a a = a := by
  apply List.ext_getElem?
  intro k
  rw [maskAssign_get _ _ _ le_rfl]
  simp

/-- a hit with the position at which the object is at rest -/
theorem SensorsOk.rest_static {cfg : Cfg K L D F X} {Ok : F → Prop} (hL : FilterLaws cfg.flt Ok)
    (hS : StaticLaws cfg.flt Ok) {d : Det K L X} {period : Int} {o o' : Obj K L D F}
    (h : SensorsOk cfg d period o o') (hok : Ok o.filter) {c : List K} (hd : d.absPoints.data = c)
    (hr : AtRest cfg.flt c o.filter) : AtRest cfg.flt c o'.filter := by
  subst hd
  have hzl := h.zLen.trans h.dimZ.symm
  have hml : (repeatMask o.dimPoints (overThreshold cfg.detThr o.numPoints d)).length =
      cfg.flt.dimZ o.filter := by
    rw [repeatMask_length, h.maskLen, h.dimZ]; rfl
  have h1 := hS.update o.filter d.absPoints.data _ hok hzl hml hr
  obtain ⟨hf, hfz⟩ := hL.update o.filter d.absPoints.data _ hok hzl hml
  have hfilter := h.filter
  simp only [firstDetectionFix] at hfilter
  rw [hfilter]
  have hx : cfg.flt.getX (cfg.flt.update o.filter d.absPoints.data
      (repeatMask o.dimPoints (overThreshold cfg.detThr o.numPoints d))) =
      d.absPoints.data ++ List.replicate o.dimZ 0 := by
    rw [h1, hfz, h.dimZ]
  have hdz : Obj.dimZ { o with filter := (cfg.flt.update o.filter d.absPoints.data
      (repeatMask o.dimPoints (overThreshold cfg.detThr o.numPoints d))) } = o.dimZ := rfl
  rw [hdz, hx, List.take_left' h.zLen, List.drop_left' h.zLen, maskAssign_same, maskAssign_same]
  obtain ⟨_, g2, g3⟩ := hL.setX _ (d.absPoints.data ++ List.replicate o.dimZ 0) hf (by
    rw [List.length_append, List.length_replicate, h.zLen, hfz, h.dimZ]; omega)
  unfold AtRest
  rw [g3, g2, hfz, h.dimZ]

/-- **C34** (birth) an object created by a successful call is at the (absolute) position of its detection
and its velocity is 0. -/
theorem C34_born_at_rest {cfg : Cfg K L D F X} {Ok : F → Prop} (hL : FilterLaws cfg.flt Ok)
    {shape : L → Nat × Nat} {w w' : World K L D F X} (hw : Reachable cfg w)
    {dets : Option (List Ref)} {period : Int} {ct : Option (CoordTrans K)} {act : List (Obj K L D F)}
    (h : update cfg w dets period ct = (w', .ok act))
    (hcall : CallOk shape (dets.getD []) ct w.heap) {o : Obj K L D F} (ho : o ∈ w'.objs)
    (hnew : o.initId ∉ w.keys) :
    o.lastDet ∈ dets.getD [] ∧
    (o.positions cfg.flt).data = (w'.heap o.lastDet).absPoints.data ∧
    (o.velocity cfg.flt).data = List.replicate o.dimZ 0 ∧
    AtRest cfg.flt (w'.heap o.lastDet).absPoints.data o.filter := by
  obtain ⟨w0, h0, hr⟩ := hw
  have hI := (hr.inv (Inv.initial h0)).1
  obtain ⟨_, _, hits, merges, news, S⟩ := update_ok hI.nodup h
  obtain ⟨r, hrm, wi, e, hag⟩ := update_obj_new hI h ho hnew
  obtain ⟨g, hg⟩ := newObj_fields cfg wi r period ct
  rw [hg] at e
  have e1 : o.lastDet = r := by rw [e]; rfl
  have e2 : (wi.heap r).absPoints = (w'.heap r).absPoints :=
    (hag.pts r).2.trans (S.heap.pts r).2.symm
  have hsh : CallOk shape (dets.getD []) ct (startHeap w dets ct) := by
    cases ct with
    | none => cases dets <;> exact hcall
    | some c =>
      cases dets with
      | none => exact hcall
      | some l =>
        have key : ∀ (l' : List Ref) (h : Ref → Det K L X), CallOk shape l (some c) h →
            CallOk shape l (some c) (l'.foldl (transformDet c) h) := by
          intro l'
          induction l' with
          | nil => exact fun _ h => h
          | cons q l' ih => exact fun h hc => ih _ (callOk_transform rfl q hc)
        exact key l w.heap hcall
  have hdl : (wi.heap r).absPoints.data.length = (wi.heap r).absPoints.dim * (wi.heap r).absPoints.n := by
    rw [(hag.pts r).2]; exact (hsh.2 r hrm).2.2.1
  obtain ⟨c1, c2, c3⟩ := hL.create (wi.heap r).absPoints hdl
  have e3 : o.filter = cfg.flt.create (wi.heap r).absPoints := by rw [e]; rfl
  have e4 : o.dimZ = (wi.heap r).absPoints.dim * (wi.heap r).absPoints.n := by rw [e]; rfl
  refine ⟨by rw [e1]; exact hrm, ?_, ?_, ?_⟩
  · simp only [Obj.positions, e3, c3, e1, e4]
    rw [List.take_left' hdl, e2]
  · simp only [Obj.velocity, e3, c3, e4]
    rw [List.drop_left' hdl]
  · unfold AtRest
    rw [e3, c3, c2, e1, e2]

/-- the object `k` gets only detections at the absolute position `c` in this call -/
def OnlyAt (k : Nat) (c : List K) (f : Frame K L D F X) : Prop :=
  ∀ o ∈ f.after.objs, o.initId = k → o.lastDet ∈ given f →
    (f.after.heap o.lastDet).absPoints.data = c

/-- **C34** A static object is estimated exactly: if an object is at rest at `c` (as it is when it is
created, `C34_born_at_rest`) and all detections it gets in the following calls are at `c`, then after
any number of calls, matched or not, with any points over the threshold, its estimate is exactly `c`
and its velocity exactly 0. For every filter that obeys the laws, in particular for `NoFilter`,
`OptimizedKalmanFilter` and the filters of `FilterPyKalmanFilterFactory`. -/
theorem C34_static {cfg : Cfg K L D F X} {Ok : F → Prop} (hL : FilterLaws cfg.flt Ok)
    (hSt : StaticLaws cfg.flt Ok) (hre : cfg.reid = none) {shape : L → Nat × Nat}
    (hs : ∀ a b, Compat cfg a b → shape a = shape b) {w0 w w' : World K L D F X} (h0 : w0.Initial)
    (hr : Reaches cfg (fun _ _ => True) (fun dets _ ct w => CallOk shape (dets.getD []) ct w.heap) w0 w)
    {o o' : Obj K L D F} (ho : o ∈ w.objs) {c : List K} (hrest : AtRest cfg.flt c o.filter)
    {fs : List (Frame K L D F X)} (ht : Trace cfg w fs w')
    (hfs : ∀ f ∈ fs, Succeeds f ∧ CallOk shape (given f) f.ct f.before.heap ∧ OnlyAt o.initId c f)
    (ho' : o' ∈ w'.objs) (hk : o'.initId = o.initId) :
    (o'.positions cfg.flt).data = c ∧ (o'.velocity cfg.flt).data = List.replicate o'.dimZ 0 := by
  have hI := (hr.inv (Inv.initial h0)).1
  have hP0 := WfReaches.pointsOk hL hs h0 hr o ho
  have hlen : c.length = o.dimZ := by
    have h1 := hL.len _ hP0.ok
    rw [hrest, List.length_append, List.length_replicate, hP0.dimZ] at h1
    omega
  suffices hsuff : AtRest cfg.flt c o'.filter ∧ o'.dimZ = o.dimZ ∧
      Reaches cfg (fun _ _ => True) (fun dets _ ct w => CallOk shape (dets.getD []) ct w.heap) w0 w' by
    obtain ⟨a1, a2, a3⟩ := hsuff
    have hP := WfReaches.pointsOk hL hs h0 a3 o' ho'
    unfold AtRest at a1
    rw [hP.dimZ] at a1
    simp only [Obj.positions, Obj.velocity, a1]
    rw [List.take_left' (hlen.trans a2.symm), List.drop_left' (hlen.trans a2.symm)]
    exact ⟨rfl, rfl⟩
  induction ht generalizing o' with
  | nil =>
    have : o' = o := World.eq_of_mem_of_key hI.nodup ho' ho hk
    subst this
    exact ⟨hrest, rfl, hr⟩
  | env heap g _ he ih =>
    obtain ⟨a1, a2, a3⟩ := ih hfs ho' hk
    exact ⟨a1, a2, .env heap g a3 he trivial⟩
  | @call fs w2 dets period ct ht ih =>
    have hev := ht.reaches.inv hI
    have hle : o'.initId ≤ w2.initCount := by
      rw [hk]; exact (hI.bounded o ho).2.trans hev.2.initCount
    obtain ⟨o1, ho1, hk1, _, hn1, hd1⟩ := obj_before hev.1 rfl ho' hle
    obtain ⟨a1, a2, a3⟩ := ih (fun f hf => hfs f (List.mem_append_left _ hf)) ho1 (hk1.trans hk)
    obtain ⟨⟨act, hact⟩, hcall, honly⟩ :=
      hfs _ (List.mem_append_right _ (List.mem_singleton.mpr rfl))
    have hup : update cfg w2 dets period ct = ((update cfg w2 dets period ct).1, .ok act) :=
      Prod.ext rfl hact
    have hdz : o'.dimZ = o1.dimZ := by unfold Obj.dimZ; rw [hn1, hd1]
    refine ⟨?_, hdz.trans a2, .call _ _ _ a3 hcall⟩
    have hP1 := WfReaches.pointsOk hL hs h0 a3 o1 ho1
    have hlen1 : c.length = cfg.flt.dimZ o1.filter := by rw [hP1.dimZ, a2]; exact hlen
    have hpred := hSt.predict o1.filter c hP1.ok hlen1 a1
    rcases update_points hev.1 hup ho1 ho' hk1 (Or.inl hre) hP1.hits with ⟨v, rfl⟩ |
      ⟨r, hrm, hlast, d, hds, _, hda, _, p, o'', hP, hS, g1, g2, g3, g4, _⟩
    · show AtRest cfg.flt c (stepped cfg ct o1).filter
      rw [(stepped_points cfg ct o1).filter]
      exact hpred
    · rw [g3]
      obtain ⟨_, _, hits, merges, news, S⟩ := update_ok hev.1.nodup hup
      refine SensorsOk.rest_static hL hSt hS (by rw [hP.filter]; exact (hL.predict _ hP1.ok).1) ?_
        (by rw [hP.filter]; exact hpred)
      rw [hda, ← (S.heap.pts r).2, ← hlast]
      exact honly o' ho' hk (by rw [hlast]; exact hrm)

end

/-! ### C35: trackers without a predictive filter -/

/-- a filter that only remembers: predictions change nothing, an update replaces the observed
coordinates by the measurement and changes nothing else -/
structure HoldLaws (fo : FilterOps K F) (Ok : F → Prop) : Prop where
  predict : ∀ f, Ok f → fo.getX (fo.predict f) = fo.getX f
  update : ∀ f z mask, Ok f → z.length = fo.dimZ f → mask.length = fo.dimZ f → ∀ k, k < fo.dimZ f →
    (fo.getX (fo.update f z mask))[k]? =
      (if mask[k]? = some true then z[k]? else (fo.getX f)[k]?) ∧
    (fo.getX (fo.update f z mask))[fo.dimZ f + k]? = (fo.getX f)[fo.dimZ f + k]?

/-- `NoFilter` only remembers -/
theorem C35_noFilter_holds [Ring K] : HoldLaws (noFilterOps (K := K)) NoFilter.Ok where
  predict := fun _ _ => rfl
  update := fun _ _ _ hok hz hm _ hk => C33_noFilter hok hz hm hk

section
variable [LinearOrder K] [Zero K] [LinearOrder D] [OrderTop D] [Zero D] [DecidableEq L]

/-- all velocities are zero -/
def Still (fo : FilterOps K F) (o : Obj K L D F) : Prop :=
  ∀ i j, i < o.numPoints → j < o.dimPoints →
    (fo.getX o.filter)[o.dimZ + (i * o.dimPoints + j)]? = some 0

theorem flat_lt {i j n dim : Nat} (hi : i < n) (hj : j < dim) : i * dim + j < dim * n := by
  calc i * dim + j < (i + 1) * dim := by rw [Nat.add_mul]; omega
    _ ≤ n * dim := Nat.mul_le_mul_right _ hi
    _ = _ := Nat.mul_comm _ _

theorem Still.sensors {cfg : Cfg K L D F X} {Ok : F → Prop} (hL : FilterLaws cfg.flt Ok)
    (hH : HoldLaws cfg.flt Ok) {d : Det K L X} {period : Int} {o o' : Obj K L D F}
    (hok : Ok o.filter) (ho : Still cfg.flt o) (hS : SensorsOk cfg d period o o') :
    Still cfg.flt o' := by
  obtain ⟨_, _, _, h3⟩ := hS.coords hL hok
  have hr := hS.rest
  have e1 : o'.numPoints = o.numPoints := by rw [hr]
  have e2 : o'.dimPoints = o.dimPoints := by rw [hr]
  have e4 : o'.dimZ = o.dimZ := by unfold Obj.dimZ; rw [e1, e2]
  intro i j hi hj
  rw [e1] at hi
  rw [e2] at hj ⊢
  rw [e4]
  have hio : i < o.once.length := by rw [hS.onceLen]; exact hi
  cases hb : o.once[i] with
  | false =>
    exact (h3 i j hi hj).2.2.1 (by rw [List.getElem?_eq_getElem hio, hb])
  | true =>
    rw [(h3 i j hi hj).2.2.2 (by rw [List.getElem?_eq_getElem hio, hb])]
    have := (hH.update o.filter d.absPoints.data
      (repeatMask o.dimPoints (overThreshold cfg.detThr o.numPoints d)) hok
      (hS.zLen.trans hS.dimZ.symm) (by rw [repeatMask_length, hS.maskLen, hS.dimZ]; rfl)
      (i * o.dimPoints + j) (by rw [hS.dimZ]; exact flat_lt hi hj)).2
    rw [hS.dimZ] at this
    rw [this]
    exact ho i j hi hj

theorem still_inv {cfg : Cfg K L D F X} {Ok : F → Prop} (hL : FilterLaws cfg.flt Ok)
    (hH : HoldLaws cfg.flt Ok)
    {shape : L → Nat × Nat} (hs : ∀ a b, Compat cfg a b → shape a = shape b)
    (dets : List Ref) (period : Int) (ct : Option (CoordTrans K)) :
    ObjInv cfg dets period ct (CallOk shape dets ct)
      (fun _ o => PointsOk cfg.flt Ok shape o ∧ Still cfg.flt o) where
  heapAges := fun _ _ ha hc => callOk_ages ha hc
  heapTransform := fun _ _ r hct _ hc => callOk_transform hct r hc
  ages := fun _ _ _ _ h => h
  transform := fun _ _ _ _ _ _ h => h
  step := by
    intro h o hc hq
    refine ⟨(pointsOk_inv hL hs dets period ct).step h o hc hq.1, ?_⟩
    obtain ⟨g, e⟩ := updateCT_fields ct (o.trackerStep cfg)
    rw [e]
    intro i j hi hj
    show (cfg.flt.getX (cfg.flt.predict o.filter))[o.dimZ + (i * o.dimPoints + j)]? = _
    rw [hH.predict _ hq.1.ok]
    exact hq.2 i j hi hj
  setMin := fun h o v hc hq => ⟨(pointsOk_inv hL hs dets period ct).setMin h o v hc hq.1, hq.2⟩
  hit := by
    intro h g c o r d hH' hr hc hd hq he
    refine ⟨(pointsOk_inv hL hs dets period ct).hit h g c o r d hH' hr hc hd hq.1 he, ?_⟩
    obtain ⟨x1, x2, x3, x4, x5, x6, hS⟩ := hitObj_sensors hq.1.hits he
    have := Still.sensors hL hH (o := { o with
      past := x1, lastDet := x2, hitCounter := x3, isInit := x4, id := x5, globalId := x6 })
      hq.1.ok hq.2 hS
    exact this
  hitErr := by
    intro h g c o r hH hr hc hq he
    rcases hitObj_noShape (g := g) (c := c) (period := period) hq.1 (hH.2 r hr) (hs _ _ hc) with
      e | ⟨_, e⟩
    · exact absurd e he
    · rw [e]; exact hq
  merge := by
    intro h o c hre hl hq hc
    refine ⟨(pointsOk_inv hL hs dets period ct).merge h o c hre hl hq.1 hc.1, ?_⟩
    have e1 : c.numPoints = o.numPoints := by rw [hc.1.n, hq.1.n, hl]
    have e2 : c.dimPoints = o.dimPoints := by rw [hc.1.dim, hq.1.dim, hl]
    have e3 : c.dimZ = o.dimZ := by unfold Obj.dimZ; rw [e1, e2]
    intro i j hi hj
    have := hc.2 i j (by rw [e1]; exact hi) (by rw [e2]; exact hj)
    rw [e2, e3] at this
    exact this
  create := by
    intro w r hH' hr
    refine ⟨(pointsOk_inv hL hs dets period ct).create w r hH' hr, ?_⟩
    obtain ⟨g, hg⟩ := newObj_fields cfg w r period ct
    rw [hg]
    obtain ⟨d1, d2, d3, d4⟩ := hH'.2 r hr
    obtain ⟨c1, c2, c3⟩ := hL.create (w.heap r).absPoints d3
    intro i j hi hj
    change i < (w.heap r).absPoints.n at hi
    change j < (w.heap r).absPoints.dim at hj
    show (cfg.flt.getX (cfg.flt.create (w.heap r).absPoints))[
      (w.heap r).absPoints.dim * (w.heap r).absPoints.n + (i * (w.heap r).absPoints.dim + j)]? = _
    rw [c3, List.getElem?_append_right (by omega), d3, Nat.add_sub_cancel_left,
      List.getElem?_replicate, if_pos (flat_lt hi hj)]

/-- **C35** (velocity) With a filter that only remembers (`NoFilter`), the velocity of every point of
every object is 0, in every history with well-formed detections, ReID and failed calls included. -/
theorem C35_velocity {cfg : Cfg K L D F X} {Ok : F → Prop} (hL : FilterLaws cfg.flt Ok)
    (hH : HoldLaws cfg.flt Ok) {shape : L → Nat × Nat}
    (hs : ∀ a b, Compat cfg a b → shape a = shape b) {w0 w : World K L D F X} (h0 : w0.Initial)
    (hr : Reaches cfg (fun _ _ => True) (fun dets _ ct w => CallOk shape (dets.getD []) ct w.heap) w0 w)
    {o : Obj K L D F} (ho : o ∈ w.objs) {i j : Nat} (hi : i < o.numPoints) (hj : j < o.dimPoints) :
    (o.velocity cfg.flt).data[i * o.dimPoints + j]? = some 0 := by
  simp only [Obj.velocity, List.getElem?_drop]
  exact (Reaches.objInv hr (Inv.initial h0) (fun dets period ct _ hc =>
    ⟨_, hc, still_inv hL hH hs (dets.getD []) period ct⟩) (fun _ _ _ _ _ h => h) (by rw [h0.1]; simp)
    o ho).2 i j hi hj

/-- one call: a point over the threshold goes to the detected position and is marked as detected -/
theorem hold_seen {cfg : Cfg K L D F X} {Ok : F → Prop} (hL : FilterLaws cfg.flt Ok)
    (hH : HoldLaws cfg.flt Ok) {d : Det K L X} {period : Int} {o o' : Obj K L D F}
    (hok : Ok o.filter) (hS : SensorsOk cfg d period o o') {i j : Nat} (hi : i < o.numPoints)
    (hj : j < o.dimPoints) (hseen : Seen cfg.detThr d i) :
    (cfg.flt.getX o'.filter)[i * o.dimPoints + j]? = d.absPoints.data[i * o.dimPoints + j]? ∧
    o'.once[i]? = some true := by
  refine ⟨?_, (hS.once i hi).mpr (Or.inr hseen)⟩
  obtain ⟨_, _, _, h3⟩ := hS.coords hL hok
  by_cases hsn : Snapped cfg.detThr o d (i * o.dimPoints + j)
  · exact (h3 i j hi hj).1 hsn
  · rw [(h3 i j hi hj).2.1 hsn]
    rw [(hH.update o.filter d.absPoints.data
      (repeatMask o.dimPoints (overThreshold cfg.detThr o.numPoints d)) hok
      (hS.zLen.trans hS.dimZ.symm) (by rw [repeatMask_length, hS.maskLen, hS.dimZ]; rfl)
      (i * o.dimPoints + j) (by rw [hS.dimZ]; exact flat_lt hi hj)).1, if_pos]
    rw [repeatMask_get _ _ _ _ hj]
    exact (overThreshold_get cfg.detThr o.numPoints d i hi).mpr hseen

/-- one call: a point that is not over the threshold stays, if it was detected before or is the only
point -/
theorem hold_unseen {cfg : Cfg K L D F X} {Ok : F → Prop} (hL : FilterLaws cfg.flt Ok)
    (hH : HoldLaws cfg.flt Ok) {d : Det K L X} {period : Int} {o o' : Obj K L D F}
    (hok : Ok o.filter) (hS : SensorsOk cfg d period o o') {i j : Nat} (hi : i < o.numPoints)
    (hj : j < o.dimPoints) (hun : ¬ Seen cfg.detThr d i)
    (hcase : o.once[i]? = some true ∨ o.numPoints = 1) :
    (cfg.flt.getX o'.filter)[i * o.dimPoints + j]? = (cfg.flt.getX o.filter)[i * o.dimPoints + j]? ∧
    (o.once[i]? = some true → o'.once[i]? = some true) := by
  refine ⟨?_, fun h => (hS.once i hi).mpr (Or.inl h)⟩
  obtain ⟨_, _, _, h3⟩ := hS.coords hL hok
  have hnosnap : ¬ Snapped cfg.detThr o d (i * o.dimPoints + j) := by
    rintro ⟨h1, h2⟩
    rw [show (i * o.dimPoints + j) / o.dimPoints = i by
      rw [Nat.add_comm, Nat.add_mul_div_right _ _ (by omega), Nat.div_eq_of_lt hj, Nat.zero_add]] at h2
    rcases hcase with hcase | hcase
    · rw [hcase] at h2; cases h2
    · rw [hcase, Nat.mod_one] at h1
      have : i = 0 := by omega
      rw [this] at hun
      exact hun h1
  rw [(h3 i j hi hj).2.1 hnosnap]
  rw [(hH.update o.filter d.absPoints.data
    (repeatMask o.dimPoints (overThreshold cfg.detThr o.numPoints d)) hok
    (hS.zLen.trans hS.dimZ.symm) (by rw [repeatMask_length, hS.maskLen, hS.dimZ]; rfl)
    (i * o.dimPoints + j) (by rw [hS.dimZ]; exact flat_lt hi hj)).1, if_neg]
  rw [repeatMask_get _ _ _ _ hj]
  exact fun h => hun ((overThreshold_get cfg.detThr o.numPoints d i hi).mp h)

/-- the position of point `i` in coordinate `j` stays as long as the point is not seen -/
theorem hold_trace {cfg : Cfg K L D F X} {Ok : F → Prop} (hL : FilterLaws cfg.flt Ok)
    (hH : HoldLaws cfg.flt Ok) (hre : cfg.reid = none) {shape : L → Nat × Nat}
    (hs : ∀ a b, Compat cfg a b → shape a = shape b) {w0 w w' : World K L D F X} (h0 : w0.Initial)
    (hr : Reaches cfg (fun _ _ => True) (fun dets _ ct w => CallOk shape (dets.getD []) ct w.heap) w0 w)
    {o o' : Obj K L D F} (ho : o ∈ w.objs) {i j : Nat} (hi : i < o.numPoints) (hj : j < o.dimPoints)
    (hcase : o.once[i]? = some true ∨ o.numPoints = 1)
    {fs : List (Frame K L D F X)} (ht : Trace cfg w fs w')
    (hfs : ∀ f ∈ fs, Succeeds f ∧ CallOk shape (given f) f.ct f.before.heap ∧
      ¬ PointSeen cfg o.initId i f)
    (ho' : o' ∈ w'.objs) (hk : o'.initId = o.initId) :
    (o'.positions cfg.flt).data[i * o.dimPoints + j]? =
      (o.positions cfg.flt).data[i * o.dimPoints + j]? := by
  have hI := (hr.inv (Inv.initial h0)).1
  suffices hsuff : (cfg.flt.getX o'.filter)[i * o.dimPoints + j]? =
        (cfg.flt.getX o.filter)[i * o.dimPoints + j]? ∧
      (o'.once[i]? = some true ∨ o'.numPoints = 1) ∧ o'.numPoints = o.numPoints ∧
      o'.dimPoints = o.dimPoints ∧
      Reaches cfg (fun _ _ => True)
        (fun dets _ ct w => CallOk shape (dets.getD []) ct w.heap) w0 w' by
    obtain ⟨a1, _, a2, a3, _⟩ := hsuff
    have hlt : i * o.dimPoints + j < o.dimZ := flat_lt hi hj
    have hdz : o'.dimZ = o.dimZ := by unfold Obj.dimZ; rw [a2, a3]
    simp only [Obj.positions, hdz, List.getElem?_take_of_lt hlt]
    exact a1
  induction ht generalizing o' with
  | nil =>
    have : o' = o := World.eq_of_mem_of_key hI.nodup ho' ho hk
    subst this
    exact ⟨rfl, hcase, rfl, rfl, hr⟩
  | env heap g _ he ih =>
    obtain ⟨a1, a2, a3, a4, a5⟩ := ih hfs ho' hk
    exact ⟨a1, a2, a3, a4, .env heap g a5 he trivial⟩
  | @call fs w2 dets period ct ht ih =>
    have hev := ht.reaches.inv hI
    have hle : o'.initId ≤ w2.initCount := by
      rw [hk]; exact (hI.bounded o ho).2.trans hev.2.initCount
    obtain ⟨o1, ho1, hk1, hpw1, hn1, hd1⟩ := obj_before hev.1 rfl ho' hle
    obtain ⟨a1, a2, a3, a4, a5⟩ :=
      ih (fun f hf => hfs f (List.mem_append_left _ hf)) ho1 (hk1.trans hk)
    obtain ⟨⟨act, hact⟩, hcall, hns⟩ :=
      hfs _ (List.mem_append_right _ (List.mem_singleton.mpr rfl))
    have hup : update cfg w2 dets period ct = ((update cfg w2 dets period ct).1, .ok act) :=
      Prod.ext rfl hact
    have hP1 := WfReaches.pointsOk hL hs h0 a5 o1 ho1
    have hgoal : (cfg.flt.getX o'.filter)[i * o.dimPoints + j]? =
        (cfg.flt.getX o1.filter)[i * o.dimPoints + j]? ∧
        (o1.once[i]? = some true → o'.once[i]? = some true) := by
      rcases update_points hev.1 hup ho1 ho' hk1 (Or.inl hre) hP1.hits with ⟨v, rfl⟩ |
        ⟨r, hrm, rfl, d, hds, _, _, _, p, o'', hP, hS, g1, g2, g3, g4, _⟩
      · have hsp := stepped_points cfg ct o1
        refine ⟨?_, fun h => ?_⟩
        · show (cfg.flt.getX (stepped cfg ct o1).filter)[_]? = _
          rw [hsp.filter, hH.predict _ hP1.ok]
        · show (stepped cfg ct o1).once[i]? = _
          rw [hsp.once]; exact h
      · have hokp : Ok p.filter := by rw [hP.filter]; exact (hL.predict _ hP1.ok).1
        have hx := hold_unseen hL hH (i := i) (j := j) hokp hS (by rw [hP.numPoints, a3]; exact hi)
          (by rw [hP.dimPoints, a4]; exact hj)
          (fun hsn => hns ⟨o', ho', hk, hrm, (seen_congr hds i).mp hsn⟩)
          (by rw [hP.once, hP.numPoints]; exact a2)
        rw [hP.dimPoints, hP.filter, hH.predict _ hP1.ok, a4, hP.once] at hx
        rw [g3, g2]
        exact hx
    refine ⟨hgoal.1.trans a1, ?_, hn1.trans a3, hd1.trans a4, .call _ _ _ a5 hcall⟩
    rcases a2 with a2 | a2
    · exact Or.inl (hgoal.2 a2)
    · exact Or.inr (hn1.trans a2)

/-- **C35** (last detected position) Without ReID: let the object get, in the call from `w` to `w1`, a
detection in which its point `i` is over the threshold, and let the point not be over the threshold in
any detection that the object gets in the following calls. Then the estimate of the point afterwards is
its position in that detection (in absolute coordinates). -/
theorem C35_last_seen {cfg : Cfg K L D F X} {Ok : F → Prop} (hL : FilterLaws cfg.flt Ok)
    (hH : HoldLaws cfg.flt Ok) (hre : cfg.reid = none) {shape : L → Nat × Nat}
    (hs : ∀ a b, Compat cfg a b → shape a = shape b) {w0 w w1 w' : World K L D F X} (h0 : w0.Initial)
    (hr : Reaches cfg (fun _ _ => True) (fun dets _ ct w => CallOk shape (dets.getD []) ct w.heap) w0 w)
    {dets : Option (List Ref)} {period : Int} {ct : Option (CoordTrans K)}
    {act : List (Obj K L D F)} (h : update cfg w dets period ct = (w1, .ok act))
    (hcall : CallOk shape (dets.getD []) ct w.heap) {o o1 o' : Obj K L D F}
    (ho : o ∈ w.objs) (ho1 : o1 ∈ w1.objs) (hk1 : o.initId = o1.initId)
    (hfresh : o.lastDet ∉ dets.getD []) (hm : o1.lastDet ∈ dets.getD [])
    {i j : Nat} (hi : i < o.numPoints) (hj : j < o.dimPoints)
    (hseen : Seen cfg.detThr (w.heap o1.lastDet) i)
    {fs : List (Frame K L D F X)} (ht : Trace cfg w1 fs w')
    (hfs : ∀ f ∈ fs, Succeeds f ∧ CallOk shape (given f) f.ct f.before.heap ∧
      ¬ PointSeen cfg o.initId i f)
    (ho' : o' ∈ w'.objs) (hk : o'.initId = o.initId) :
    (o'.positions cfg.flt).data[i * o.dimPoints + j]? =
      (w1.heap o1.lastDet).absPoints.data[i * o.dimPoints + j]? := by
  have hI := (hr.inv (Inv.initial h0)).1
  have hr1 : Reaches cfg (fun _ _ => True)
      (fun dets _ ct w => CallOk shape (dets.getD []) ct w.heap) w0 w1 := by
    have := Reaches.call dets period ct hr hcall
    rwa [h] at this
  have hP0 := WfReaches.pointsOk hL hs h0 hr o ho
  obtain ⟨_, _, hits, merges, news, S⟩ := update_ok hI.nodup h
  rcases update_points hI h ho ho1 hk1 (Or.inl hre) hP0.hits with ⟨v, rfl⟩ |
    ⟨r, hrm, rfl, d, hds, _, hda, _, p, o'', hP, hS, g1, g2, g3, g4, g5, _⟩
  · exact absurd hm (by simpa using hfresh)
  · have hokp : Ok p.filter := by rw [hP.filter]; exact (hL.predict _ hP0.ok).1
    have hx := hold_seen hL hH (i := i) (j := j) hokp hS (by rw [hP.numPoints]; exact hi)
      (by rw [hP.dimPoints]; exact hj) ((seen_congr hds i).mpr hseen)
    have e1 : o1.numPoints = o.numPoints := by
      rw [g4, show o''.numPoints = p.numPoints by rw [hS.rest], hP.numPoints]
    have e2 : o1.dimPoints = o.dimPoints := by
      rw [g5, show o''.dimPoints = p.dimPoints by rw [hS.rest], hP.dimPoints]
    have := hold_trace hL hH hre hs h0 hr1 ho1 (i := i) (j := j) (by rw [e1]; exact hi)
      (by rw [e2]; exact hj) (Or.inl (by rw [g2]; exact hx.2)) ht
      (fun f hf => by rw [← hk1]; exact hfs f hf) ho' (hk.trans hk1)
    rw [e2] at this
    rw [this]
    have hlt : i * o.dimPoints + j < o.dimZ := flat_lt hi hj
    have hdz : o1.dimZ = o.dimZ := by unfold Obj.dimZ; rw [e1, e2]
    simp only [Obj.positions, hdz, List.getElem?_take_of_lt hlt]
    rw [hP.dimPoints] at hx
    rw [g3, hx.1, hda, ← (S.heap.pts _).2]

/-- **C35** (initial position), what is true of it: without ReID, the estimate of a point stays as it is
through any calls in which the point is not over the threshold, if the point was over the threshold in
some detection before (`once`), in particular the one from which the object was created, or if the
object has a single point. Missing: points never seen of objects with several points, which can be moved
by detections of the other points, see `C35_initial_position_lost`. -/
theorem C35_not_seen_partial {cfg : Cfg K L D F X} {Ok : F → Prop} (hL : FilterLaws cfg.flt Ok)
    (hH : HoldLaws cfg.flt Ok) (hre : cfg.reid = none) {shape : L → Nat × Nat}
    (hs : ∀ a b, Compat cfg a b → shape a = shape b) {w0 w w' : World K L D F X} (h0 : w0.Initial)
    (hr : Reaches cfg (fun _ _ => True) (fun dets _ ct w => CallOk shape (dets.getD []) ct w.heap) w0 w)
    {o o' : Obj K L D F} (ho : o ∈ w.objs) {i j : Nat} (hi : i < o.numPoints) (hj : j < o.dimPoints)
    (hcase : o.once[i]? = some true ∨ o.numPoints = 1)
    {fs : List (Frame K L D F X)} (ht : Trace cfg w fs w')
    (hfs : ∀ f ∈ fs, Succeeds f ∧ CallOk shape (given f) f.ct f.before.heap ∧
      ¬ PointSeen cfg o.initId i f)
    (ho' : o' ∈ w'.objs) (hk : o'.initId = o.initId) :
    (o'.positions cfg.flt).data[i * o.dimPoints + j]? =
      (o.positions cfg.flt).data[i * o.dimPoints + j]? :=
  hold_trace hL hH hre hs h0 hr ho hi hj hcase ht hfs ho' hk

end

/-- **C35** (the negation of "or the initial position") With `NoFilter`: point 0 of the object was not
over the threshold in the detection from which it was created, nor in the one it gets next, but its
estimate is moved from (0, 0) to (0, 7). -/
theorem C35_initial_position_lost :
    cfg.flt = noFilterOps ∧
    Reachable cfg (run cfg w2 [[0]]) ∧ ¬ Seen cfg.detThr (heap2 0) 0 ∧ ¬ Seen cfg.detThr (heap2 1) 0 ∧
    ((only (run cfg w2 [[0]])).positions cfg.flt).data = [0, 0, 1, 1] ∧
    ((only (run cfg w2 [[0], [1]])).positions cfg.flt).data = [0, 7, 1, 2] :=
  ⟨rfl, C29_unseen_point_moved.1, C29_unseen_point_moved.2.1, C29_unseen_point_moved.2.2.1,
    by decide +kernel, by decide +kernel⟩

/-! ### Examples -/

theorem update_detOk (c : TCfg) (shape : Nat → Nat × Nat) {w : TWorld} (hI : Inv w)
    (hw : ∀ r, DetOk shape (w.heap r)) (l : List Ref) :
    ∀ r, DetOk shape ((update c w (some l) 1 none).1.heap r) := by
  refine ((update_micros c w hI.nodup (some l) 1 none).objInv (Q := fun _ _ => True)
    (H := fun h => ∀ r, DetOk shape (h r)) ?_ hw (fun _ _ => trivial)).1
  exact ⟨fun h h' ha hh r => by obtain ⟨a, e⟩ := (ha r).1; rw [e]; exact detOk_age (hh r) a,
    (by intro _ _ _ h; cases h), fun _ _ _ _ _ => trivial, fun _ _ _ _ _ _ _ => trivial,
    fun _ _ _ _ => trivial, fun _ _ _ _ _ => trivial, fun _ _ _ _ _ _ _ _ _ _ _ _ => trivial,
    fun _ _ _ _ _ _ _ _ _ _ => trivial, fun _ _ _ _ _ _ _ => trivial, fun _ _ _ _ => trivial⟩

/-- the calls of an example run succeed and are well-formed -/
theorem frames_ok (c : TCfg) (shape : Nat → Nat × Nat)
    {P : Frame Int Nat (WithTop Nat) (NoFilter Int) Unit → Prop} :
    ∀ (ls : List (List Ref)) (w : TWorld), Inv w → (∀ r, DetOk shape (w.heap r)) →
      (∀ n, n < ls.length → let v := run c w (ls.take n)
        (returned (update c v (ls[n]?) 1 none)).isSome = true ∧
        P ⟨ls[n]?, 1, none, v, (update c v (ls[n]?) 1 none).1, (update c v (ls[n]?) 1 none).2⟩) →
      ∀ f ∈ frames c w ls, Succeeds f ∧ CallOk shape (given f) f.ct f.before.heap ∧ P f := by
  intro ls
  induction ls with
  | nil => intro _ _ _ _ f hf; simp [frames] at hf
  | cons l ls ih =>
    intro w hI hw h f hf
    rcases List.mem_cons.mp hf with rfl | hf
    · obtain ⟨h1, h3⟩ := h 0 (by simp)
      obtain ⟨act, hact⟩ := exists_ok h1
      exact ⟨⟨act, (Prod.ext_iff.mp hact).2⟩, ⟨(by intro _ h; cases h), fun r _ => hw r⟩, h3⟩
    · refine ih _ (update_inv (cfg := c) hI _ _ _).1 (update_detOk c shape hI hw l) (fun n hn => ?_) f hf
      exact h (n + 1) (by simpa using hn)

/-- all detections are at 3 -/
def heap3 : Ref → TDet := fun _ => det 3
@[inherit_doc heap3] def w3 : TWorld := ⟨heap3, 0, 0, 0, []⟩

theorem w3_initial : w3.Initial := ⟨rfl, rfl, rfl⟩

theorem heap3_ok : ∀ r, DetOk (fun _ : Nat => (1, 1)) (heap3 r) :=
  fun _ => ⟨rfl, rfl, rfl, (by intro s hs; cases hs)⟩

theorem run3_wf (ls : List (List Ref)) :
    Reaches cfg (fun _ _ => True)
      (fun dets _ ct w => CallOk (fun _ : Nat => (1, 1)) (dets.getD []) ct w.heap) w3 (run cfg w3 ls) :=
  run_wf cfg (fun _ => (1, 1)) ls (fun _ _ hw => ⟨(by intro _ h; cases h), fun r _ => hw r⟩) w3 w3
    (Inv.initial w3_initial) heap3_ok (.refl _)

/-- C34: the object is created by the first call, matched by the second one, not by the third one, and
matched by the fourth one -/
example : ((only (run cfg w3 [[0], [1], [], [2]])).positions cfg.flt).data = [3] ∧
    ((only (run cfg w3 [[0], [1], [], [2]])).velocity cfg.flt).data =
      List.replicate (only (run cfg w3 [[0], [1], [], [2]])).dimZ 0 := by
  obtain ⟨act, hact⟩ := exists_ok (r := update cfg w3 (some [0]) 1 none) (by decide +kernel)
  have hb := (C34_born_at_rest (cfg := cfg) noFilter_laws ⟨w3, w3_initial, .refl _⟩ hact
    (shape := fun _ => (1, 1)) ⟨(by intro _ h; cases h), fun r _ => heap3_ok r⟩
    (o := only (run cfg w3 [[0]])) (only_mem (w := run cfg w3 [[0]]) (by decide +kernel))
    (by decide +kernel)).2.2.2
  rw [show ((update cfg w3 (some [0]) 1 none).1.heap (only (run cfg w3 [[0]])).lastDet).absPoints.data =
    [3] by decide +kernel] at hb
  refine C34_static (o := only (run cfg w3 [[0]])) noFilter_laws C34_noFilter_static rfl toy_compat w3_initial
    (run3_wf [[0]]) (only_mem (by decide +kernel)) hb
    (run_trace cfg (run cfg w3 [[0]]) [[1], [], [2]])
    (frames_ok cfg (fun _ => (1, 1)) _ _ ((run3_wf [[0]]).inv (Inv.initial w3_initial)).1
      (update_detOk cfg _ (Inv.initial w3_initial) heap3_ok [0]) ?_)
    (only_mem (w := run cfg w3 [[0], [1], [], [2]]) (by decide +kernel)) (by decide +kernel)
  intro n hn
  simp only [List.length_cons, List.length_nil, Nat.zero_add, Nat.reduceAdd] at hn
  have : n = 0 ∨ n = 1 ∨ n = 2 := by omega
  rcases this with rfl | rfl | rfl
  · refine ⟨by decide +kernel, ?_⟩
    intro o ho _ _
    rw [mem_only (w := run cfg w3 [[0], [1]]) (by decide +kernel) ho]
    decide +kernel
  · refine ⟨by decide +kernel, ?_⟩
    intro o ho _ hg
    cases hg
  · refine ⟨by decide +kernel, ?_⟩
    intro o ho _ _
    rw [mem_only (w := run cfg w3 [[0], [1], [], [2]]) (by decide +kernel) ho]
    decide +kernel

/-- the other filters keep still objects still, too: after two predictions and an update -/
example : AtRest (okfOps okfDefaults) [3, 4]
    ((okfOps okfDefaults).update ((okfOps okfDefaults).predict ((okfOps okfDefaults).predict
      ((okfOps okfDefaults).create ⟨1, 2, [3, 4]⟩))) [3, 4] [true, false]) := by
  have hL := okf_laws okfDefaults
  obtain ⟨c1, c2, c3⟩ := hL.create ⟨1, 2, [3, 4]⟩ rfl
  obtain ⟨p1, p2, _⟩ := hL.predict _ c1
  obtain ⟨q1, q2, _⟩ := hL.predict _ p1
  refine (C34_okf_static okfDefaults).update _ _ _ q1 (by rw [q2, p2, c2]; rfl) (by rw [q2, p2, c2]; rfl) ?_
  refine (C34_okf_static okfDefaults).predict _ _ p1 (by rw [p2, c2]; rfl) ?_
  refine (C34_okf_static okfDefaults).predict _ _ c1 (by rw [c2]; rfl) ?_
  unfold AtRest
  rw [c3, c2]

/-- C35: velocity -/
example : ((only (run cfg w2 [[0], [3], [2]])).velocity cfg.flt).data[
    1 * (only (run cfg w2 [[0], [3], [2]])).dimPoints + 0]? = some 0 :=
  C35_velocity noFilter_laws C35_noFilter_holds toy_compat w2_initial (run2_wf cfg [[0], [3], [2]])
    (only_mem (by decide +kernel)) (by decide +kernel) (by decide +kernel)

/-- C35: point 1 is over the threshold at (6, 7) in detection 3, and not in detection 2, which is the
last one the object gets -/
example : ((only (run cfg w2 [[0], [3], [2]])).positions cfg.flt).data[1 * 2 + 0]? = some 6 := by
  obtain ⟨act, hact⟩ := exists_ok (r := update cfg (run cfg w2 [[0]]) (some [3]) 1 none)
    (by decide +kernel)
  have := C35_last_seen (o := only (run cfg w2 [[0]])) (o1 := only (run cfg w2 [[0], [3]]))
    (o' := only (run cfg w2 [[0], [3], [2]])) (i := 1) (j := 0)
    noFilter_laws C35_noFilter_holds rfl toy_compat w2_initial (run2_wf cfg [[0]]) hact
    ⟨(by intro _ h; cases h), fun r _ => update_detOk cfg _ (Inv.initial w2_initial) heap2_ok [0] r⟩
    (only_mem (by decide +kernel)) (only_mem (w := run cfg w2 [[0], [3]]) (by decide +kernel))
    (by decide +kernel) (by decide +kernel) (by decide +kernel) (by decide +kernel) (by decide +kernel)
    (by
      intro s hs
      rw [show ((run cfg w2 [[0]]).heap (only (run cfg w2 [[0], [3]])).lastDet).scores = some [1, 1] by
        decide +kernel] at hs
      cases hs
      exact ⟨1, rfl, by decide +kernel⟩)
    (run_trace cfg (run cfg w2 [[0], [3]]) [[2]])
    (frames_ok cfg (fun _ => (2, 2)) _ _ ((run2_wf cfg [[0], [3]]).inv (Inv.initial w2_initial)).1
      (update_detOk cfg _ ((run2_wf cfg [[0]]).inv (Inv.initial w2_initial)).1
        (update_detOk cfg _ (Inv.initial w2_initial) heap2_ok [0]) [3]) ?_)
    (only_mem (by decide +kernel)) (by decide +kernel)
  · rw [show (only (run cfg w2 [[0]])).dimPoints = 2 by decide +kernel] at this
    rw [this]
    decide +kernel
  intro n hn
  have : n = 0 := by simpa using hn
  subst this
  refine ⟨by decide +kernel, ?_⟩
  rintro ⟨o, ho, _, _, hs⟩
  rw [mem_only (w := run cfg w2 [[0], [3], [2]]) (by decide +kernel) ho] at hs
  obtain ⟨x, hx, hlt⟩ := hs [1, 0] (by decide +kernel)
  cases hx
  exact absurd hlt (by decide +kernel)

/-- C35: point 1 was seen in detection 0, from which the object was created; it stays at (1, 1) in a
call that sees only point 0 -/
example : ((only (run cfg w2 [[0], [2]])).positions cfg.flt).data[1 * 2 + 0]? = some 1 := by
  have := C35_not_seen_partial (o := only (run cfg w2 [[0]])) (o' := only (run cfg w2 [[0], [2]]))
    (i := 1) (j := 0)
    noFilter_laws C35_noFilter_holds rfl toy_compat w2_initial (run2_wf cfg [[0]])
    (only_mem (by decide +kernel)) (by decide +kernel) (by decide +kernel) (Or.inl (by decide +kernel))
    (run_trace cfg (run cfg w2 [[0]]) [[2]])
    (frames_ok cfg (fun _ => (2, 2)) _ _ ((run2_wf cfg [[0]]).inv (Inv.initial w2_initial)).1
      (update_detOk cfg _ (Inv.initial w2_initial) heap2_ok [0]) ?_)
    (only_mem (by decide +kernel)) (by decide +kernel)
  · rw [show (only (run cfg w2 [[0]])).dimPoints = 2 by decide +kernel] at this
    rw [this]
    decide +kernel
  intro n hn
  have : n = 0 := by simpa using hn
  subst this
  refine ⟨by decide +kernel, ?_⟩
  rintro ⟨o, ho, _, _, hs⟩
  rw [mem_only (w := run cfg w2 [[0], [2]]) (by decide +kernel) ho] at hs
  obtain ⟨x, hx, hlt⟩ := hs [1, 0] (by decide +kernel)
  cases hx
  exact absurd hlt (by decide +kernel)

end Norfair.Props
