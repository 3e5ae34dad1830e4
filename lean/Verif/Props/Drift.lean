import Verif.Props.TrackerStatic
import Verif.Lemmas.KalmanStable
import Mathlib.Algebra.Order.Archimedean.Basic

/-!
Property theorems C87 and C120: objects that move with constant velocity, or change it slowly.
-/

set_option linter.unusedSectionVars false

namespace Norfair.Props

open Norfair Norfair.Spec Matrix

variable {K L D F X : Type}

section
variable [Field K] [LinearOrder K] [IsStrictOrderedRing K]

/-- The filter runs, in every coordinate, a two-state constant velocity Kalman filter with the noises `n`;
`view f i` is the state of coordinate `i`. Nothing is said about frames in which the coordinate is not
observed. -/
structure KalmanLaws (fo : FilterOps K F) (Ok : F → Prop) (n : Noise K) (view : F → Nat → KF2 K) : Prop where
  x : ∀ f i, Ok f → i < fo.dimZ f → (fo.getX f)[i]? = some (view f i).p ∧
    (fo.getX f)[fo.dimZ f + i]? = some (view f i).v
  create : ∀ (p : Pts K) i, p.data.length = p.dim * p.n → i < p.dim * p.n →
    view (fo.create p) i = ⟨p.data.getD i 0, 0, n.a, n.b, n.c⟩
  round : ∀ f z mask i, Ok f → z.length = fo.dimZ f → mask.length = fo.dimZ f → i < fo.dimZ f →
    mask.getD i false = true →
    view (fo.update (fo.predict f) z mask) i = ((view f i).predict n.q₁ n.q₂).update n.r (z.getD i 0) true
  setX : ∀ f x i, Ok f → x.length = 2 * fo.dimZ f → i < fo.dimZ f →
    view (fo.setX f x) i = { view f i with p := x.getD i 0, v := x.getD (fo.dimZ f + i) 0 }
  ahead : ∀ f i, Ok f → i < fo.dimZ f →
    (fo.getX (fo.predict f))[i]? = some ((view f i).p + (view f i).v)

/-- the noises of `OptimizedKalmanFilterFactory` -/
def okfNoise (pr : OKFParams K) : Noise K := ⟨pr.Q, pr.Q, pr.R, pr.posVariance, pr.posVelCovariance, pr.velVariance⟩

/-- the noises of `FilterPyKalmanFilterFactory` -/
def fpNoise (pr : FPParams K) : Noise K := ⟨1, pr.Q, pr.R, 1, 0, pr.P⟩

/-- a predicate that no method of the filter touches can be added to the laws -/
theorem filterLaws_and {fo : FilterOps K F} {Ok : F → Prop} (hL : FilterLaws fo Ok) {P : F → Prop}
    (h1 : ∀ p, P (fo.create p)) (h2 : ∀ f, P f → P (fo.predict f))
    (h3 : ∀ f z mask, P f → P (fo.update f z mask)) (h4 : ∀ f x, P f → P (fo.setX f x)) :
    FilterLaws fo (fun f => Ok f ∧ P f) where
  len := fun f h => hL.len f h.1
  create := fun p hp => ⟨⟨(hL.create p hp).1, h1 p⟩, (hL.create p hp).2⟩
  predict := fun f h => ⟨⟨(hL.predict f h.1).1, h2 f h.2⟩, (hL.predict f h.1).2⟩
  update := fun f z mask h hz hm => ⟨⟨(hL.update f z mask h.1 hz hm).1, h3 f z mask h.2⟩,
    (hL.update f z mask h.1 hz hm).2⟩
  unobserved := fun f z mask h => hL.unobserved f z mask h.1
  setX := fun f x h hx => ⟨⟨(hL.setX f x h.1 hx).1, h4 f x h.2⟩, (hL.setX f x h.1 hx).2⟩

theorem okfDrift_laws {pr : OKFParams K} (hpr : OKFParams.Valid pr) :
    FilterLaws (okfOps pr) (fun f => OKFValid pr.R f ∧ f.q = pr.Q) :=
  filterLaws_and (okfValid_laws hpr) (fun _ => rfl) (fun _ h => h) (fun _ _ _ h => h) (fun _ _ h => h)

/-- `OptimizedKalmanFilter` -/
theorem okf_kalman {pr : OKFParams K} (hpr : OKFParams.Valid pr) :
    KalmanLaws (okfOps pr) (fun f => OKFValid pr.R f ∧ f.q = pr.Q) (okfNoise pr) OKF.coord where
  x := by
    rintro f i ⟨h, _⟩ hi
    change i < f.dimZ at hi
    have hx := h.ok.x
    show f.x[i]? = some (f.x.getD i 0) ∧ f.x[f.dimZ + i]? = some (f.x.getD (f.dimZ + i) 0)
    rw [List.getElem?_eq_getElem (show i < f.x.length by omega),
      List.getElem?_eq_getElem (show f.dimZ + i < f.x.length by omega)]
    simp [List.getElem?_eq_getElem (show i < f.x.length by omega),
      List.getElem?_eq_getElem (show f.dimZ + i < f.x.length by omega)]
  create := by
    intro p i hp hi
    show (OKF.create pr p).coord i = _
    have h1 : i < p.data.length := by omega
    simp [OKF.coord, OKF.create, okfNoise, hi, List.getElem?_append_left h1, hp]
  round := by
    rintro f z mask i ⟨h, hq⟩ hz hm hi hmi
    change z.length = f.dimZ at hz
    change mask.length = f.dimZ at hm
    change i < f.dimZ at hi
    have e := okf_update_coord (f := f.predict) h.predict (o := ⟨z, none, some mask⟩)
      ⟨hz, (by intro r e; cases e), (by intro m e; cases e; exact hm)⟩ (i := i) hi
    show (f.predict.update z none (some (diagOf mask))).coord i = _
    simp only [Option.map_some] at e
    rw [e, OKF.coord_predict h.ok hi]
    simp only [Meas.noise, Meas.value, Meas.observed, hmi, KF2.predict, okfNoise]
    rw [show f.predict.q = pr.Q from hq]
  setX := by
    rintro f x i ⟨h, _⟩ hx hi
    rfl
  ahead := by
    rintro f i ⟨h, _⟩ hi
    change i < f.dimZ at hi
    have hx := h.predict.ok.x
    have hz : f.predict.dimZ = f.dimZ := rfl
    show f.predict.x[i]? = some ((f.coord i).p + (f.coord i).v)
    have e := congrArg KF2.p (OKF.coord_predict h.ok hi)
    change f.predict.x.getD i 0 = (f.coord i).p + (f.coord i).v at e
    rw [← e, List.getElem?_eq_getElem (show i < f.predict.x.length by omega)]
    simp [List.getElem?_eq_getElem (show i < f.predict.x.length by omega)]

theorem fpDrift_laws {pr : FPParams K} (hR : 0 < pr.R) (hQ : 0 ≤ pr.Q) (hP : 0 ≤ pr.P) :
    FilterLaws (filterPyOps pr)
      (fun f => f.2.Good ∧ f.2.Q = cvQ f.1 1 pr.Q ∧ f.2.R = diagonal fun _ => pr.R) :=
  filterLaws_and (filterPy_laws pr hR hQ hP) (fun p => ⟨create_Q pr p, create_R pr p⟩) (fun _ h => h)
    (fun _ _ _ h => h) (fun _ _ h => h)

/-- state of coordinate `i` of a filter of filterpy -/
def fpView (f : Σ d, FPKalman K d) (i : Nat) : KF2 K :=
  if h : i < f.1 then
    ⟨f.2.x (.inl ⟨i, h⟩), f.2.x (.inr ⟨i, h⟩), f.2.P (.inl ⟨i, h⟩) (.inl ⟨i, h⟩),
      f.2.P (.inl ⟨i, h⟩) (.inr ⟨i, h⟩), f.2.P (.inr ⟨i, h⟩) (.inr ⟨i, h⟩)⟩
  else ⟨0, 0, 0, 0, 0⟩

theorem fpView_splits {d : Nat} {f : FPKalman K d} {s : Fin d → KF2 K} (h : Gauss.Splits ⟨f.x, f.P⟩ s)
    (i : Fin d) : fpView ⟨d, f⟩ i = s i := by
  unfold fpView
  rw [dif_pos i.2]
  have h1 := h.pos i
  have h2 := h.vel i
  have h3 := h.posPos i i
  have h4 := h.posVel i i
  have h5 := h.velVel i i
  simp only [if_true] at h1 h2 h3 h4 h5
  exact KF2.ext h1 h2 h3 h4 h5

/-- the filters of `FilterPyKalmanFilterFactory` -/
theorem filterPy_kalman {pr : FPParams K} (hR : 0 < pr.R) (hQ : 0 ≤ pr.Q) (hP : 0 ≤ pr.P) :
    KalmanLaws (filterPyOps pr)
      (fun f => f.2.Good ∧ f.2.Q = cvQ f.1 1 pr.Q ∧ f.2.R = diagonal fun _ => pr.R) (fpNoise pr)
      fpView where
  x := by
    rintro ⟨d, f⟩ i _ hi
    change i < d at hi
    show (FPKalman.list f.x)[i]? = _ ∧ (FPKalman.list f.x)[d + i]? = _
    have h1 := FPKalman.list_pos f.x ⟨i, hi⟩
    have h2 := FPKalman.list_vel f.x ⟨i, hi⟩
    simp only at h1 h2
    rw [h1, h2]
    simp [fpView, hi]
  create := by
    intro p i hp hi
    have := splits_iff.mpr (create_gauss pr p)
    exact fpView_splits this ⟨i, hi⟩
  round := by
    rintro ⟨d, f⟩ z mask i ⟨h, hq, hr⟩ hz hm hi hmi
    change i < d at hi
    obtain ⟨s, hps, hg⟩ := h.s
    have S0 : Gauss.Splits ⟨f.x, f.P⟩ s := splits_iff.mpr hg
    have hp : f.predict.gauss = dense fun i => (s i).predict 1 pr.Q := by
      rw [FPKalman.gauss_predict, h.F, hq, hg, dense_predict]
    have S1 : Gauss.Splits ⟨f.predict.x, f.predict.P⟩ fun i => (s i).predict 1 pr.Q := splits_iff.mpr hp
    have S2 := C33_filterPy h.predict S1 (show f.predict.R = diagonal fun _ => pr.R from hr)
      (z := z) (mask := mask)
    have e := fpView_splits S2 ⟨i, hi⟩
    simp only [hmi] at e
    show fpView ⟨d, f.predict.update (fun i => z.getD i 0) none (some (hitH K d mask))⟩ i = _
    have e0 := fpView_splits S0 ⟨i, hi⟩
    rw [e, e0]
    rfl
  setX := by
    rintro ⟨d, f⟩ x i _ hx hi
    change i < d at hi
    show fpView ⟨d, { f with x := FPKalman.unlist d x }⟩ i = _
    simp [fpView, hi, FPKalman.unlist, filterPyOps]
  ahead := by
    rintro ⟨d, f⟩ i ⟨h, hq, hr⟩ hi
    change i < d at hi
    obtain ⟨s, hps, hg⟩ := h.s
    have S0 : Gauss.Splits ⟨f.x, f.P⟩ s := splits_iff.mpr hg
    have hp : f.predict.gauss = dense fun i => (s i).predict 1 pr.Q := by
      rw [FPKalman.gauss_predict, h.F, hq, hg, dense_predict]
    have S1 : Gauss.Splits ⟨f.predict.x, f.predict.P⟩ fun i => (s i).predict 1 pr.Q := splits_iff.mpr hp
    show (FPKalman.list f.predict.x)[i]? = _
    have h1 := FPKalman.list_pos f.predict.x ⟨i, hi⟩
    simp only at h1
    have e0 := fpView_splits S0 ⟨i, hi⟩
    have h2 := S1.pos ⟨i, hi⟩
    simp only at h2 e0
    rw [h1, h2, e0]
    rfl

end

section
variable [Field K] [LinearOrder K] [IsStrictOrderedRing K] [LinearOrder D] [OrderTop D] [Zero D]
  [DecidableEq L]

/-- coordinate `j` of point `pt` of the detection of object `k` in this call: the point is over the detection
threshold and the coordinate is off by at most `W` from `z` (in absolute coordinates) -/
def MeasuredAt (thr : K) (k pt j : Nat) (z W : K) (f : Frame K L D F X) : Prop :=
  ∀ o ∈ f.after.objs, o.initId = k → Seen thr (f.after.heap o.lastDet) pt ∧
    ∃ y, (f.after.heap o.lastDet).absPoints.data[pt * o.dimPoints + j]? = some y ∧ |y - z| ≤ W

/-- the state of the filter of an object right after its creation -/
theorem born_view {cfg : Cfg K L D F X} {Ok : F → Prop} (hL : FilterLaws cfg.flt Ok) {n : Noise K}
    {view : F → Nat → KF2 K} (hK : KalmanLaws cfg.flt Ok n view)
    {shape : L → Nat × Nat} {w w' : World K L D F X} (hI : Inv w)
    {dets : Option (List Ref)} {period : Int} {ct : Option (CoordTrans K)} {act : List (Obj K L D F)}
    (h : update cfg w dets period ct = (w', .ok act))
    (hcall : CallOk shape (dets.getD []) ct w.heap) {o : Obj K L D F} (ho : o ∈ w'.objs)
    (hnew : o.initId ∉ w.keys) {pt j : Nat} (hpt : pt < o.numPoints) (hj : j < o.dimPoints)
    (hseen : Seen cfg.detThr (w'.heap o.lastDet) pt) :
    o.once[pt]? = some true ∧
    view o.filter (pt * o.dimPoints + j) =
      ⟨(w'.heap o.lastDet).absPoints.data.getD (pt * o.dimPoints + j) 0, 0, n.a, n.b, n.c⟩ := by
  obtain ⟨_, _, hits, merges, news, S⟩ := update_ok hI.nodup h
  obtain ⟨r, hrm, wi, e, hag⟩ := update_obj_new hI h ho hnew
  obtain ⟨g, hg⟩ := newObj_fields cfg wi r period ct
  rw [hg] at e
  have e1 : o.lastDet = r := by rw [e]; rfl
  have e2 : (wi.heap r).absPoints = (w'.heap r).absPoints :=
    (hag.pts r).2.trans (S.heap.pts r).2.symm
  have e5 : (wi.heap r).scores = (w'.heap r).scores := by
    obtain ⟨a1, ha1⟩ := (hag r).1
    obtain ⟨a2, ha2⟩ := (S.heap r).1
    rw [ha1, ha2]
  have hsh : CallOk shape (dets.getD []) ct (startHeap w dets ct) := by
    cases ct with
    | none => cases dets <;> exact hcall
    | some c =>
      cases dets with
      | none => exact hcall
      | some l =>
        have key : ∀ (l' : List Ref) (h : Ref → Det K L X), CallOk shape l (some c) h →
            CallOk shape l (some c) (l'.foldl (transformDet c) h) := by
          intro l'
          induction l' with
          | nil => exact fun _ h => h
          | cons q l' ih => exact fun h hc => ih _ (callOk_transform rfl q hc)
        exact key l w.heap hcall
  have hdl : (wi.heap r).absPoints.data.length = (wi.heap r).absPoints.dim * (wi.heap r).absPoints.n := by
    rw [(hag.pts r).2]; exact (hsh.2 r hrm).2.2.1
  have e3 : o.filter = cfg.flt.create (wi.heap r).absPoints := by rw [e]; rfl
  have e4 : o.dimPoints = (wi.heap r).absPoints.dim := by rw [e]; rfl
  have e6 : o.numPoints = (wi.heap r).absPoints.n := by rw [e]; rfl
  have e7 : o.once = match (wi.heap r).scores with
      | none => List.replicate (wi.heap r).absPoints.n true
      | some s => s.map (fun x => decide (cfg.detThr < x)) := by rw [e]; rfl
  constructor
  · rw [e1] at hseen
    unfold Seen at hseen
    rw [e7]
    rw [← e5] at hseen
    cases hs : (wi.heap r).scores with
    | none => simp only; rw [← e6]; simp [hpt]
    | some s =>
      obtain ⟨x, hx, hlt⟩ := hseen s hs
      simp [hx, hlt]
  · have hk : pt * o.dimPoints + j < (wi.heap r).absPoints.dim * (wi.heap r).absPoints.n := by
      rw [← e4, ← e6]; exact flat_lt hpt hj
    rw [e3, hK.create _ _ hdl hk, e1, e2]

/-- a matched call as seen by one coordinate: one round of its Kalman filter -/
theorem matched_round {cfg : Cfg K L D F X} {Ok : F → Prop} (hL : FilterLaws cfg.flt Ok) {n : Noise K}
    {view : F → Nat → KF2 K} (hK : KalmanLaws cfg.flt Ok n view) {d : Det K L X} {period : Int}
    {o p o'' : Obj K L D F} (hok : Ok o.filter) (hdz : cfg.flt.dimZ o.filter = o.dimZ)
    (hP : SteppedPoints cfg o p) (hS : SensorsOk cfg d period p o'') {pt j : Nat} (hpt : pt < o.numPoints)
    (hj : j < o.dimPoints) (honce : o.once[pt]? = some true) (hseen : Seen cfg.detThr d pt) :
    o''.once[pt]? = some true ∧
    view o''.filter (pt * o.dimPoints + j) =
      kfRound n.q₁ n.q₂ n.r (d.absPoints.data.getD (pt * o.dimPoints + j) 0)
        (view o.filter (pt * o.dimPoints + j)) := by
  have hpt' : pt < p.numPoints := by rw [hP.numPoints]; exact hpt
  have hj' : j < p.dimPoints := by rw [hP.dimPoints]; exact hj
  have honce' : p.once[pt]? = some true := by rw [hP.once]; exact honce
  refine ⟨(hS.once pt hpt').mpr (Or.inl honce'), ?_⟩
  have hokp : Ok p.filter := by rw [hP.filter]; exact (hL.predict _ hok).1
  obtain ⟨c1, c2, c3, c4⟩ := hS.coords hL hokp
  obtain ⟨_, d2, _, d4⟩ := c4 pt j hpt' hj'
  have hdim : p.dimPoints = o.dimPoints := hP.dimPoints
  rw [hdim] at d2 d4 c1
  have hmaskl : (repeatMask o.dimPoints (overThreshold cfg.detThr p.numPoints d)).length = o.dimZ := by
    rw [repeatMask_length, hS.maskLen, hP.numPoints]; rfl
  have hzl : d.absPoints.data.length = o.dimZ := hS.zLen.trans hP.dimZ
  set c := pt * o.dimPoints + j with hc
  have hck : c < o.dimZ := flat_lt hpt hj
  set g := cfg.flt.update p.filter d.absPoints.data
    (repeatMask o.dimPoints (overThreshold cfg.detThr p.numPoints d)) with hg
  have hdivc : c / o.dimPoints = pt := by
    rw [hc, Nat.mul_comm, Nat.mul_add_div (by omega), Nat.div_eq_of_lt hj, Nat.add_zero]
  have hns : ¬ Snapped cfg.detThr p d c := by
    rintro ⟨_, h2⟩
    rw [hdim, hdivc, honce'] at h2
    cases h2
  have hround : view g c = kfRound n.q₁ n.q₂ n.r (d.absPoints.data.getD c 0) (view o.filter c) := by
    rw [hg, hP.filter]
    refine hK.round _ _ _ _ hok (hzl.trans hdz.symm) (hmaskl.trans hdz.symm) (by rw [hdz]; exact hck) ?_
    have := repeatMask_get o.dimPoints (overThreshold cfg.detThr p.numPoints d) pt j hj
    rw [(overThreshold_get cfg.detThr p.numPoints d pt hpt').mpr hseen] at this
    rw [List.getD_eq_getElem?_getD, hc, this]
    rfl
  have hgz : cfg.flt.dimZ g = o.dimZ := by
    have := (hL.update p.filter d.absPoints.data
      (repeatMask o.dimPoints (overThreshold cfg.detThr p.numPoints d)) hokp
      (by rw [hS.dimZ, hP.dimZ]; exact hzl) (by rw [hS.dimZ, hP.dimZ]; exact hmaskl)).2
    rw [hg, this, hS.dimZ, hP.dimZ]
  rw [hP.dimZ] at d4 c3
  obtain ⟨x1, x2⟩ := hK.x o''.filter c c2 (by rw [c3]; exact hck)
  obtain ⟨y1, y2⟩ := hK.x g c c1 (by rw [hgz]; exact hck)
  rw [c3] at x2
  rw [hgz] at y2
  have p1 : (view o''.filter c).p = (view g c).p := by
    rw [d2 hns, y1] at x1
    exact (Option.some.inj x1).symm
  have p2 : (view o''.filter c).v = (view g c).v := by
    rw [d4 honce', y2] at x2
    exact (Option.some.inj x2).symm
  rw [← hround]
  have hfilter := hS.filter
  simp only [firstDetectionFix] at hfilter
  rw [hdim] at hfilter
  have hlen := hL.len g c1
  have hset := hK.setX g
    (maskAssign (List.zipWith (fun a b => a && !b) (tileMask o.dimPoints (overThreshold cfg.detThr p.numPoints d))
      (repeatMask o.dimPoints p.once)) ((cfg.flt.getX g).take o.dimZ) d.absPoints.data ++
     maskAssign ((repeatMask o.dimPoints p.once).map (!·)) ((cfg.flt.getX g).drop o.dimZ)
      (List.replicate o.dimZ 0)) c c1 (by
      rw [List.length_append, maskAssign_length, maskAssign_length, List.length_take, List.length_drop, hlen,
        hgz]
      omega) (by rw [hgz]; exact hck)
  have hff : o''.filter = cfg.flt.setX g
    (maskAssign (List.zipWith (fun a b => a && !b) (tileMask o.dimPoints (overThreshold cfg.detThr p.numPoints d))
      (repeatMask o.dimPoints p.once)) ((cfg.flt.getX g).take o.dimZ) d.absPoints.data ++
     maskAssign ((repeatMask o.dimPoints p.once).map (!·)) ((cfg.flt.getX g).drop o.dimZ)
      (List.replicate o.dimZ 0)) := by
    rw [hfilter]
    simp only [Obj.dimZ]
    rw [show o.dimPoints * p.numPoints = o.dimPoints * o.numPoints by rw [hP.numPoints]]
  rw [← hff] at hset
  refine KF2.ext p1 p2 ?_ ?_ ?_
  · rw [hset]
  · rw [hset]
  · rw [hset]

/-- a call that gives an object a detection: one round of the filter for every coordinate it has seen -/
theorem follow_step {cfg : Cfg K L D F X} {Ok : F → Prop} (hL : FilterLaws cfg.flt Ok) {n : Noise K}
    {view : F → Nat → KF2 K} (hK : KalmanLaws cfg.flt Ok n view) (hre : cfg.reid = none)
    {shape : L → Nat × Nat} {w2 : World K L D F X} (hI : Inv w2) {f : Frame K L D F X} (hbef : f.before = w2)
    (hout : update cfg w2 f.dets f.period f.ct = (f.after, f.out)) (hsucc : Succeeds f) {key : Nat}
    (hmat : Matched key f) {pt j : Nat} {t W : K} (hmeas : MeasuredAt cfg.detThr key pt j t W f)
    {o1 o' : Obj K L D F} (ho1 : o1 ∈ w2.objs) (hk1 : o1.initId = o'.initId) (ho' : o' ∈ f.after.objs)
    (hk : o'.initId = key) (hP1 : PointsOk cfg.flt Ok shape o1) (hpt : pt < o1.numPoints) (hj : j < o1.dimPoints)
    (hn1 : o'.numPoints = o1.numPoints) (hd1 : o'.dimPoints = o1.dimPoints) (honce : o1.once[pt]? = some true) :
    o'.once[pt]? = some true ∧ ∃ y, |y - t| ≤ W ∧
      view o'.filter (pt * o1.dimPoints + j) = kfRound n.q₁ n.q₂ n.r y (view o1.filter (pt * o1.dimPoints + j)) := by
  obtain ⟨act, hact⟩ := hsucc
  rw [hact] at hout
  obtain ⟨m1, y, m2, m3⟩ := hmeas o' ho' hk
  rcases update_points hI hout ho1 ho' hk1 (Or.inl hre) hP1.hits with ⟨v, rfl⟩ |
    ⟨r, hrm, hlast, d, hds, _, hda, _, q, o'', hP, hS, g1, g2, g3, g4, _⟩
  · exfalso
    have h2 := hmat.2 _ ho' hk
    have h1 := hmat.1 o1 (by rw [hbef]; exact ho1) (hk1.trans hk)
    have : ({ stepped cfg f.ct o1 with curMin := v } : Obj K L D F).lastDet = o1.lastDet := by
      show (stepped cfg f.ct o1).lastDet = _
      simp
    rw [this] at h2
    exact h1 h2
  · obtain ⟨_, _, hits, merges, news, S⟩ := update_ok hI.nodup hout
    have e1 : d.absPoints = (f.after.heap r).absPoints := by
      rw [hda, ← (S.heap.pts r).2]
    have e2 : d.scores = (f.after.heap r).scores := by
      obtain ⟨x1, hx1⟩ := (S.heap r).1
      obtain ⟨x2, hx2⟩ := startHeap_fields w2 f.dets f.ct r
      rw [hx1]
      simp only [hx2]
      exact hds
    rw [hlast] at m1 m2
    have hsd : Seen cfg.detThr d pt := (seen_congr e2 pt).mpr m1
    obtain ⟨r1, r2⟩ := matched_round hL hK hP1.ok hP1.dimZ hP hS hpt hj honce hsd
    refine ⟨by rw [g2]; exact r1, y, m3, ?_⟩
    rw [g3, r2]
    have hy : d.absPoints.data.getD (pt * o1.dimPoints + j) 0 = y := by
      rw [List.getD_eq_getElem?_getD, e1, ← hd1, m2]; rfl
    rw [hy]

/-- the state of the filter for a coordinate of a target that is followed -/
theorem follow_view {cfg : Cfg K L D F X} {Ok : F → Prop} (hL : FilterLaws cfg.flt Ok) {n : Noise K}
    (hn : n.Valid) {view : F → Nat → KF2 K} (hK : KalmanLaws cfg.flt Ok n view) (hre : cfg.reid = none)
    {shape : L → Nat × Nat} (hs : ∀ a b, Compat cfg a b → shape a = shape b) {w0 w w1 w' : World K L D F X}
    (h0 : w0.Initial)
    (hr : Reaches cfg (fun _ _ => True) (fun dets _ ct w => CallOk shape (dets.getD []) ct w.heap) w0 w)
    {dets : Option (List Ref)} {period : Int} {ct : Option (CoordTrans K)} {act : List (Obj K L D F)}
    (h : update cfg w dets period ct = (w1, .ok act)) (hcall : CallOk shape (dets.getD []) ct w.heap)
    {o o' : Obj K L D F} (ho : o ∈ w1.objs) (hnew : o.initId ∉ w.keys)
    {pt j : Nat} (hpt : pt < o.numPoints) (hj : j < o.dimPoints) {z : K}
    (hseen : Seen cfg.detThr (w1.heap o.lastDet) pt)
    (hz : (w1.heap o.lastDet).absPoints.data[pt * o.dimPoints + j]? = some z)
    {p : Nat → K} {η A W : K} (hM : n.Margin η A)
    (hp : ∀ k, |p (k + 2) - 2 * p (k + 1) + p k| ≤ A) {fs : List (Frame K L D F X)} (ht : Trace cfg w1 fs w')
    (hfs : ∀ k f, fs[k]? = some f → Succeeds f ∧ CallOk shape (given f) f.ct f.before.heap ∧
      Matched o.initId f ∧ MeasuredAt cfg.detThr o.initId pt j (p (k + 1)) W f)
    (ho' : o' ∈ w'.objs) (hk : o'.initId = o.initId) :
    o'.dimPoints = o.dimPoints ∧ o'.numPoints = o.numPoints ∧ o'.once[pt]? = some true ∧
      Close n (n.boundA η W A (z - p 0) (0 - (p 1 - p 0)) fs.length) (p fs.length) (p (fs.length + 1) - p fs.length)
        (view o'.filter (pt * o.dimPoints + j)) ∧
      Reaches cfg (fun _ _ => True) (fun dets _ ct w => CallOk shape (dets.getD []) ct w.heap) w0 w' := by
  have hI := (hr.inv (Inv.initial h0)).1
  have hr1 : Reaches cfg (fun _ _ => True) (fun dets _ ct w => CallOk shape (dets.getD []) ct w.heap) w0 w1 := by
    have := Reaches.call (cfg := cfg) dets period ct hr hcall
    rwa [h] at this
  have hI1 := (hr1.inv (Inv.initial h0)).1
  obtain ⟨b1, b2⟩ := born_view hL hK hI h hcall ho hnew hpt hj hseen
  have hzd : (w1.heap o.lastDet).absPoints.data.getD (pt * o.dimPoints + j) 0 = z := by
    rw [List.getD_eq_getElem?_getD, hz]; rfl
  rw [hzd] at b2
  induction ht generalizing o' with
  | nil =>
    have : o' = o := World.eq_of_mem_of_key hI1.nodup ho' ho hk
    subst this
    refine ⟨rfl, rfl, b1, ?_, hr1⟩
    rw [b2]
    exact Close.startA hn hM z (p 0) (p 1 - p 0) W
  | env heap g _ he ih =>
    obtain ⟨a1, a2, a3, a4, a5⟩ := ih hfs ho' hk
    exact ⟨a1, a2, a3, a4, .env heap g a5 he trivial⟩
  | @call fs w2 dets period ct ht ih =>
    have hev := ht.reaches.inv hI1
    have hle : o'.initId ≤ w2.initCount := by
      rw [hk]; exact (hI1.bounded o ho).2.trans hev.2.initCount
    obtain ⟨o1, ho1, hk1, _, hn1, hd1⟩ := obj_before hev.1 rfl ho' hle
    obtain ⟨a1, a2, a3, a4, a5⟩ := ih (fun k f hf => hfs k f (by
      rw [List.getElem?_append_left (List.getElem?_eq_some_iff.mp hf).1]; exact hf)) ho1 (hk1.trans hk)
    obtain ⟨hsucc, hcall, hmat, hmeas⟩ := hfs fs.length _ List.getElem?_concat_length
    have hP1 := WfReaches.pointsOk hL hs h0 a5 o1 ho1
    obtain ⟨r1, y, m3, r2⟩ := follow_step hL hK hre hev.1 rfl rfl hsucc hmat hmeas ho1 hk1 ho' hk hP1 (by rw [a2]; exact hpt)
      (by rw [a1]; exact hj) hn1 hd1 a3
    refine ⟨hd1.trans a1, hn1.trans a2, r1, ?_, .call _ _ _ a5 hcall⟩
    rw [a1] at r2
    rw [r2]
    have hstep := a4.roundA hn hM (u' := p (fs.length + 2) - p (fs.length + 1)) (by
      have := hp fs.length
      rwa [show p (fs.length + 2) - p (fs.length + 1) - (p (fs.length + 1) - p fs.length) =
        p (fs.length + 2) - 2 * p (fs.length + 1) + p fs.length by ring]) (w := y - p (fs.length + 1)) m3
    rw [boundA_succ hM] at hstep
    rw [add_sub_cancel, add_sub_cancel] at hstep
    rw [List.length_append, List.length_singleton]
    exact hstep

/-- the estimate of an object, from the state of the filter -/
theorem follow_read {cfg : Cfg K L D F X} {Ok : F → Prop} {n : Noise K} {view : F → Nat → KF2 K}
    (hK : KalmanLaws cfg.flt Ok n view) {shape : L → Nat × Nat} {o' : Obj K L D F}
    (hP : PointsOk cfg.flt Ok shape o') {pt j : Nat} (hpt : pt < o'.numPoints) (hj : j < o'.dimPoints) :
    (o'.positions cfg.flt).data[pt * o'.dimPoints + j]? = some (view o'.filter (pt * o'.dimPoints + j)).p ∧
    (o'.velocity cfg.flt).data[pt * o'.dimPoints + j]? = some (view o'.filter (pt * o'.dimPoints + j)).v := by
  have hlt : pt * o'.dimPoints + j < cfg.flt.dimZ o'.filter := by
    rw [hP.dimZ]; exact flat_lt hpt hj
  obtain ⟨x1, x2⟩ := hK.x o'.filter _ hP.ok hlt
  rw [hP.dimZ] at x2 hlt
  constructor
  · simp only [Obj.positions]
    rw [List.getElem?_take_of_lt hlt]
    exact x1
  · simp only [Obj.velocity]
    rw [List.getElem?_drop]
    exact x2

/-- **C120** A target that changes its velocity is followed with a bounded error. An object is created by a call from a
detection with coordinate `z`, and every later call succeeds and gives it a detection whose point is over the detection
threshold, with the coordinate (in absolute coordinates) off by at most `W` from `p k` in the `k`-th call. The path `p` is
any path whose velocity changes by at most `A` per frame. Then the errors of the estimated position and velocity are at
most the constants of the filter times the error that is left of the initial one after shrinking by `slow η < 1` in each
frame, plus a multiple of `W ^ 2` and a multiple of `A ^ 2`. There is no ReID. -/
theorem C120_follows {cfg : Cfg K L D F X} {Ok : F → Prop} (hL : FilterLaws cfg.flt Ok) {n : Noise K}
    (hn : n.Valid) {view : F → Nat → KF2 K} (hK : KalmanLaws cfg.flt Ok n view) (hre : cfg.reid = none)
    {shape : L → Nat × Nat} (hs : ∀ a b, Compat cfg a b → shape a = shape b) {w0 w w1 w' : World K L D F X}
    (h0 : w0.Initial)
    (hr : Reaches cfg (fun _ _ => True) (fun dets _ ct w => CallOk shape (dets.getD []) ct w.heap) w0 w)
    {dets : Option (List Ref)} {period : Int} {ct : Option (CoordTrans K)} {act : List (Obj K L D F)}
    (h : update cfg w dets period ct = (w1, .ok act)) (hcall : CallOk shape (dets.getD []) ct w.heap)
    {o o' : Obj K L D F} (ho : o ∈ w1.objs) (hnew : o.initId ∉ w.keys)
    {pt j : Nat} (hpt : pt < o.numPoints) (hj : j < o.dimPoints) {z : K}
    (hseen : Seen cfg.detThr (w1.heap o.lastDet) pt)
    (hz : (w1.heap o.lastDet).absPoints.data[pt * o.dimPoints + j]? = some z)
    {p : Nat → K} {η A W : K} (hM : n.Margin η A)
    (hp : ∀ k, |p (k + 2) - 2 * p (k + 1) + p k| ≤ A) {fs : List (Frame K L D F X)} (ht : Trace cfg w1 fs w')
    (hfs : ∀ k f, fs[k]? = some f → Succeeds f ∧ CallOk shape (given f) f.ct f.before.heap ∧
      Matched o.initId f ∧ MeasuredAt cfg.detThr o.initId pt j (p (k + 1)) W f)
    (ho' : o' ∈ w'.objs) (hk : o'.initId = o.initId) :
    ∃ x v, (o'.positions cfg.flt).data[pt * o'.dimPoints + j]? = some x ∧
      (o'.velocity cfg.flt).data[pt * o'.dimPoints + j]? = some v ∧
      (x - p fs.length) ^ 2 ≤ n.posVar * n.boundA η W A (z - p 0) (0 - (p 1 - p 0)) fs.length ∧
      (v - (p (fs.length + 1) - p fs.length)) ^ 2 ≤
        n.velVar * n.boundA η W A (z - p 0) (0 - (p 1 - p 0)) fs.length := by
  obtain ⟨a1, a2, a3, a4, a5⟩ := follow_view hL hn hK hre hs h0 hr h hcall ho hnew hpt hj hseen hz hM hp ht hfs ho' hk
  obtain ⟨x1, x2⟩ := follow_read hK (WfReaches.pointsOk hL hs h0 a5 o' ho') (pt := pt) (j := j) (by rw [a2]; exact hpt)
    (by rw [a1]; exact hj)
  rw [← a1] at a4
  exact ⟨_, _, x1, x2, a4.errors⟩

/-- **C87** A target that moves with constant velocity is followed with a bounded error. An object is created
by a call from a detection with coordinate `z`, and every later call succeeds and gives it a detection whose
point is over the detection threshold, with the coordinate (in absolute coordinates) off by at most `W` from
`t + k * u` in the `k`-th call. Then the errors of the estimated position and velocity are at most the
constants of the filter times the error that is left of the initial one, `(z - t, - u)`, after shrinking by
`rate < 1` in each frame, plus a multiple of `W ^ 2`. There is no ReID. -/
theorem C87_follows {cfg : Cfg K L D F X} {Ok : F → Prop} (hL : FilterLaws cfg.flt Ok) {n : Noise K}
    (hn : n.Valid) {view : F → Nat → KF2 K} (hK : KalmanLaws cfg.flt Ok n view) (hre : cfg.reid = none)
    {shape : L → Nat × Nat} (hs : ∀ a b, Compat cfg a b → shape a = shape b) {w0 w w1 w' : World K L D F X}
    (h0 : w0.Initial)
    (hr : Reaches cfg (fun _ _ => True) (fun dets _ ct w => CallOk shape (dets.getD []) ct w.heap) w0 w)
    {dets : Option (List Ref)} {period : Int} {ct : Option (CoordTrans K)} {act : List (Obj K L D F)}
    (h : update cfg w dets period ct = (w1, .ok act)) (hcall : CallOk shape (dets.getD []) ct w.heap)
    {o o' : Obj K L D F} (ho : o ∈ w1.objs) (hnew : o.initId ∉ w.keys)
    {pt j : Nat} (hpt : pt < o.numPoints) (hj : j < o.dimPoints) {z : K}
    (hseen : Seen cfg.detThr (w1.heap o.lastDet) pt)
    (hz : (w1.heap o.lastDet).absPoints.data[pt * o.dimPoints + j]? = some z)
    {t u W : K} {fs : List (Frame K L D F X)} (ht : Trace cfg w1 fs w')
    (hfs : ∀ k f, fs[k]? = some f → Succeeds f ∧ CallOk shape (given f) f.ct f.before.heap ∧
      Matched o.initId f ∧ MeasuredAt cfg.detThr o.initId pt j (t + (k + 1 : Nat) * u) W f)
    (ho' : o' ∈ w'.objs) (hk : o'.initId = o.initId) :
    ∃ x v, (o'.positions cfg.flt).data[pt * o'.dimPoints + j]? = some x ∧
      (o'.velocity cfg.flt).data[pt * o'.dimPoints + j]? = some v ∧
      (x - (t + fs.length * u)) ^ 2 ≤ n.posVar * n.bound W (z - t) (0 - u) fs.length ∧
      (v - u) ^ 2 ≤ n.velVar * n.bound W (z - t) (0 - u) fs.length := by
  have h1 := C120_follows hL hn hK hre hs h0 hr h hcall ho hnew hpt hj hseen hz (p := fun k => t + (k : K) * u) (η := 0)
    (A := 0) (W := W) (margin_zero hn) (fun k => by
      have : t + ((k + 2 : Nat) : K) * u - 2 * (t + ((k + 1 : Nat) : K) * u) + (t + (k : K) * u) = 0 := by
        push_cast
        ring
      simp only [this, abs_zero, le_refl]) ht hfs ho' hk
  have e : ∀ k : Nat, t + ((k + 1 : Nat) : K) * u - (t + (k : K) * u) = u := fun k => by
    push_cast
    ring
  have e0 := e 0
  simp only [Nat.cast_zero, zero_add, zero_mul, add_zero] at e0
  simp only [boundA_zero hn, e, Nat.cast_zero, zero_mul, add_zero, e0] at h1
  exact h1

/-- **C87** ... so with exact detections the errors of position and velocity vanish: after a number of calls
that depends on the noises, the initial error, the velocity and `ε` only, both stay below `ε`. -/
theorem C87_vanishes [Archimedean K] {cfg : Cfg K L D F X} {Ok : F → Prop} (hL : FilterLaws cfg.flt Ok)
    {n : Noise K} (hn : n.Valid) {view : F → Nat → KF2 K} (hK : KalmanLaws cfg.flt Ok n view)
    (hre : cfg.reid = none) {shape : L → Nat × Nat} (hs : ∀ a b, Compat cfg a b → shape a = shape b)
    (z t u : K) {ε : K} (hε : 0 < ε) :
    ∃ N : Nat, ∀ (w0 w w1 w' : World K L D F X), w0.Initial →
      Reaches cfg (fun _ _ => True) (fun dets _ ct w => CallOk shape (dets.getD []) ct w.heap) w0 w →
      ∀ dets period ct act, update cfg w dets period ct = (w1, .ok act) →
      CallOk shape (dets.getD []) ct w.heap →
      ∀ o ∈ w1.objs, o.initId ∉ w.keys → ∀ pt j, pt < o.numPoints → j < o.dimPoints →
      Seen cfg.detThr (w1.heap o.lastDet) pt →
      (w1.heap o.lastDet).absPoints.data[pt * o.dimPoints + j]? = some z →
      ∀ fs, Trace cfg w1 fs w' →
      (∀ k f, fs[k]? = some f → Succeeds f ∧ CallOk shape (given f) f.ct f.before.heap ∧
        Matched o.initId f ∧ MeasuredAt cfg.detThr o.initId pt j (t + (k + 1 : Nat) * u) 0 f) →
      N ≤ fs.length → ∀ o' ∈ w'.objs, o'.initId = o.initId →
      ∃ x v, (o'.positions cfg.flt).data[pt * o'.dimPoints + j]? = some x ∧
        (o'.velocity cfg.flt).data[pt * o'.dimPoints + j]? = some v ∧
        |x - (t + fs.length * u)| < ε ∧ |v - u| < ε := by
  obtain ⟨f1, f2, f3, f4, f5, f6⟩ := Noise.Valid.facts hn
  set B := n.start (z - t) (0 - u) with hB
  have hB0 : 0 ≤ B := by
    have h1 := normP_nonneg (s := ⟨z, 0, n.a, n.b, n.c⟩)
      ⟨hn.a, hn.c, by have := hn.det; simp only [detP]; linarith⟩ (z - t) (0 - u)
    exact h1
  set C := (n.posVar + n.velVar) * (B + 1) with hC
  have hC0 : 0 < C := by positivity
  obtain ⟨N, hN⟩ := exists_pow_lt_of_lt_one (show 0 < ε ^ 2 / C by positivity) f6
  refine ⟨N, ?_⟩
  intro w0 w w1 w' h0 hr dets period ct act h hcall o ho hnew pt j hpt hj hseen hz fs ht hfs hlen o' ho' hk
  obtain ⟨x, v, hx, hv, e1, e2⟩ := C87_follows hL hn hK hre hs h0 hr h hcall ho hnew hpt hj hseen hz ht hfs
    ho' hk
  refine ⟨x, v, hx, hv, ?_⟩
  have hbound : n.bound 0 (z - t) (0 - u) fs.length = n.rate ^ fs.length * B := by
    simp [Noise.bound, hB]
  rw [hbound] at e1 e2
  have hpow : n.rate ^ fs.length ≤ n.rate ^ N := pow_le_pow_of_le_one f5.le f6.le hlen
  have hlt : n.rate ^ fs.length * C < ε ^ 2 := by
    have := lt_of_le_of_lt hpow hN
    rwa [lt_div_iff₀ hC0] at this
  have hp0 : 0 < n.rate ^ fs.length := by positivity
  have g1 : n.posVar * (n.rate ^ fs.length * B) ≤ n.rate ^ fs.length * C := by
    rw [hC]
    have : n.posVar * B ≤ (n.posVar + n.velVar) * (B + 1) := by nlinarith
    nlinarith
  have g2 : n.velVar * (n.rate ^ fs.length * B) ≤ n.rate ^ fs.length * C := by
    rw [hC]
    have : n.velVar * B ≤ (n.posVar + n.velVar) * (B + 1) := by nlinarith
    nlinarith
  exact ⟨abs_lt_of_sq_lt_sq (by linarith) hε.le, abs_lt_of_sq_lt_sq (by linarith) hε.le⟩

/-- the noises of the default `OptimizedKalmanFilterFactory` and any other positive parameters -/
theorem okfNoise_valid {pr : OKFParams K} (hR : 0 < pr.R) (hQ : 0 < pr.Q) (hp : 0 < pr.posVariance)
    (hv : 0 < pr.velVariance) (hd : pr.posVelCovariance ^ 2 < pr.posVariance * pr.velVariance) :
    (okfNoise pr).Valid := ⟨hQ, hQ, hR, hp, hv, hd⟩

theorem fpNoise_valid {pr : FPParams K} (hR : 0 < pr.R) (hQ : 0 < pr.Q) (hP : 0 < pr.P) :
    (fpNoise pr).Valid :=
  ⟨zero_lt_one, hQ, hR, zero_lt_one, hP, by simpa [fpNoise] using hP⟩

/-- **C87** The two Kalman filters of Norfair, with any positive noises and a positive definite initial covariance, meet the
hypotheses about filters of `C87_follows` and `C87_vanishes`. -/
theorem C87_filters :
    (∀ pr : OKFParams K, 0 < pr.R → 0 < pr.Q → 0 < pr.posVariance → 0 < pr.velVariance →
      pr.posVelCovariance ^ 2 < pr.posVariance * pr.velVariance → OKFParams.Valid pr →
      ∃ Ok view, FilterLaws (okfOps pr) Ok ∧ KalmanLaws (okfOps pr) Ok (okfNoise pr) view ∧ (okfNoise pr).Valid) ∧
    ∀ pr : FPParams K, 0 < pr.R → 0 < pr.Q → 0 < pr.P →
      ∃ Ok view, FilterLaws (filterPyOps pr) Ok ∧ KalmanLaws (filterPyOps pr) Ok (fpNoise pr) view ∧ (fpNoise pr).Valid :=
  ⟨fun _ hR hQ hp hv hd h => ⟨_, _, okfDrift_laws h, okf_kalman h, okfNoise_valid hR hQ hp hv hd⟩,
    fun _ hR hQ hP => ⟨_, _, fpDrift_laws hR hQ.le hP.le, filterPy_kalman hR hQ.le hP.le, fpNoise_valid hR hQ hP⟩⟩

/-- **C120** ... and those of `C120_follows`. -/
theorem C120_filters :
    (∀ pr : OKFParams K, 0 < pr.R → 0 < pr.Q → 0 < pr.posVariance → 0 < pr.velVariance →
      pr.posVelCovariance ^ 2 < pr.posVariance * pr.velVariance → OKFParams.Valid pr →
      ∃ Ok view, FilterLaws (okfOps pr) Ok ∧ KalmanLaws (okfOps pr) Ok (okfNoise pr) view ∧ (okfNoise pr).Valid) ∧
    ∀ pr : FPParams K, 0 < pr.R → 0 < pr.Q → 0 < pr.P →
      ∃ Ok view, FilterLaws (filterPyOps pr) Ok ∧ KalmanLaws (filterPyOps pr) Ok (fpNoise pr) view ∧ (fpNoise pr).Valid :=
  C87_filters

end

/-! ### Example: the default filter, a point that moves by 2 per frame, measured at 0, 2 and 9/2 -/

/-- detections of a single point on a line -/
def heapDrift : Ref → Det ℚ Nat Unit
  | 0 => ⟨⟨1, 1, [0]⟩, none, 0, (), ⟨1, 1, [0]⟩, none⟩
  | 1 => ⟨⟨1, 1, [2]⟩, none, 0, (), ⟨1, 1, [2]⟩, none⟩
  | _ => ⟨⟨1, 1, [9 / 2]⟩, none, 0, (), ⟨1, 1, [9 / 2]⟩, none⟩

/-- a new tracker, and its states after one, two and three calls -/
def wDrift : World ℚ Nat (WithTop Nat) (OKF ℚ) Unit := ⟨heapDrift, 0, 0, 0, []⟩
@[inherit_doc wDrift] def wDrift1 : World ℚ Nat (WithTop Nat) (OKF ℚ) Unit :=
  (update okfCfg wDrift (some [0]) 1 none).1
@[inherit_doc wDrift] def wDrift2 : World ℚ Nat (WithTop Nat) (OKF ℚ) Unit :=
  (update okfCfg wDrift1 (some [1]) 1 none).1
@[inherit_doc wDrift] def wDrift3 : World ℚ Nat (WithTop Nat) (OKF ℚ) Unit :=
  (update okfCfg wDrift2 (some [2]) 1 none).1

theorem okf_ok {r : World ℚ Nat (WithTop Nat) (OKF ℚ) Unit × Except Err (List (Obj ℚ Nat (WithTop Nat) (OKF ℚ)))}
    (h : (match r.2 with | .ok _ => true | .error _ => false) = true) : ∃ act, r.2 = .ok act := by
  cases hr : r.2 with
  | ok a => exact ⟨a, rfl⟩
  | error e => rw [hr] at h; cases h

/-- the calls are well-formed -/
theorem drift_callOk {w : World ℚ Nat (WithTop Nat) (OKF ℚ) Unit} {r : Ref}
    (h : (w.heap r).absPoints.n = 1 ∧ (w.heap r).absPoints.dim = 1 ∧
      (w.heap r).absPoints.data.length = 1 ∧ (w.heap r).scores = none) :
    CallOk (fun _ : Nat => (1, 1)) [r] none w.heap := by
  refine ⟨(by intro c hc; cases hc), ?_⟩
  intro q hq
  rw [List.mem_singleton.mp hq]
  obtain ⟨h1, h2, h3, h4⟩ := h
  refine ⟨h1, h2, by rw [h3, h1, h2], ?_⟩
  intro s hs; rw [h4] at hs; cases hs

/-- C87: the estimate after the third call, 4 is the true position -/
example (o' : Obj ℚ Nat (WithTop Nat) (OKF ℚ)) (ho' : o' ∈ wDrift3.objs) :
    ∃ x v, (o'.positions okfCfg.flt).data[0 * o'.dimPoints + 0]? = some x ∧
      (o'.velocity okfCfg.flt).data[0 * o'.dimPoints + 0]? = some v ∧
      (x - 4) ^ 2 ≤ (okfNoise okfDefaults).posVar * (okfNoise okfDefaults).bound (1 / 2) 0 (-2) 2 ∧
      (v - 2) ^ 2 ≤ (okfNoise okfDefaults).velVar * (okfNoise okfDefaults).bound (1 / 2) 0 (-2) 2 := by
  obtain ⟨act, hact⟩ := okf_ok (r := update okfCfg wDrift (some [0]) 1 none) (by decide +kernel)
  have hobj : ∃ o ∈ wDrift1.objs, o.initId = 1 ∧ o.numPoints = 1 ∧ o.dimPoints = 1 ∧ o.lastDet = 0 := by
    decide +kernel
  obtain ⟨o, ho, o1, o2, o3, o4⟩ := hobj
  have hseen : ∀ (d : Det ℚ Nat Unit), d.scores = none → Seen okfCfg.detThr d 0 := by
    intro d hd s hs; rw [hd] at hs; cases hs
  have ht : Trace okfCfg wDrift1 [⟨some [1], 1, none, wDrift1, wDrift2, (update okfCfg wDrift1 (some [1]) 1 none).2⟩,
      ⟨some [2], 1, none, wDrift2, wDrift3, (update okfCfg wDrift2 (some [2]) 1 none).2⟩] wDrift3 :=
    .call (some [2]) 1 none (.call (some [1]) 1 none (.nil _))
  have hall1 : ∀ o ∈ wDrift1.objs, o.lastDet = 0 := by decide +kernel
  have hall2 : ∀ o ∈ wDrift2.objs, o.lastDet = 1 ∧ o.dimPoints = 1 := by decide +kernel
  have hall3 : ∀ o ∈ wDrift3.objs, o.lastDet = 2 ∧ o.dimPoints = 1 ∧ o.initId = 1 := by decide +kernel
  have hv : (okfNoise okfDefaults).Valid := by
    refine okfNoise_valid ?_ ?_ ?_ ?_ ?_ <;> decide +kernel
  have h := C87_follows (cfg := okfCfg) (okfDrift_laws okfDefaults_valid) hv (okf_kalman okfDefaults_valid) rfl
    (shape := fun _ => (1, 1)) (fun _ _ _ => rfl) (w0 := wDrift) ⟨rfl, rfl, rfl⟩ (.refl _)
    (Prod.ext rfl hact) (drift_callOk (by decide +kernel)) ho
    (by rw [o1]; decide +kernel) (pt := 0) (j := 0) (by rw [o2]; decide) (by rw [o3]; decide)
    (hseen _ (by rw [o4]; decide +kernel)) (z := 0) (by rw [o3, o4]; decide +kernel)
    (t := 0) (u := 2) (W := 1 / 2) ht ?_ ho' (by rw [o1]; exact (hall3 o' ho').2.2)
  · simpa [show (2 : ℚ) * 2 = 4 by norm_num] using h
  · intro k f hf
    rw [o1]
    match k with
    | 0 =>
      cases hf
      refine ⟨okf_ok (by decide +kernel), drift_callOk (by decide +kernel), ⟨?_, ?_⟩, ?_⟩
      · intro o ho _; rw [hall1 o ho]; decide
      · intro o ho _; rw [(hall2 o ho).1]; decide
      · intro o ho _
        simp only
        rw [(hall2 o ho).1, (hall2 o ho).2]
        exact ⟨hseen _ (by decide +kernel), 2, by decide +kernel, by decide +kernel⟩
    | 1 =>
      cases hf
      refine ⟨okf_ok (by decide +kernel), drift_callOk (by decide +kernel), ⟨?_, ?_⟩, ?_⟩
      · intro o ho _; rw [(hall2 o ho).1]; decide
      · intro o ho _; rw [(hall3 o ho).1]; decide
      · intro o ho _
        simp only
        rw [(hall3 o ho).1, (hall3 o ho).2.1]
        exact ⟨hseen _ (by decide +kernel), 9 / 2, by decide +kernel, by decide +kernel⟩
    | _ + 2 => simp at hf

/-- C87: vanishing errors, default filter: a point that starts at 0 and moves by 2 per frame -/
example := C87_vanishes (cfg := okfCfg) (okfDrift_laws okfDefaults_valid)
  (okfNoise_valid (pr := okfDefaults) (by decide +kernel) (by decide +kernel) (by decide +kernel)
    (by decide +kernel) (by decide +kernel))
  (okf_kalman okfDefaults_valid) rfl (shape := fun _ => (1, 1)) (fun _ _ _ => rfl) 0 0 2
  (show (0 : ℚ) < 1 / 10 by norm_num)

/-- the factor of the default filter -/
example : (okfNoise okfDefaults).Valid ∧ (okfNoise okfDefaults).rate = 626 / 627 := by
  constructor
  · refine okfNoise_valid ?_ ?_ ?_ ?_ ?_ <;> decide +kernel
  · decide +kernel

/-- the filters of filterpy with the default parameters -/
example : (fpNoise (⟨4, 1 / 10, 10⟩ : FPParams ℚ)).Valid ∧
    KalmanLaws (filterPyOps (⟨4, 1 / 10, 10⟩ : FPParams ℚ))
      (fun f => f.2.Good ∧ f.2.Q = cvQ f.1 1 (1 / 10) ∧ f.2.R = diagonal fun _ => 4)
      (fpNoise ⟨4, 1 / 10, 10⟩) fpView :=
  ⟨fpNoise_valid (by norm_num) (by norm_num) (by norm_num),
    filterPy_kalman (by norm_num) (by norm_num) (by norm_num)⟩

end Norfair.Props
