import Verif.Lemmas.OKF
import Verif.Lemmas.FilterPy
import Verif.Lemmas.PointsInv
import Verif.Props.TrackerPoints

/-!
Property theorems C31, C32, C33, C36: the filters of `norfair/filter.py`.
-/

namespace Norfair.Props

open Norfair Norfair.Spec Norfair.Toy Matrix

variable {K : Type}

/-! ### C32: valid states of `OptimizedKalmanFilter` -/

section
variable [Field K] [LinearOrder K] [IsStrictOrderedRing K]

/-- the call of a method of `OptimizedKalmanFilter` -/
def okfCall (f : OKF K) : FCall K → OKF K
  | .predict => f.predict
  | .update o => f.update o.z o.R (o.mask.map diagOf)

/-- valid parameters: positive measurement noise, non-negative process noise, positive semi-definite
initial covariance -/
structure OKFParams.Valid (pr : OKFParams K) : Prop where
  R : 0 < pr.R
  Q : 0 ≤ pr.Q
  pos : 0 ≤ pr.posVariance
  vel : 0 ≤ pr.velVariance
  cov : pr.posVelCovariance ^ 2 ≤ pr.posVariance * pr.velVariance

/-- array sizes, noises and covariances of a filter are valid -/
structure OKFValid (r : K) (f : OKF K) : Prop where
  ok : f.Ok
  q : 0 ≤ f.q
  rpos : 0 < r
  defaultR : f.defaultR = List.replicate f.dimZ r
  psd : ∀ i, i < f.dimZ → (f.coord i).Psd

theorem meas_noise (o : Meas K) {r : K} {d : Nat} {i : Nat} (hi : i < d) :
    (o.R.getD (List.replicate d r)).getD i 0 = o.noise r i := by
  unfold Meas.noise
  cases o.R <;> simp [hi]

theorem meas_noise_pos {o : Meas K} {r : K} {d : Nat} (ho : o.Fits d) (hr : 0 < r) {i : Nat}
    (hi : i < d) : 0 < o.noise r i := by
  unfold Meas.noise
  cases h : o.R with
  | none => exact hr
  | some l =>
    obtain ⟨h1, h2⟩ := ho.R l h
    have : i < l.length := by omega
    simpa [List.getElem?_eq_getElem this] using h2 _ (List.getElem_mem this)

theorem meas_mask (o : Meas K) {d : Nat} (ho : o.Fits d) {i : Nat} (hi : i < d) :
    ((o.mask.map (diagOf (K := K))).getD (List.replicate d 1)).getD i 0 =
      if o.observed i then 1 else 0 := by
  unfold Meas.observed
  cases h : o.mask with
  | none => simp [hi]
  | some m =>
    have : i < m.length := by rw [ho.mask m h]; exact hi
    simp [diagOf, List.getElem?_eq_getElem this]

theorem okf_update_fields (f : OKF K) (z : List K) (R H : Option (List K)) :
    (f.update z R H).dimZ = f.dimZ ∧ (f.update z R H).q = f.q ∧
    (f.update z R H).defaultR = f.defaultR := ⟨rfl, rfl, rfl⟩

theorem okf_update_ok {f : OKF K} (h : f.Ok) {o : Meas K} (ho : o.Fits f.dimZ) :
    (f.update o.z o.R (o.mask.map diagOf)).Ok := by
  have hz := ho.z
  have hR' : (o.R.getD f.defaultR).length = f.dimZ := by
    cases hR : o.R with
    | none => exact h.defaultR
    | some r => exact (ho.R r hR).1
  have hH' : ((o.mask.map (diagOf (K := K))).getD (List.replicate f.dimZ 1)).length = f.dimZ := by
    cases hm : o.mask with
    | none => simp
    | some r => simpa using ho.mask r hm
  rw [OKF.update_eq]
  refine ⟨?_, ?_, ?_, ?_, h.defaultR⟩
  all_goals
    simp [OKF.updateWith, hz, hR', hH', h.x, h.posVar, h.posVel, h.velVar]
  omega

/-- the number that the code divides by, coordinate `i` -/
def okfDenominator (f : OKF K) (r : K) (i : Nat) : K :=
  f.posVar.getD i 0 + f.posVel.getD i 0 + (f.posVel.getD i 0 + f.velVar.getD i 0) + f.q + r

theorem okf_added {f : OKF K} (hq : 0 ≤ f.q) {i : Nat} (h : (f.coord i).Psd) (r : K) :
    r ≤ okfDenominator f r i := by
  have := (h.predict (le_refl (0 : K)) (le_refl 0)).1
  simp only [KF2.predict] at this
  show r ≤ (f.coord i).a + (f.coord i).b + ((f.coord i).b + (f.coord i).c) + f.q + r
  linarith

/-- one coordinate of an update, in the textbook form -/
theorem okf_update_coord {f : OKF K} {r : K} (hv : OKFValid r f) {o : Meas K} (ho : o.Fits f.dimZ)
    {i : Nat} (hi : i < f.dimZ) :
    (f.update o.z o.R (o.mask.map diagOf)).coord i =
      KF2.update (o.noise r i) (o.value i) (o.observed i)
        ⟨(f.coord i).p, (f.coord i).v, (f.coord i).a + 2 * (f.coord i).b + (f.coord i).c + f.q,
          (f.coord i).b + (f.coord i).c, (f.coord i).c + f.q⟩ := by
  rw [OKF.coord_update hv.ok ho.z (fun r hr => (ho.R r hr).1) _ hi]
  · rw [hv.defaultR, meas_noise o hi, meas_mask o ho hi, okfStep_eq]
    · rfl
    · exact ((meas_noise_pos ho hv.rpos hi).trans_le
        (okf_added hv.q (hv.psd i hi) (o.noise r i))).ne'
  · intro m hm
    cases h : o.mask with
    | none => rw [h] at hm; cases hm
    | some l => rw [h] at hm; cases hm; simpa using ho.mask l h

theorem OKFValid.create {pr : OKFParams K} (h : OKFParams.Valid pr) {p : Pts K}
    (hp : p.data.length = p.dim * p.n) : OKFValid pr.R (OKF.create pr p) := by
  refine ⟨((okf_laws pr).create p hp).1, h.Q, h.R, rfl, ?_⟩
  intro i hi
  change i < p.dim * p.n at hi
  refine ⟨?_, ?_, ?_⟩ <;> simp [OKF.coord, OKF.create, hi, h.pos, h.vel, h.cov]

theorem OKFValid.predict {f : OKF K} {r : K} (h : OKFValid r f) : OKFValid r f.predict := by
  refine ⟨((okf_laws ⟨0, 0, 0, 0, 0⟩).predict f h.ok).1, h.q, h.rpos, h.defaultR, ?_⟩
  intro i hi
  rw [OKF.coord_predict h.ok hi]
  exact h.psd i hi

theorem OKFValid.update {f : OKF K} {r : K} (h : OKFValid r f) {o : Meas K} (ho : o.Fits f.dimZ) :
    OKFValid r (f.update o.z o.R (o.mask.map diagOf)) := by
  refine ⟨okf_update_ok h.ok ho, h.q, h.rpos, h.defaultR, ?_⟩
  intro i hi
  rw [okf_update_coord h ho hi]
  refine Spec.KF2.Psd.update ?_ (meas_noise_pos ho h.rpos hi) _ _
  exact (h.psd i hi).predict h.q h.q

theorem OKFValid.call {f : OKF K} {r : K} (h : OKFValid r f) {c : FCall K} (hc : c.Fits f.dimZ) :
    OKFValid r (okfCall f c) := by
  cases c with
  | predict => exact h.predict
  | update o => exact h.update hc

theorem okfCall_dimZ (f : OKF K) (c : FCall K) : (okfCall f c).dimZ = f.dimZ := by cases c <;> rfl

theorem OKFValid.calls {f : OKF K} {r : K} (h : OKFValid r f) {cs : List (FCall K)}
    (hc : ∀ c ∈ cs, c.Fits f.dimZ) :
    OKFValid r (cs.foldl okfCall f) ∧ (cs.foldl okfCall f).dimZ = f.dimZ := by
  induction cs generalizing f with
  | nil => exact ⟨h, rfl⟩
  | cons c cs ih =>
    have h1 := ih (h.call (hc c (by simp))) (fun c' hc' => by
      rw [okfCall_dimZ]; exact hc c' (by simp [hc']))
    exact ⟨h1.1, h1.2.trans (okfCall_dimZ f c)⟩

/-- **C32** With `R > 0`, `Q >= 0` and a valid initial covariance, after every history of `predict` and
`update` calls, in any order and with any masks and noises, the covariance of each coordinate is
positive semi-definite. -/
theorem C32_valid {pr : OKFParams K} (hpr : OKFParams.Valid pr) {p : Pts K}
    (hp : p.data.length = p.dim * p.n) {cs : List (FCall K)} (hc : ∀ c ∈ cs, c.Fits (p.dim * p.n))
    {i : Nat} (hi : i < p.dim * p.n) :
    let f := cs.foldl okfCall (OKF.create pr p)
    ∃ a b c, f.posVar[i]? = some a ∧ f.posVel[i]? = some b ∧ f.velVar[i]? = some c ∧
      0 ≤ a ∧ 0 ≤ c ∧ b ^ 2 ≤ a * c := by
  intro f
  obtain ⟨hv, hd⟩ := (OKFValid.create hpr hp).calls hc
  have hi' : i < f.dimZ := by rw [hd]; exact hi
  obtain ⟨h1, h2, h3⟩ := hv.psd i hi'
  have l1 : i < f.posVar.length := by rw [hv.ok.posVar]; exact hi'
  have l2 : i < f.posVel.length := by rw [hv.ok.posVel]; exact hi'
  have l3 : i < f.velVar.length := by rw [hv.ok.velVar]; exact hi'
  refine ⟨_, _, _, List.getElem?_eq_getElem l1, List.getElem?_eq_getElem l2,
    List.getElem?_eq_getElem l3, ?_⟩
  have e1 : (f.coord i).a = f.posVar[i] := by simp [OKF.coord, List.getElem?_eq_getElem l1]
  have e2 : (f.coord i).b = f.posVel[i] := by simp [OKF.coord, List.getElem?_eq_getElem l2]
  have e3 : (f.coord i).c = f.velVar[i] := by simp [OKF.coord, List.getElem?_eq_getElem l3]
  rw [← e1, ← e2, ← e3]
  exact ⟨h1, h2, h3⟩

/-- **C32** After every such history, the number that the next `update` divides by is, for each
coordinate, at least the measurement noise and hence positive. -/
theorem C32_denominator {pr : OKFParams K} (hpr : OKFParams.Valid pr) {p : Pts K}
    (hp : p.data.length = p.dim * p.n) {cs : List (FCall K)} (hc : ∀ c ∈ cs, c.Fits (p.dim * p.n))
    {o : Meas K} (ho : o.Fits (p.dim * p.n)) {i : Nat} (hi : i < p.dim * p.n) :
    0 < o.noise pr.R i ∧
      o.noise pr.R i ≤ okfDenominator (cs.foldl okfCall (OKF.create pr p)) (o.noise pr.R i) i := by
  obtain ⟨hv, hd⟩ := (OKFValid.create hpr hp).calls hc
  have hi' : i < (cs.foldl okfCall (OKF.create pr p)).dimZ := by rw [hd]; exact hi
  exact ⟨meas_noise_pos ho hpr.R hi, okf_added hv.q (hv.psd i hi') _⟩

/-- **C32** After every such history, an `update` moves the position of each observed coordinate towards
the measurement, not beyond it, and leaves the other coordinates alone. -/
theorem C32_between {pr : OKFParams K} (hpr : OKFParams.Valid pr) {p : Pts K}
    (hp : p.data.length = p.dim * p.n) {cs : List (FCall K)} (hc : ∀ c ∈ cs, c.Fits (p.dim * p.n))
    {o : Meas K} (ho : o.Fits (p.dim * p.n)) {i : Nat} (hi : i < p.dim * p.n) :
    let f := cs.foldl okfCall (OKF.create pr p)
    ∃ x x', f.x[i]? = some x ∧ (f.update o.z o.R (o.mask.map diagOf)).x[i]? = some x' ∧
      min x (o.value i) ≤ x' ∧ x' ≤ max x (o.value i) ∧ (o.observed i = false → x' = x) := by
  intro f
  obtain ⟨hv, hd⟩ := (OKFValid.create hpr hp).calls hc
  have hi' : i < f.dimZ := by rw [hd]; exact hi
  have ho' : o.Fits f.dimZ := by rw [hd]; exact ho
  have hv' := hv.update ho'
  have l1 : i < f.x.length := by
    have : f.x.length = 2 * f.dimZ := hv.ok.x
    omega
  have l2 : i < (f.update o.z o.R (o.mask.map diagOf)).x.length := by
    have : (f.update o.z o.R (o.mask.map diagOf)).x.length = 2 * f.dimZ := hv'.ok.x
    omega
  refine ⟨_, _, List.getElem?_eq_getElem l1, List.getElem?_eq_getElem l2, ?_⟩
  have e1 : (f.coord i).p = f.x[i] := by simp [OKF.coord, List.getElem?_eq_getElem l1]
  have e2 : ((f.update o.z o.R (o.mask.map diagOf)).coord i).p =
      (f.update o.z o.R (o.mask.map diagOf)).x[i] := by
    simp [OKF.coord, List.getElem?_eq_getElem l2]
  rw [← e1, ← e2, okf_update_coord hv ho' hi']
  have hpsd := (hv.psd i hi').predict hv.q hv.q
  have hr := meas_noise_pos (r := pr.R) ho' hv.rpos hi'
  generalize o.noise pr.R i = r at hr
  cases o.observed i with
  | false => exact ⟨min_le_left _ _, le_max_left _ _, fun _ => rfl⟩
  | true =>
    simp only [KF2.update, if_true]
    have ha := hpsd.1
    simp only [KF2.predict] at ha
    generalize (f.coord i).a + 2 * (f.coord i).b + (f.coord i).c + _ = a at ha
    have h0 : 0 ≤ a / (a + r) := by positivity
    have h1 : a / (a + r) ≤ 1 := by rw [div_le_one (by linarith)]; linarith
    generalize a / (a + r) = g at h0 h1
    refine ⟨?_, ?_, fun h => by cases h⟩
    · rcases le_total (f.coord i).p (o.value i) with h | h
      · rw [min_eq_left h]; nlinarith
      · rw [min_eq_right h]; nlinarith
    · rcases le_total (f.coord i).p (o.value i) with h | h
      · rw [max_eq_right h]; nlinarith
      · rw [max_eq_left h]; nlinarith

theorem okfValid_laws {pr : OKFParams K} (hpr : OKFParams.Valid pr) :
    FilterLaws (okfOps pr) (OKFValid pr.R) where
  len := fun f h => (okf_laws pr).len f h.ok
  create := fun p hp => ⟨OKFValid.create hpr hp, ((okf_laws pr).create p hp).2⟩
  predict := fun f h => ⟨h.predict, ((okf_laws pr).predict f h.ok).2⟩
  update := fun f z mask h hz hm =>
    ⟨h.update (o := ⟨z, none, some mask⟩) ⟨hz, (by intro r e; cases e), (by
      intro m e; cases e; exact hm)⟩, ((okf_laws pr).update f z mask h.ok hz hm).2⟩
  unobserved := fun f z mask h => (okf_laws pr).unobserved f z mask h.ok
  setX := fun f x h hx => ⟨⟨((okf_laws pr).setX f x h.ok hx).1, h.q, h.rpos, h.defaultR,
    fun i hi => h.psd i hi⟩, ((okf_laws pr).setX f x h.ok hx).2⟩

end

section
variable {L D X : Type} [Field K] [LinearOrder K] [IsStrictOrderedRing K] [LinearOrder D] [OrderTop D]
  [Zero D] [DecidableEq L]

/-- **C32** in the tracker: in every history with well-formed detections, including failed calls and
ReID, the covariance of each coordinate of each tracked object is positive semi-definite and the
denominators are at least `R`. -/
theorem C32_tracker {cfg : Cfg K L D (OKF K) X} {pr : OKFParams K} (hpr : OKFParams.Valid pr)
    (hflt : cfg.flt = okfOps pr) {shape : L → Nat × Nat}
    (hs : ∀ a b, Compat cfg a b → shape a = shape b) {w0 w : World K L D (OKF K) X}
    (h0 : w0.Initial)
    (h : Reaches cfg (fun _ _ => True) (fun dets _ ct w => CallOk shape (dets.getD []) ct w.heap) w0 w) :
    ∀ o ∈ w.objs, ∀ i, i < o.dimZ → (o.filter.coord i).Psd ∧
      0 < pr.R ∧ pr.R ≤ okfDenominator o.filter pr.R i := by
  intro o ho i hi
  have hP := WfReaches.pointsOk (Ok := OKFValid pr.R) (hflt ▸ okfValid_laws hpr) hs h0 h o ho
  have hd := hP.dimZ
  rw [hflt] at hd
  have hi' : i < o.filter.dimZ := by
    show i < (okfOps pr).dimZ o.filter
    rw [hd]; exact hi
  exact ⟨hP.ok.psd i hi', hpr.R, okf_added hP.ok.q (hP.ok.psd i hi') _⟩

end

/-- default parameters (`filter.py` lines 253-258) over the rationals -/
def okfDefaults : OKFParams ℚ := ⟨4, 1 / 10, 10, 0, 1⟩

theorem okfDefaults_valid : OKFParams.Valid okfDefaults := by
  constructor <;> norm_num [okfDefaults]

/-- a history: two coordinates, one of them not always observed -/
def sampleCalls : List (FCall ℚ) :=
  [.predict, .update ⟨[1, 2], none, some [true, false]⟩, .predict, .predict,
    .update ⟨[3, 5], some [1, 2], none⟩]

theorem sampleCalls_fit : ∀ c ∈ sampleCalls, c.Fits 2 := by
  intro c hc
  simp only [sampleCalls, List.mem_cons, List.mem_nil_iff, or_false] at hc
  rcases hc with rfl | rfl | rfl | rfl | rfl
  · trivial
  · exact ⟨rfl, (by simp), (by simp)⟩
  · trivial
  · trivial
  · exact ⟨rfl, (by simp), (by simp)⟩

/-- C32 is about such histories: valid parameters, calls in any order, and the estimate really moves -/
example : OKFParams.Valid okfDefaults ∧ (∀ c ∈ sampleCalls, c.Fits (1 * 2)) ∧
    0 < (sampleCalls.foldl okfCall (OKF.create okfDefaults ⟨2, 1, [0, 0]⟩)).x.getD 0 0 ∧
    (sampleCalls.foldl okfCall (OKF.create okfDefaults ⟨2, 1, [0, 0]⟩)).x.getD 0 0 < 5 :=
  ⟨okfDefaults_valid, sampleCalls_fit, by decide +kernel, by decide +kernel⟩

/-! ### C31: `OptimizedKalmanFilter` and the textbook filter -/

section
variable [Field K] [LinearOrder K] [IsStrictOrderedRing K]

theorem smul_one_eq_cvQ (d : Nat) (q : K) :
    (q • (1 : Matrix (SIdx d) (SIdx d) K)) = cvQ d q q := by
  ext i j
  rcases i with i | i <;> rcases j with j | j <;>
    simp [cvQ, Matrix.one_apply, diagonal_apply]

theorem start_dense {d : Nat} (points : List K) (a b c : K) :
    (Gauss.start points a b c : Gauss K d) = dense fun i => ⟨points.getD i 0, 0, a, b, c⟩ := by
  apply Gauss.ext
  · rfl
  · ext i j
    rcases i with i | i <;> rcases j with j | j <;>
      simp [Gauss.start, dense, Matrix.one_apply, diagonal_apply]

/-- one round of `OptimizedKalmanFilter` -/
def okfRound (f : OKF K) (o : Meas K) : OKF K := f.predict.update o.z o.R (o.mask.map diagOf)

theorem round_dense {f : OKF K} {r : K} (hv : OKFValid r f) {o : Meas K} (ho : o.Fits f.dimZ) :
    (dense (fun i : Fin f.dimZ => f.coord i)).cvRound f.q r o =
      dense (fun i : Fin f.dimZ => (okfRound f o).coord i) := by
  have hpsd : ∀ i : Fin f.dimZ, ((f.coord i).predict f.q f.q).Psd := fun i =>
    (hv.psd i i.2).predict hv.q hv.q
  rw [Gauss.cvRound, smul_one_eq_cvQ, dense_predict]
  rw [dense_update (fun i : Fin f.dimZ => (f.coord i).predict f.q f.q) (fun i => o.observed i)
    (fun i => o.noise r i) (fun i => o.value i) (fun i => (good_S hpsd (fun i => o.observed i)
      (fun i => meas_noise_pos ho hv.rpos i.2) i).ne')]
  congr 1
  funext i
  rw [okfRound, okf_update_coord hv.predict ho i.2, OKF.coord_predict hv.ok i.2]
  rfl

theorem rounds_dense {f : OKF K} {r : K} (hv : OKFValid r f) {os : List (Meas K)}
    (ho : ∀ o ∈ os, o.Fits f.dimZ) :
    OKFValid r (os.foldl okfRound f) ∧ (os.foldl okfRound f).dimZ = f.dimZ ∧
    os.foldl (Gauss.cvRound f.q r) (dense (fun i : Fin f.dimZ => f.coord i)) =
      dense (fun i : Fin f.dimZ => (os.foldl okfRound f).coord i) := by
  induction os generalizing f with
  | nil => exact ⟨hv, rfl, rfl⟩
  | cons o os ih =>
    simp only [List.foldl_cons]
    rw [round_dense hv (ho o (by simp))]
    exact ih (f := okfRound f o) (hv.predict.update (ho o (by simp)))
      (fun o' ho' => ho o' (by simp [ho']))

/-- **C31** After every sequence of rounds of one `predict` and one `update`, with any measurements, any
masks and any noises, the state and the covariance of an `OptimizedKalmanFilter` are those of the
textbook Kalman filter with dense matrices: constant velocity model, process noise `Q` on every
position and velocity, measurement noise `R` (or the one given with the measurement), no covariance
between different coordinates. -/
theorem C31_textbook {pr : OKFParams K} (hpr : OKFParams.Valid pr) {p : Pts K}
    (hp : p.data.length = p.dim * p.n) {os : List (Meas K)} (ho : ∀ o ∈ os, o.Fits (p.dim * p.n)) :
    let f := os.foldl okfRound (OKF.create pr p)
    let g : Gauss K (p.dim * p.n) := os.foldl (Gauss.cvRound pr.Q pr.R)
      (Gauss.start p.data pr.posVariance pr.posVelCovariance pr.velVariance)
    (∀ i : Fin (p.dim * p.n), f.x[i.val]? = some (g.x (.inl i)) ∧
      f.x[p.dim * p.n + i.val]? = some (g.x (.inr i)) ∧
      f.posVar[i.val]? = some (g.P (.inl i) (.inl i)) ∧
      f.posVel[i.val]? = some (g.P (.inl i) (.inr i)) ∧
      f.posVel[i.val]? = some (g.P (.inr i) (.inl i)) ∧
      f.velVar[i.val]? = some (g.P (.inr i) (.inr i))) ∧
    ∀ i j : Fin (p.dim * p.n), i ≠ j → g.P (.inl i) (.inl j) = 0 ∧ g.P (.inl i) (.inr j) = 0 ∧
      g.P (.inr i) (.inl j) = 0 ∧ g.P (.inr i) (.inr j) = 0 := by
  intro f g
  have hv0 := OKFValid.create hpr hp
  obtain ⟨hv, hd, e⟩ := rounds_dense hv0 ho
  have e0 : (fun i : Fin (p.dim * p.n) => (OKF.create pr p).coord i) =
      fun i => ⟨p.data.getD i 0, 0, pr.posVariance, pr.posVelCovariance, pr.velVariance⟩ := by
    funext i
    have h1 : i.val < p.data.length := by rw [hp]; exact i.2
    have h2 : p.data.length ≤ p.dim * p.n + i.val := by omega
    simp [OKF.coord, OKF.create, List.getElem?_append_left h1, List.getElem?_append_right h2, hp]
  have hg : g = dense (fun i : Fin (p.dim * p.n) => f.coord i) := by
    refine Eq.trans ?_ e
    show os.foldl _ (Gauss.start _ _ _ _) = _
    rw [start_dense, ← e0]
    rfl
  have hx : f.x.length = 2 * (p.dim * p.n) := by
    have := hv.ok.x
    rw [hd] at this
    exact this
  have h1 : f.posVar.length = p.dim * p.n := hv.ok.posVar.trans hd
  have h2 : f.posVel.length = p.dim * p.n := hv.ok.posVel.trans hd
  have h3 : f.velVar.length = p.dim * p.n := hv.ok.velVar.trans hd
  have hdz : f.dimZ = p.dim * p.n := hd
  have S := splits_dense (fun i : Fin (p.dim * p.n) => f.coord i)
  rw [← hg] at S
  have get : ∀ (l : List K) (k : Nat), k < l.length → l[k]? = some (l.getD k 0) := by
    intro l k hk; simp [List.getElem?_eq_getElem hk]
  refine ⟨fun i => ?_, fun i j hij => ?_⟩
  · have hi := i.2
    rw [S.pos, S.vel, S.posPos, S.posVel, S.velPos, S.velVel, get _ _ (by omega),
      get _ _ (by omega), get f.posVar _ (by omega), get f.posVel _ (by omega),
      get f.velVar _ (by omega)]
    simp only [if_true]
    refine ⟨rfl, ?_, rfl, rfl, rfl, rfl⟩
    show some (f.x.getD _ 0) = some (f.x.getD (f.dimZ + i.val) 0)
    simp only [hdz]
  · rw [S.posPos, S.posVel, S.velPos, S.velVel]
    simp [hij]

end

/-- C31 is about such histories -/
example : OKFParams.Valid okfDefaults ∧
    (∀ o ∈ [(⟨[1, 2], none, some [true, false]⟩ : Meas ℚ), ⟨[3, 5], some [1, 2], none⟩],
      o.Fits (1 * 2)) ∧
    ([(⟨[1, 2], none, some [true, false]⟩ : Meas ℚ), ⟨[3, 5], some [1, 2], none⟩].foldl okfRound
      (OKF.create okfDefaults ⟨2, 1, [0, 0]⟩)).x.getD 2 0 ≠ 0 := by
  refine ⟨okfDefaults_valid, ?_, by decide +kernel⟩
  intro o ho
  simp only [List.mem_cons, List.mem_nil_iff, or_false] at ho
  rcases ho with rfl | rfl
  · exact ⟨rfl, (by simp), (by simp)⟩
  · exact ⟨rfl, (by simp), (by simp)⟩

/-- **C31**, the limit of the equivalence: `OptimizedKalmanFilter` changes its covariance in `update`
only, so when two predictions come before an update (an object without a match in one frame) its
estimate is not that of the textbook filter, which has become more uncertain in the meantime. -/
theorem C31_skipped_frame_differs :
    let f := ((OKF.create okfDefaults ⟨1, 1, [0]⟩).predict.predict).update [1] none none
    let g : Gauss ℚ 1 := (((Gauss.start [0] 10 0 1).predict (cvF ℚ 1) ((1 / 10 : ℚ) • 1)).predict
      (cvF ℚ 1) ((1 / 10 : ℚ) • 1)).update (obsH ℚ fun _ => true) (diagonal fun _ => 4) (fun _ => 1)
    ∃ x, f.x[0]? = some x ∧ x < g.x (.inl 0) := by
  intro f g
  have hg : g = dense fun _ => KF2.update 4 1 true
      (((⟨0, 0, 10, 0, 1⟩ : KF2 ℚ).predict (1 / 10) (1 / 10)).predict (1 / 10) (1 / 10)) := by
    show Gauss.update _ _ _ (Gauss.predict _ _ (Gauss.predict _ _ _)) = _
    rw [start_dense, smul_one_eq_cvQ, dense_predict, dense_predict, dense_update]
    · congr 1
      funext i
      rw [show i = 0 from Subsingleton.elim _ _]
      rfl
    · intro i
      norm_num [KF2.predict]
  rw [hg]
  refine ⟨111 / 151, by decide +kernel, ?_⟩
  norm_num [dense, KF2.update, KF2.predict]

/-! ### C36: the filters of `FilterPyKalmanFilterFactory` -/

section
variable [Field K] [LinearOrder K] [IsStrictOrderedRing K]

/-- the call of a method of a filter made by `FilterPyKalmanFilterFactory`; without a mask the matrix
`H` of the filter is used -/
noncomputable def fpCall {d : Nat} (f : FPKalman K d) : FCall K → FPKalman K d
  | .predict => f.predict
  | .update o => f.update (fun i => o.z.getD i 0) (o.R.map fun r => diagonal fun i => r.getD i 0)
      (o.mask.map (hitH K d))

/-- the same call for a single coordinate `i` of a two-state filter with process noise 1 and `Q`,
measurement noise `R` -/
def kf2Call (Q R : K) (i : Nat) (s : KF2 K) : FCall K → KF2 K
  | .predict => s.predict 1 Q
  | .update o => s.update (o.noise R i) (o.value i) (o.observed i)

theorem fpCall_dense {d : Nat} {f : FPKalman K d} (hF : f.F = cvF K d)
    (hH : f.H = obsH K fun _ => true) {Q R : K} (hQ0 : 0 ≤ Q) (hR0 : 0 < R)
    (hQ : f.Q = cvQ d 1 Q) (hR : f.R = diagonal fun _ => R) {s : Fin d → KF2 K}
    (hs : ∀ i, (s i).Psd) (hg : f.gauss = dense s) {c : FCall K} (hc : c.Fits d) :
    (fpCall f c).F = cvF K d ∧ (fpCall f c).H = (obsH K fun _ => true) ∧
    (fpCall f c).Q = cvQ d 1 Q ∧ (fpCall f c).R = (diagonal fun _ => R) ∧
    (∀ i : Fin d, (kf2Call Q R i (s i) c).Psd) ∧
    (fpCall f c).gauss = dense (fun i : Fin d => kf2Call Q R i (s i) c) := by
  cases c with
  | predict =>
    refine ⟨hF, hH, hQ, hR, fun i => (hs i).predict zero_le_one hQ0, ?_⟩
    show f.predict.gauss = _
    rw [FPKalman.gauss_predict, hg, hF, hQ, dense_predict]
    rfl
  | update o =>
    have hr : ∀ i : Fin d, 0 < o.noise R i := fun i => meas_noise_pos hc hR0 i.2
    refine ⟨hF, hH, hQ, hR, fun i => (hs i).update (hr i) _ _, ?_⟩
    have eR : (o.R.map fun r => (diagonal fun i : Fin d => r.getD i 0)).getD f.R =
        diagonal fun i : Fin d => o.noise R i := by
      unfold Meas.noise
      cases o.R with
      | none => exact hR
      | some r => rfl
    have eH : (o.mask.map (hitH K d)).getD f.H = obsH K fun i : Fin d => o.observed i := by
      unfold Meas.observed
      cases o.mask with
      | none => exact hH
      | some m => exact hitH_eq m
    have hP : f.P = (dense s).P := by rw [← hg]; rfl
    show (f.update _ _ _).gauss = _
    rw [FPKalman.gauss_update, eR, eH, hg, dense_update s (fun i => o.observed i)
      (fun i => o.noise R i) _ (fun i => (good_S hs (fun i => o.observed i) hr i).ne')]
    · rfl
    · rw [eR, eH, hP, dense_S s (fun i => o.observed i) (fun i => o.noise R i), det_diagonal,
        isUnit_iff_ne_zero, Finset.prod_ne_zero_iff]
      exact fun i _ => (good_S hs (fun i => o.observed i) hr i).ne'

theorem fpCalls_dense {d : Nat} {f : FPKalman K d} (hF : f.F = cvF K d)
    (hH : f.H = obsH K fun _ => true) {Q R : K} (hQ0 : 0 ≤ Q) (hR0 : 0 < R)
    (hQ : f.Q = cvQ d 1 Q) (hR : f.R = diagonal fun _ => R) {s : Fin d → KF2 K}
    (hs : ∀ i, (s i).Psd) (hg : f.gauss = dense s) {cs : List (FCall K)} (hc : ∀ c ∈ cs, c.Fits d) :
    (cs.foldl fpCall f).gauss = dense (fun i : Fin d => cs.foldl (kf2Call Q R i) (s i)) ∧
      (cs.foldl fpCall f).R = (diagonal fun _ => R) ∧
      (cs.foldl fpCall f).H = (obsH K fun _ => true) ∧
      ∀ i : Fin d, (cs.foldl (kf2Call Q R i) (s i)).Psd := by
  induction cs generalizing f s with
  | nil => exact ⟨hg, hR, hH, hs⟩
  | cons c cs ih =>
    obtain ⟨a1, a2, a3, a4, a5, a6⟩ := fpCall_dense hF hH hQ0 hR0 hQ hR hs hg (hc c (by simp))
    simp only [List.foldl_cons]
    exact ih a1 a2 a3 a4 a5 a6 (fun c' hc' => hc c' (by simp [hc']))

/-- **C36** The filter made by `FilterPyKalmanFilterFactory` and run by filterpy (dense matrices, Joseph
form) decouples: after every history of `predict` and `update` calls, with any masks and noises, its
positions, velocities and covariances are those of one two-state constant velocity filter per
coordinate, with initial variances 1 (position) and `P` (velocity), process noises 1 and `Q` and
measurement noise `R`; covariances between different coordinates are 0. -/
theorem C36_decouples {pr : FPParams K} (hR : 0 < pr.R) (hQ : 0 ≤ pr.Q) (hP : 0 ≤ pr.P) (p : Pts K)
    {cs : List (FCall K)} (hc : ∀ c ∈ cs, c.Fits (p.dim * p.n)) :
    let f := cs.foldl fpCall (FPKalman.create pr p)
    Gauss.Splits ⟨f.x, f.P⟩ fun i : Fin (p.dim * p.n) =>
      cs.foldl (kf2Call pr.Q pr.R i) ⟨p.data.getD i 0, 0, 1, 0, pr.P⟩ := by
  intro f
  rw [splits_iff]
  exact (fpCalls_dense (create_F pr p) (create_H pr p) hQ hR (create_Q pr p) (create_R pr p)
    (fun _ => ⟨zero_le_one, hP, by simpa using hP⟩) (create_gauss pr p) hc).1

/-- **C36** and the matrix that filterpy inverts in the next `update` is always invertible. -/
theorem C36_invertible {pr : FPParams K} (hR : 0 < pr.R) (hQ : 0 ≤ pr.Q) (hP : 0 ≤ pr.P) (p : Pts K)
    {cs : List (FCall K)} (hc : ∀ c ∈ cs, c.Fits (p.dim * p.n)) (mask : List Bool) :
    let f := cs.foldl fpCall (FPKalman.create pr p)
    IsUnit (hitH K (p.dim * p.n) mask * (f.P * (hitH K (p.dim * p.n) mask)ᵀ) + f.R) := by
  intro f
  obtain ⟨h1, h2, h3, h4⟩ := fpCalls_dense (create_F pr p) (create_H pr p) hQ hR (create_Q pr p)
    (create_R pr p) (fun _ => ⟨zero_le_one, hP, by simpa using hP⟩) (create_gauss pr p) hc
  have e : f.P = (dense fun i : Fin (p.dim * p.n) =>
      cs.foldl (kf2Call pr.Q pr.R i) ⟨p.vec _ i, 0, 1, 0, pr.P⟩).P := by rw [← h1]; rfl
  rw [Matrix.isUnit_iff_isUnit_det, ← Matrix.mul_assoc, e, show f.R = _ from h2, hitH_eq,
    dense_S _ (fun i => mask.getD i false) (fun _ => pr.R), det_diagonal, isUnit_iff_ne_zero,
    Finset.prod_ne_zero_iff]
  exact fun i _ => (good_S h4 (fun i => mask.getD i false) (fun _ => hR) i).ne'

end

/-- C36 is about such histories: default parameters (`filter.py` line 41) -/
example : (0 : ℚ) < (⟨4, 1 / 10, 10⟩ : FPParams ℚ).R ∧ (∀ c ∈ sampleCalls, c.Fits (1 * 2)) ∧
    (sampleCalls.foldl (kf2Call (1 / 10) 4 0) ⟨0, 0, 1, 0, 10⟩).p ≠ 0 :=
  ⟨by norm_num, sampleCalls_fit, by decide +kernel⟩

/-! ### C33: masks -/

/-- the measurements agree on the observed coordinates -/
def AgreeObserved (mask : List Bool) (z z' : List K) : Prop :=
  ∀ k : Nat, mask[k]? = some true → z[k]? = z'[k]?

section
variable [Field K]

/-- **C33** `OptimizedKalmanFilter.update` with a mask: positions and velocities of coordinates that are
not observed stay as they are. -/
theorem C33_okf_unobserved (pr : OKFParams K) {f : OKF K} (h : f.Ok) {z : List K} {mask : List Bool}
    (hz : z.length = f.dimZ) (hm : mask.length = f.dimZ) {k : Nat} (hk : mask[k]? = some false) :
    ((okfOps pr).update f z mask).x[k]? = f.x[k]? ∧
    ((okfOps pr).update f z mask).x[f.dimZ + k]? = f.x[f.dimZ + k]? :=
  (okf_laws pr).unobserved f z mask h hz hm k hk

/-- **C33** ... the whole new state does not depend on the measured values of unobserved coordinates. -/
theorem C33_okf_values (pr : OKFParams K) {f : OKF K} (h : f.Ok) {z z' : List K} {mask : List Bool}
    (hz : z.length = f.dimZ) (hz' : z'.length = f.dimZ) (hm : mask.length = f.dimZ)
    (ha : AgreeObserved mask z z') : (okfOps pr).update f z mask = (okfOps pr).update f z' mask := by
  have e : vmul (vsub z (f.x.take f.dimZ)) (diagOf mask) =
      vmul (vsub z' (f.x.take f.dimZ)) (diagOf mask) := by
    apply List.ext_getElem?
    intro k
    simp only [vmul, vsub, List.getElem?_zipWith, diagOf_get]
    cases hk : mask[k]? with
    | none =>
      cases z[k]? <;> cases z'[k]? <;> cases (f.x.take f.dimZ)[k]? <;> rfl
    | some b =>
      cases b with
      | true => rw [ha k hk]
      | false =>
        have hkl : k < f.dimZ := by rw [← hm]; exact (List.getElem?_eq_some_iff.mp hk).1
        rw [List.getElem?_eq_getElem (show k < z.length by omega),
          List.getElem?_eq_getElem (show k < z'.length by omega)]
        cases (f.x.take f.dimZ)[k]? <;> simp
  show f.update z none (some (diagOf mask)) = f.update z' none (some (diagOf mask))
  rw [OKF.update_eq, OKF.update_eq]
  simp only [OKF.updateWith, Option.getD_some, e]

/-- **C33** ... and coordinates do not influence each other: the new position, velocity and variances of
a coordinate are determined by its old ones, its measured value and its entry in the mask, whatever the
number of coordinates and whatever the others are. -/
theorem C33_okf_independent (pr : OKFParams K) {f f' : OKF K} (h : f.Ok) (h' : f'.Ok)
    {z z' : List K} {mask mask' : List Bool} (hz : z.length = f.dimZ) (hz' : z'.length = f'.dimZ)
    (hm : mask.length = f.dimZ) (hm' : mask'.length = f'.dimZ) (hq : f.q = f'.q) {i j : Nat}
    (hi : i < f.dimZ) (hj : j < f'.dimZ) (hr : f.defaultR[i]? = f'.defaultR[j]?)
    (hc : f.coord i = f'.coord j) (hzz : z[i]? = z'[j]?) (hmm : mask[i]? = mask'[j]?) :
    ((okfOps pr).update f z mask).coord i = ((okfOps pr).update f' z' mask').coord j := by
  show (f.update z none (some (diagOf mask))).coord i = (f'.update z' none (some (diagOf mask'))).coord j
  rw [OKF.coord_update h hz (by intro r e; cases e) (by intro r e; cases e; simpa using hm) hi,
    OKF.coord_update h' hz' (by intro r e; cases e) (by intro r e; cases e; simpa using hm') hj, hc, hq]
  simp only [Option.getD_none, Option.getD_some, List.getD_eq_getElem?_getD, hr, hzz, diagOf_get, hmm]

/-- a filter with two coordinates and an update that observes the second one -/
example : (OKF.create okfDefaults ⟨2, 1, [0, 0]⟩).Ok ∧ AgreeObserved [false, true] [7, 1] [(8 : ℚ), 1] ∧
    ((okfOps okfDefaults).update (OKF.create okfDefaults ⟨2, 1, [0, 0]⟩) [7, 1] [false, true]).x ≠
      (OKF.create okfDefaults ⟨2, 1, [0, 0]⟩).x := by
  refine ⟨((okf_laws okfDefaults).create ⟨2, 1, [0, 0]⟩ rfl).1, ?_, by decide +kernel⟩
  intro k hk
  match k with
  | 0 => cases hk
  | 1 => rfl
  | k + 2 => simp at hk

end

section
variable [Ring K]

/-- **C33** `NoFilter.update` with a mask: unobserved coordinates stay, observed ones are replaced by the
measurement, and no coordinate depends on another one. -/
theorem C33_noFilter {f : NoFilter K} (h : f.Ok) {z : List K} {mask : List Bool}
    (hz : z.length = f.dimZ) (hm : mask.length = f.dimZ) {k : Nat} (hk : k < f.dimZ) :
    ((noFilterOps (K := K)).update f z mask).x[k]? =
      (if mask[k]? = some true then z[k]? else f.x[k]?) ∧
    ((noFilterOps (K := K)).update f z mask).x[f.dimZ + k]? = f.x[f.dimZ + k]? := by
  change f.x.length = 2 * f.dimZ at h
  have hl : (vadd (vmul (diagOf mask) z)
      (vmul ((diagOf mask).map (fun a : K => 1 - a)) (f.x.take f.dimZ))).length = f.dimZ := by
    simp [hz, hm, h]; omega
  show (f.update z (some (diagOf mask))).x[k]? = _ ∧ (f.update z (some (diagOf mask))).x[f.dimZ + k]? = _
  simp only [NoFilter.update]
  constructor
  · rw [List.getElem?_append_left (by rw [hl]; exact hk)]
    simp only [vadd, vmul, List.getElem?_zipWith, List.getElem?_map, diagOf_get,
      List.getElem?_take_of_lt hk]
    rw [List.getElem?_eq_getElem (show k < mask.length by omega),
      List.getElem?_eq_getElem (show k < z.length by omega),
      List.getElem?_eq_getElem (show k < f.x.length by omega)]
    cases mask[k] <;> simp
  · rw [List.getElem?_append_right (by rw [hl]; omega), hl, List.getElem?_drop]
    congr 1; omega

theorem C33_noFilter_values {f : NoFilter K} (h : f.Ok) {z z' : List K} {mask : List Bool}
    (hz : z.length = f.dimZ) (hz' : z'.length = f.dimZ) (hm : mask.length = f.dimZ)
    (ha : AgreeObserved mask z z') :
    (noFilterOps (K := K)).update f z mask = (noFilterOps (K := K)).update f z' mask := by
  have e : vmul (diagOf mask) z = vmul (diagOf mask) z' := by
    apply List.ext_getElem?
    intro k
    simp only [vmul, List.getElem?_zipWith, diagOf_get]
    cases hk : mask[k]? with
    | none => rfl
    | some b =>
      cases b with
      | true => rw [ha k hk]
      | false =>
        have hkl : k < f.dimZ := by rw [← hm]; exact (List.getElem?_eq_some_iff.mp hk).1
        rw [List.getElem?_eq_getElem (show k < z.length by omega),
          List.getElem?_eq_getElem (show k < z'.length by omega)]
        simp
  show f.update z (some (diagOf mask)) = f.update z' (some (diagOf mask))
  simp only [NoFilter.update, e]

example : (⟨2, [0, 0, 0, 0]⟩ : NoFilter ℚ).Ok ∧
    ((noFilterOps (K := ℚ)).update ⟨2, [0, 0, 0, 0]⟩ [7, 1] [false, true]).x = [0, 1, 0, 0] :=
  ⟨rfl, by decide +kernel⟩

end

section
variable [Field K] [LinearOrder K] [IsStrictOrderedRing K]

/-- **C33** the filters of `FilterPyKalmanFilterFactory`, in every state reached by `predict` and
`update` calls (and by setting the state, as `TrackedObject.hit` does): a masked update acts on each
coordinate separately, and on the observed ones only. -/
theorem C33_filterPy {d : Nat} {f : FPKalman K d} (h : f.Good) {s : Fin d → KF2 K}
    (hs : Gauss.Splits ⟨f.x, f.P⟩ s) {r : K} (hr : f.R = diagonal fun _ => r) {z : List K}
    {mask : List Bool} :
    let f' := f.update (fun i => z.getD i 0) none (some (hitH K d mask))
    Gauss.Splits ⟨f'.x, f'.P⟩ fun i : Fin d => (s i).update r (z.getD i 0) (mask.getD i false) := by
  intro f'
  rw [splits_iff] at hs ⊢
  obtain ⟨s', hpsd, hg⟩ := h.s
  have hgs : f.gauss = dense s := hs
  by_cases hd : d = 0
  · subst hd
    apply Gauss.ext
    · funext i; exact i.elim Fin.elim0 Fin.elim0
    · funext i; exact i.elim Fin.elim0 Fin.elim0
  obtain ⟨r', hr', hR⟩ := h.R
  have hrr : r = r' := by
    have := congrFun (congrFun (hr.symm.trans hR) ⟨0, by omega⟩) ⟨0, by omega⟩
    simpa using this
  subst hrr
  have hps : ∀ i, (s i).Psd := by
    intro i
    have S1 := splits_dense s
    have S2 := splits_dense s'
    rw [← hgs] at S1
    rw [← hg] at S2
    have a := (S1.posPos i i).symm.trans (S2.posPos i i)
    have b := (S1.posVel i i).symm.trans (S2.posVel i i)
    have c := (S1.velVel i i).symm.trans (S2.velVel i i)
    simp only [if_true] at a b c
    have := hpsd i
    unfold KF2.Psd at this ⊢
    rw [a, b, c]; exact this
  have e := FPKalman.gauss_update f (fun i => z.getD i 0) none (some (hitH K d mask))
    (by rw [hitH_eq]; exact h.unit _)
  rw [show (⟨f'.x, f'.P⟩ : Gauss K d) = f'.gauss from rfl, e, hgs]
  simp only [Option.getD_some, Option.getD_none]
  rw [hr, hitH_eq, dense_update s (fun i => mask.getD i false) (fun _ => r) (fun i => z.getD i 0)
    (fun i => (good_S hps (fun i => mask.getD i false) (fun _ => hr') i).ne')]

/-- **C33** ... so unobserved coordinates keep position and velocity, and their measured values do not
matter. -/
theorem C33_filterPy_values {pr : FPParams K} {f : Σ d, FPKalman K d} (h : f.2.Good) {z z' : List K}
    {mask : List Bool} (hz : z.length = f.1) (hz' : z'.length = f.1) (hm : mask.length = f.1)
    (ha : AgreeObserved mask z z') :
    (filterPyOps pr).update f z mask = (filterPyOps pr).update f z' mask := by
  obtain ⟨d, f⟩ := f
  simp only at h hz hz' hm
  obtain ⟨s, hpsd, hg⟩ := h.s
  obtain ⟨r, hr, hR⟩ := h.R
  have h1 := C33_filterPy h ((splits_iff).mpr hg) hR (z := z) (mask := mask)
  have h2 := C33_filterPy h ((splits_iff).mpr hg) hR (z := z') (mask := mask)
  have es : (fun i : Fin d => (s i).update r (z.getD i 0) (mask.getD i false)) =
      fun i : Fin d => (s i).update r (z'.getD i 0) (mask.getD i false) := by
    funext i
    cases hk : mask.getD i false with
    | false => rfl
    | true =>
      have hi : i.val < mask.length := by rw [hm]; exact i.2
      have : mask[i.val]? = some true := by
        rw [List.getElem?_eq_getElem hi]
        simpa [List.getElem?_eq_getElem hi] using hk
      rw [List.getD_eq_getElem?_getD, List.getD_eq_getElem?_getD, ha _ this]
  simp only at h1 h2
  rw [es] at h1
  have e := (h1.eq_dense).trans (h2.eq_dense).symm
  have ex := congrArg Gauss.x e
  have eP := congrArg Gauss.P e
  show (⟨d, _⟩ : Σ d, FPKalman K d) = ⟨d, _⟩
  congr 1
  exact FPKalman.ext ex eP rfl rfl rfl rfl

theorem C33_filterPy_unobserved {pr : FPParams K} (hR : 0 < pr.R) (hQ : 0 ≤ pr.Q) (hP : 0 ≤ pr.P)
    {f : Σ d, FPKalman K d} (h : f.2.Good) {z : List K} {mask : List Bool}
    (hz : z.length = f.1) (hm : mask.length = f.1) {k : Nat} (hk : mask[k]? = some false) :
    ((filterPyOps pr).getX ((filterPyOps pr).update f z mask))[k]? = ((filterPyOps pr).getX f)[k]? ∧
    ((filterPyOps pr).getX ((filterPyOps pr).update f z mask))[f.1 + k]? =
      ((filterPyOps pr).getX f)[f.1 + k]? :=
  (filterPy_laws pr hR hQ hP).unobserved f z mask h hz hm k hk

/-- what is created, predicted, updated or set satisfies the hypothesis on the state -/
example : (FPKalman.create (⟨4, 1 / 10, 10⟩ : FPParams ℚ) ⟨2, 1, [0, 0]⟩).predict.Good :=
  (FPKalman.Good.create (by norm_num) (by norm_num) (by norm_num) _).predict

end

end Norfair.Props
