import Verif.Props.Separated

/-!
Property theorems C120: targets that change their velocity.
-/

set_option linter.unusedSectionVars false

namespace Norfair.Props

open Norfair Norfair.Spec

variable {K L D F X : Type}

section

variable [Field K] [LinearOrder K] [IsStrictOrderedRing K] [LinearOrder D] [OrderTop D] [Zero D] [DecidableEq L]

/-- **C120** Whatever the change of the velocity per frame, something can be given up so that errors still shrink. -/
theorem C120_margin {n : Noise K} (hn : n.Valid) (A : K) : n.Margin (n.q / (2 * n.trace)) A := by
  obtain ⟨f1, f2, f3, f4, f5, f6⟩ := Noise.Valid.facts hn
  refine ⟨by positivity, ?_, Or.inr (by positivity)⟩
  unfold Noise.slow Noise.rate
  have : n.trace / (n.trace + n.q) * (1 + n.q / (2 * n.trace)) = (n.trace + n.q / 2) / (n.trace + n.q) := by
    field_simp
  rw [this, div_lt_one (by positivity)]
  linarith

/-- **C120** ... and the initial error is forgotten: after a number of calls that depends on the noises, the initial
error, the first velocity and `ε` only, the errors are those due to the measurements and the changes of velocity,
and `ε`. -/
theorem C120_settles [Archimedean K] {cfg : Cfg K L D F X} {Ok : F → Prop} (hL : FilterLaws cfg.flt Ok)
    {n : Noise K} (hn : n.Valid) {view : F → Nat → KF2 K} (hK : KalmanLaws cfg.flt Ok n view)
    (hre : cfg.reid = none) {shape : L → Nat × Nat} (hs : ∀ a b, Compat cfg a b → shape a = shape b)
    {η A : K} (hM : n.Margin η A) (x₀ u₀ : K) {ε : K} (hε : 0 < ε) :
    ∃ N : Nat, ∀ (W z : K) (p : Nat → K), (∀ k, |p (k + 2) - 2 * p (k + 1) + p k| ≤ A) → z - p 0 = x₀ →
      p 1 - p 0 = u₀ → ∀ (w0 w w1 w' : World K L D F X), w0.Initial →
      Reaches cfg (fun _ _ => True) (fun dets _ ct w => CallOk shape (dets.getD []) ct w.heap) w0 w →
      ∀ dets period ct act, update cfg w dets period ct = (w1, .ok act) →
      CallOk shape (dets.getD []) ct w.heap →
      ∀ o ∈ w1.objs, o.initId ∉ w.keys → ∀ pt j, pt < o.numPoints → j < o.dimPoints →
      Seen cfg.detThr (w1.heap o.lastDet) pt →
      (w1.heap o.lastDet).absPoints.data[pt * o.dimPoints + j]? = some z →
      ∀ fs, Trace cfg w1 fs w' →
      (∀ k f, fs[k]? = some f → Succeeds f ∧ CallOk shape (given f) f.ct f.before.heap ∧
        Matched o.initId f ∧ MeasuredAt cfg.detThr o.initId pt j (p (k + 1)) W f) →
      N ≤ fs.length → ∀ o' ∈ w'.objs, o'.initId = o.initId →
      ∃ x v, (o'.positions cfg.flt).data[pt * o'.dimPoints + j]? = some x ∧
        (o'.velocity cfg.flt).data[pt * o'.dimPoints + j]? = some v ∧
        (x - p fs.length) ^ 2 ≤ n.posVar * (n.unrest η W A / (1 - n.slow η)) + ε ∧
        (v - (p (fs.length + 1) - p fs.length)) ^ 2 ≤ n.velVar * (n.unrest η W A / (1 - n.slow η)) + ε := by
  obtain ⟨f1, f2, f3, f4, f5, f6⟩ := Noise.Valid.facts hn
  have hs0 : 0 ≤ n.slow η := by
    have := hM.nonneg
    unfold Noise.slow
    positivity
  have hB := start_nonneg hn x₀ (0 - u₀)
  set B := n.start x₀ (0 - u₀) with hBd
  set C := (n.posVar + n.velVar) * (B + 1) with hC
  have hC0 : 0 < C := by positivity
  obtain ⟨N, hN⟩ := exists_pow_lt_of_lt_one (show 0 < ε / C by positivity) hM.slow
  refine ⟨N, ?_⟩
  intro W z p hp hz0 hu0 w0 w w1 w' h0 hr dets period ct act h hcall o ho hnew pt j hpt hj hseen hz fs ht hfs hlen o' ho' hk
  obtain ⟨x, v, hx, hv, e1, e2⟩ := C120_follows hL hn hK hre hs h0 hr h hcall ho hnew hpt hj hseen hz hM hp ht hfs
    ho' hk
  refine ⟨x, v, hx, hv, ?_⟩
  rw [hz0, hu0] at e1 e2
  unfold Noise.boundA at e1 e2
  rw [← hBd, mul_add] at e1 e2
  have hpow : n.slow η ^ fs.length ≤ n.slow η ^ N := pow_le_pow_of_le_one hs0 hM.slow.le hlen
  have hlt : n.slow η ^ fs.length * C < ε := by
    have := lt_of_le_of_lt hpow hN
    rwa [lt_div_iff₀ hC0] at this
  have hp0 : 0 ≤ n.slow η ^ fs.length := by positivity
  have g1 : n.posVar * (n.slow η ^ fs.length * B) ≤ n.slow η ^ fs.length * C := by
    rw [hC]
    have : n.posVar * B ≤ (n.posVar + n.velVar) * (B + 1) := by nlinarith
    nlinarith
  have g2 : n.velVar * (n.slow η ^ fs.length * B) ≤ n.slow η ^ fs.length * C := by
    rw [hC]
    have : n.velVar * B ≤ (n.posVar + n.velVar) * (B + 1) := by nlinarith
    nlinarith
  constructor <;> linarith

/-- the velocity moves by at most a multiple of the error of the prediction -/
theorem round_gain {n : Noise K} (hn : n.Valid) {E t u : K} {s : KF2 K} (h : Close n E t u s) (y : K) :
    4 * n.r * ((kfRound n.q₁ n.q₂ n.r y s).v - s.v) ^ 2 ≤ n.velVar * (y - (s.p + s.v)) ^ 2 := by
  have hr := hn.r
  have hq1 := hn.q₁
  have hpd := h.pd
  have hm := hpd.move
  have hb := hm.blur hn.q₁.le hn.q₂.le
  have ha := hb.a
  unfold kfRound
  rw [update_true]
  simp only [KF2.predict]
  have ha' : 0 < s.a + 2 * s.b + s.c := hm.a
  set m := s.a + 2 * s.b + s.c + n.q₁ with hmd
  have hm0 : 0 < m := by rw [hmd]; linarith
  have hdet : (s.b + s.c) ^ 2 ≤ s.c * (s.a + 2 * s.b + s.c) := by
    have := hpd.det
    unfold detP at this
    nlinarith
  have hc := hpd.c
  have hcv := h.c
  have hg : 4 * n.r * (s.b + s.c) ^ 2 ≤ n.velVar * (m + n.r) ^ 2 := by
    have h1 : (s.b + s.c) ^ 2 ≤ s.c * m := by
      rw [hmd]
      nlinarith
    have h2 : 4 * n.r * (s.c * m) ≤ s.c * (m + n.r) ^ 2 := by nlinarith [sq_nonneg (m - n.r)]
    have h3 : s.c * (m + n.r) ^ 2 ≤ n.velVar * (m + n.r) ^ 2 := mul_le_mul_of_nonneg_right hcv (sq_nonneg _)
    have h4 : 4 * n.r * (s.b + s.c) ^ 2 ≤ 4 * n.r * (s.c * m) := mul_le_mul_of_nonneg_left h1 (by linarith)
    linarith
  have hmr : 0 < (m + n.r) ^ 2 := by positivity
  have e : 4 * n.r * (s.v + (s.b + s.c) / (m + n.r) * (y - (s.p + s.v)) - s.v) ^ 2 =
      (4 * n.r * (s.b + s.c) ^ 2) / (m + n.r) ^ 2 * (y - (s.p + s.v)) ^ 2 := by
    field_simp
    ring
  rw [e]
  refine mul_le_mul_of_nonneg_right ?_ (sq_nonneg _)
  rw [div_le_iff₀ hmr]
  exact hg

/-- **C120** The errors of a target that changes its velocity do not vanish, even if every detection is exact: if the
errors of the position and of the velocity before a call, and of the velocity after it, are at most `ε`, then the
velocity of the target changed by at most `2 (1 + s) ε`, where `s` is a bound on the gain of the filter. -/
theorem C120_lag {cfg : Cfg K L D F X} {Ok : F → Prop} (hL : FilterLaws cfg.flt Ok) {n : Noise K}
    (hn : n.Valid) {view : F → Nat → KF2 K} (hK : KalmanLaws cfg.flt Ok n view) (hre : cfg.reid = none)
    {shape : L → Nat × Nat} (hs : ∀ a b, Compat cfg a b → shape a = shape b) {w0 w w1 w2 w3 : World K L D F X}
    (h0 : w0.Initial)
    (hr : Reaches cfg (fun _ _ => True) (fun dets _ ct w => CallOk shape (dets.getD []) ct w.heap) w0 w)
    {dets dets' : Option (List Ref)} {period period' : Int} {ct ct' : Option (CoordTrans K)}
    {act act' : List (Obj K L D F)}
    (h : update cfg w dets period ct = (w1, .ok act)) (hcall : CallOk shape (dets.getD []) ct w.heap)
    {o o1 o2 : Obj K L D F} (ho : o ∈ w1.objs) (hnew : o.initId ∉ w.keys)
    {pt j : Nat} (hpt : pt < o.numPoints) (hj : j < o.dimPoints) {z : K}
    (hseen : Seen cfg.detThr (w1.heap o.lastDet) pt)
    (hz : (w1.heap o.lastDet).absPoints.data[pt * o.dimPoints + j]? = some z)
    {p : Nat → K} {η A : K} (hM : n.Margin η A)
    (hp : ∀ k, |p (k + 2) - 2 * p (k + 1) + p k| ≤ A) {fs : List (Frame K L D F X)} (ht : Trace cfg w1 fs w2)
    (hfs : ∀ k f, fs[k]? = some f → Succeeds f ∧ CallOk shape (given f) f.ct f.before.heap ∧
      Matched o.initId f ∧ MeasuredAt cfg.detThr o.initId pt j (p (k + 1)) 0 f)
    (h' : update cfg w2 dets' period' ct' = (w3, .ok act'))
    (hcall' : CallOk shape (dets'.getD []) ct' w2.heap)
    (hmat : Matched o.initId (⟨dets', period', ct', w2, w3, .ok act'⟩ : Frame K L D F X))
    (hmeas : MeasuredAt cfg.detThr o.initId pt j (p (fs.length + 1)) 0
      (⟨dets', period', ct', w2, w3, .ok act'⟩ : Frame K L D F X))
    (ho1 : o1 ∈ w2.objs) (hk1 : o1.initId = o.initId) (ho2 : o2 ∈ w3.objs) (hk2 : o2.initId = o.initId)
    {x v v' ε s : K} (hx : (o1.positions cfg.flt).data[pt * o1.dimPoints + j]? = some x)
    (hv : (o1.velocity cfg.flt).data[pt * o1.dimPoints + j]? = some v)
    (hv' : (o2.velocity cfg.flt).data[pt * o2.dimPoints + j]? = some v')
    (hs0 : 0 ≤ s) (hgain : n.velVar ≤ 4 * n.r * s ^ 2)
    (e1 : |x - p fs.length| ≤ ε) (e2 : |v - (p (fs.length + 1) - p fs.length)| ≤ ε)
    (e3 : |v' - (p (fs.length + 2) - p (fs.length + 1))| ≤ ε) :
    |p (fs.length + 2) - 2 * p (fs.length + 1) + p fs.length| ≤ 2 * (1 + s) * ε := by
  obtain ⟨a1, a2, a3, a4, a5⟩ := follow_view hL hn hK hre hs h0 hr h hcall ho hnew hpt hj hseen hz hM hp ht hfs ho1 hk1
  have hP1 := WfReaches.pointsOk hL hs h0 a5 o1 ho1
  have hR2 : Reachable cfg w2 := ⟨w0, h0, a5.mono (fun _ _ h => h) (fun _ _ _ _ _ => trivial)⟩
  have hr3 : Reaches cfg (fun _ _ => True) (fun dets _ ct w => CallOk shape (dets.getD []) ct w.heap) w0 w3 := by
    have := Reaches.call (cfg := cfg) dets' period' ct' a5 hcall'
    rwa [h'] at this
  have hP2 := WfReaches.pointsOk hL hs h0 hr3 o2 ho2
  have hle : o2.initId ≤ w2.initCount := by
    rw [hk2, ← hk1]
    exact (hR2.inv.bounded o1 ho1).2
  have hstep : Reaches cfg (fun _ _ => True) (fun _ _ _ _ => True) w2 w3 := by
    have := Reaches.call (cfg := cfg) (E := fun _ _ => True) (P := fun _ _ _ _ => True) dets' period' ct'
      (.refl w2) trivial
    rwa [h'] at this
  obtain ⟨_, _, hn1, hd1, _⟩ := C07_identity_stable hR2 hstep ho1 ho2 (hk1.trans hk2.symm)
  obtain ⟨r1, y, m3, r2⟩ := follow_step hL hK hre hR2.inv (f := ⟨dets', period', ct', w2, w3, .ok act'⟩) rfl h'
    ⟨act', rfl⟩ hmat hmeas ho1 (hk1.trans hk2.symm) ho2 hk2 hP1 (by rw [a2]; exact hpt) (by rw [a1]; exact hj) hn1 hd1 a3
  obtain ⟨x1, x2⟩ := follow_read hK hP1 (pt := pt) (j := j) (by rw [a2]; exact hpt) (by rw [a1]; exact hj)
  obtain ⟨_, y2⟩ := follow_read hK hP2 (pt := pt) (j := j) (by rw [hn1, a2]; exact hpt) (by rw [hd1, a1]; exact hj)
  rw [x1] at hx
  rw [x2] at hv
  rw [y2, hd1, r2] at hv'
  rw [← a1] at a4
  have hg := round_gain hn a4 y
  have hyp : y = p (fs.length + 1) := by
    have := abs_nonpos_iff.mp m3
    linarith
  rw [Option.some.inj hx, Option.some.inj hv, Option.some.inj hv', hyp] at hg
  have hr0 := hn.r
  have hε : 0 ≤ ε := (abs_nonneg _).trans e1
  have hpred : |p (fs.length + 1) - (x + v)| ≤ 2 * ε := by
    rw [abs_le] at *
    constructor <;> linarith [e1.1, e1.2, e2.1, e2.2]
  have hdv : |v' - v| ≤ s * (2 * ε) := by
    apply abs_le_of_sq_le_sq _ (by positivity)
    have h1 : (p (fs.length + 1) - (x + v)) ^ 2 ≤ (2 * ε) ^ 2 := by
      rw [← sq_abs]
      exact pow_le_pow_left₀ (abs_nonneg _) hpred 2
    have h2 : n.velVar * (p (fs.length + 1) - (x + v)) ^ 2 ≤ 4 * n.r * s ^ 2 * (2 * ε) ^ 2 :=
      mul_le_mul hgain h1 (sq_nonneg _) (by positivity)
    have h3 : 4 * n.r * (v' - v) ^ 2 ≤ 4 * n.r * (s * (2 * ε)) ^ 2 := by
      refine hg.trans (h2.trans (le_of_eq (by ring)))
    exact le_of_mul_le_mul_left h3 (by positivity)
  rw [abs_le] at *
  constructor <;> nlinarith [e2.1, e2.2, e3.1, e3.2, hdv.1, hdv.2]

end

/-! ### Example: the default filter, a point measured at 0, 2 and 9/2 that moves faster and faster -/

theorem drift_seen (d : Det ℚ Nat Unit) (hd : d.scores = none) : Seen okfCfg.detThr d 0 := by
  intro s hs; rw [hd] at hs; cases hs

/-- C120: the estimate after the third call; the target moves by 2, 9/4, 5/2, ..., the last detection is off by 1/4 -/
example (o' : Obj ℚ Nat (WithTop Nat) (OKF ℚ)) (ho' : o' ∈ wDrift3.objs) :
    ∃ x v, (o'.positions okfCfg.flt).data[0 * o'.dimPoints + 0]? = some x ∧
      (o'.velocity okfCfg.flt).data[0 * o'.dimPoints + 0]? = some v ∧
      (x - 17 / 4) ^ 2 ≤ (okfNoise okfDefaults).posVar * (okfNoise okfDefaults).boundA
        ((okfNoise okfDefaults).q / (2 * (okfNoise okfDefaults).trace)) (1 / 4) (1 / 4) 0 (-2) 2 ∧
      (v - 5 / 2) ^ 2 ≤ (okfNoise okfDefaults).velVar * (okfNoise okfDefaults).boundA
        ((okfNoise okfDefaults).q / (2 * (okfNoise okfDefaults).trace)) (1 / 4) (1 / 4) 0 (-2) 2 := by
  obtain ⟨act, hact⟩ := okf_ok (r := update okfCfg wDrift (some [0]) 1 none) (by decide +kernel)
  obtain ⟨o, ho, o1, o2, o3, o4⟩ : ∃ o ∈ wDrift1.objs, o.initId = 1 ∧ o.numPoints = 1 ∧ o.dimPoints = 1 ∧ o.lastDet = 0 := by
    decide +kernel
  have ht : Trace okfCfg wDrift1 [⟨some [1], 1, none, wDrift1, wDrift2, (update okfCfg wDrift1 (some [1]) 1 none).2⟩,
      ⟨some [2], 1, none, wDrift2, wDrift3, (update okfCfg wDrift2 (some [2]) 1 none).2⟩] wDrift3 :=
    .call (some [2]) 1 none (.call (some [1]) 1 none (.nil _))
  have hall1 : ∀ o ∈ wDrift1.objs, o.lastDet = 0 := by decide +kernel
  have hall2 : ∀ o ∈ wDrift2.objs, o.lastDet = 1 ∧ o.dimPoints = 1 := by decide +kernel
  have hall3 : ∀ o ∈ wDrift3.objs, o.lastDet = 2 ∧ o.dimPoints = 1 ∧ o.initId = 1 := by decide +kernel
  have h := C120_follows (cfg := okfCfg) (okfDrift_laws okfDefaults_valid) okfNoise_default
    (okf_kalman okfDefaults_valid) rfl
    (shape := fun _ => (1, 1)) (fun _ _ _ => rfl) (w0 := wDrift) ⟨rfl, rfl, rfl⟩ (.refl _)
    (Prod.ext rfl hact) (drift_callOk (by decide +kernel)) ho
    (by rw [o1]; decide +kernel) (pt := 0) (j := 0) (by rw [o2]; decide) (by rw [o3]; decide)
    (drift_seen _ (by rw [o4]; decide +kernel)) (z := 0) (by rw [o3, o4]; decide +kernel)
    (p := fun k => 2 * (k : ℚ) + k * (k - 1) / 8) (W := 1 / 4) (C120_margin okfNoise_default (1 / 4))
    (by
      intro k
      rw [show (2 * ((k + 2 : Nat) : ℚ) + (k + 2 : Nat) * ((k + 2 : Nat) - 1) / 8) -
        2 * (2 * ((k + 1 : Nat) : ℚ) + (k + 1 : Nat) * ((k + 1 : Nat) - 1) / 8) + (2 * (k : ℚ) + k * (k - 1) / 8) = 1 / 4 by
          push_cast; ring]
      norm_num) ht ?_ ho' (by rw [o1]; exact (hall3 o' ho').2.2)
  · norm_num at h ⊢
    exact h
  · intro k f hf
    rw [o1]
    match k with
    | 0 =>
      cases hf
      refine ⟨okf_ok (by decide +kernel), drift_callOk (by decide +kernel), ⟨?_, ?_⟩, ?_⟩
      · intro o ho _; rw [hall1 o ho]; decide
      · intro o ho _; rw [(hall2 o ho).1]; decide
      · intro o ho _
        simp only
        rw [(hall2 o ho).1, (hall2 o ho).2]
        exact ⟨drift_seen _ (by decide +kernel), 2, by decide +kernel, by norm_num⟩
    | 1 =>
      cases hf
      refine ⟨okf_ok (by decide +kernel), drift_callOk (by decide +kernel), ⟨?_, ?_⟩, ?_⟩
      · intro o ho _; rw [(hall2 o ho).1]; decide
      · intro o ho _; rw [(hall3 o ho).1]; decide
      · intro o ho _
        simp only
        rw [(hall3 o ho).1, (hall3 o ho).2.1]
        exact ⟨drift_seen _ (by decide +kernel), 9 / 2, by decide +kernel, by norm_num⟩
    | _ + 2 => simp at hf

/-- C120: the detections are exact, the target moves by 2, 5/2, 3, ...: one of the errors is at least 1/8 -/
example (o1 o2 : Obj ℚ Nat (WithTop Nat) (OKF ℚ)) (ho1 : o1 ∈ wDrift2.objs) (ho2 : o2 ∈ wDrift3.objs) (x v v' ε : ℚ)
    (hx : (o1.positions okfCfg.flt).data[0 * o1.dimPoints + 0]? = some x)
    (hv : (o1.velocity okfCfg.flt).data[0 * o1.dimPoints + 0]? = some v)
    (hv' : (o2.velocity okfCfg.flt).data[0 * o2.dimPoints + 0]? = some v')
    (e1 : |x - 2| ≤ ε) (e2 : |v - 5 / 2| ≤ ε) (e3 : |v' - 3| ≤ ε) : 1 / 8 ≤ ε := by
  obtain ⟨act, hact⟩ := okf_ok (r := update okfCfg wDrift (some [0]) 1 none) (by decide +kernel)
  obtain ⟨act', hact'⟩ := okf_ok (r := update okfCfg wDrift2 (some [2]) 1 none) (by decide +kernel)
  obtain ⟨o, ho, k1, k2, k3, k4⟩ : ∃ o ∈ wDrift1.objs, o.initId = 1 ∧ o.numPoints = 1 ∧ o.dimPoints = 1 ∧ o.lastDet = 0 := by
    decide +kernel
  have hall1 : ∀ o ∈ wDrift1.objs, o.lastDet = 0 := by decide +kernel
  have hall2 : ∀ o ∈ wDrift2.objs, o.lastDet = 1 ∧ o.dimPoints = 1 ∧ o.initId = 1 := by decide +kernel
  have hall3 : ∀ o ∈ wDrift3.objs, o.lastDet = 2 ∧ o.dimPoints = 1 ∧ o.initId = 1 := by decide +kernel
  have hup : update okfCfg wDrift2 (some [2]) 1 none = (wDrift3, .ok act') := Prod.ext rfl hact'
  have h := C120_lag (cfg := okfCfg) (okfDrift_laws okfDefaults_valid) okfNoise_default
    (okf_kalman okfDefaults_valid) rfl
    (shape := fun _ => (1, 1)) (fun _ _ _ => rfl) (w0 := wDrift) (w3 := wDrift3) ⟨rfl, rfl, rfl⟩ (.refl _)
    (Prod.ext rfl hact) (drift_callOk (by decide +kernel)) ho
    (by rw [k1]; decide +kernel) (pt := 0) (j := 0) (by rw [k2]; decide) (by rw [k3]; decide)
    (drift_seen _ (by rw [k4]; decide +kernel)) (z := 0) (by rw [k3, k4]; decide +kernel)
    (p := fun k => 2 * (k : ℚ) + k * (k - 1) / 4) (C120_margin okfNoise_default (1 / 2))
    (by
      intro k
      rw [show (2 * ((k + 2 : Nat) : ℚ) + (k + 2 : Nat) * ((k + 2 : Nat) - 1) / 4) -
        2 * (2 * ((k + 1 : Nat) : ℚ) + (k + 1 : Nat) * ((k + 1 : Nat) - 1) / 4) + (2 * (k : ℚ) + k * (k - 1) / 4) = 1 / 2 by
          push_cast; ring]
      norm_num)
    (fs := [⟨some [1], 1, none, wDrift1, wDrift2, (update okfCfg wDrift1 (some [1]) 1 none).2⟩])
    (.call (some [1]) 1 none (.nil _)) ?_ hup (drift_callOk (by decide +kernel))
    (by
      rw [k1]
      exact ⟨fun o ho _ => by rw [(hall2 o ho).1]; simp [given], fun o ho _ => by rw [(hall3 o ho).1]; simp [given]⟩)
    (by
      rw [k1]
      intro o ho _
      simp only
      rw [(hall3 o ho).1, (hall3 o ho).2.1]
      exact ⟨drift_seen _ (by decide +kernel), 9 / 2, by decide +kernel, by norm_num⟩)
    ho1 (by rw [k1]; exact (hall2 o1 ho1).2.2) ho2 (by rw [k1]; exact (hall3 o2 ho2).2.2) hx hv hv' (ε := ε) (s := 1)
    (by norm_num) (by decide +kernel) (by norm_num; exact e1) (by norm_num; exact e2) (by norm_num; exact e3)
  · norm_num at h
    linarith
  · intro k f hf
    rw [k1]
    match k with
    | 0 =>
      cases hf
      refine ⟨okf_ok (by decide +kernel), drift_callOk (by decide +kernel), ⟨?_, ?_⟩, ?_⟩
      · intro o ho _; rw [hall1 o ho]; decide
      · intro o ho _; rw [(hall2 o ho).1]; decide
      · intro o ho _
        simp only
        rw [(hall2 o ho).1, (hall2 o ho).2.1]
        exact ⟨drift_seen _ (by decide +kernel), 2, by decide +kernel, by norm_num⟩
    | _ + 1 => simp at hf

/-- C120: the initial error is forgotten -/
example := C120_settles (cfg := okfCfg) (okfDrift_laws okfDefaults_valid) okfNoise_default
  (okf_kalman okfDefaults_valid) rfl (shape := fun _ => (1, 1)) (fun _ _ _ => rfl)
  (C120_margin okfNoise_default (1 / 4)) 0 2 (show (0 : ℚ) < 1 / 10 by norm_num)

/-! ### Example for C88: two targets that move faster and faster -/

/-- noise of measurements and of the process 1, initial variances 1 and 4 -/
def swerveParams : OKFParams ℚ := ⟨1, 1, 1, 0, 4⟩

theorem swerveParams_valid : OKFParams.Valid swerveParams := by constructor <;> norm_num [swerveParams]

theorem swerveNoise_valid : (okfNoise swerveParams).Valid :=
  okfNoise_valid (by decide +kernel) (by decide +kernel) (by decide +kernel) (by decide +kernel) (by decide +kernel)

/-- two targets with label 0, at `k ^ 2 / 2` and at `1000 + k ^ 2 / 2` in frame `k` -/
def swerveTargets : Fin 2 → Target ℚ Nat
  | 0 => ⟨0, fun k _ => k ^ 2 / 2⟩
  | 1 => ⟨0, fun k _ => 1000 + k ^ 2 / 2⟩

/-- absolute difference of the first coordinates -/
def swerveDist (d : Det ℚ Nat Unit) (o : ObjView ℚ Nat (WithTop ℚ) (OKF ℚ) Unit) : Option (Option (WithTop ℚ)) :=
  some (some (|d.points.data.headD 0 - (o.obj.estimate (okfOps swerveParams)).data.headD 0| : ℚ))

/-- the filter above and the threshold 102 -/
def swerveCfg : Cfg ℚ Nat (WithTop ℚ) (OKF ℚ) Unit :=
  { lineCfg with dist := .scalar swerveDist, thr := (102 : ℚ), fill := (103 : ℚ), flt := okfOps swerveParams }

/-- the detection of which target -/
def swerveWho (r : Ref) : Fin 2 := Fin.ofNat 2 r

/-- detections `2 k` and `2 k + 1` show the targets in frame `k` -/
def swerveHeap (r : Ref) : Det ℚ Nat Unit :=
  let x : ℚ := (swerveTargets (swerveWho r)).at (r / 2) 0 + (if r % 3 = 0 then 1 / 10 else -(1 / 10))
  ⟨⟨1, 1, [x]⟩, none, 0, (), ⟨1, 1, [x]⟩, none⟩

/-- a new tracker, and its states after one, two and three calls -/
def swerveW : World ℚ Nat (WithTop ℚ) (OKF ℚ) Unit := ⟨swerveHeap, 0, 0, 0, []⟩
@[inherit_doc swerveW] def swerveW1 := (update swerveCfg swerveW (some [0, 1]) 1 none).1
@[inherit_doc swerveW] def swerveW2 := (update swerveCfg swerveW1 (some [3, 2]) 1 none).1
@[inherit_doc swerveW] def swerveW3 := (update swerveCfg swerveW2 (some [5, 4]) 1 none).1

/-- the three calls -/
def swerveFrames : List (Frame ℚ Nat (WithTop ℚ) (OKF ℚ) Unit) :=
  [⟨some [0, 1], 1, none, swerveW, swerveW1, (update swerveCfg swerveW (some [0, 1]) 1 none).2⟩,
   ⟨some [3, 2], 1, none, swerveW1, swerveW2, (update swerveCfg swerveW1 (some [3, 2]) 1 none).2⟩,
   ⟨some [5, 4], 1, none, swerveW2, swerveW3, (update swerveCfg swerveW2 (some [5, 4]) 1 none).2⟩]

theorem swerveFrames_trace : Trace swerveCfg swerveW swerveFrames swerveW3 :=
  .call (some [5, 4]) 1 none (.call (some [3, 2]) 1 none (.call (some [0, 1]) 1 none (.nil _)))

theorem swerve_vel (i : Fin 2) (k c : Nat) : (swerveTargets i).vel k c = k + 1 / 2 := by
  match i with
  | 0 | 1 => simp only [Target.vel, Target.at, swerveTargets]; push_cast; ring

/-- the targets are apart -/
theorem swerve_apart : TargetsApart swerveCfg swerveDist (okfNoise swerveParams) (fun _ => (1, 1)) swerveTargets
    (1 / 28) 1 (1 / 10) 100 101 102 where
  gauge := by
    constructor
    · intro d v x _ hp hq hx hne
      obtain ⟨a, ha⟩ := List.length_eq_one_iff.mp hp.2.2
      obtain ⟨b, hb⟩ := List.length_eq_one_iff.mp hq.2.2
      have := hne 0 a b (by rw [ha]; rfl) (by rw [hb]; rfl)
      change (v.obj.estimate (okfOps swerveParams)).data = [b] at hb
      simp only [swerveDist, ha, hb, Option.some.injEq] at hx
      rw [← hx]
      exact WithTop.coe_lt_coe.mpr (lt_of_le_of_lt this (by norm_num))
    · intro d v x _ hp hq hx c a b ha hb hf
      have hc : c = 0 := by
        have := (List.getElem?_eq_some_iff.mp ha).1
        rw [hp.2.2] at this
        change c < 1 at this
        omega
      subst hc
      change (v.obj.estimate (okfOps swerveParams)).data[0]? = some b at hb
      rw [← List.head?_eq_getElem?] at ha hb
      simp only [swerveDist, List.headD_eq_head?_getD, ha, hb, Option.getD_some, Option.some.injEq] at hx
      rw [← hx]
      exact WithTop.coe_le_coe.mpr hf
  steady := by
    intro i k c
    rw [swerve_vel, swerve_vel, show ((k + 1 : Nat) : ℚ) + 1 / 2 - (k + 1 / 2) = 1 by push_cast; ring]
    norm_num
  margin := by
    refine ⟨by norm_num, ?_, Or.inr (by norm_num)⟩
    decide +kernel
  nonneg := by norm_num
  error := by
    intro i c _ x hx
    have hx2 : x ^ 2 ≤ 1 / 100 := by
      rw [← sq_abs]
      nlinarith [abs_nonneg x]
    rw [swerve_vel]
    have e : 2 * ((okfNoise swerveParams).posVar + (okfNoise swerveParams).velVar) *
        (okfNoise swerveParams).boundA (1 / 28) (1 / 10) 1 x (0 - (((0 : Nat) : ℚ) + 1 / 2)) 0 =
        10 * (x ^ 2 + 1 / 16 + 30 * (29 / 28 * (1 / 100) + 29)) := by
      unfold Noise.boundA Noise.start Noise.slow Noise.unrest Noise.rate Noise.trace Noise.velVar Noise.posVar Noise.q okfNoise
        swerveParams
      norm_num
      ring
    rw [e]
    nlinarith
  near := by norm_num
  far := by
    intro i j hij hl k _
    refine ⟨0, by norm_num, ?_⟩
    match i, j with
    | 0, 0 => exact absurd rfl hij
    | 1, 1 => exact absurd rfl hij
    | 0, 1 =>
      simp only [Target.at, swerveTargets]
      rw [show (k : ℚ) ^ 2 / 2 - (1000 + (k : ℚ) ^ 2 / 2) = -1000 by ring]
      norm_num
    | 1, 0 =>
      simp only [Target.at, swerveTargets]
      rw [show (1000 + (k : ℚ) ^ 2 / 2) - (k : ℚ) ^ 2 / 2 = 1000 by ring]
      norm_num

theorem swerve_shown (k : Nat) (f : Frame ℚ Nat (WithTop ℚ) (OKF ℚ) Unit) (hf : swerveFrames[k]? = some f) :
    ShowsAll 0 (fun _ => (1, 1)) (1 / 10) False swerveTargets swerveWho k f := by
  match k with
  | 0 =>
    cases hf
    refine ⟨id, by decide, by decide, (by intro o ho; cases ho), by decide, by decide, ?_⟩
    intro r hr
    fin_cases hr
    · exact line_shows (y := 1 / 10) (by decide +kernel)
    · exact line_shows (y := 1000 - 1 / 10) (by decide +kernel)
  | 1 =>
    cases hf
    refine ⟨id, by decide, by decide, by decide +kernel, by decide, by decide, ?_⟩
    intro r hr
    fin_cases hr
    · exact line_shows (y := 1000 + 1 / 2 + 1 / 10) (by decide +kernel)
    · exact line_shows (y := 1 / 2 - 1 / 10) (by decide +kernel)
  | 2 =>
    cases hf
    refine ⟨id, by decide, by decide, by decide +kernel, by decide, by decide, ?_⟩
    intro r hr
    fin_cases hr
    · exact line_shows (y := 1002 - 1 / 10) (by decide +kernel)
    · exact line_shows (y := 2 - 1 / 10) (by decide +kernel)
  | k + 3 => simp [swerveFrames] at hf

/-- C88: the three calls -/
example : ∃ num : Fin 2 → Nat, num.Injective ∧ ∀ k f, swerveFrames[k]? = some f → Succeeds f ∧
    (∀ i, ∃ o ∈ f.after.objs, o.initId = num i) ∧
    ∀ o ∈ f.after.objs, ∃ i, o.initId = num i ∧ o.lastDet ∈ given f ∧ swerveWho o.lastDet = i ∧
      o.label = (swerveTargets i).label ∧ ∀ c < o.dimPoints * o.numPoints,
        ∃ x, (o.positions swerveCfg.flt).data[c]? = some x ∧ |x - (swerveTargets i).at k c| ≤ 100 :=
  C88_never_confused (cfg := swerveCfg) (g := swerveDist) rfl rfl rfl (by decide) (by decide +kernel)
    (okfDrift_laws swerveParams_valid) swerveNoise_valid
    (okf_kalman swerveParams_valid) (fun d v _ _ _ => ⟨_, rfl⟩) swerve_apart ⟨rfl, rfl, rfl⟩ swerveFrames_trace
    (by decide) swerve_shown

end Norfair.Props
