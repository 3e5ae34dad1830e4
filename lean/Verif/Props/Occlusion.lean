import Verif.Props.Separated
import Verif.Props.Told

/-!
Property theorem C111: targets of constant velocity that are hidden for some frames.
-/

set_option linter.unusedSectionVars false

namespace Norfair.Props

open Norfair Norfair.Spec

variable {K L D F X : Type}

section
variable [Field K] [LinearOrder K] [IsStrictOrderedRing K] [LinearOrder D] [OrderTop D] [Zero D]
  [DecidableEq L]

theorem reaches_of_trace {cfg : Cfg K L D F X} {shape : L → Nat × Nat} {w0 w w' : World K L D F X}
    (hr : Reaches cfg (fun _ _ => True) (fun dets _ ct w => CallOk shape (dets.getD []) ct w.heap) w0 w)
    {fs : List (Frame K L D F X)} (ht : Trace cfg w fs w')
    (hfs : ∀ f ∈ fs, CallOk shape (given f) f.ct f.before.heap) :
    Reaches cfg (fun _ _ => True) (fun dets _ ct w => CallOk shape (dets.getD []) ct w.heap) w0 w' := by
  induction ht with
  | nil => exact hr
  | env heap g _ he ih => exact .env heap g (ih hfs) he trivial
  | @call fs w2 dets period ct ht ih =>
    exact .call _ _ _ (ih fun f hf => hfs f (List.mem_append_left _ hf))
      (hfs _ (List.mem_append_right _ (List.mem_singleton.mpr rfl)))

/-- the state after a call of a trace -/
theorem trace_to {cfg : Cfg K L D F X} {w w' : World K L D F X} {fs : List (Frame K L D F X)}
    (ht : Trace cfg w fs w') {f : Frame K L D F X} (hf : f ∈ fs) : Reaches' cfg w f.after := by
  induction ht with
  | nil => cases hf
  | env heap g _ he ih => exact ih hf
  | @call fs w2 dets period ct ht ih =>
    rcases List.mem_append.mp hf with h | h
    · exact ih h
    · rw [List.mem_singleton.mp h]
      exact .call _ _ _ ht.reaches trivial

/-- an object that is old enough was there before -/
theorem trace_before {cfg : Cfg K L D F X} {w w' : World K L D F X} (hI : Inv w) {fs : List (Frame K L D F X)}
    (ht : Trace cfg w fs w') {o' : Obj K L D F} (ho' : o' ∈ w'.objs) (hle : o'.initId ≤ w.initCount) :
    ∃ o ∈ w.objs, o.initId = o'.initId ∧ o'.numPoints = o.numPoints ∧ o'.dimPoints = o.dimPoints := by
  rcases (ht.reaches.inv hI).2.origin o' ho' with h1 | ⟨o, ho, e, _, e2, e3, _⟩
  · omega
  · exact ⟨o, ho, e, e2, e3⟩

/-- one prediction moves coordinate `c` by its velocity -/
theorem predicted_coord {cfg : Cfg K L D F X} {Ok : F → Prop} (hL : FilterLaws cfg.flt Ok) {n : Noise K}
    {view : F → Nat → KF2 K} (hK : KalmanLaws cfg.flt Ok n view) {shape : L → Nat × Nat} {o p : Obj K L D F}
    (hP : PointsOk cfg.flt Ok shape o) (hS : SteppedPoints cfg o p) {c : Nat} (hc : c < o.dimPoints * o.numPoints)
    {x v : K} (hx : (o.positions cfg.flt).data[c]? = some x) (hv : (o.velocity cfg.flt).data[c]? = some v) :
    (p.positions cfg.flt).data[c]? = some (x + v) ∧ (p.velocity cfg.flt).data[c]? = some v := by
  have hcz : c < cfg.flt.dimZ o.filter := by rw [hP.dimZ]; exact hc
  obtain ⟨y1, y2⟩ := hK.x o.filter c hP.ok hcz
  have hah := hK.ahead o.filter c hP.ok hcz
  have hkeep := (hL.predict o.filter hP.ok).2.2
  have q1 : x = (view o.filter c).p := by
    simp only [Obj.positions] at hx
    rw [List.getElem?_take_of_lt (show c < o.dimZ from hc), y1] at hx
    exact (Option.some.inj hx).symm
  have q2 : v = (view o.filter c).v := by
    simp only [Obj.velocity] at hv
    rw [List.getElem?_drop] at hv
    rw [hP.dimZ] at y2
    rw [y2] at hv
    exact (Option.some.inj hv).symm
  constructor
  · simp only [Obj.positions]
    rw [List.getElem?_take_of_lt (show c < p.dimZ by rw [hS.dimZ]; exact hc), hS.filter, hah, q1, q2]
  · simp only [Obj.velocity]
    rw [hS.filter, hS.dimZ, ← hP.dimZ, hkeep, hP.dimZ]
    exact hv

/-- **C111** An object that gets no detection moves on with the velocity it has: after `n` calls in which it is
not matched, every coordinate (in absolute coordinates) has moved by exactly `n` times its velocity, and the
velocity is the same. This holds for any state, point (detected before or not), and camera. There is no ReID. -/
theorem C111_coasts {cfg : Cfg K L D F X} {Ok : F → Prop} (hL : FilterLaws cfg.flt Ok) {n : Noise K}
    {view : F → Nat → KF2 K} (hK : KalmanLaws cfg.flt Ok n view) (hre : cfg.reid = none)
    {shape : L → Nat × Nat} (hs : ∀ a b, Compat cfg a b → shape a = shape b) {w0 w w' : World K L D F X}
    (h0 : w0.Initial)
    (hr : Reaches cfg (fun _ _ => True) (fun dets _ ct w => CallOk shape (dets.getD []) ct w.heap) w0 w)
    {gs : List (Frame K L D F X)} (ht : Trace cfg w gs w') {o o' : Obj K L D F} (ho : o ∈ w.objs)
    (hgs : ∀ f ∈ gs, Succeeds f ∧ CallOk shape (given f) f.ct f.before.heap ∧ Missed o.initId f)
    (ho' : o' ∈ w'.objs) (hk : o'.initId = o.initId) {c : Nat} (hc : c < o.dimPoints * o.numPoints) {x v : K}
    (hx : (o.positions cfg.flt).data[c]? = some x) (hv : (o.velocity cfg.flt).data[c]? = some v) :
    (o'.positions cfg.flt).data[c]? = some (x + gs.length * v) ∧ (o'.velocity cfg.flt).data[c]? = some v := by
  have hI := (hr.inv (Inv.initial h0)).1
  suffices hsuff : o'.dimPoints = o.dimPoints ∧ o'.numPoints = o.numPoints ∧
      (o'.positions cfg.flt).data[c]? = some (x + gs.length * v) ∧ (o'.velocity cfg.flt).data[c]? = some v ∧
      Reaches cfg (fun _ _ => True) (fun dets _ ct w => CallOk shape (dets.getD []) ct w.heap) w0 w' from
    ⟨hsuff.2.2.1, hsuff.2.2.2.1⟩
  induction ht generalizing o' with
  | nil =>
    have : o' = o := World.eq_of_mem_of_key hI.nodup ho' ho hk
    subst this
    exact ⟨rfl, rfl, by simpa using hx, hv, hr⟩
  | env heap g _ he ih =>
    obtain ⟨a1, a2, a3, a4, a5⟩ := ih hgs ho' hk
    exact ⟨a1, a2, a3, a4, .env heap g a5 he trivial⟩
  | @call fs w2 dets period ct ht ih =>
    have hev := ht.reaches.inv hI
    have hle : o'.initId ≤ w2.initCount := by
      rw [hk]; exact (hI.bounded o ho).2.trans hev.2.initCount
    obtain ⟨o1, ho1, hk1, _, hn1, hd1⟩ := obj_before hev.1 rfl ho' hle
    obtain ⟨a1, a2, a3, a4, a5⟩ := ih (fun f hf => hgs f (List.mem_append_left _ hf)) ho1 (hk1.trans hk)
    obtain ⟨⟨act, hact⟩, hcall, hmiss⟩ := hgs _ (List.mem_append_right _ (List.mem_singleton.mpr rfl))
    have hup : update cfg w2 dets period ct = ((update cfg w2 dets period ct).1, .ok act) :=
      Prod.ext rfl hact
    have hP1 := WfReaches.pointsOk hL hs h0 a5 o1 ho1
    rcases update_points hev.1 hup ho1 ho' hk1 (Or.inl hre) hP1.hits with ⟨m, rfl⟩ | ⟨r, hrm, hlast, _⟩
    · have hS : SteppedPoints cfg o1 { stepped cfg ct o1 with curMin := m } := by
        obtain ⟨b1, b2, b3, b4, b5, b6, b7⟩ := stepped_points cfg ct o1
        exact ⟨b1, b2, b3, b4, b5, b6, b7⟩
      obtain ⟨e1, e2⟩ := predicted_coord hL hK hP1 hS (by rw [a1, a2]; exact hc) a3 a4
      refine ⟨hd1.trans a1, hn1.trans a2, ?_, e2, .call _ _ _ a5 hcall⟩
      rw [e1, List.length_append, List.length_singleton]
      congr 1
      push_cast
      ring
    · exact absurd (hlast ▸ hrm) (hmiss o' ho' hk)

/-- **C111** The two Kalman filters of Norfair, with any positive noises and a positive definite initial covariance, meet the
hypotheses about filters of `C111_coasts` and of the following theorems. -/
theorem C111_filters :
    (∀ pr : OKFParams K, 0 < pr.R → 0 < pr.Q → 0 < pr.posVariance → 0 < pr.velVariance →
      pr.posVelCovariance ^ 2 < pr.posVariance * pr.velVariance → OKFParams.Valid pr →
      ∃ Ok view, FilterLaws (okfOps pr) Ok ∧ KalmanLaws (okfOps pr) Ok (okfNoise pr) view ∧ (okfNoise pr).Valid) ∧
    ∀ pr : FPParams K, 0 < pr.R → 0 < pr.Q → 0 < pr.P →
      ∃ Ok view, FilterLaws (filterPyOps pr) Ok ∧ KalmanLaws (filterPyOps pr) Ok (fpNoise pr) view ∧ (fpNoise pr).Valid :=
  C87_filters

/-- the error of a position that is extrapolated for `n` frames -/
theorem sq_add_mul_le {a b p q B : K} (n : Nat) (ha : a ^ 2 ≤ p * B) (hb : b ^ 2 ≤ q * B) :
    (a + n * b) ^ 2 ≤ (n + 1) * (p + n * q) * B := by
  have hn : (0 : K) ≤ n := Nat.cast_nonneg n
  have h1 : (a + n * b) ^ 2 ≤ (n + 1) * (a ^ 2 + n * b ^ 2) := by
    nlinarith [mul_nonneg hn (sq_nonneg (a - b))]
  refine h1.trans ?_
  have h2 : a ^ 2 + n * b ^ 2 ≤ (p + n * q) * B := by
    have := mul_le_mul_of_nonneg_left hb hn
    linarith
  have := mul_le_mul_of_nonneg_left h2 (show (0 : K) ≤ n + 1 by linarith)
  linarith

/-- **C111** A target of constant velocity that was followed for some frames (as in C87) and is then hidden for
`n` frames: the estimate stays close to where the target is now, with an error bounded by the one that C87 gives
for the last frame in which it was detected, times a constant that grows with `n`. -/
theorem C111_hidden {cfg : Cfg K L D F X} {Ok : F → Prop} (hL : FilterLaws cfg.flt Ok) {n : Noise K}
    (hn : n.Valid) {view : F → Nat → KF2 K} (hK : KalmanLaws cfg.flt Ok n view) (hre : cfg.reid = none)
    {shape : L → Nat × Nat} (hs : ∀ a b, Compat cfg a b → shape a = shape b) {w0 w w1 w2 w' : World K L D F X}
    (h0 : w0.Initial)
    (hr : Reaches cfg (fun _ _ => True) (fun dets _ ct w => CallOk shape (dets.getD []) ct w.heap) w0 w)
    {dets : Option (List Ref)} {period : Int} {ct : Option (CoordTrans K)} {act : List (Obj K L D F)}
    (h : update cfg w dets period ct = (w1, .ok act)) (hcall : CallOk shape (dets.getD []) ct w.heap)
    {o o' : Obj K L D F} (ho : o ∈ w1.objs) (hnew : o.initId ∉ w.keys)
    {pt j : Nat} (hpt : pt < o.numPoints) (hj : j < o.dimPoints) {z : K}
    (hseen : Seen cfg.detThr (w1.heap o.lastDet) pt)
    (hz : (w1.heap o.lastDet).absPoints.data[pt * o.dimPoints + j]? = some z)
    {t u W : K} {fs gs : List (Frame K L D F X)} (ht : Trace cfg w1 fs w2) (ht' : Trace cfg w2 gs w')
    (hfs : ∀ k f, fs[k]? = some f → Succeeds f ∧ CallOk shape (given f) f.ct f.before.heap ∧
      Matched o.initId f ∧ MeasuredAt cfg.detThr o.initId pt j (t + (k + 1 : Nat) * u) W f)
    (hgs : ∀ f ∈ gs, Succeeds f ∧ CallOk shape (given f) f.ct f.before.heap ∧ Missed o.initId f)
    (ho' : o' ∈ w'.objs) (hk : o'.initId = o.initId) :
    ∃ x v, (o'.positions cfg.flt).data[pt * o'.dimPoints + j]? = some x ∧
      (o'.velocity cfg.flt).data[pt * o'.dimPoints + j]? = some v ∧
      (x - (t + (fs.length + gs.length) * u)) ^ 2 ≤ (gs.length + 1) * (n.posVar + gs.length * n.velVar) *
        n.bound W (z - t) (0 - u) fs.length ∧
      (v - u) ^ 2 ≤ n.velVar * n.bound W (z - t) (0 - u) fs.length := by
  have hr1 : Reaches cfg (fun _ _ => True) (fun dets _ ct w => CallOk shape (dets.getD []) ct w.heap) w0 w1 := by
    have := Reaches.call (cfg := cfg) dets period ct hr hcall
    rwa [h] at this
  have hR1 : Reachable cfg w1 := ⟨w0, h0, hr1.mono (fun _ _ h => h) (fun _ _ _ _ _ => trivial)⟩
  have hr2 := reaches_of_trace hr1 ht (fun f hf => by
    obtain ⟨k, hk⟩ := List.mem_iff_getElem?.mp hf
    exact (hfs k f hk).2.1)
  have hev := hR1.inv
  have hev2 := ht.reaches.inv hev
  obtain ⟨o2, ho2, hk2, hn2, hd2⟩ := trace_before hev2.1 ht' ho' (by
    rw [hk]; exact (hev.bounded o ho).2.trans hev2.2.initCount)
  obtain ⟨x, v, e1, e2, e3, e4⟩ := C87_follows hL hn hK hre hs h0 hr h hcall ho hnew hpt hj hseen hz ht hfs ho2
    (hk2.trans hk)
  obtain ⟨s1, _, s2, s3, _⟩ := C07_identity_stable hR1 ht.reaches ho ho2 (hk2.trans hk).symm
  obtain ⟨c1, c2⟩ := C111_coasts hL hK hre hs h0 hr2 ht' ho2 (by rw [hk2, hk]; exact hgs) ho' hk2.symm
    (c := pt * o2.dimPoints + j) (by rw [s2, s3]; exact flat_lt hpt hj) e1 e2
  rw [← hd2] at c1 c2
  refine ⟨_, _, c1, c2, ?_, e4⟩
  have := sq_add_mul_le gs.length e3 e4
  convert this using 2
  ring

/-- **C111** ... so with exact detections the error vanishes also behind the obstacle: for any number `n` of hidden
frames and any `ε` there is a number of detections after which position and velocity are off by less than `ε` in
each of the `n` frames. -/
theorem C111_vanishes [Archimedean K] {cfg : Cfg K L D F X} {Ok : F → Prop} (hL : FilterLaws cfg.flt Ok)
    {n : Noise K} (hn : n.Valid) {view : F → Nat → KF2 K} (hK : KalmanLaws cfg.flt Ok n view)
    (hre : cfg.reid = none) {shape : L → Nat × Nat} (hs : ∀ a b, Compat cfg a b → shape a = shape b)
    (z t u : K) (hidden : Nat) {ε : K} (hε : 0 < ε) :
    ∃ N : Nat, ∀ (w0 w w1 w2 w' : World K L D F X), w0.Initial →
      Reaches cfg (fun _ _ => True) (fun dets _ ct w => CallOk shape (dets.getD []) ct w.heap) w0 w →
      ∀ dets period ct act, update cfg w dets period ct = (w1, .ok act) →
      CallOk shape (dets.getD []) ct w.heap →
      ∀ o ∈ w1.objs, o.initId ∉ w.keys → ∀ pt j, pt < o.numPoints → j < o.dimPoints →
      Seen cfg.detThr (w1.heap o.lastDet) pt →
      (w1.heap o.lastDet).absPoints.data[pt * o.dimPoints + j]? = some z →
      ∀ fs gs, Trace cfg w1 fs w2 → Trace cfg w2 gs w' →
      (∀ k f, fs[k]? = some f → Succeeds f ∧ CallOk shape (given f) f.ct f.before.heap ∧
        Matched o.initId f ∧ MeasuredAt cfg.detThr o.initId pt j (t + (k + 1 : Nat) * u) 0 f) →
      (∀ f ∈ gs, Succeeds f ∧ CallOk shape (given f) f.ct f.before.heap ∧ Missed o.initId f) →
      N ≤ fs.length → gs.length ≤ hidden → ∀ o' ∈ w'.objs, o'.initId = o.initId →
      ∃ x v, (o'.positions cfg.flt).data[pt * o'.dimPoints + j]? = some x ∧
        (o'.velocity cfg.flt).data[pt * o'.dimPoints + j]? = some v ∧
        |x - (t + (fs.length + gs.length) * u)| < ε ∧ |v - u| < ε := by
  have hd : (0 : K) < hidden + 1 := by positivity
  obtain ⟨N, hN⟩ := C87_vanishes (X := X) (D := D) (cfg := cfg) hL hn hK hre hs z t u
    (show 0 < ε / (hidden + 1) by positivity)
  refine ⟨N, ?_⟩
  intro w0 w w1 w2 w' h0 hr dets period ct act h hcall o ho hnew pt j hpt hj hseen hz fs gs ht ht' hfs hgs hlen
    hh o' ho' hk
  have hr1 : Reaches cfg (fun _ _ => True) (fun dets _ ct w => CallOk shape (dets.getD []) ct w.heap) w0 w1 := by
    have := Reaches.call (cfg := cfg) dets period ct hr hcall
    rwa [h] at this
  have hR1 : Reachable cfg w1 := ⟨w0, h0, hr1.mono (fun _ _ h => h) (fun _ _ _ _ _ => trivial)⟩
  have hr2 := reaches_of_trace hr1 ht (fun f hf => by
    obtain ⟨k, hk⟩ := List.mem_iff_getElem?.mp hf
    exact (hfs k f hk).2.1)
  have hev := hR1.inv
  have hev2 := ht.reaches.inv hev
  obtain ⟨o2, ho2, hk2, hn2, hd2⟩ := trace_before hev2.1 ht' ho' (by
    rw [hk]; exact (hev.bounded o ho).2.trans hev2.2.initCount)
  obtain ⟨x, v, e1, e2, e3, e4⟩ := hN w0 w w1 w2 h0 hr dets period ct act h hcall o ho hnew pt j hpt hj hseen hz fs
    ht hfs hlen o2 ho2 (hk2.trans hk)
  obtain ⟨s1, _, s2, s3, _⟩ := C07_identity_stable hR1 ht.reaches ho ho2 (hk2.trans hk).symm
  obtain ⟨c1, c2⟩ := C111_coasts hL hK hre hs h0 hr2 ht' ho2 (by rw [hk2, hk]; exact hgs) ho' hk2.symm
    (c := pt * o2.dimPoints + j) (by rw [s2, s3]; exact flat_lt hpt hj) e1 e2
  rw [← hd2] at c1 c2
  have hg : (gs.length : K) ≤ hidden := by exact_mod_cast hh
  have hg0 : (0 : K) ≤ gs.length := Nat.cast_nonneg _
  have hq : 0 < ε / (hidden + 1) := by positivity
  have hq1 : ε / (hidden + 1) * (hidden + 1) = ε := by field_simp
  refine ⟨_, _, c1, c2, ?_, lt_of_lt_of_le e4 (by rw [div_le_iff₀ hd]; nlinarith)⟩
  have : x + gs.length * v - (t + (fs.length + gs.length) * u) =
      (x - (t + fs.length * u)) + gs.length * (v - u) := by ring
  rw [this]
  calc |(x - (t + fs.length * u)) + gs.length * (v - u)|
      ≤ |x - (t + fs.length * u)| + |gs.length * (v - u)| := abs_add_le _ _
    _ = |x - (t + fs.length * u)| + gs.length * |v - u| := by rw [abs_mul, abs_of_nonneg hg0]
    _ < ε / (hidden + 1) + hidden * (ε / (hidden + 1)) := by
      refine add_lt_add_of_lt_of_le e3 ?_
      exact mul_le_mul hg e4.le (abs_nonneg _) (hg0.trans hg)
    _ = ε := by linarith

end

section
variable [LinearOrder K] [Zero K] [LinearOrder D] [OrderTop D] [Zero D] [DecidableEq L]

/-- Nothing comes between the detection `r` and the object `k` in this call: no other detection is close enough to
the object, and no other object that can be matched is close enough to the detection. -/
def Alone (cfg : Cfg K L D F X) (f : Det K L X → ObjView K L D F X → Option (Option D))
    (w : World K L D F X) (dets : Option (List Ref)) (ct : Option (CoordTrans K)) (r : Ref) (k : Nat) : Prop :=
  ∀ h : Ref → Det K L X, (∀ r, ∃ a, h r = { startHeap w dets ct r with age := a }) →
    ∀ r' ∈ dets.getD [], ∀ o ∈ w.objs, CanMatch cfg.reidMax o →
      ∀ x, ScalarDist f (h r') (((o.trackerStep cfg).updateCT ct).view h) x →
        (r' = r ∧ o.initId ≠ k ∨ r' ≠ r ∧ o.initId = k) → cfg.thr ≤ x

/-- a round in which nothing comes between a detection and an object -/
theorem Round.alone {f : Det K L X → ObjView K L D F X → Option (Option D)} {thr : D} {h : Ref → Det K L X}
    {objs : List (Obj K L D F)} {dets : List Ref} {d : Nat → Nat → D} {pairs : List (Nat × Nat)}
    {rest : List Ref} {after : List (Obj K L D F)} (R : Round f thr h objs dets d pairs rest after)
    {r : Ref} {k : Nat} (hr : r ∈ dets)
    (hA : ∀ r' ∈ dets, ∀ o ∈ objs, ∀ x, ScalarDist f (h r') ⟨o, h o.lastDet, o.past.map h⟩ x →
      (r' = r ∧ o.initId ≠ k ∨ r' ≠ r ∧ o.initId = k) → thr ≤ x) :
    (∀ o ∈ objs, o.initId = k → (∀ x, ScalarDist f (h r) ⟨o, h o.lastDet, o.past.map h⟩ x → x < thr) →
      ∀ o' ∈ after, o'.initId = k → o'.lastDet = r) ∧
    ((∀ o ∈ objs, o.initId ≠ k) → r ∈ rest) := by
  obtain ⟨i, hi⟩ := List.mem_iff_getElem?.mp hr
  constructor
  · intro o ho hk hlt o' ho' hk'
    obtain ⟨j, hj⟩ := List.mem_iff_getElem?.mp ho
    obtain ⟨p, hp, hpij, _⟩ := R.greedy.stable i (List.getElem?_eq_some_iff.mp hi).1 j
      (List.getElem?_eq_some_iff.mp hj).1 (hlt _ (R.dist i j r o hi hj))
    obtain ⟨r', q, hr', hq, hout⟩ := R.outcome p hp
    have hb := R.greedy.below p hp
    have hfar := hA r' (List.mem_of_getElem? hr') q (List.mem_of_getElem? hq) _ (R.dist _ _ _ _ hr' hq)
    rcases hpij with e | e
    · rw [e, hi] at hr'
      cases hr'
      by_cases hqk : q.initId = k
      · exact (hout o' ho' (hk'.trans hqk.symm)).1
      · exact absurd hb (not_lt.mpr (hfar (Or.inl ⟨rfl, hqk⟩)))
    · rw [e, hj] at hq
      cases hq
      by_cases hrr : r' = r
      · subst hrr
        exact (hout o' ho' (hk'.trans hk.symm)).1
      · exact absurd hb (not_lt.mpr (hfar (Or.inr ⟨hrr, hk⟩)))
  · intro hno
    rw [R.rest]
    refine leftOver_mem hi fun hmem => ?_
    obtain ⟨p, hp, e⟩ := List.mem_map.mp hmem
    obtain ⟨r', q, hr', hq, _⟩ := R.outcome p hp
    rw [e, hi] at hr'
    cases hr'
    exact absurd (R.greedy.below p hp) (not_lt.mpr (hA r hr q (List.mem_of_getElem? hq) _
      (R.dist _ _ _ _ (by rw [e]; exact hi) hq) (Or.inl ⟨rfl, hno q (List.mem_of_getElem? hq)⟩)))

/-- **C111** A detection and an object that are closer than the threshold and between which nothing comes are matched,
whatever else happens in the call. -/
theorem C111_alone {cfg : Cfg K L D F X} {f} (hf : cfg.dist = .scalar f) (hre : cfg.reid = none)
    {w w' : World K L D F X} (hw : Reachable cfg w) {dets : Option (List Ref)} {period : Int}
    {ct : Option (CoordTrans K)} {act : List (Obj K L D F)}
    (h : update cfg w dets period ct = (w', .ok act)) {r : Ref} (hr : r ∈ dets.getD []) {o : Obj K L D F}
    (ho : o ∈ w.objs) (hc : CanMatch cfg.reidMax o) (hA : Alone cfg f w dets ct r o.initId)
    (hnear : ∀ h : Ref → Det K L X, (∀ r, ∃ a, h r = { startHeap w dets ct r with age := a }) →
      ∀ x, ScalarDist f (h r) (((o.trackerStep cfg).updateCT ct).view h) x → x < cfg.thr) :
    ∃ o' ∈ w'.objs, o'.initId = o.initId ∧ o'.lastDet = r := by
  have hI := hw.inv
  obtain ⟨g1, d1, d2, pairs1, pairs2, rest1, rest2, hages, R1, R2, old, news, e1, e2, e3, e4, e5, e6⟩ :=
    C64_two_greedy_rounds hf hw h
  have hmemc : ∀ {init p}, p ∈ compared cfg ct w.objs init → ∃ o ∈ w.objs, CanMatch cfg.reidMax o ∧
      o.isInit = init ∧ p = (o.trackerStep cfg).updateCT ct := by
    intro init p hp
    obtain ⟨o, ho, rfl⟩ := List.mem_map.mp hp
    rw [List.mem_filter, decide_eq_true_eq] at ho
    exact ⟨o, ho.1, ho.2.1, ho.2.2, rfl⟩
  have hid : ∀ o : Obj K L D F, ((o.trackerStep cfg).updateCT ct).initId = o.initId := fun o => by
    simp [Obj.trackerStep]
  have hm : (o.trackerStep cfg).updateCT ct ∈ compared cfg ct w.objs o.isInit :=
    List.mem_map.mpr ⟨o, List.mem_filter.mpr ⟨ho, by simp [hc]⟩, rfl⟩
  have hold : ∀ r, ∃ a, startHeap w dets ct r = { startHeap w dets ct r with age := a } :=
    fun r => ⟨(startHeap w dets ct r).age, rfl⟩
  have hfar : ∀ g : Ref → Det K L X, (∀ r, ∃ a, g r = { startHeap w dets ct r with age := a }) → ∀ init,
      ∀ r' ∈ dets.getD [], ∀ p ∈ compared cfg ct w.objs init, ∀ x,
      ScalarDist f (g r') ⟨p, g p.lastDet, p.past.map g⟩ x →
      (r' = r ∧ p.initId ≠ o.initId ∨ r' ≠ r ∧ p.initId = o.initId) → cfg.thr ≤ x := by
    intro g hg init r' hr' p hp x hx
    obtain ⟨q, hq, hqc, _, rfl⟩ := hmemc hp
    rw [hid]
    exact hA g hg r' hr' q hq hqc x hx
  have hsub1 : ∀ r, r ∈ rest1 → r ∈ dets.getD [] := fun r hr => by
    rw [R1.rest] at hr; exact (leftOver_sublist _ _).subset hr
  have A1 := Round.alone R1 hr (hfar _ hold false)
  have hkept : ∃ o' ∈ w'.objs, o'.initId = o.initId := by
    have : o.initId ∈ old.map (·.initId) := by
      cases hi : o.isInit with
      | false => rw [hi] at hm; exact hid o ▸ e5 _ hm
      | true => rw [hi] at hm; exact hid o ▸ e6 hre _ hm
    obtain ⟨o', ho', e⟩ := List.mem_map.mp this
    exact ⟨o', by rw [e1]; exact List.mem_append_left _ ho', e⟩
  obtain ⟨o', ho', hk⟩ := hkept
  refine ⟨o', ho', hk, ?_⟩
  cases hi : o.isInit with
  | false =>
    rw [hi] at hm
    exact A1.1 _ hm (hid o) (hnear _ hold) o' ho' hk
  | true =>
    rw [hi] at hm
    have hr1 : r ∈ rest1 := A1.2 fun p hp hpk => by
      obtain ⟨q, hq, _, hqi, rfl⟩ := hmemc hp
      rw [hid] at hpk
      have : q = o := World.eq_of_mem_of_key hI.nodup hq ho hpk
      subst this
      rw [hi] at hqi
      cases hqi
    exact (Round.alone R2 hr1 (fun r' hr' => hfar _ hages true r' (hsub1 r' hr'))).1 _ hm (hid o)
      (hnear _ hages) o' ho' hk

end

section
variable [Field K] [LinearOrder K] [IsStrictOrderedRing K] [LinearOrder D] [OrderTop D] [Zero D]
  [DecidableEq L]

/-- without transformations there are none afterwards -/
theorem trace_plain {cfg : Cfg K L D F X} {w w' : World K L D F X} (hR : Reachable cfg w)
    (h : ∀ q ∈ w.objs, q.absToRel = none) {fs : List (Frame K L D F X)} (ht : Trace cfg w fs w')
    (hfs : ∀ f ∈ fs, f.ct = none) : ∀ q ∈ w'.objs, q.absToRel = none := by
  induction ht with
  | nil => exact h
  | env heap g _ he ih => exact ih hfs
  | @call fs w2 dets period ct ht ih =>
    intro q hq
    have h1 := ih fun f hf => hfs f (List.mem_append_left _ hf)
    have hct : ct = none := hfs _ (List.mem_append_right _ (List.mem_singleton.mpr rfl))
    subst hct
    rcases C26_transformation_kept (hR.trans ht.reaches) dets period hq with ⟨o, ho, _, e⟩ | ⟨_, e⟩
    · rw [e]; exact h1 o ho
    · exact e

/-- the distance of a detection of a target to an object that is predicted close to the target -/
theorem near_of_error {cfg : Cfg K L D F X} {g} {Ok : F → Prop} (hL : FilterLaws cfg.flt Ok)
    {shape : L → Nat × Nat} {near far e W : K} (hG : Gauge cfg.flt shape g cfg.thr near far) (hnear : e + W ≤ near)
    {T : Target K L} {k : Nat} {moving : Prop} {w : World K L D F X} {dets : Option (List Ref)}
    {ct : Option (CoordTrans K)} (hcam : CameraOk shape moving ct) {r : Ref}
    (hS : Shows cfg.detThr shape W ct T k (w.heap r)) {o : Obj K L D F} (hP : PointsOk cfg.flt Ok shape o)
    (hrel : ¬ moving → o.absToRel = none) (hlab : o.label = T.label)
    (hpos : ∀ c y, (((o.trackerStep cfg).updateCT ct).positions cfg.flt).data[c]? = some y → |y - T.at k c| ≤ e)
    (h : Ref → Det K L X) (hages : ∀ r, ∃ a, h r = { startHeap w dets ct r with age := a }) (x : D)
    (hx : ScalarDist g (h r) (((o.trackerStep cfg).updateCT ct).view h) x) : x < cfg.thr := by
  obtain ⟨a, ha⟩ := hages r
  obtain ⟨ap, hap⟩ := startHeap_fields w dets ct r
  have hpts : (h r).points = (w.heap r).points := by rw [ha]; simp only [hap]
  have hdl : (h r).label = T.label := by rw [ha]; simp only [hap]; exact hS.label
  set p := (o.trackerStep cfg).updateCT ct with hp
  have hsp : SteppedPoints cfg o p := stepped_points cfg ct o
  have hplab : p.label = T.label := hsp.label.trans hlab
  have hpred := hL.predict _ hP.ok
  have hposs : HasShape (shape T.label) (p.positions cfg.flt) := by
    refine ⟨hsp.numPoints.trans (by rw [hP.n, hlab]), hsp.dimPoints.trans (by rw [hP.dim, hlab]), ?_⟩
    show ((cfg.flt.getX p.filter).take p.dimZ).length = _
    rw [List.length_take, hsp.filter, hL.len _ hpred.1, hpred.2.1, hP.dimZ, hsp.dimZ, ← hlab, ← hP.n, ← hP.dim]
    show min (o.dimPoints * o.numPoints) (2 * (o.dimPoints * o.numPoints)) = _
    omega
  have hest : HasShape (shape T.label) (p.estimate cfg.flt) ∧
      ∀ (c : Nat) (a b : K), (h r).points.data[c]? = some a → (p.estimate cfg.flt).data[c]? = some b →
      ∃ a' b', (placed ct (w.heap r)).data[c]? = some a' ∧ (p.positions cfg.flt).data[c]? = some b' ∧
        a - b = a' - b' := by
    cases ct with
    | none =>
      have : p.estimate cfg.flt = p.positions cfg.flt := by
        unfold Obj.estimate
        have : p.absToRel = none := hrel hcam
        rw [this]
      rw [this, hpts]
      exact ⟨hposs, fun c a b ha hb => ⟨a, b, ha, hb, rfl⟩⟩
    | some ctr =>
      have : p.estimate cfg.flt = ctr.absToRel (p.positions cfg.flt) := rfl
      rw [this, hpts]
      refine ⟨hcam.2.toRel _ _ hposs, fun c a b ha hb => ?_⟩
      have h2 := hcam.2.toAbs _ _ hS.points
      have hc := (List.getElem?_eq_some_iff.mp ha).1
      rw [hS.points.2.2] at hc
      have c1 : c < (ctr.relToAbs (w.heap r).points).data.length := by rw [h2.2.2]; exact hc
      have c2 : c < (p.positions cfg.flt).data.length := by rw [hposs.2.2]; exact hc
      exact ⟨_, _, List.getElem?_eq_getElem c1, List.getElem?_eq_getElem c2,
        hcam.2.diff _ _ _ hS.points hposs c _ _ _ _ ha (List.getElem?_eq_getElem c1)
          (List.getElem?_eq_getElem c2) hb⟩
  rcases hx with ⟨hl, hfx⟩ | ⟨hl, _⟩
  · have s1 : HasShape (shape (h r).label) (h r).points := by rw [hdl, hpts]; exact hS.points
    have s2 : HasShape (shape (h r).label) (p.estimate cfg.flt) := by rw [hdl]; exact hest.1
    refine hG.near _ _ _ hl s1 s2 hfx fun c a b ha hb => ?_
    obtain ⟨a', b', ha', hb', hd⟩ := hest.2 c a b ha hb
    have d1 := hS.close c a' ha'
    have d2 := hpos c b' hb'
    rw [hd]
    calc |a' - b'| = |(a' - T.at k c) - (b' - T.at k c)| := by ring_nf
      _ ≤ |a' - T.at k c| + |b' - T.at k c| := abs_sub _ _
      _ ≤ near := by linarith
  · exact absurd (hdl.trans hplab.symm) hl

/-- **C111** A target that comes out from behind an obstacle gets its object back. An initialized object with hit
counter at least `n` is not matched in `n` calls (`gs`). In the next call there is a detection `r` of the target
(off by at most `W`), and the extrapolation of the object by `n + 1` frames is off by at most `e` from where the
target is then, such that detections that are off by `e + W` from the estimate are closer than the threshold for
the distance. If nothing comes between them, the object gets the detection and still has its id. The camera may move
by translations. There is no ReID. -/
theorem C111_found {cfg : Cfg K L D F X} {g} (hf : cfg.dist = .scalar g) (hre : cfg.reid = none)
    (hmax : cfg.reidMax = none) {Ok : F → Prop} (hL : FilterLaws cfg.flt Ok) {n : Noise K}
    {view : F → Nat → KF2 K} (hK : KalmanLaws cfg.flt Ok n view) {shape : L → Nat × Nat} {near far e W : K}
    (hG : Gauge cfg.flt shape g cfg.thr near far) (hnear : e + W ≤ near) {w0 w w' : World K L D F X}
    (h0 : w0.Initial)
    (hr : Reaches cfg (fun _ _ => True) (fun dets _ ct w => CallOk shape (dets.getD []) ct w.heap) w0 w)
    {gs : List (Frame K L D F X)} {fr : Frame K L D F X} (ht : Trace cfg w (gs ++ [fr]) w')
    {o : Obj K L D F} (ho : o ∈ w.objs) (hinit : o.isInit = false) (hhit : (gs.length : Int) ≤ o.hitCounter)
    (hgs : ∀ f ∈ gs, Succeeds f ∧ CallOk shape (given f) f.ct f.before.heap ∧ Missed o.initId f)
    {moving : Prop} (hcam : ∀ f ∈ gs ++ [fr], CameraOk shape moving f.ct)
    (hrel : ¬ moving → ∀ q ∈ w.objs, q.absToRel = none)
    {T : Target K L} {k : Nat} (hlab : o.label = T.label)
    (herr : ∀ c x v, (o.positions cfg.flt).data[c]? = some x → (o.velocity cfg.flt).data[c]? = some v →
      |x + (gs.length + 1 : Nat) * v - T.at k c| ≤ e)
    (hsucc : Succeeds fr) {r : Ref} (hrg : r ∈ given fr)
    (hS : Shows cfg.detThr shape W fr.ct T k (fr.before.heap r))
    (hA : Alone cfg g fr.before fr.dets fr.ct r o.initId) :
    ∃ o' ∈ fr.after.objs, o'.initId = o.initId ∧ o'.lastDet = r ∧ o'.id = o.id ∧ o'.isInit = false := by
  have hs : ∀ a b, Compat cfg a b → shape a = shape b := by
    intro a b hab
    unfold Compat at hab
    rw [hf] at hab
    exact congrArg shape hab
  have hR : Reachable cfg w := ⟨w0, h0, hr.mono (fun _ _ h => h) (fun _ _ _ _ _ => trivial)⟩
  obtain ⟨hb, hup⟩ := ht.last
  have hI := hR.inv
  have hRb : Reachable cfg fr.before := hR.trans hb.reaches
  have hrb := reaches_of_trace hr hb (fun f hf => (hgs f hf).2.1)
  obtain ⟨q, hq, hqk, hqh, hqi, hqid⟩ := (C13_inertia hmax hR hb ho hinit (by omega)
    (fun f hf => ⟨(hgs f hf).1, (hgs f hf).2.2⟩)).1 (by omega)
  have hcfr := hcam fr (List.mem_append_right _ (List.mem_singleton.mpr rfl))
  have hplain : ¬ moving → q.absToRel = none := fun hm =>
    trace_plain hR (hrel hm) hb (fun f hf => by
      have := hcam f (List.mem_append_left _ hf)
      cases hct : f.ct with
      | none => rfl
      | some c => rw [hct] at this; exact absurd this.1 hm) q hq
  have hPo := WfReaches.pointsOk hL hs h0 hr o ho
  have hPq := WfReaches.pointsOk hL hs h0 hrb q hq
  obtain ⟨s1, _, s2, s3, _⟩ := C07_identity_stable hR hb.reaches ho hq hqk.symm
  have hcan : CanMatch cfg.reidMax q := ⟨by omega, Or.inl hmax⟩
  obtain ⟨act, hact⟩ := hsucc
  rw [hact] at hup
  obtain ⟨o', ho', hk', hl'⟩ := C111_alone hf hre hRb hup hrg hq hcan (by rw [hqk]; exact hA)
    (near_of_error hL hG hnear hcfr hS hPq hplain (s1.trans hlab) fun c y hy => by
      set p := (q.trackerStep cfg).updateCT fr.ct with hp
      have hsp : SteppedPoints cfg q p := stepped_points cfg fr.ct q
      have hlt : c < o.dimPoints * o.numPoints := by
        have := (List.getElem?_eq_some_iff.mp hy).1
        simp only [Obj.positions] at this
        rw [List.length_take, hsp.dimZ] at this
        have : c < q.dimPoints * q.numPoints := by
          simp only [Obj.dimZ] at this; omega
        rw [s2, s3] at this
        exact this
      have hcz : c < cfg.flt.dimZ o.filter := by rw [hPo.dimZ]; exact hlt
      obtain ⟨y1, y2⟩ := hK.x o.filter c hPo.ok hcz
      have x1 : (o.positions cfg.flt).data[c]? = some (view o.filter c).p := by
        simp only [Obj.positions]
        rw [List.getElem?_take_of_lt (show c < o.dimZ from hlt)]; exact y1
      have x2 : (o.velocity cfg.flt).data[c]? = some (view o.filter c).v := by
        simp only [Obj.velocity]
        rw [List.getElem?_drop, ← hPo.dimZ]; exact y2
      obtain ⟨c1, c2⟩ := C111_coasts hL hK hre hs h0 hr hb ho hgs hq hqk hlt x1 x2
      obtain ⟨d1, _⟩ := predicted_coord hL hK hPq hsp (by rw [s2, s3]; exact hlt) c1 c2
      rw [d1] at hy
      have := herr c _ _ x1 x2
      rw [← Option.some.inj hy]
      convert this using 2
      push_cast
      ring)
  have hev := update_inv (cfg := cfg) hRb.inv fr.dets fr.period fr.ct
  rw [hup] at hev
  obtain ⟨_, _, _, _, t5, t6, _⟩ := C07_identity_stable hRb
    (by have := Reaches.call (cfg := cfg) (E := fun _ _ => True) (P := fun _ _ _ _ => True) fr.dets fr.period fr.ct
          (.refl fr.before) trivial
        rwa [hup] at this) hq ho' hk'.symm
  refine ⟨o', ho', hk'.trans hqk, hl', ?_, t5 hqi⟩
  cases hid : q.id with
  | none =>
    have := (hRb.inv.initIff q hq).mpr hid
    rw [hqi] at this
    cases this
  | some i => rw [t6 i hid, ← hqid, hid]

theorem abs_sub_le_of_le {a b x y : K} (ha : |a| ≤ x) (hb : |b| ≤ y) : |a - b| ≤ x + y := by
  rw [abs_le] at *
  constructor <;> linarith [ha.1, ha.2, hb.1, hb.2]

/-- how far a target can be, after `k` frames, from where it would be without changes of its velocity -/
theorem steady_ahead {T : Target K L} {A : K} (h : T.Steady A) (c l k : Nat) :
    |T.at (l + k) c - T.at l c - k * T.vel l c| ≤ A * (k * (k - 1) / 2) := by
  have hv : ∀ i : Nat, |T.vel (l + i) c - T.vel l c| ≤ i * A := by
    intro i
    induction i with
    | zero => simp
    | succ i ih =>
      have h1 := h (l + i) c
      have h2 := abs_add_le (T.vel (l + i + 1) c - T.vel (l + i) c) (T.vel (l + i) c - T.vel l c)
      rw [sub_add_sub_cancel] at h2
      push_cast
      rw [← add_assoc]
      linarith
  induction k with
  | zero => simp
  | succ k ih =>
    have h2 := abs_add_le (T.at (l + k) c - T.at l c - k * T.vel l c) (T.vel (l + k) c - T.vel l c)
    have h3 := hv k
    have e : T.at (l + k) c - T.at l c - k * T.vel l c + (T.vel (l + k) c - T.vel l c) =
        T.at (l + (k + 1)) c - T.at l c - ((k + 1 : Nat) : K) * T.vel l c := by
      rw [show T.vel (l + k) c = T.at (l + (k + 1)) c - T.at (l + k) c from rfl]
      push_cast
      ring
    rw [e] at h2
    push_cast at h2 ⊢
    linarith

/-- **C111** The whole story: an object is created from a detection of a target that changes its velocity by at most
`A` per frame (off by at most `W`), is matched in the calls `fs` to detections of it, is not matched in the calls `gs`, and the target is detected
again in the next call. If the bound of C120 for the last frame in which it was seen, extrapolated over the hidden
frames, is at most `e`, detections off by `e + W` and by what the changes of velocity add over the hidden frames are
closer than the threshold, the hit counter has lasted, and
nothing comes between, then the target gets its object and id back. -/
theorem C111_through {cfg : Cfg K L D F X} {g} (hf : cfg.dist = .scalar g) (hre : cfg.reid = none)
    (hmax : cfg.reidMax = none) {Ok : F → Prop} (hL : FilterLaws cfg.flt Ok) {n : Noise K} (hn : n.Valid)
    {view : F → Nat → KF2 K} (hK : KalmanLaws cfg.flt Ok n view) {shape : L → Nat × Nat} {near far e W : K}
    (hG : Gauge cfg.flt shape g cfg.thr near far) (he : 0 ≤ e)
    {w0 w w1 w2 w' : World K L D F X} (h0 : w0.Initial)
    (hr : Reaches cfg (fun _ _ => True) (fun dets _ ct w => CallOk shape (dets.getD []) ct w.heap) w0 w)
    {dets : Option (List Ref)} {period : Int} {ct : Option (CoordTrans K)} {act : List (Obj K L D F)}
    (h : update cfg w dets period ct = (w1, .ok act)) (hcall : CallOk shape (dets.getD []) ct w.heap)
    {o : Obj K L D F} (ho : o ∈ w1.objs) (hnew : o.initId ∉ w.keys)
    {T : Target K L} {η A : K} (hM : n.Margin η A) (hsteady : T.Steady A) (hlab : o.label = T.label)
    (hm : Measured cfg.detThr shape W T 0 (w1.heap o.lastDet))
    {fs gs : List (Frame K L D F X)} {fr : Frame K L D F X} (ht : Trace cfg w1 fs w2)
    (ht' : Trace cfg w2 (gs ++ [fr]) w')
    (hfs : ∀ k f, fs[k]? = some f → Succeeds f ∧ CallOk shape (given f) f.ct f.before.heap ∧
      Matched o.initId f ∧ ∀ p ∈ f.after.objs, p.initId = o.initId →
        Measured cfg.detThr shape W T (k + 1) (f.after.heap p.lastDet))
    (hgs : ∀ f ∈ gs, Succeeds f ∧ CallOk shape (given f) f.ct f.before.heap ∧ Missed o.initId f)
    (herr : ∀ c < (shape T.label).2 * (shape T.label).1, ∀ x, |x| ≤ W →
      (gs.length + 2) * (n.posVar + (gs.length + 1) * n.velVar) * n.boundA η W A x (0 - T.vel 0 c) fs.length ≤ e ^ 2)
    (hnear : e + A * ((gs.length + 1) * gs.length / 2) + W ≤ near)
    {moving : Prop} (hcam : ∀ f ∈ gs ++ [fr], CameraOk shape moving f.ct)
    (hrel : ¬ moving → ∀ q ∈ w2.objs, q.absToRel = none)
    {o2 : Obj K L D F} (ho2 : o2 ∈ w2.objs) (hk2 : o2.initId = o.initId) (hinit : o2.isInit = false)
    (hhit : (gs.length : Int) ≤ o2.hitCounter) (hsucc : Succeeds fr) {r : Ref} (hrg : r ∈ given fr)
    (hS : Shows cfg.detThr shape W fr.ct T (fs.length + gs.length + 1) (fr.before.heap r))
    (hA : Alone cfg g fr.before fr.dets fr.ct r o.initId) :
    ∃ o' ∈ fr.after.objs, o'.initId = o.initId ∧ o'.lastDet = r ∧ o'.id = o2.id ∧ o'.isInit = false := by
  have hs : ∀ a b, Compat cfg a b → shape a = shape b := by
    intro a b hab
    unfold Compat at hab
    rw [hf] at hab
    exact congrArg shape hab
  have hr1 : Reaches cfg (fun _ _ => True) (fun dets _ ct w => CallOk shape (dets.getD []) ct w.heap) w0 w1 := by
    have := Reaches.call (cfg := cfg) dets period ct hr hcall
    rwa [h] at this
  have hR1 : Reachable cfg w1 := ⟨w0, h0, hr1.mono (fun _ _ h => h) (fun _ _ _ _ _ => trivial)⟩
  have hr2 := reaches_of_trace hr1 ht (fun f hf => by
    obtain ⟨k, hk⟩ := List.mem_iff_getElem?.mp hf
    exact (hfs k f hk).2.1)
  have hP := WfReaches.pointsOk hL hs h0 hr1 o ho
  have hP2 := WfReaches.pointsOk hL hs h0 hr2 o2 ho2
  obtain ⟨s1, _, s2, s3, _⟩ := C07_identity_stable hR1 ht.reaches ho ho2 hk2.symm
  have hn1 : o.numPoints = (shape T.label).1 := by rw [hP.n, hlab]
  have hd1 : o.dimPoints = (shape T.label).2 := by rw [hP.dim, hlab]
  rw [← hk2] at hgs hA ⊢
  refine C111_found hf hre hmax hL hK hG hnear h0 hr2 ht' ho2 hinit hhit hgs hcam hrel (s1.trans hlab) ?_ hsucc hrg
    hS hA
  intro c x v hx hv
  have hc : c < o.dimPoints * o.numPoints := by
    have := (List.getElem?_eq_some_iff.mp hx).1
    simp only [Obj.positions] at this
    rw [List.length_take] at this
    have : c < o2.dimPoints * o2.numPoints := by simp only [Obj.dimZ] at this; omega
    rw [s2, s3] at this
    exact this
  obtain ⟨pt, hpt, j, hj, rfl⟩ := split_index hc
  have hcl : pt * o.dimPoints + j < (w1.heap o.lastDet).absPoints.data.length := by
    rw [hm.abs.2.2, ← hn1, ← hd1]; exact hc
  have hz := List.getElem?_eq_getElem hcl
  set z := (w1.heap o.lastDet).absPoints.data[pt * o.dimPoints + j] with hzd
  obtain ⟨x', v', e1, e2, e3, e4⟩ := C120_follows hL hn hK hre hs h0 hr h hcall ho hnew hpt hj
    (hm.seen pt (hn1 ▸ hpt)) hz (p := fun k => T.at k (pt * o.dimPoints + j)) (W := W) hM
    (steady_path hsteady _) ht
    (fun k f hkf => by
      obtain ⟨a1, a2, a3, a4⟩ := hfs k f hkf
      refine ⟨a1, a2, a3, fun p hp hpk => ?_⟩
      have b4 := a4 p hp hpk
      refine ⟨b4.seen pt (hn1 ▸ hpt), ?_⟩
      have hl : pt * o.dimPoints + j < (f.after.heap p.lastDet).absPoints.data.length := by
        rw [b4.abs.2.2, ← hn1, ← hd1]; exact hc
      have hpd : p.dimPoints = o.dimPoints := by
        obtain ⟨_, _, _, s3', _⟩ := C07_identity_stable hR1 (trace_to ht (List.mem_of_getElem? hkf)) ho hp hpk.symm
        exact s3'
      rw [hpd]
      exact ⟨_, List.getElem?_eq_getElem hl, b4.close _ _ (List.getElem?_eq_getElem hl)⟩)
    ho2 hk2
  rw [s3] at e1 e2
  rw [e1] at hx
  rw [e2] at hv
  cases hx
  cases hv
  have hx0 := hm.close _ _ hz
  have herr' := herr (pt * o.dimPoints + j) (by rw [← hn1, ← hd1]; exact hc) _ hx0
  have hdev := steady_ahead hsteady (pt * o.dimPoints + j) fs.length (gs.length + 1)
  have hlin : |x - T.at fs.length (pt * o.dimPoints + j) + ((gs.length : K) + 1) *
      (v - T.vel fs.length (pt * o.dimPoints + j))| ≤ e := by
    apply abs_le_of_sq_le_sq _ he
    refine le_trans ?_ herr'
    have := sq_add_mul_le (gs.length + 1) e3 e4
    push_cast at this
    rw [show ((gs.length : K) + 1 + 1) = gs.length + 2 by ring] at this
    exact this
  rw [← add_assoc] at hdev
  push_cast at hdev ⊢
  have hsum := (abs_sub_le_of_le hlin hdev)
  rw [show (gs.length : K) + 1 - 1 = gs.length by ring] at hsum
  convert hsum using 2
  ring

end

/-! ### Example: the first of the three targets on a line (C88) is hidden in the fourth frame -/

/-- as in the example of C88, with a larger threshold -/
def hiddenCfg : Cfg ℚ Nat (WithTop ℚ) (OKF ℚ) Unit := { lineCfg with thr := (30 : ℚ), fill := (31 : ℚ) }

/-- the states after the calls of the first to the fifth frame; target 0 is hidden in the fourth -/
def hiddenW1 := (update hiddenCfg lineW (some [0, 1, 2]) 1 none).1
@[inherit_doc hiddenW1] def hiddenW2 := (update hiddenCfg hiddenW1 (some [5, 3, 4]) 1 none).1
@[inherit_doc hiddenW1] def hiddenW3 := (update hiddenCfg hiddenW2 (some [7, 8, 6]) 1 none).1
@[inherit_doc hiddenW1] def hiddenW4 := (update hiddenCfg hiddenW3 (some [10, 11]) 1 none).1
@[inherit_doc hiddenW1] def hiddenW5 := (update hiddenCfg hiddenW4 (some [14, 13, 12]) 1 none).1

/-- distances below the threshold -/
theorem hidden_gauge : Gauge hiddenCfg.flt (fun _ => (1, 1)) lineDist hiddenCfg.thr (27 : ℚ) 30 := by
  constructor
  · intro d v x _ hp hq hx hne
    obtain ⟨a, ha⟩ := List.length_eq_one_iff.mp hp.2.2
    obtain ⟨b, hb⟩ := List.length_eq_one_iff.mp hq.2.2
    have := hne 0 a b (by rw [ha]; rfl) (by rw [hb]; rfl)
    change (v.obj.estimate (okfOps okfDefaults)).data = [b] at hb
    simp only [lineDist, ha, hb, Option.some.injEq] at hx
    rw [← hx]
    exact WithTop.coe_lt_coe.mpr (lt_of_le_of_lt this (by norm_num))
  · intro d v x _ hp hq hx c a b ha hb hf
    have hc : c = 0 := by
      have := (List.getElem?_eq_some_iff.mp ha).1
      rw [hp.2.2] at this
      change c < 1 at this
      omega
    subst hc
    change (v.obj.estimate (okfOps okfDefaults)).data[0]? = some b at hb
    rw [← List.head?_eq_getElem?] at ha hb
    simp only [lineDist, List.headD_eq_head?_getD, ha, hb, Option.getD_some, Option.some.injEq] at hx
    rw [← hx]
    exact WithTop.coe_le_coe.mpr hf

/-- a detection in absolute coordinates that is off by at most 1/10 -/
theorem hidden_measured {T : Target ℚ Nat} {k : Nat} {d : Det ℚ Nat Unit} {y : ℚ}
    (h : d.absPoints = ⟨1, 1, [y]⟩ ∧ d.scores = none ∧ |y - T.at k 0| ≤ 1 / 10) :
    Measured 0 (fun _ => (1, 1)) (1 / 10) T k d := by
  obtain ⟨h1, h2, h3⟩ := h
  refine ⟨?_, by rw [h1]; exact ⟨rfl, rfl, rfl⟩, ?_⟩
  · intro i _ s hs; rw [h2] at hs; cases hs
  · intro c z hz
    rw [h1] at hz
    match c with
    | 0 => cases hz; exact h3
    | c + 1 => simp at hz

theorem hidden_callOk {w : World ℚ Nat (WithTop ℚ) (OKF ℚ) Unit} {l : List Ref}
    (h : ∀ r ∈ l, (w.heap r).absPoints.n = 1 ∧ (w.heap r).absPoints.dim = 1 ∧
      (w.heap r).absPoints.data.length = 1 ∧ (w.heap r).scores = none) :
    CallOk (fun _ : Nat => (1, 1)) l none w.heap := by
  refine ⟨(by intro c hc; cases hc), ?_⟩
  intro q hq
  obtain ⟨h1, h2, h3, h4⟩ := h q hq
  refine ⟨h1, h2, by rw [h3, h1, h2], ?_⟩
  intro s hs; rw [h4] at hs; cases hs

/-- the bound for one hidden frame after two frames of detections -/
theorem hidden_error (c : Nat) (x : ℚ) (hx : |x| ≤ 1 / 10) :
    (((1 : Nat) : ℚ) + 2) * ((okfNoise okfDefaults).posVar + (((1 : Nat) : ℚ) + 1) * (okfNoise okfDefaults).velVar) *
      (okfNoise okfDefaults).boundA 0 (1 / 10) 0 x (0 - (lineTargets 0).vel 0 c) 2 ≤ 26 ^ 2 := by
  have hv : (lineTargets 0).vel 0 c = 2 := by norm_num [lineTargets, Target.vel, Target.line, Target.at]
  rw [hv, boundA_zero okfNoise_default]
  have hx2 : x ^ 2 ≤ 1 / 100 := by
    rw [← sq_abs]
    nlinarith [abs_nonneg x]
  refine le_trans (mul_le_mul_of_nonneg_left (bound_le ?_ _ _ _ _) ?_) ?_
  · exact okfNoise_valid (pr := okfDefaults) (by decide +kernel) (by decide +kernel) (by decide +kernel)
      (by decide +kernel) (by decide +kernel)
  · decide +kernel
  · have e : (((1 : Nat) : ℚ) + 2) * ((okfNoise okfDefaults).posVar + (((1 : Nat) : ℚ) + 1) * (okfNoise okfDefaults).velVar) *
        (okfNoise okfDefaults).bound (1 / 10) x (0 - 2) 0 = 576 / 5 * (x ^ 2 / 10 + 4 + 627 / 400) := by
      unfold Noise.bound Noise.start Noise.rate Noise.trace Noise.velVar Noise.posVar Noise.q okfNoise okfDefaults
      norm_num
      ring
    rw [e]
    nlinarith

/-- the frames with detections of target 0 after the first one, and the others -/
def hiddenFs : List (Frame ℚ Nat (WithTop ℚ) (OKF ℚ) Unit) :=
  [⟨some [5, 3, 4], 1, none, hiddenW1, hiddenW2, (update hiddenCfg hiddenW1 (some [5, 3, 4]) 1 none).2⟩,
   ⟨some [7, 8, 6], 1, none, hiddenW2, hiddenW3, (update hiddenCfg hiddenW2 (some [7, 8, 6]) 1 none).2⟩]
@[inherit_doc hiddenFs] def hiddenGs : List (Frame ℚ Nat (WithTop ℚ) (OKF ℚ) Unit) :=
  [⟨some [10, 11], 1, none, hiddenW3, hiddenW4, (update hiddenCfg hiddenW3 (some [10, 11]) 1 none).2⟩]
@[inherit_doc hiddenFs] def hiddenFr : Frame ℚ Nat (WithTop ℚ) (OKF ℚ) Unit :=
  ⟨some [14, 13, 12], 1, none, hiddenW4, hiddenW5, (update hiddenCfg hiddenW4 (some [14, 13, 12]) 1 none).2⟩

/-- nothing comes between detection 12 and object 1 in the fifth frame -/
theorem hidden_alone : Alone hiddenCfg lineDist hiddenW4 (some [14, 13, 12]) none 12 1 := by
  intro h hages r' hr' o ho _ x hx hor
  obtain ⟨a, ha⟩ := hages r'
  have key : ∀ r' ∈ [14, 13, 12], ∀ o ∈ hiddenW4.objs, (r' = 12 ∧ o.initId ≠ 1 ∨ r' ≠ 12 ∧ o.initId = 1) →
      (hiddenW4.heap r').label ≠ o.label ∨
      (30 : ℚ) ≤ |(hiddenW4.heap r').points.data.headD 0 -
        (((o.trackerStep hiddenCfg).updateCT none).estimate (okfOps okfDefaults)).data.headD 0| := by decide +kernel
  have hl : (h r').label = (hiddenW4.heap r').label := by rw [ha]; rfl
  have hp : (h r').points = (hiddenW4.heap r').points := by rw [ha]; rfl
  rcases key r' hr' o ho hor with hne | hle
  · rcases hx with ⟨hlab, _⟩ | ⟨_, rfl⟩
    · exact absurd (hl ▸ hlab) hne
    · exact le_top
  · rcases hx with ⟨_, hfx⟩ | ⟨_, rfl⟩
    · have : lineDist (h r') (((o.trackerStep hiddenCfg).updateCT none).view h) =
        some (some (((|(hiddenW4.heap r').points.data.headD 0 -
          (((o.trackerStep hiddenCfg).updateCT none).estimate (okfOps okfDefaults)).data.headD 0| : ℚ)) : WithTop ℚ)) := by
        unfold lineDist
        rw [hp]
        rfl
      rw [this] at hfx
      simp only [Option.some.injEq] at hfx
      rw [← hfx]
      exact WithTop.coe_le_coe.mpr hle
    · exact le_top

/-- C111: the target is found again after the hidden frame -/
example : ∃ o' ∈ hiddenFr.after.objs, o'.initId = 1 ∧ o'.lastDet = 12 ∧ o'.id = some 2 ∧ o'.isInit = false := by
  obtain ⟨act, hact⟩ := (succeeds_of (fr := ⟨some [0, 1, 2], 1, none, lineW, hiddenW1,
    (update hiddenCfg lineW (some [0, 1, 2]) 1 none).2⟩) (by decide +kernel))
  obtain ⟨o, ho, o1, o2, o3, o4⟩ : ∃ o ∈ hiddenW1.objs, o.initId = 1 ∧ o.label = 0 ∧ o.lastDet = 0 ∧ o.dimPoints = 1 := by
    decide +kernel
  obtain ⟨q, hq, q1, q2, q3, q4⟩ : ∃ o ∈ hiddenW3.objs, o.initId = 1 ∧ o.isInit = false ∧ o.hitCounter = 3 ∧
    o.id = some 2 := by decide +kernel
  have h := C111_through (cfg := hiddenCfg) (g := lineDist) rfl rfl rfl (okfDrift_laws okfDefaults_valid)
    (okfNoise_valid (pr := okfDefaults) (by decide +kernel) (by decide +kernel) (by decide +kernel)
      (by decide +kernel) (by decide +kernel))
    (okf_kalman okfDefaults_valid) hidden_gauge (e := 26) (W := 1 / 10) (by norm_num)
    (w0 := lineW) (w' := hiddenW5) ⟨rfl, rfl, rfl⟩ (.refl _) (Prod.ext rfl hact)
    (hidden_callOk (by decide +kernel)) ho (by rw [o1]; decide +kernel)
    (T := lineTargets 0) (margin_zero okfNoise_default) (line_steady _ _ _) (by rw [o2]; rfl) (by rw [o3]; exact hidden_measured (y := 1 / 10) (by decide +kernel))
    (fs := hiddenFs) (gs := hiddenGs) (fr := hiddenFr) (w2 := hiddenW3)
    (.call _ _ _ (.call _ _ _ (.nil _))) (.call _ _ _ (.call _ _ _ (.nil _)))
    (by
      intro k f hf
      rw [o1]
      match k with
      | 0 =>
        cases hf
        refine ⟨succeeds_of (by decide +kernel), hidden_callOk (by decide +kernel), by unfold Matched; decide +kernel, ?_⟩
        intro p hp hpk
        have : ∀ p ∈ hiddenW2.objs, p.initId = 1 → p.lastDet = 3 := by decide +kernel
        rw [this p hp hpk]
        exact hidden_measured (y := 2 - 1 / 10) (by decide +kernel)
      | 1 =>
        cases hf
        refine ⟨succeeds_of (by decide +kernel), hidden_callOk (by decide +kernel), by unfold Matched; decide +kernel, ?_⟩
        intro p hp hpk
        have : ∀ p ∈ hiddenW3.objs, p.initId = 1 → p.lastDet = 6 := by decide +kernel
        rw [this p hp hpk]
        exact hidden_measured (y := 4 + 1 / 10) (by decide +kernel)
      | k + 2 => simp [hiddenFs] at hf)
    (by
      intro f hf
      rw [o1]
      rw [List.mem_singleton.mp hf]
      exact ⟨succeeds_of (by decide +kernel), hidden_callOk (by decide +kernel), by unfold Missed; decide +kernel⟩)
    (fun c _ x hx => hidden_error c x hx) (by norm_num [hiddenGs])
    (moving := False) (by
      intro f hf
      rcases List.mem_append.mp hf with hf | hf
      · rw [List.mem_singleton.mp hf]; exact id
      · rw [List.mem_singleton.mp hf]; exact id)
    (fun _ => by
      have : ∀ q ∈ hiddenW3.objs, q.absToRel.isNone = true := by decide +kernel
      exact fun q hq => Option.isNone_iff_eq_none.mp (this q hq))
    hq (q1.trans o1.symm) q2 (by rw [q3]; decide) (succeeds_of (by decide +kernel)) (r := 12) (by decide)
    (line_shows (y := 8 + 1 / 10) (by decide +kernel)) (by rw [o1]; exact hidden_alone)
  rw [o1, q4] at h
  exact h

theorem hidden_reaches : Reaches hiddenCfg (fun _ _ => True)
    (fun dets _ ct w => CallOk (fun _ => (1, 1)) (dets.getD []) ct w.heap) lineW hiddenW3 :=
  .call (some [7, 8, 6]) 1 none (.call (some [5, 3, 4]) 1 none (.call (some [0, 1, 2]) 1 none (.refl _)
    (hidden_callOk (by decide +kernel))) (hidden_callOk (by decide +kernel))) (hidden_callOk (by decide +kernel))

theorem hidden_missed : ∀ f ∈ hiddenGs, Succeeds f ∧ CallOk (fun _ => (1, 1)) (given f) f.ct f.before.heap ∧
    Missed 1 f := by
  intro f hf
  rw [List.mem_singleton.mp hf]
  exact ⟨succeeds_of (by decide +kernel), hidden_callOk (by decide +kernel), by unfold Missed; decide +kernel⟩

/-- C111: the hidden object moves by its velocity -/
example {o o' : Obj ℚ Nat (WithTop ℚ) (OKF ℚ)} (ho : o ∈ hiddenW3.objs) (h1 : o.initId = 1)
    (ho' : o' ∈ hiddenW4.objs) (h1' : o'.initId = 1) :
    ∃ x v, (o.positions hiddenCfg.flt).data[0]? = some x ∧ 0 < v ∧
      (o'.positions hiddenCfg.flt).data[0]? = some (x + v) := by
  have hall : ∀ o ∈ hiddenW3.objs, o.initId = 1 → o.dimPoints = 1 ∧ o.numPoints = 1 ∧
      ((o.positions hiddenCfg.flt).data[0]?).isSome = true ∧
      ((o.velocity hiddenCfg.flt).data[0]?).any (fun v => decide (0 < v)) = true := by decide +kernel
  obtain ⟨a1, a2, a3, a4⟩ := hall o ho h1
  obtain ⟨x, hx⟩ := Option.isSome_iff_exists.mp a3
  obtain ⟨v, hv, hpos⟩ : ∃ v, (o.velocity hiddenCfg.flt).data[0]? = some v ∧ 0 < v := by
    cases hv : (o.velocity hiddenCfg.flt).data[0]? with
    | none => rw [hv] at a4; cases a4
    | some v => rw [hv] at a4; exact ⟨v, rfl, of_decide_eq_true a4⟩
  refine ⟨x, v, hx, hpos, ?_⟩
  have := C111_coasts (cfg := hiddenCfg) (okfDrift_laws okfDefaults_valid) (okf_kalman okfDefaults_valid) rfl
    (fun _ _ _ => rfl) (w0 := lineW) ⟨rfl, rfl, rfl⟩ hidden_reaches (gs := hiddenGs)
    (.call _ _ _ (.nil _)) ho (by rw [h1]; exact hidden_missed) ho' (h1'.trans h1.symm) (c := 0)
    (by rw [a1, a2]; decide) hx hv
  simpa [hiddenGs] using this.1

/-- C111: the position estimated in the hidden frame, the target is at 6 -/
example (o' : Obj ℚ Nat (WithTop ℚ) (OKF ℚ)) (ho' : o' ∈ hiddenW4.objs) (h1' : o'.initId = 1) :
    ∃ x v, (o'.positions hiddenCfg.flt).data[0 * o'.dimPoints + 0]? = some x ∧
      (o'.velocity hiddenCfg.flt).data[0 * o'.dimPoints + 0]? = some v ∧
      (x - 6) ^ 2 ≤ 2 * ((okfNoise okfDefaults).posVar + (okfNoise okfDefaults).velVar) *
        (okfNoise okfDefaults).bound (1 / 10) (1 / 10) (-2) 2 ∧
      (v - 2) ^ 2 ≤ (okfNoise okfDefaults).velVar * (okfNoise okfDefaults).bound (1 / 10) (1 / 10) (-2) 2 := by
  obtain ⟨act, hact⟩ := (succeeds_of (fr := ⟨some [0, 1, 2], 1, none, lineW, hiddenW1,
    (update hiddenCfg lineW (some [0, 1, 2]) 1 none).2⟩) (by decide +kernel))
  obtain ⟨o, ho, o1, o2, o3, o4⟩ : ∃ o ∈ hiddenW1.objs, o.initId = 1 ∧ o.numPoints = 1 ∧ o.lastDet = 0 ∧ o.dimPoints = 1 := by
    decide +kernel
  have hseen : ∀ (d : Det ℚ Nat Unit), d.scores = none → Seen hiddenCfg.detThr d 0 := by
    intro d hd s hs; rw [hd] at hs; cases hs
  have h := C111_hidden (cfg := hiddenCfg) (okfDrift_laws okfDefaults_valid)
    (okfNoise_valid (pr := okfDefaults) (by decide +kernel) (by decide +kernel) (by decide +kernel)
      (by decide +kernel) (by decide +kernel))
    (okf_kalman okfDefaults_valid) rfl (shape := fun _ => (1, 1)) (fun _ _ _ => rfl) (w0 := lineW)
    ⟨rfl, rfl, rfl⟩ (.refl _) (Prod.ext rfl hact) (hidden_callOk (by decide +kernel)) ho
    (by rw [o1]; decide +kernel) (pt := 0) (j := 0) (by rw [o2]; decide) (by rw [o4]; decide) (z := 1 / 10)
    (hseen _ (by rw [o3]; decide +kernel)) (by rw [o3, o4]; decide +kernel) (t := 0) (u := 2) (W := 1 / 10)
    (fs := hiddenFs) (gs := hiddenGs) (w2 := hiddenW3) (.call _ _ _ (.call _ _ _ (.nil _))) (.call _ _ _ (.nil _))
    (by
      intro k f hf
      rw [o1]
      match k with
      | 0 =>
        cases hf
        refine ⟨succeeds_of (by decide +kernel), hidden_callOk (by decide +kernel), by unfold Matched; decide +kernel, ?_⟩
        intro p hp hpk
        have : ∀ p ∈ hiddenW2.objs, p.initId = 1 → p.lastDet = 3 ∧ p.dimPoints = 1 := by decide +kernel
        simp only
        rw [(this p hp hpk).1, (this p hp hpk).2]
        exact ⟨hseen _ (by decide +kernel), 2 - 1 / 10, by decide +kernel, by decide +kernel⟩
      | 1 =>
        cases hf
        refine ⟨succeeds_of (by decide +kernel), hidden_callOk (by decide +kernel), by unfold Matched; decide +kernel, ?_⟩
        intro p hp hpk
        have : ∀ p ∈ hiddenW3.objs, p.initId = 1 → p.lastDet = 6 ∧ p.dimPoints = 1 := by decide +kernel
        simp only
        rw [(this p hp hpk).1, (this p hp hpk).2]
        exact ⟨hseen _ (by decide +kernel), 4 + 1 / 10, by decide +kernel, by decide +kernel⟩
      | k + 2 => simp [hiddenFs] at hf)
    (by rw [o1]; exact hidden_missed) ho' (h1'.trans o1.symm)
  simpa [hiddenFs, hiddenGs, show ((2 : ℚ) + 1) * 2 = 6 by norm_num, show (1 : ℚ) + 1 = 2 by norm_num] using h

/-- C111: vanishing errors, default filter: a point that starts at 0, moves by 2 per frame, and is then hidden for up to
15 frames -/
example := C111_vanishes (cfg := okfCfg) (okfDrift_laws okfDefaults_valid)
  (okfNoise_valid (pr := okfDefaults) (by decide +kernel) (by decide +kernel) (by decide +kernel)
    (by decide +kernel) (by decide +kernel))
  (okf_kalman okfDefaults_valid) rfl (shape := fun _ => (1, 1)) (fun _ _ _ => rfl) 0 0 2 15
  (show (0 : ℚ) < 1 / 10 by norm_num)

end Norfair.Props
