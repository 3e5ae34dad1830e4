import Verif.Props.Targets
import Verif.Props.PointDistances
import Verif.Props.Succeeds
import Verif.Props.CameraMotion

/-! C88 for the distances of norfair, without assuming that calls succeed; an example with three targets. -/

set_option linter.unusedSectionVars false

namespace Norfair.Props

open Norfair Norfair.Spec Finset Norfair.Toy

variable {K L D F X : Type}

/-! ### Distances that tell near from far -/

/-- the difference of arrays of equal shape -/
theorem sub_same {p q : Pts ℝ} (hn : p.n = q.n) (hd : p.dim = q.dim) :
    ∃ x, p.mat.sub q.mat = some x ∧ x.rows = p.n ∧ x.cols = p.dim ∧ ∀ i < p.n, ∀ j < p.dim,
      x.val i j = (p.data[i * p.dim + j]?).getD 0 - (q.data[i * p.dim + j]?).getD 0 := by
  have hb : ∀ n, bdim n n = some n := fun n => by simp [bdim]
  unfold Mat.sub Pts.mat
  simp only [← hn, ← hd, hb]
  refine ⟨_, rfl, rfl, rfl, fun i hi j hj => ?_⟩
  have h1 : bidx p.n i = i := by unfold bidx; split <;> omega
  have h2 : bidx p.dim j = j := by unfold bidx; split <;> omega
  simp only [h1, h2]

/-- for points of equal shape: what near and far coordinates mean for the entries of the difference -/
theorem sub_shape {s : Nat × Nat} {p q : Pts ℝ} (hp : HasShape s p) (hq : HasShape s q) :
    ∃ x, p.mat.sub q.mat = some x ∧ x.rows = s.1 ∧ x.cols = s.2 ∧
      (∀ near, (∀ (c : Nat) (a b : ℝ), p.data[c]? = some a → q.data[c]? = some b → |a - b| ≤ near) →
        ∀ i < s.1, ∀ j < s.2, |x.val i j| ≤ near) ∧
      ∀ far (c : Nat) (a b : ℝ), p.data[c]? = some a → q.data[c]? = some b → far ≤ |a - b| →
        ∃ i < s.1, ∃ j < s.2, far ≤ |x.val i j| := by
  obtain ⟨hp1, hp2, hp3⟩ := hp
  obtain ⟨hq1, hq2, hq3⟩ := hq
  obtain ⟨x, h1, h2, h3, h4⟩ := sub_same (hp1.trans hq1.symm) (hp2.trans hq2.symm)
  rw [hp1] at h2 h4
  rw [hp2] at h3 h4
  refine ⟨x, h1, h2, h3, fun near hne i hi j hj => ?_, fun far c a b ha hb hfar => ?_⟩
  · have hlt : i * s.2 + j < s.2 * s.1 := flat_lt hi hj
    rw [h4 i hi j hj, List.getElem?_eq_getElem (by rw [hp3]; exact hlt), List.getElem?_eq_getElem (by rw [hq3]; exact hlt)]
    exact hne _ _ _ (List.getElem?_eq_getElem (by rw [hp3]; exact hlt)) (List.getElem?_eq_getElem (by rw [hq3]; exact hlt))
  · have hc := (List.getElem?_eq_some_iff.mp ha).1
    rw [hp3] at hc
    obtain ⟨i, hi, j, hj, rfl⟩ := split_index hc
    refine ⟨i, hi, j, hj, ?_⟩
    rw [h4 i hi j hj, ha, hb]
    exact hfar

theorem coe_lt_coe_of {x t : ℝ} {y : WithTop ℝ} (h : (some (some x) : Option (Option ℝ)).map
    (·.map fun x : ℝ => (x : WithTop ℝ)) = some (some y)) (hx : x < t) : y < (t : WithTop ℝ) := by
  simp only [Option.map_some, Option.some.injEq] at h
  rw [← h]
  exact WithTop.coe_lt_coe.mpr hx

theorem coe_le_coe_of {x t : ℝ} {y : WithTop ℝ} (h : (some (some x) : Option (Option ℝ)).map
    (·.map fun x : ℝ => (x : WithTop ℝ)) = some (some y)) (hx : t ≤ x) : (t : WithTop ℝ) ≤ y := by
  simp only [Option.map_some, Option.some.injEq] at h
  rw [← h]
  exact WithTop.coe_le_coe.mpr hx

/-- `frobenius`: coordinates that differ by at most `near` are near if `near` is less than the threshold divided
by the root of the number of coordinates, one that differs by at least the threshold is far -/
theorem C88_frobenius (flt : FilterOps ℝ F) (shape : L → Nat × Nat) {t near : ℝ} (ht : 0 < t)
    (hnear : ∀ a, ((shape a).1 * (shape a).2 : ℝ) * near ^ 2 < t ^ 2) :
    ∃ g, (ptsDistance flt frobenius : DistFn ℝ L (WithTop ℝ) F X) = .scalar g ∧
      Gauge flt shape g (t : WithTop ℝ) near t := by
  refine ⟨_, rfl, ?_, ?_⟩
  · intro d v y _ hp hq hy hne
    obtain ⟨x, hx, hr, hc, h1, _⟩ := sub_shape hp hq
    unfold frobenius at hy
    rw [hx] at hy
    refine coe_lt_coe_of hy ?_
    rw [Real.sqrt_lt' ht, hr, hc]
    refine lt_of_le_of_lt ?_ (hnear d.label)
    calc ∑ i ∈ range (shape d.label).1, ∑ j ∈ range (shape d.label).2, x.val i j ^ 2
        ≤ ∑ i ∈ range (shape d.label).1, ∑ j ∈ range (shape d.label).2, near ^ 2 := by
          refine sum_le_sum fun i hi => sum_le_sum fun j hj => ?_
          have := h1 near hne i (mem_range.mp hi) j (mem_range.mp hj)
          rw [← sq_abs]
          exact pow_le_pow_left₀ (abs_nonneg _) this 2
      _ = _ := by simp [mul_assoc]
  · intro d v y _ hp hq hy c a b ha hb hfar
    obtain ⟨x, hx, hr, hc, _, h2⟩ := sub_shape hp hq
    obtain ⟨i, hi, j, hj, hij⟩ := h2 t c a b ha hb hfar
    unfold frobenius at hy
    rw [hx] at hy
    refine coe_le_coe_of hy ?_
    apply Real.le_sqrt_of_sq_le
    rw [hr, hc]
    calc t ^ 2 ≤ |x.val i j| ^ 2 := pow_le_pow_left₀ ht.le hij 2
      _ = x.val i j ^ 2 := sq_abs _
      _ ≤ ∑ j ∈ range (shape d.label).2, x.val i j ^ 2 :=
        single_le_sum (f := fun j => x.val i j ^ 2) (fun _ _ => sq_nonneg _) (mem_range.mpr hj)
      _ ≤ _ := single_le_sum (f := fun i => ∑ j ∈ range (shape d.label).2, x.val i j ^ 2)
        (fun _ _ => sum_nonneg fun _ _ => sq_nonneg _) (mem_range.mpr hi)

/-- a mean of values that are at most `b`, and one of which is at least `n * t` -/
theorem meanOf_bounds {n : Nat} {v : Nat → ℝ} {y : WithTop ℝ}
    (h : (some (meanOf n v)).map (·.map fun x : ℝ => (x : WithTop ℝ)) = some (some y)) :
    (∀ b t, (∀ i < n, v i ≤ b) → b < t → y < (t : WithTop ℝ)) ∧
    ∀ t, (∀ i < n, 0 ≤ v i) → (∃ i < n, n * t ≤ v i) → (t : WithTop ℝ) ≤ y := by
  unfold meanOf at h
  split at h
  · simp at h
  · rename_i hn
    have hpos : (0 : ℝ) < n := by exact_mod_cast Nat.pos_of_ne_zero hn
    constructor
    · intro b t hb hbt
      refine coe_lt_coe_of h (lt_of_le_of_lt ?_ hbt)
      rw [div_le_iff₀ hpos]
      calc ∑ i ∈ range n, v i ≤ ∑ i ∈ range n, b := sum_le_sum fun i hi => hb i (mem_range.mp hi)
        _ = b * n := by simp [mul_comm]
    · rintro t h0 ⟨i, hi, hit⟩
      refine coe_le_coe_of h ?_
      rw [le_div_iff₀ hpos, mul_comm]
      exact hit.trans (single_le_sum (f := v) (fun i hi => h0 i (mem_range.mp hi)) (mem_range.mpr hi))

/-- `mean_manhattan` -/
theorem C88_mean_manhattan (flt : FilterOps ℝ F) (shape : L → Nat × Nat) {t near far : ℝ}
    (hnear : ∀ a, ((shape a).2 : ℝ) * near < t) (hfar : ∀ a, ((shape a).1 : ℝ) * t ≤ far) :
    ∃ g, (ptsDistance flt meanManhattan : DistFn ℝ L (WithTop ℝ) F X) = .scalar g ∧
      Gauge flt shape g (t : WithTop ℝ) near far := by
  refine ⟨_, rfl, ?_, ?_⟩
  · intro d v y _ hp hq hy hne
    obtain ⟨x, hx, hr, hc, h1, _⟩ := sub_shape hp hq
    unfold meanManhattan at hy
    rw [hx, Option.map_some] at hy
    refine (meanOf_bounds hy).1 _ t (fun i hi => ?_) (hnear d.label)
    rw [hr] at hi
    unfold Mat.rowNorm1
    rw [hc]
    calc ∑ j ∈ range (shape d.label).2, |x.val i j| ≤ ∑ j ∈ range (shape d.label).2, near :=
          sum_le_sum fun j hj => h1 near hne i hi j (mem_range.mp hj)
      _ = _ := by simp
  · intro d v y _ hp hq hy c a b ha hb hf
    obtain ⟨x, hx, hr, hc, _, h2⟩ := sub_shape hp hq
    obtain ⟨i, hi, j, hj, hij⟩ := h2 far c a b ha hb hf
    unfold meanManhattan at hy
    rw [hx, Option.map_some] at hy
    refine (meanOf_bounds hy).2 t (fun i _ => sum_nonneg fun _ _ => abs_nonneg _) ⟨i, by rw [hr]; exact hi, ?_⟩
    rw [hr]
    unfold Mat.rowNorm1
    rw [hc]
    exact ((hfar d.label).trans hij).trans
      (single_le_sum (f := fun j => |x.val i j|) (fun _ _ => abs_nonneg _) (mem_range.mpr hj))

/-- `mean_euclidean` -/
theorem C88_mean_euclidean (flt : FilterOps ℝ F) (shape : L → Nat × Nat) {t near far : ℝ} (ht : 0 < t)
    (hnear : ∀ a, ((shape a).2 : ℝ) * near ^ 2 < t ^ 2) (hfar : ∀ a, ((shape a).1 : ℝ) * t ≤ far) :
    ∃ g, (ptsDistance flt meanEuclidean : DistFn ℝ L (WithTop ℝ) F X) = .scalar g ∧
      Gauge flt shape g (t : WithTop ℝ) near far := by
  refine ⟨_, rfl, ?_, ?_⟩
  · intro d v y _ hp hq hy hne
    obtain ⟨x, hx, hr, hc, h1, _⟩ := sub_shape hp hq
    unfold meanEuclidean at hy
    rw [hx, Option.map_some] at hy
    refine (meanOf_bounds hy).1 (√((shape d.label).2 * near ^ 2)) t (fun i hi => ?_) ?_
    · rw [hr] at hi
      unfold Mat.rowNorm
      rw [hc]
      apply Real.sqrt_le_sqrt
      calc ∑ j ∈ range (shape d.label).2, x.val i j ^ 2 ≤ ∑ j ∈ range (shape d.label).2, near ^ 2 := by
            refine sum_le_sum fun j hj => ?_
            have := h1 near hne i hi j (mem_range.mp hj)
            rw [← sq_abs]
            exact pow_le_pow_left₀ (abs_nonneg _) this 2
        _ = _ := by simp
    · rw [Real.sqrt_lt' ht]
      exact hnear d.label
  · intro d v y _ hp hq hy c a b ha hb hf
    obtain ⟨x, hx, hr, hc, _, h2⟩ := sub_shape hp hq
    obtain ⟨i, hi, j, hj, hij⟩ := h2 far c a b ha hb hf
    unfold meanEuclidean at hy
    rw [hx, Option.map_some] at hy
    refine (meanOf_bounds hy).2 t (fun i _ => Real.sqrt_nonneg _) ⟨i, by rw [hr]; exact hi, ?_⟩
    rw [hr]
    unfold Mat.rowNorm
    rw [hc]
    refine ((hfar d.label).trans hij).trans ?_
    rw [← Real.sqrt_sq_eq_abs]
    exact Real.sqrt_le_sqrt (single_le_sum (f := fun j => x.val i j ^ 2) (fun _ _ => sq_nonneg _) (mem_range.mpr hj))

/-! ### Translations -/

/-- the transformations of a camera that only translates are rigid -/
theorem rigid_translation [Field K] [LinearOrder K] (shape : L → Nat × Nat) (v : List K) :
    Rigid shape (translation v) where
  toAbs := by
    rintro a p ⟨h1, h2, h3⟩
    exact ⟨h1, h2, by simpa [translation] using h3⟩
  toRel := by
    rintro a p ⟨h1, h2, h3⟩
    exact ⟨h1, h2, by simpa [translation] using h3⟩
  diff := by
    rintro a p q ⟨_, h2, _⟩ ⟨_, k2, _⟩ i x x' y y' hx hx' hy' hy
    simp only [translation, List.getElem?_mapIdx, hx, hy', Option.map_some, Option.some.injEq, h2, k2] at hx' hy
    rw [← hx', ← hy]
    ring

/-! ### Calls that succeed -/

section
variable [LinearOrder K] [Zero K] [LinearOrder D] [OrderTop D] [Zero D] [DecidableEq L]

/-- the calls up to the `k`-th -/
theorem _root_.Norfair.Trace.take {cfg : Cfg K L D F X} {w w' : World K L D F X} {fs : List (Frame K L D F X)}
    (ht : Trace cfg w fs w') {k : Nat} {f : Frame K L D F X} (hk : fs[k]? = some f) :
    Trace cfg w (fs.take (k + 1)) f.after := by
  induction ht with
  | nil => simp at hk
  | env heap g _ he ih => exact ih hk
  | @call fs w2 dets period ct ht ih =>
    rcases Nat.lt_or_ge k fs.length with hlt | hge
    · rw [List.getElem?_append_left hlt] at hk
      rw [List.take_append_of_le_length (by omega)]
      exact ih hk
    · rw [List.getElem?_append_right hge] at hk
      obtain ⟨h1, h2⟩ := List.getElem?_eq_some_iff.mp hk
      simp only [List.length_singleton, Nat.lt_one_iff] at h1
      simp only [h1, List.getElem_cons_zero] at h2
      rw [← h2, List.take_of_length_le (by simp; omega)]
      exact .call _ _ _ ht

/-- the first call, and the others -/
theorem _root_.Norfair.Trace.first {cfg : Cfg K L D F X} {w w' : World K L D F X} {f : Frame K L D F X}
    {fs : List (Frame K L D F X)} (ht : Trace cfg w (f :: fs) w') :
    Trace cfg w [] f.before ∧ f.after = (update cfg f.before f.dets f.period f.ct).1 ∧
    f.out = (update cfg f.before f.dets f.period f.ct).2 ∧ Trace cfg f.after fs w' := by
  generalize hl : f :: fs = l at ht
  induction ht generalizing fs with
  | nil => cases hl
  | env heap g _ he ih =>
    obtain ⟨a, b, c, d⟩ := ih hl
    exact ⟨a, b, c, .env heap g d he⟩
  | @call fs' w2 dets period ct ht ih =>
    cases fs' with
    | nil =>
      simp only [List.nil_append, List.cons.injEq] at hl
      obtain ⟨rfl, rfl⟩ := hl
      exact ⟨ht, rfl, rfl, .nil _⟩
    | cons f' fs' =>
      simp only [List.cons_append, List.cons.injEq] at hl
      obtain ⟨rfl, rfl⟩ := hl
      obtain ⟨a, b, c, d⟩ := ih rfl
      exact ⟨a, b, c, .call _ _ _ d⟩

/-- without calls the tracker does not change -/
theorem _root_.Norfair.Trace.still {cfg : Cfg K L D F X} {w w' : World K L D F X} (ht : Trace cfg w [] w') :
    w'.objs = w.objs := by
  generalize hl : ([] : List (Frame K L D F X)) = l at ht
  induction ht with
  | nil => rfl
  | env heap g _ he ih => exact ih hl
  | call => simp at hl

end

section
variable [Field K] [LinearOrder K] [IsStrictOrderedRing K] [LinearOrder D] [OrderTop D] [Zero D]
  [DecidableEq L] {ι : Type}

theorem showsAll_callShaped {thr : K} {shape : L → Nat × Nat} {W : K} {moving : Prop} {tgt : ι → Target K L}
    {who : Ref → ι} {k : Nat} {f : Frame K L D F X} (h : ShowsAll thr shape W moving tgt who k f) :
    CallShaped shape (given f) f.ct f.before.heap where
  ok := showsAll_callOk h
  keeps := by
    intro c hc
    have := h.camera
    rw [hc] at this
    exact fun a p hp => ⟨this.2.toAbs a p hp, this.2.toRel a p hp⟩
  points := by
    intro r hr
    have hS := h.shown r hr
    rw [hS.label]
    exact hS.points

/-- **C88** with a distance that is defined for all detections and objects of the agreed shapes: no call raises,
and the targets are never confused. -/
theorem C88_never_confused [Nonempty ι] {cfg : Cfg K L D F X} {g} (hf : cfg.dist = .scalar g) (hre : cfg.reid = none)
    (hmax : cfg.reidMax = none) (hcm : 0 ≤ cfg.hitCounterMax) (hfill : cfg.thr ≤ cfg.fill)
    {Ok : F → Prop} (hL : FilterLaws cfg.flt Ok) {n : Noise K} (hn : n.Valid) {view : F → Nat → KF2 K}
    (hK : KalmanLaws cfg.flt Ok n view) {shape : L → Nat × Nat} (hd : ShapedDist cfg.flt shape cfg.dist)
    {tgt : ι → Target K L} {η A W e near far : K} (hA : TargetsApart cfg g n shape tgt η A W e near far) {who : Ref → ι}
    {moving : Prop} {w w' : World K L D F X} (h0 : w.Initial) {fs : List (Frame K L D F X)}
    (ht : Trace cfg w fs w') (hlen : fs ≠ [])
    (hfs : ∀ k f, fs[k]? = some f → ShowsAll cfg.detThr shape W moving tgt who k f) :
    ∃ num : ι → Nat, num.Injective ∧ ∀ k f, fs[k]? = some f → Succeeds f ∧
      (∀ i, ∃ o ∈ f.after.objs, o.initId = num i) ∧
      ∀ o ∈ f.after.objs, ∃ i, o.initId = num i ∧ o.lastDet ∈ given f ∧ who o.lastDet = i ∧
        o.label = (tgt i).label ∧ ∀ c < o.dimPoints * o.numPoints,
          ∃ x, (o.positions cfg.flt).data[c]? = some x ∧ |x - (tgt i).at k c| ≤ e := by
  have hs : ∀ a b, Compat cfg a b → shape a = shape b := by
    intro a b hab
    unfold Compat at hab
    rw [hf] at hab
    exact congrArg shape hab
  have hne : ∀ (k : Nat) (f : Frame K L D F X), fs[k]? = some f → f.ct = none ∨ f.dets ≠ none := by
    intro k f hk
    refine Or.inr fun e => ?_
    obtain ⟨i⟩ := ‹Nonempty ι›
    obtain ⟨r, hr, _⟩ := (hfs k f hk).every i
    unfold given at hr
    rw [e] at hr
    cases hr
  have hsucc : ∀ f ∈ fs, Succeeds f := (C67_trace hL hs hd hre hfill h0 ht fun f hf' => by
    obtain ⟨k, hk⟩ := List.mem_iff_getElem?.mp hf'
    exact ⟨showsAll_callShaped (hfs k f hk), hne k f hk⟩).1
  cases fs with
  | nil => exact absurd rfl hlen
  | cons f0 fs =>
    obtain ⟨t1, t2, t3, t4⟩ := ht.first
    obtain ⟨act, hact⟩ := hsucc f0 (List.mem_cons_self ..)
    have hup : update cfg f0.before f0.dets f0.period f0.ct = (f0.after, .ok act) := by
      rw [t2]; exact Prod.ext rfl (t3.symm.trans hact)
    have hr0 := (C67_trace hL hs hd hre hfill h0 t1 (by simp)).2.mono (fun _ _ h => h) fun _ _ _ _ h => h.ok
    have hempty : f0.before.objs = [] := t1.still.trans h0.1
    have hfirst : ShowsAll cfg.detThr shape W moving tgt who 0
        (⟨f0.dets, f0.period, f0.ct, f0.before, f0.after, .ok act⟩ : Frame K L D F X) := by
      rw [← hact]; exact hfs 0 f0 rfl
    have key := fun {gs v} (hgs : Trace cfg f0.after gs v) (hsub : ∀ k f, gs[k]? = some f → fs[k]? = some f) =>
      C88_targets hf hre hmax hcm hL hn hK hA h0 hr0 hempty hup hfirst hgs fun k f hk =>
        ⟨hsucc f (List.mem_cons_of_mem _ (List.mem_of_getElem? (hsub k f hk))), hfs (k + 1) f (hsub k f hk)⟩
    obtain ⟨k1, -, k3, -⟩ := key t4 (fun _ _ h => h)
    have hpair : ∀ i, ∃ o ∈ f0.after.objs, who o.lastDet = i := by
      intro i
      obtain ⟨r, hr, e⟩ := hfirst.every i
      have hr' : r ∈ f0.after.objs.map (·.lastDet) := by rw [k1]; exact hr
      obtain ⟨o, ho, rfl⟩ := List.mem_map.mp hr'
      exact ⟨o, ho, e⟩
    choose ob hob hwho using hpair
    have hW0 : Reachable cfg f0.before := ⟨w, h0, t1.reaches⟩
    have hI : Inv f0.after := by rw [t2]; exact (update_inv hW0.inv _ _ _).1
    have hback : ∀ {v : World K L D F X}, roster who v = roster who f0.after →
        (∀ i, ∃ o ∈ v.objs, o.initId = (ob i).initId) ∧
        ∀ o ∈ v.objs, o.initId = (ob (who o.lastDet)).initId := by
      intro v hv
      constructor
      · intro i
        have : ((ob i).initId, who (ob i).lastDet) ∈ roster who v := by rw [hv]; exact List.mem_map_of_mem (hob i)
        obtain ⟨o, ho, e⟩ := List.mem_map.mp this
        exact ⟨o, ho, (Prod.mk.inj e).1⟩
      · intro o ho
        have : (o.initId, who o.lastDet) ∈ roster who f0.after := by rw [← hv]; exact List.mem_map_of_mem ho
        obtain ⟨p, hp, e⟩ := List.mem_map.mp this
        obtain ⟨e1, e2⟩ := Prod.mk.inj e
        have hnd : (f0.after.objs.map fun o => who o.lastDet).Nodup := by
          have : (f0.after.objs.map fun o => who o.lastDet) = (f0.dets.getD []).map who := by
            rw [← k1, List.map_map]; rfl
          rw [this]
          exact List.Nodup.map_on (fun a ha b hb => hfirst.once a ha b hb) hfirst.nodup
        have : p = ob (who o.lastDet) := List.inj_on_of_nodup_map hnd hp (hob _) (e2.trans (hwho _).symm)
        rw [← e1, this]
    refine ⟨fun i => (ob i).initId, fun i j e => ?_, fun k f hk => ⟨hsucc f (List.mem_of_getElem? hk), ?_⟩⟩
    · have : ob i = ob j := World.eq_of_mem_of_key hI.nodup (hob i) (hob j) e
      rw [← hwho i, this, hwho j]
    · have htk := ht.take hk
      rw [List.take_succ_cons] at htk
      obtain ⟨-, -, -, t4'⟩ := htk.first
      obtain ⟨-, q2, q3, q4⟩ := key t4' fun k' f' hk' => by
        rw [List.getElem?_take] at hk'
        split at hk'
        · exact hk'
        · cases hk'
      obtain ⟨b1, b2⟩ := hback q2
      refine ⟨b1, fun o ho => ⟨who o.lastDet, b2 o ho, ?_, rfl, (q4 o ho).1, fun c hc => ?_⟩⟩
      · cases k with
        | zero =>
          cases hk
          rw [show given f0 = f0.dets.getD [] from rfl, ← k1]
          exact List.mem_map_of_mem ho
        | succ k => exact (k3 f (List.mem_of_getElem? hk)).2 o ho
      · have hlen : (fs.take k).length = k := by
          have := (List.getElem?_eq_some_iff.mp hk).1
          rw [List.length_cons] at this
          rw [List.length_take]
          omega
        obtain ⟨x, x1, x2⟩ := (q4 o ho).2 c hc
        rw [hlen] at x2
        exact ⟨x, x1, x2⟩

end

/-! ### Example: three targets on a line -/

/-- two targets with label 0, at 0 and 100, and one with label 1, at 0; their velocities are 2, 3 and 2 -/
def lineTargets : Fin 3 → Target ℚ Nat
  | 0 => .line 0 (fun _ => 0) (fun _ => 2)
  | 1 => .line 0 (fun _ => 100) (fun _ => 3)
  | 2 => .line 1 (fun _ => 0) (fun _ => 2)

/-- absolute difference of the first coordinates -/
def lineDist (d : Det ℚ Nat Unit) (o : ObjView ℚ Nat (WithTop ℚ) (OKF ℚ) Unit) : Option (Option (WithTop ℚ)) :=
  some (some (|d.points.data.headD 0 - (o.obj.estimate (okfOps okfDefaults)).data.headD 0| : ℚ))

/-- the default filter and the threshold 26 -/
def lineCfg : Cfg ℚ Nat (WithTop ℚ) (OKF ℚ) Unit where
  dist := .scalar lineDist
  thr := (26 : ℚ)
  fill := (27 : ℚ)
  hitCounterMax := 4
  initDelay := 1
  pwMax := 4
  detThr := 0
  flt := okfOps okfDefaults
  pastLen := 2
  reid := none
  reidThr := 0
  reidFill := 1
  reidMax := none

/-- the detection of which target -/
def lineWho (r : Ref) : Fin 3 := Fin.ofNat 3 r

/-- detections `3 k`, `3 k + 1` and `3 k + 2` show the targets in frame `k`, with errors of 1/10 in changing
directions -/
def lineHeap (r : Ref) : Det ℚ Nat Unit :=
  let x : ℚ := (lineTargets (lineWho r)).at (r / 3) 0 + (if r % 2 = 0 then 1 / 10 else -(1 / 10))
  ⟨⟨1, 1, [x]⟩, none, (lineTargets (lineWho r)).label, (), ⟨1, 1, [x]⟩, none⟩

/-- a new tracker, and its states after one, two and three calls -/
def lineW : World ℚ Nat (WithTop ℚ) (OKF ℚ) Unit := ⟨lineHeap, 0, 0, 0, []⟩
@[inherit_doc lineW] def lineW1 := (update lineCfg lineW (some [0, 1, 2]) 1 none).1
@[inherit_doc lineW] def lineW2 := (update lineCfg lineW1 (some [5, 3, 4]) 1 none).1
@[inherit_doc lineW] def lineW3 := (update lineCfg lineW2 (some [7, 8, 6]) 1 none).1

/-- the three calls -/
def lineFrames : List (Frame ℚ Nat (WithTop ℚ) (OKF ℚ) Unit) :=
  [⟨some [0, 1, 2], 1, none, lineW, lineW1, (update lineCfg lineW (some [0, 1, 2]) 1 none).2⟩,
   ⟨some [5, 3, 4], 1, none, lineW1, lineW2, (update lineCfg lineW1 (some [5, 3, 4]) 1 none).2⟩,
   ⟨some [7, 8, 6], 1, none, lineW2, lineW3, (update lineCfg lineW2 (some [7, 8, 6]) 1 none).2⟩]

theorem lineFrames_trace : Trace lineCfg lineW lineFrames lineW3 :=
  .call (some [7, 8, 6]) 1 none (.call (some [5, 3, 4]) 1 none (.call (some [0, 1, 2]) 1 none (.nil _)))

/-- a detection of a point that is off by at most 1/10 -/
theorem line_shows {T : Target ℚ Nat} {k : Nat} {d : Det ℚ Nat Unit} {y : ℚ}
    (h : d.label = T.label ∧ d.points = ⟨1, 1, [y]⟩ ∧ d.absPoints = ⟨1, 1, [y]⟩ ∧ d.scores = none ∧
      |y - T.at k 0| ≤ 1 / 10) : Shows 0 (fun _ => (1, 1)) (1 / 10) none T k d := by
  obtain ⟨h1, h2, h3, h4, h5⟩ := h
  refine ⟨h1, by rw [h2]; exact ⟨rfl, rfl, rfl⟩, h3.trans h2.symm, (by rw [h4]; intro s hs; cases hs), ?_, ?_⟩
  · intro i _ s hs; rw [h4] at hs; cases hs
  · intro c z hz
    show |z - T.at k c| ≤ 1 / 10
    simp only [placed, h2] at hz
    match c with
    | 0 => cases hz; exact h5
    | c + 1 => simp at hz

/-- constant velocities do not change -/
theorem line_steady {K L : Type} [Field K] [LinearOrder K] [IsStrictOrderedRing K] (a : L) (s v : Nat → K) (k c : Nat) :
    |(Target.line a s v).vel (k + 1) c - (Target.line a s v).vel k c| ≤ 0 := by
  have : (Target.line a s v).vel (k + 1) c - (Target.line a s v).vel k c = 0 := by
    simp only [Target.vel, Target.at, Target.line]
    push_cast
    ring
  rw [this, abs_zero]

theorem okfNoise_default : (okfNoise okfDefaults).Valid :=
  okfNoise_valid (pr := okfDefaults) (by decide +kernel) (by decide +kernel) (by decide +kernel)
    (by decide +kernel) (by decide +kernel)

/-- the targets are apart -/
theorem line_apart : TargetsApart lineCfg lineDist (okfNoise okfDefaults) (fun _ => (1, 1)) lineTargets 0 0 (1 / 10) 23 24
    26 where
  gauge := by
    constructor
    · intro d v x _ hp hq hx hne
      obtain ⟨a, ha⟩ := List.length_eq_one_iff.mp hp.2.2
      obtain ⟨b, hb⟩ := List.length_eq_one_iff.mp hq.2.2
      have := hne 0 a b (by rw [ha]; rfl) (by rw [hb]; rfl)
      change (v.obj.estimate (okfOps okfDefaults)).data = [b] at hb
      simp only [lineDist, ha, hb, Option.some.injEq] at hx
      rw [← hx]
      exact WithTop.coe_lt_coe.mpr (lt_of_le_of_lt this (by norm_num))
    · intro d v x _ hp hq hx c a b ha hb hf
      have hc : c = 0 := by
        have := (List.getElem?_eq_some_iff.mp ha).1
        rw [hp.2.2] at this
        change c < 1 at this
        omega
      subst hc
      change (v.obj.estimate (okfOps okfDefaults)).data[0]? = some b at hb
      rw [← List.head?_eq_getElem?] at ha hb
      simp only [lineDist, List.headD_eq_head?_getD, ha, hb, Option.getD_some, Option.some.injEq] at hx
      rw [← hx]
      exact WithTop.coe_le_coe.mpr hf
  steady := by
    intro i k c
    match i with
    | 0 | 1 | 2 => simp only [lineTargets]; exact line_steady _ _ _ _ _
  margin := margin_zero okfNoise_default
  nonneg := by norm_num
  error := by
    intro i c _ x hx
    have hx2 : x ^ 2 ≤ 1 / 100 := by
      rw [← sq_abs]
      nlinarith [abs_nonneg x]
    have hy : ((lineTargets i).vel 0 c) ^ 2 ≤ 9 := by
      match i with
      | 0 => norm_num [lineTargets, Target.vel, Target.line, Target.at]
      | 1 => norm_num [lineTargets, Target.vel, Target.line, Target.at]
      | 2 => norm_num [lineTargets, Target.vel, Target.line, Target.at]
    rw [boundA_zero okfNoise_default]
    have e : 2 * ((okfNoise okfDefaults).posVar + (okfNoise okfDefaults).velVar) *
        (okfNoise okfDefaults).bound (1 / 10) x (0 - (lineTargets i).vel 0 c) 0 =
        242 / 5 * (x ^ 2 / 10 + ((lineTargets i).vel 0 c) ^ 2 + 627 / 400) := by
      unfold Noise.bound Noise.start Noise.rate Noise.trace Noise.velVar Noise.posVar Noise.q okfNoise okfDefaults
      norm_num
      ring
    rw [e]
    nlinarith
  near := by norm_num
  far := by
    intro i j hij hl k _
    refine ⟨0, by norm_num, ?_⟩
    have hk : (0 : ℚ) ≤ k := Nat.cast_nonneg k
    match i, j with
    | 0, 0 => exact absurd rfl hij
    | 1, 1 => exact absurd rfl hij
    | 2, 2 => exact absurd rfl hij
    | 0, 1 =>
      simp only [Target.at, Target.line, lineTargets]
      rw [abs_sub_comm, abs_of_nonneg] <;> linarith
    | 1, 0 =>
      simp only [Target.at, Target.line, lineTargets]
      rw [abs_of_nonneg] <;> linarith
    | 0, 2 => cases hl
    | 2, 0 => cases hl
    | 1, 2 => cases hl
    | 2, 1 => cases hl

theorem line_shown (k : Nat) (f : Frame ℚ Nat (WithTop ℚ) (OKF ℚ) Unit) (hf : lineFrames[k]? = some f) :
    ShowsAll 0 (fun _ => (1, 1)) (1 / 10) False lineTargets lineWho k f := by
  match k with
  | 0 =>
    cases hf
    refine ⟨id, by decide, by decide, (by intro o ho; cases ho), by decide, by decide, ?_⟩
    intro r hr
    fin_cases hr
    · exact line_shows (y := 1 / 10) (by decide +kernel)
    · exact line_shows (y := 100 - 1 / 10) (by decide +kernel)
    · exact line_shows (y := 1 / 10) (by decide +kernel)
  | 1 =>
    cases hf
    refine ⟨id, by decide, by decide, by decide +kernel, by decide, by decide, ?_⟩
    intro r hr
    fin_cases hr
    · exact line_shows (y := 2 - 1 / 10) (by decide +kernel)
    · exact line_shows (y := 2 - 1 / 10) (by decide +kernel)
    · exact line_shows (y := 103 + 1 / 10) (by decide +kernel)
  | 2 =>
    cases hf
    refine ⟨id, by decide, by decide, by decide +kernel, by decide, by decide, ?_⟩
    intro r hr
    fin_cases hr
    · exact line_shows (y := 106 - 1 / 10) (by decide +kernel)
    · exact line_shows (y := 4 + 1 / 10) (by decide +kernel)
    · exact line_shows (y := 4 + 1 / 10) (by decide +kernel)
  | k + 3 => simp [lineFrames] at hf

/-- C88: the three calls -/
example : ∃ num : Fin 3 → Nat, num.Injective ∧ ∀ k f, lineFrames[k]? = some f → Succeeds f ∧
    (∀ i, ∃ o ∈ f.after.objs, o.initId = num i) ∧
    ∀ o ∈ f.after.objs, ∃ i, o.initId = num i ∧ o.lastDet ∈ given f ∧ lineWho o.lastDet = i ∧
      o.label = (lineTargets i).label ∧ ∀ c < o.dimPoints * o.numPoints,
        ∃ x, (o.positions lineCfg.flt).data[c]? = some x ∧ |x - (lineTargets i).at k c| ≤ 23 :=
  C88_never_confused (cfg := lineCfg) (g := lineDist) rfl rfl rfl (by decide) (by decide +kernel)
    (okfDrift_laws okfDefaults_valid)
    (okfNoise_valid (pr := okfDefaults) (by decide +kernel) (by decide +kernel) (by decide +kernel)
      (by decide +kernel) (by decide +kernel))
    (okf_kalman okfDefaults_valid) (fun d v _ _ _ => ⟨_, rfl⟩) line_apart ⟨rfl, rfl, rfl⟩ lineFrames_trace
    (by decide) line_shown

/-- what the tracker does: objects 1, 2 and 3, and the detections they have -/
example : [lineW1, lineW2, lineW3].map (fun w => w.objs.map fun o => (o.initId, o.lastDet)) =
    [[(1, 0), (2, 1), (3, 2)], [(1, 3), (2, 4), (3, 5)], [(1, 6), (2, 7), (3, 8)]] := by decide +kernel

/-- C88: distances of the points of boxes, threshold 100 -/
example : (∃ g, (ptsDistance (okfOps ⟨4, 1 / 10, 10, 0, 1⟩) frobenius : DistFn ℝ Nat (WithTop ℝ) (OKF ℝ) Unit) =
      .scalar g ∧ Gauge (okfOps ⟨4, 1 / 10, 10, 0, 1⟩) (fun _ => (2, 2)) g ((100 : ℝ) : WithTop ℝ) 49 100) ∧
    (∃ g, (ptsDistance (okfOps ⟨4, 1 / 10, 10, 0, 1⟩) meanManhattan : DistFn ℝ Nat (WithTop ℝ) (OKF ℝ) Unit) =
      .scalar g ∧ Gauge (okfOps ⟨4, 1 / 10, 10, 0, 1⟩) (fun _ => (2, 2)) g ((100 : ℝ) : WithTop ℝ) 49 200) ∧
    ∃ g, (ptsDistance (okfOps ⟨4, 1 / 10, 10, 0, 1⟩) meanEuclidean : DistFn ℝ Nat (WithTop ℝ) (OKF ℝ) Unit) =
      .scalar g ∧ Gauge (okfOps ⟨4, 1 / 10, 10, 0, 1⟩) (fun _ => (2, 2)) g ((100 : ℝ) : WithTop ℝ) 70 200 :=
  ⟨C88_frobenius _ _ (by norm_num) (fun _ => by norm_num),
    C88_mean_manhattan _ _ (fun _ => by norm_num) (fun _ => by norm_num),
    C88_mean_euclidean _ _ (by norm_num) (fun _ => by norm_num) (fun _ => by norm_num)⟩

/-- C88: objects at 1 and 51, detections at 2 and 55; each detection is below the threshold from one object -/
example : ∃ w' act, update Toy.cfg (run Toy.cfg w0 [[0], [1, 51]]) (some [2, 55]) 1 none = (w', .ok act) ∧
    ∃ B : Ref → Nat → Prop, Gated Toy.cfg Toy.dist (run Toy.cfg w0 [[0], [1, 51]]) (some [2, 55]) none B ∧
      B 2 1 ∧ B 55 2 ∧ ¬ B 2 2 ∧ ¬ B 55 1 := by
  obtain ⟨act, h⟩ := exists_ok (r := update Toy.cfg (run Toy.cfg w0 [[0], [1, 51]]) (some [2, 55]) 1 none)
    (by decide +kernel)
  refine ⟨_, act, h, fun r k => (r = 2 ∧ k = 1) ∨ (r = 55 ∧ k = 2), ?_, by decide, by decide, by decide, by decide⟩
  have hobj : ∀ o ∈ (run Toy.cfg w0 [[0], [1, 51]]).objs, o.label = 0 ∧
      ((o.initId = 1 ∧ (((o.trackerStep Toy.cfg).updateCT none).estimate noFilterOps).data = [1]) ∨
       (o.initId = 2 ∧ (((o.trackerStep Toy.cfg).updateCT none).estimate noFilterOps).data = [51])) := by
    decide +kernel
  intro hp hages r hr o ho _ x hx
  obtain ⟨o1, o2⟩ := hobj o ho
  obtain ⟨a, ha⟩ := hages r
  have hr' : r = 2 ∨ r = 55 := by simpa using hr
  have hlab : (((o.trackerStep Toy.cfg).updateCT none).view hp).obj.label = o.label := rfl
  rcases hx with ⟨_, hx⟩ | ⟨hx, _⟩
  · have hdist : ∀ (p q : Int) (l l' : List Int), (hp r).points.data = p :: l →
        (((o.trackerStep Toy.cfg).updateCT none).estimate noFilterOps).data = q :: l' →
        x = (((p - q).natAbs : Nat) : WithTop Nat) := by
      intro p q l l' e1 e2
      have e2' : ((((o.trackerStep Toy.cfg).updateCT none).view hp).obj.estimate noFilterOps).data = q :: l' := e2
      simp only [Toy.dist, e1, e2', Option.some.injEq] at hx
      exact hx.symm
    rcases hr' with rfl | rfl <;> rcases o2 with ⟨k, e⟩ | ⟨k, e⟩
    · rw [hdist 2 1 [] [] (by rw [ha]; dsimp only; decide +kernel) e, k]; decide +kernel
    · rw [hdist 2 51 [] [] (by rw [ha]; dsimp only; decide +kernel) e, k]; decide +kernel
    · rw [hdist 55 1 [] [] (by rw [ha]; dsimp only; decide +kernel) e, k]; decide +kernel
    · rw [hdist 55 51 [] [] (by rw [ha]; dsimp only; decide +kernel) e, k]; decide +kernel
  · exfalso
    apply hx
    rw [hlab, o1, ha]
    dsimp only
    rcases hr' with rfl | rfl <;> decide +kernel

/-- C88: a camera that moved by 3 along a line -/
example : CameraOk (K := ℚ) (fun _ : Nat => (1, 1)) True (some (translation [3])) :=
  ⟨trivial, rigid_translation _ _⟩

/-- C67: the three calls with the three targets -/
example : ∀ f ∈ lineFrames, Succeeds f :=
  (C67_trace (cfg := lineCfg) (okfDrift_laws okfDefaults_valid) (shape := fun _ => (1, 1)) (fun _ _ _ => rfl)
    (fun d v _ _ _ => ⟨_, rfl⟩) rfl (by decide +kernel) ⟨rfl, rfl, rfl⟩ lineFrames_trace fun f hf => by
      obtain ⟨k, hk⟩ := List.mem_iff_getElem?.mp hf
      refine ⟨showsAll_callShaped (line_shown k f hk), Or.inl ?_⟩
      have : ∀ f ∈ lineFrames, f.ct.isNone = true := by decide +kernel
      exact Option.isNone_iff_eq_none.mp (this f hf)).1

end Norfair.Props
