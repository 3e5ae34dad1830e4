import Verif.Props.Film
import Verif.Spec.Reel

/-! C106: a still scene filmed by a moving camera whose movement is not found in some frames. -/

set_option linter.unusedSectionVars false

namespace Norfair.Props

open Norfair Norfair.Spec Norfair.Toy

variable {K L D F X T : Type}

/-- a filter at rest that gets a measurement of all coordinates is at rest there -/
def JumpLaws [Zero K] (fo : FilterOps K F) (Ok : F → Prop) : Prop :=
  ∀ f c z mask, Ok f → z.length = fo.dimZ f → mask.length = fo.dimZ f → (∀ b ∈ mask, b = true) → c.length = fo.dimZ f →
    AtRest fo c f → AtRest fo z (fo.update f z mask)

theorem noFilter_jumps [Ring K] : JumpLaws (noFilterOps (K := K)) NoFilter.Ok := by
  intro f c z mask hok hz hm hb hc h
  change c.length = f.dimZ at hc
  change z.length = f.dimZ at hz
  change mask.length = f.dimZ at hm
  change f.x = c ++ List.replicate f.dimZ 0 at h
  have hok' := (noFilter_laws (K := K)).update f z mask hok hz hm
  show (f.update z (some (diagOf mask))).x = _
  have e2 : (noFilterOps (K := K)).dimZ ((noFilterOps (K := K)).update f z mask) = f.dimZ := hok'.2
  rw [e2]
  have hlen : (f.update z (some (diagOf mask))).x.length = 2 * f.dimZ := by
    have := (noFilter_laws (K := K)).len _ hok'.1
    rw [e2] at this
    exact this
  apply List.ext_getElem?
  intro k
  by_cases hk : k < f.dimZ
  · have := (C33_noFilter hok hz hm hk).1
    change (f.update z (some (diagOf mask))).x[k]? = _ at this
    have hmk : mask[k]? = some true := by
      rw [List.getElem?_eq_getElem (by omega), hb _ (List.getElem_mem _)]
    rw [this, if_pos hmk, List.getElem?_append_left (by omega)]
  · by_cases hk2 : k < 2 * f.dimZ
    · obtain ⟨j, rfl⟩ : ∃ j, k = f.dimZ + j := ⟨k - f.dimZ, by omega⟩
      have := (C33_noFilter (k := j) hok hz hm (by omega)).2
      change (f.update z (some (diagOf mask))).x[f.dimZ + j]? = _ at this
      rw [this, h, List.getElem?_append_right (by omega), List.getElem?_append_right (by omega), hc, hz]
    · rw [List.getElem?_eq_none (by omega), List.getElem?_eq_none (by simp; omega)]

section
variable [LinearOrder K] [Zero K] [LinearOrder D] [OrderTop D] [Zero D] [DecidableEq L]

/-- a hit with all points of a new position, for an object at rest -/
theorem SensorsOk.rest_jump {cfg : Cfg K L D F X} {Ok : F → Prop} (hL : FilterLaws cfg.flt Ok)
    (hJ : JumpLaws cfg.flt Ok) {d : Det K L X} {period : Int} {o o' : Obj K L D F}
    (h : SensorsOk cfg d period o o') (hok : Ok o.filter) (hseen : ∀ i < o.numPoints, Seen cfg.detThr d i)
    {c : List K} (hc : c.length = o.dimZ) (hr : AtRest cfg.flt c o.filter) :
    AtRest cfg.flt d.absPoints.data o'.filter := by
  have hzl := h.zLen.trans h.dimZ.symm
  have hml : (repeatMask o.dimPoints (overThreshold cfg.detThr o.numPoints d)).length =
      cfg.flt.dimZ o.filter := by
    rw [repeatMask_length, h.maskLen, h.dimZ]; rfl
  have hall : ∀ b ∈ repeatMask o.dimPoints (overThreshold cfg.detThr o.numPoints d), b = true := by
    intro b hb
    unfold repeatMask at hb
    obtain ⟨a, ha, hb⟩ := List.mem_flatMap.mp hb
    rw [(List.mem_replicate.mp hb).2]
    obtain ⟨i, hi, rfl⟩ := List.mem_iff_getElem.mp ha
    have := (overThreshold_get cfg.detThr o.numPoints d i (by rw [← h.maskLen]; exact hi)).mpr
      (hseen i (by rw [← h.maskLen]; exact hi))
    rw [List.getElem?_eq_getElem hi] at this
    exact Option.some.inj this
  have h1 := hJ o.filter c d.absPoints.data _ hok hzl hml hall (hc.trans h.dimZ.symm) hr
  obtain ⟨hf, hfz⟩ := hL.update o.filter d.absPoints.data _ hok hzl hml
  have hfilter := h.filter
  simp only [firstDetectionFix] at hfilter
  rw [hfilter]
  have hx : cfg.flt.getX (cfg.flt.update o.filter d.absPoints.data
      (repeatMask o.dimPoints (overThreshold cfg.detThr o.numPoints d))) =
      d.absPoints.data ++ List.replicate o.dimZ 0 := by
    rw [h1, hfz, h.dimZ]
  have hdz : Obj.dimZ { o with filter := (cfg.flt.update o.filter d.absPoints.data
      (repeatMask o.dimPoints (overThreshold cfg.detThr o.numPoints d))) } = o.dimZ := rfl
  rw [hdz, hx, List.take_left' h.zLen, List.drop_left' h.zLen, maskAssign_same, maskAssign_same]
  obtain ⟨_, g2, g3⟩ := hL.setX _ (d.absPoints.data ++ List.replicate o.dimZ 0) hf (by
    rw [List.length_append, List.length_replicate, h.zLen, hfz, h.dimZ]; omega)
  unfold AtRest
  rw [g3, g2, hfz, h.dimZ]

theorem jolt_shaped {S S' : Scene K L T} {shape : L → Nat × Nat} (hS : ∀ t, HasShape (shape (S.label t)) (S'.place t))
    {c : CoordTrans K} {f : Pts K → Pts K → Option (Option D)} {detThr : K}
    {thr : D} {truth : Ref → T} {fr : Frame K L D F X} (hF : Jolts S S' shape c f thr detThr truth fr) :
    CallShaped shape (given fr) fr.ct fr.before.heap := by
  have hp : ∀ r ∈ given fr, HasShape (shape (fr.before.heap r).label) (fr.before.heap r).points := by
    intro r hr
    rw [hF.label r hr, hF.points r hr]
    exact hS _
  rw [hF.ct]
  refine ⟨⟨(fun c e => nomatch e), fun r hr => ?_⟩, (fun c e => nomatch e), hp⟩
  obtain ⟨q1, q2, q3⟩ := hp r hr
  refine ⟨?_, ?_, ?_, ?_⟩
  · rw [hF.new r hr]; exact q1
  · rw [hF.new r hr]; exact q2
  · rw [hF.new r hr, q1, q2]; exact q3
  · intro s hs
    rw [hF.new r hr, q1, hF.label r hr]
    exact hF.scores r hr s hs

theorem jolt_told {cfg : Cfg K L D F X} {f : Pts K → Pts K → Option (Option D)} {Ok : F → Prop}
    (hSt : StaticLaws cfg.flt Ok) {S S' : Scene K L T} {shape : L → Nat × Nat}
    (hS : ∀ t, HasShape (shape (S.label t)) (S.place t)) {c : CoordTrans K} {truth : Ref → T} {fr : Frame K L D F X}
    (hF : Jolts S S' shape c f cfg.thr cfg.detThr truth fr)
    (hobj : ∀ o ∈ fr.before.objs, PointsOk cfg.flt Ok shape o ∧ OfScene cfg.flt S True truth o)
    (hcam : ∀ o ∈ fr.before.objs, o.absToRel = some c.absToRel) :
    TellsApart cfg (fun d v => f d.points (v.obj.estimate cfg.flt)) truth fr := by
  refine ⟨hF.nodup, hF.once, hF.fresh, ?_⟩
  intro h hh r hr o ho _ x hx
  obtain ⟨hP, hO⟩ := hobj o ho
  obtain ⟨a, ha⟩ := hh r
  obtain ⟨b, hb⟩ := startHeap_fields fr.before fr.dets fr.ct r
  have hpts : (h r).points = S'.place (truth r) := by
    rw [ha]; simp only [hb]; exact hF.points r hr
  have hlab : (h r).label = S.label (truth r) := by rw [ha]; simp only [hb]; exact hF.label r hr
  set p := (o.trackerStep cfg).updateCT fr.ct with hp
  have hsp : SteppedPoints cfg o p := stepped_points cfg fr.ct o
  have hplab : p.label = S.label (truth o.lastDet) := hsp.label.trans hO.label
  obtain ⟨q1, q2, q3⟩ := hS (truth o.lastDet)
  have hl : (S.place (truth o.lastDet)).data.length = o.dimZ := by
    rw [q3, ← hO.label, ← hP.n, ← hP.dim]; rfl
  have hrest : AtRest cfg.flt (S.place (truth o.lastDet)).data p.filter := by
    rw [hsp.filter]
    exact hSt.predict _ _ hP.ok (hl.trans hP.dimZ.symm) hO.rest
  have hpos : p.positions cfg.flt = S.place (truth o.lastDet) := by
    unfold Obj.positions
    rw [hrest, List.take_left' (hl.trans hsp.dimZ.symm), hsp.numPoints, hsp.dimPoints, hP.n, hP.dim, hO.label,
      ← q1, ← q2]
  have hest : p.estimate cfg.flt = c.absToRel (S.place (truth o.lastDet)) := by
    have : p.absToRel = some c.absToRel := by rw [hp, hF.ct]; exact hcam o ho
    unfold Obj.estimate
    rw [this]
    show c.absToRel (p.positions cfg.flt) = _
    rw [hpos]
  rcases hx with ⟨hll, hfx⟩ | ⟨hll, rfl⟩
  · change f (h r).points (p.estimate cfg.flt) = _ at hfx
    rw [hpts, hest] at hfx
    refine hF.apart r hr _ ?_ x hfx
    rw [← hlab, ← hplab]; exact hll
  · constructor
    · intro hlt; exact absurd hlt not_top_lt
    · intro e
      refine absurd ?_ hll
      show (h r).label = p.label
      rw [hlab, hplab, e]

/-- a picture without transformation: what is known of the objects after the call -/
theorem jolt_step {cfg : Cfg K L D F X} {f : Pts K → Pts K → Option (Option D)} {Ok : F → Prop}
    (hf : cfg.dist = ofPoints cfg.flt f) (hre : cfg.reid = none) (hmax : cfg.reidMax = none)
    (hL : FilterLaws cfg.flt Ok) (hSt : StaticLaws cfg.flt Ok) (hJ : JumpLaws cfg.flt Ok)
    {S S' : Scene K L T} {shape : L → Nat × Nat}
    (hS : ∀ t, HasShape (shape (S.label t)) (S.place t)) (hS' : ∀ t, HasShape (shape (S.label t)) (S'.place t))
    {c : CoordTrans K} {truth : Ref → T} {fr : Frame K L D F X}
    (hr2 : Reachable cfg fr.before) {act : List (Obj K L D F)}
    (hup : update cfg fr.before fr.dets fr.period fr.ct = (fr.after, .ok act))
    (hFl : Jolts S S' shape c f cfg.thr cfg.detThr truth fr)
    (hobj : ∀ o ∈ fr.before.objs, PointsOk cfg.flt Ok shape o ∧ OfScene cfg.flt S True truth o)
    (hcam : ∀ o ∈ fr.before.objs, o.absToRel = some c.absToRel)
    (hone : OnePerTarget cfg truth fr.before) : ∀ o' ∈ fr.after.objs, OfScene cfg.flt S' True truth o' := by
  obtain ⟨-, s2, s3, -⟩ := told_step hf hre hr2 hup (jolt_told hSt hS hFl hobj hcam) hone
  obtain ⟨dets, period, ct, w2, w3, out⟩ := fr
  obtain rfl : ct = none := hFl.ct
  simp only at hr2 hup hobj hone s2 s3 ⊢
  have hI3 : Inv w3 := by
    have := (update_inv (cfg := cfg) hr2.inv dets period none).1
    rw [hup] at this; exact this
  intro o' ho'
  obtain ⟨_, _, hits, merges, news, U⟩ := update_ok hr2.inv.nodup hup
  by_cases hnew : o'.initId ∈ w2.keys
  · obtain ⟨o, ho, hk⟩ := List.mem_map.mp hnew
    have hk : o.initId = o'.initId := hk
    obtain ⟨hP1, hO⟩ := hobj o ho
    have htr := s2 o ho o' ho' hk
    obtain ⟨q1, q2, q3⟩ := hS (truth o.lastDet)
    have hl : (S.place (truth o.lastDet)).data.length = cfg.flt.dimZ o.filter := by
      rw [q3, ← hO.label, ← hP1.n, ← hP1.dim, hP1.dimZ]; rfl
    have hpred := hSt.predict o.filter _ hP1.ok hl hO.rest
    -- the object gets a detection
    obtain ⟨hs, -⟩ := update_obj_cases hr2.inv hup ho ho' hk
    have hc0 : 0 ≤ o.hitCounter := by
      rcases (mem_survivors.mp hs).2 with h | h
      · exact h.2
      · exact absurd hmax h.1
    obtain ⟨r, hrm, hrt⟩ := hFl.all o ho hc0
    obtain ⟨p', hp', hpk, hpl⟩ := s3 o ho ⟨hc0, Or.inl hmax⟩ r hrm hrt
    obtain rfl : p' = o' := World.eq_of_mem_of_key hI3.nodup hp' ho' (hpk.trans hk)
    refine ⟨?_, ?_, fun h => absurd trivial h⟩
    · rcases update_points hr2.inv hup ho ho' hk (Or.inl hre) hP1.hits with ⟨v, rfl⟩ |
        ⟨r', hrm', hlast, d, hds, _, hda, _, p, o'', hPp, hSn, g1, g2, g3, g4, _⟩
      · exfalso
        refine hFl.fresh o ho ?_
        have : (stepped cfg none o).lastDet = r := hpl
        rw [stepped_lastDet] at this
        rw [this]; exact hrm
      · rw [g3]
        obtain rfl : r = r' := hpl.symm.trans hlast
        have hd : d.absPoints = S'.place (truth p'.lastDet) := by
          rw [hda, hpl]
          exact (hFl.new r hrm).trans (hFl.points r hrm)
        rw [← hd]
        refine SensorsOk.rest_jump hL hJ hSn (by rw [hPp.filter]; exact (hL.predict _ hP1.ok).1) ?_
          (hl.trans (hP1.dimZ.trans hPp.dimZ.symm)) (by rw [hPp.filter]; exact hpred)
        intro i hi
        rw [hPp.numPoints, hP1.n, hO.label, ← hrt] at hi
        have := hFl.seen r hrm i hi
        intro s hs'
        rw [hds] at hs'
        exact this s hs'
    · rw [htr, hFl.labels, ← hO.label]
      have hre' : Reaches' cfg w2 w3 := by
        have := Reaches.call (cfg := cfg) (E := fun _ _ => True) (P := fun _ _ _ _ => True) dets period none (.refl w2) trivial
        rw [hup] at this
        exact this
      exact (C07_identity_stable hr2 hre' ho ho' hk).1
  · obtain ⟨hm, -, -, hrest⟩ := C34_born_at_rest hL hr2 hup (jolt_shaped hS' hFl).ok ho' hnew
    have hpl : (w3.heap o'.lastDet).absPoints = S'.place (truth o'.lastDet) := by
      rw [(U.heap.pts o'.lastDet).2]
      exact (hFl.new _ hm).trans (hFl.points _ hm)
    refine ⟨by rw [← hpl]; exact hrest, ?_, fun h => absurd trivial h⟩
    rw [(C11_new_objects hr2 hup ho' fun o ho e => hnew (e ▸ List.mem_map_of_mem ho)).2.2.2.2.2.2.2, hFl.labels]
    exact hFl.label _ hm

theorem reel_left {scene : Nat → Scene K L T} {shape : L → Nat × Nat} {f : Pts K → Pts K → Option (Option D)}
    {thr : D} {detThr : K} {truth : Ref → T} {fs gs : List (Frame K L D F X)}
    (h : Reel scene shape f thr detThr truth (fs ++ gs)) : Reel scene shape f thr detThr truth fs := by
  intro k fr hk
  have hlt := (List.getElem?_eq_some_iff.mp hk).1
  rcases h k fr (by rw [List.getElem?_append_left hlt]; exact hk) with h | ⟨j, fr', c, h1, h2, h3, h4⟩
  · exact Or.inl h
  · refine Or.inr ⟨j, fr', c, h1, ?_, h3, h4⟩
    rw [List.getElem?_append_left (by omega)] at h2
    exact h2

theorem reel_shaped {scene : Nat → Scene K L T} {shape : L → Nat × Nat} {f : Pts K → Pts K → Option (Option D)}
    {thr : D} {detThr : K} {truth : Ref → T} {fs : List (Frame K L D F X)}
    (h : Reel scene shape f thr detThr truth fs)
    (hS : ∀ k t, HasShape (shape ((scene k).label t)) ((scene k).place t)) :
    ∀ fr ∈ fs, CallShaped shape (given fr) fr.ct fr.before.heap ∧ (fr.ct = none ∨ fr.dets ≠ none) := by
  intro fr hfr
  obtain ⟨k, hk⟩ := List.mem_iff_getElem?.mp hfr
  rcases h k fr hk with ⟨h, -⟩ | ⟨j, fr', c, _, _, _, h⟩
  · exact ⟨film_shaped (hS k) h, h.dets⟩
  · exact ⟨jolt_shaped (by rw [← h.labels]; exact hS k) h, Or.inl h.ct⟩

/-- everything about the calls, by induction -/
theorem reel_inv {cfg : Cfg K L D F X} {f : Pts K → Pts K → Option (Option D)} {Ok : F → Prop}
    (hf : cfg.dist = ofPoints cfg.flt f) (hre : cfg.reid = none) (hmax : cfg.reidMax = none)
    (hfill : cfg.thr ≤ cfg.fill)
    (hL : FilterLaws cfg.flt Ok) (hSt : StaticLaws cfg.flt Ok) (hJ : JumpLaws cfg.flt Ok)
    {scene : Nat → Scene K L T} {shape : L → Nat × Nat} (hd : ShapedDist cfg.flt shape cfg.dist)
    (hS : ∀ k t, HasShape (shape ((scene k).label t)) ((scene k).place t)) {truth : Ref → T}
    {w0 w : World K L D F X} (h0 : w0.Initial) {fs : List (Frame K L D F X)} (ht : Trace cfg w0 fs w)
    (hF : Reel scene shape f cfg.thr cfg.detThr truth fs) :
    AlwaysTold cfg (fun d v => f d.points (v.obj.estimate cfg.flt)) truth fs ∧
    (∀ o ∈ w.objs, PointsOk cfg.flt Ok shape o ∧ OfScene cfg.flt (scene (fs.length - 1)) True truth o) ∧
    ∀ j fr c, fs.length = j + 1 → fs[j]? = some fr → fr.ct = some c → ∀ o ∈ w.objs, o.absToRel = some c.absToRel := by
  have hs : ∀ a b, Compat cfg a b → shape a = shape b := by
    intro a b hab
    unfold Compat at hab
    rw [hf] at hab
    exact congrArg shape hab
  obtain ⟨hsucc, -⟩ := C67_trace hL hs hd hre hfill h0 ht (reel_shaped hF hS)
  induction ht with
  | nil =>
    refine ⟨fun fr h => absurd h (by simp), fun o ho => ?_, fun j fr c hj => by simp at hj⟩
    rw [h0.1] at ho
    cases ho
  | env heap g _ he ih => exact ih hF hsucc
  | @call fs w2 dets period ct ht ih =>
    obtain ⟨ih1, ih2, ih3⟩ := ih (reel_left hF) fun fr h => hsucc fr (List.mem_append_left _ h)
    obtain ⟨act, hact⟩ := hsucc _ (List.mem_append_right _ (List.mem_singleton.mpr rfl))
    have hr2 : Reachable cfg w2 := ⟨w0, h0, ht.reaches⟩
    have hone := (told_from hf hre ⟨w0, h0, .refl _⟩ (onePerTarget_initial h0) ht ih1).1
    have hup : update cfg w2 dets period ct = ((update cfg w2 dets period ct).1, .ok act) := Prod.ext rfl hact
    have hwf : WfReaches cfg shape w0 (update cfg w2 dets period ct).1 := by
      have := (C67_trace hL hs hd hre hfill h0 (Trace.call dets period ct ht) (reel_shaped hF hS)).2
      exact this.mono (fun _ _ h => h) fun _ _ _ _ h => h.ok
    have hP := WfReaches.pointsOk hL hs h0 hwf
    have hlast := List.getElem?_concat_length (l := fs) (a := (⟨dets, period, ct, w2, (update cfg w2 dets period ct).1,
      (update cfg w2 dets period ct).2⟩ : Frame K L D F X))
    have hlen : (fs ++ [(⟨dets, period, ct, w2, (update cfg w2 dets period ct).1,
        (update cfg w2 dets period ct).2⟩ : Frame K L D F X)]).length - 1 = fs.length := by simp
    rw [hlen]
    refine and_assoc.mp ⟨?_, ?_⟩
    · rcases hF _ _ hlast with ⟨hFl, hsame⟩ | ⟨j, fr', c, hj, hj', hc, hFl⟩
      · have hobj : ∀ o ∈ w2.objs, PointsOk cfg.flt Ok shape o ∧ OfScene cfg.flt (scene fs.length) True truth o := by
          intro o ho
          have hne : 0 < fs.length := by
            rcases Nat.eq_zero_or_pos fs.length with h | h
            · exfalso
              have : ∀ {fs : List (Frame K L D F X)} {w : World K L D F X}, Trace cfg w0 fs w → fs.length = 0 →
                  w.objs = [] := by
                intro fs w ht
                induction ht with
                | nil => exact fun _ => h0.1
                | env heap g _ he ih => exact ih
                | call => intro h; simp at h
              rw [this ht h] at ho
              cases ho
            · exact h
          rw [hsame hne]
          exact ih2 o ho
        have hT := film_told hSt (hS _) hFl hobj
        refine ⟨?_, fun o ho => ⟨hP o ho, film_step hf hre hL hSt (hS _) hr2 hup hFl hobj hone o ho⟩⟩
        intro fr hfr
        rcases List.mem_append.mp hfr with h | h
        · exact ih1 fr h
        · rw [List.mem_singleton.mp h]
          exact ⟨⟨act, hact⟩, hT⟩
      · have hj1 : fs.length - 1 = j := by omega
        rw [List.getElem?_append_left (by omega)] at hj'
        have hcam := ih3 j fr' c hj hj' hc
        rw [hj1] at ih2
        have hT := jolt_told hSt (hS j) hFl ih2 hcam
        refine ⟨?_, fun o ho => ⟨hP o ho, jolt_step hf hre hmax hL hSt hJ (hS j)
          (by rw [← hFl.labels]; exact hS _) hr2 hup hFl ih2 hcam hone o ho⟩⟩
        intro fr hfr
        rcases List.mem_append.mp hfr with h | h
        · exact ih1 fr h
        · rw [List.mem_singleton.mp h]
          exact ⟨⟨act, hact⟩, hT⟩
    · intro j fr c hj hjf hc o ho
      obtain rfl : j = fs.length := by simp at hj; omega
      rw [hlast] at hjf
      obtain rfl := Option.some.inj hjf
      obtain rfl : ct = some c := hc
      have hdets := ((reel_shaped hF hS) _ (List.mem_append_right _ (List.mem_singleton.mpr rfl))).2
      rcases (update_ct hr2.inv dets period (some c) (Or.inr (hdets.resolve_left (by simp)))).1 o ho with
        ⟨_, _, _, e⟩ | ⟨_, e⟩
      · exact e
      · exact e

theorem _root_.Norfair.Trace.after {cfg : Cfg K L D F X} {w0 w : World K L D F X} {fs : List (Frame K L D F X)}
    (ht : Trace cfg w0 fs w) {j : Nat} {fr : Frame K L D F X} (hj : fs[j]? = some fr) :
    Trace cfg fr.after (fs.drop (j + 1)) w := by
  induction ht with
  | nil => simp at hj
  | env heap g _ he ih => exact .env heap g (ih hj) he
  | @call fs w2 dets period ct ht ih =>
    rcases Nat.lt_or_ge j fs.length with h | h
    · rw [List.getElem?_append_left h] at hj
      rw [List.drop_append_of_le_length (by omega)]
      exact .call dets period ct (ih hj)
    · have hj' := (List.getElem?_eq_some_iff.mp hj).1
      simp only [List.length_append, List.length_singleton] at hj'
      obtain rfl : j = fs.length := by omega
      rw [List.getElem?_concat_length, Option.some.injEq] at hj
      subst hj
      rw [List.drop_of_length_le (by simp)]
      exact .nil _

/-- C106 for any filter that follows measurements of all coordinates -/
theorem reel_exact {cfg : Cfg K L D F X} {f : Pts K → Pts K → Option (Option D)} {Ok : F → Prop}
    (hf : cfg.dist = ofPoints cfg.flt f) (hre : cfg.reid = none) (hmax : cfg.reidMax = none)
    (hfill : cfg.thr ≤ cfg.fill)
    (hL : FilterLaws cfg.flt Ok) (hSt : StaticLaws cfg.flt Ok) (hJ : JumpLaws cfg.flt Ok)
    {scene : Nat → Scene K L T} {shape : L → Nat × Nat} (hd : ShapedDist cfg.flt shape cfg.dist)
    (hS : ∀ k t, HasShape (shape ((scene k).label t)) ((scene k).place t)) {truth : Ref → T}
    {w0 w : World K L D F X} (h0 : w0.Initial) {fs : List (Frame K L D F X)} (ht : Trace cfg w0 fs w)
    (hF : Reel scene shape f cfg.thr cfg.detThr truth fs) {k : Nat} {fr : Frame K L D F X} (hk : fs[k]? = some fr) :
    Succeeds fr ∧
    (∀ o ∈ fr.before.objs, CanMatch cfg.reidMax o → ∀ r ∈ given fr, truth r = truth o.lastDet →
      ∃ o' ∈ fr.after.objs, o'.initId = o.initId ∧ o'.lastDet = r ∧ (o.id ≠ none → o'.id = o.id)) ∧
    ∀ o ∈ fr.after.objs,
      o.positions cfg.flt = (scene k).place (truth o.lastDet) ∧
      (o.velocity cfg.flt).data = List.replicate o.dimZ 0 ∧ o.label = (scene k).label (truth o.lastDet) ∧
      (∀ c, fr.ct = some c → o.estimate cfg.flt = c.absToRel ((scene k).place (truth o.lastDet))) ∧
      (fr.ct = none → (∀ p ∈ fr.before.objs, p.initId ≠ o.initId) →
        o.estimate cfg.flt = (scene k).place (truth o.lastDet)) ∧
      (∀ j fr' c, fr.ct = none → k = j + 1 → fs[j]? = some fr' → fr'.ct = some c →
        (∃ p ∈ fr.before.objs, p.initId = o.initId) →
        o.estimate cfg.flt = c.absToRel ((scene k).place (truth o.lastDet))) ∧
      (∀ p ∈ fr.after.objs, CanMatch cfg.reidMax o → CanMatch cfg.reidMax p →
        truth o.lastDet = truth p.lastDet → o = p) ∧
      ∀ j fr', j ≤ k → fs[j]? = some fr' → ∀ p ∈ fr'.after.objs, p.initId = o.initId ∨ p.id ≠ none ∧ p.id = o.id →
        truth p.lastDet = truth o.lastDet := by
  have htk := ht.upTo hk
  have hfs : fs = (fs.take k ++ [fr]) ++ fs.drop (k + 1) := by
    have hlt := (List.getElem?_eq_some_iff.mp hk).1
    have e : fs[k] = fr := by rw [List.getElem?_eq_getElem hlt] at hk; exact Option.some.inj hk
    rw [List.append_assoc, List.singleton_append, ← e, List.cons_getElem_drop_succ, List.take_append_drop]
  have hFk : Reel scene shape f cfg.thr cfg.detThr truth (fs.take k ++ [fr]) := by
    rw [hfs] at hF
    exact reel_left hF
  have hklt := (List.getElem?_eq_some_iff.mp hk).1
  have hlen : (fs.take k ++ [fr]).length = k + 1 := by simp; omega
  have hat : (fs.take k ++ [fr])[k]? = some fr := by
    have := List.getElem?_concat_length (l := fs.take k) (a := fr)
    rwa [List.length_take, Nat.min_eq_left (by omega)] at this
  obtain ⟨i1, i2, i3⟩ := reel_inv hf hre hmax hfill hL hSt hJ hd hS h0 htk hFk
  rw [hlen, Nat.add_sub_cancel] at i2
  obtain ⟨hsucc, hT⟩ := i1 fr (List.mem_append_right _ (List.mem_singleton.mpr rfl))
  refine ⟨hsucc, ?_, fun o ho => ?_⟩
  · obtain ⟨htl, hup⟩ := htk.last
    have hr : Reachable cfg fr.before := ⟨w0, h0, htl.reaches⟩
    obtain ⟨act, hact⟩ := hsucc
    rw [hact] at hup
    have hone := (told_from hf hre ⟨w0, h0, .refl _⟩ (onePerTarget_initial h0) htl
      fun x hx => i1 x (List.mem_append_left _ hx)).1
    intro o ho hc r hrm hrt
    obtain ⟨o', ho', e1, e2⟩ := (told_step hf hre hr hup hT hone).2.2.1 o ho hc r hrm hrt
    refine ⟨o', ho', e1, e2, fun hid => ?_⟩
    obtain ⟨i, hi⟩ := Option.ne_none_iff_exists'.mp hid
    have hre' : Reaches' cfg fr.before fr.after := by
      have := Reaches.call (cfg := cfg) (E := fun _ _ => True) (P := fun _ _ _ _ => True) fr.dets fr.period fr.ct
        (.refl fr.before) trivial
      rw [hup] at this
      exact this
    rw [hi]
    exact (C07_identity_stable hr hre' ho ho' e1.symm).2.2.2.2.2.1 i hi
  obtain ⟨hP, hO⟩ := i2 o ho
  obtain ⟨p1, p2⟩ := hO.positions (hS k) hP
  obtain ⟨htl, hup⟩ := htk.last
  have hr : Reachable cfg fr.before := ⟨w0, h0, htl.reaches⟩
  have hup1 : (update cfg fr.before fr.dets fr.period fr.ct).1 = fr.after := by rw [hup]
  have hnone : fr.ct = none → (∃ p ∈ fr.before.objs, p.initId = o.initId ∧ o.absToRel = p.absToRel) ∨
      (o.initId ∉ fr.before.objs.map (·.initId) ∧ o.absToRel = none) := by
    intro hc
    refine C26_transformation_kept hr fr.dets fr.period (o' := o) ?_
    rw [← hc, hup1]
    exact ho
  refine ⟨p1, p2, hO.label, fun c hc => ?_, fun hc hn => ?_, fun j fr' c hc hj hj' hc' hp => ?_, fun p hp hc hc' e => ?_,
    fun j fr' hj hj' p hp hkk => ?_⟩
  · unfold Obj.estimate
    rw [i3 k fr c hlen hat hc o ho, ← p1]
  · rcases hnone hc with ⟨p, hp, e, _⟩ | ⟨_, e⟩
    · exact absurd e (hn p hp)
    · unfold Obj.estimate
      rw [e]
      exact p1
  · obtain ⟨p, hp, e⟩ := hp
    rcases hnone hc with ⟨p', hp', e', e2⟩ | ⟨hn, _⟩
    · subst hj
      have h3 := (reel_inv hf hre hmax hfill hL hSt hJ hd hS h0 htl (reel_left hFk)).2.2 j fr' c
        (by simp; omega) (by rw [List.getElem?_take_of_lt (by omega)]; exact hj') hc' p' hp'
      unfold Obj.estimate
      rw [e2, h3, ← p1]
    · exact absurd (List.mem_map.mpr ⟨p, hp, e⟩) hn
  · exact C94_one_per_target hf hre h0 htk i1 o ho p hp hc hc' e
  · rcases Nat.lt_or_ge j k with hlt | hge
    · have hj2 : (fs.take k ++ [fr])[j]? = some fr' := by
        rw [List.getElem?_append_left (by simp; omega), List.getElem?_take_of_lt hlt]
        exact hj'
      have h2 := htk.after hj2
      refine C94_never_switched hf hre h0 (htk.upTo hj2) h2 (fun x hx => i1 x ?_) hp ho hkk
      rcases List.mem_append.mp hx with h | h
      · rcases List.mem_append.mp h with h | h
        · exact List.mem_of_mem_take h
        · rw [List.mem_singleton.mp h]; exact List.mem_of_getElem? hj2
      · exact List.mem_of_mem_drop h
    · obtain rfl : j = k := by omega
      obtain rfl : fr' = fr := Option.some.inj (hj'.symm.trans hk)
      exact C94_never_switched hf hre h0 htk (.nil _) (fun x hx => i1 x (by simpa using hx)) hp ho hkk

end

/-! ### The motion estimator and the tracker together -/

section
variable [Field K] [LinearOrder K] [IsStrictOrderedRing K] [FloorRing K] [LinearOrder D] [OrderTop D] [Zero D]
  [DecidableEq L] {Img Mask : Type}

/-- points of the plane that are moved -/
theorem planePts_translate (v : K × K) (l : List (K × K)) :
    (translation [v.1, v.2]).absToRel (planePts l) = planePts (l.map (· + v)) := by
  have key : ∀ (l : List (K × K)) (m : Nat), m % 2 = 0 →
      (l.flatMap fun q => [q.1, q.2]).mapIdx (fun i x => x + (([v.1, v.2][(i + m) % 2]?).getD 0)) =
      l.flatMap fun q => [q.1 + v.1, q.2 + v.2] := by
    intro l
    induction l with
    | nil => intros; rfl
    | cons q l ih =>
      intro m hm
      simp only [List.flatMap_cons, List.cons_append, List.nil_append, List.mapIdx_cons]
      have e0 : (0 + m) % 2 = 0 := by omega
      have e1 : (0 + 1 + m) % 2 = 1 := by omega
      rw [e0, e1]
      have := ih (m + 2) (by omega)
      simp only [List.getElem?_cons_zero, List.getElem?_cons_succ, Option.getD_some]
      congr 2
      rw [← this]
      congr 1
      funext i x
      congr 4
      omega
  unfold translation planePts
  simp only [List.length_map]
  congr 1
  rw [show (List.flatMap (fun z : K × K => [z.1, z.2]) (l.map (· + v))) = l.flatMap fun q => [q.1 + v.1, q.2 + v.2] by
    simp [List.flatMap_map]]
  exact key l 0 rfl

theorem refFrame_spec {V : Type} (outs : List (Option V)) (k : Nat) : refFrame outs k ≤ k ∧
    (refFrame outs k = 0 ∨ outs[refFrame outs k]? = some none) ∧
    ∀ j, refFrame outs k < j → j ≤ k → outs[j]? ≠ some none := by
  induction k with
  | zero => exact ⟨le_rfl, Or.inl rfl, fun j h h' => by simp [refFrame] at h; omega⟩
  | succ k ih =>
    obtain ⟨i1, i2, i3⟩ := ih
    unfold refFrame
    split
    · rename_i e
      exact ⟨le_rfl, Or.inr e, fun j h h' => by omega⟩
    · rename_i e
      refine ⟨by omega, i2, fun j h h' => ?_⟩
      rcases Nat.lt_or_ge j (k + 1) with hj | hj
      · exact i3 j h (by omega)
      · obtain rfl : j = k + 1 := by omega
        exact e

/-- what the estimator returns is relative to the frame of its last failure -/
theorem estimate_ref {fl : Flow K Img Mask} (g : TransGetter K) {d : Img → K × K} (hd : TrueFlow fl g.bin d)
    (f0 : Img × Option Mask) (hs : List (Img × Option Mask)) {k : Nat} {img rimg : Img × Option Mask} {v : K × K}
    (hfirst : ((MotionEstimator.create (K := K) none).outputs fl none g.getter (f0 :: hs))[0]? ≠ some none)
    (hi : (f0 :: hs)[k]? = some img)
    (hv : ((MotionEstimator.create (K := K) none).outputs fl none g.getter (f0 :: hs))[k]? = some (some v))
    (hr : (f0 :: hs)[refFrame ((MotionEstimator.create (K := K) none).outputs fl none g.getter (f0 :: hs)) k]? =
      some rimg) : v = d img.1 - d rimg.1 := by
  obtain ⟨h1, h2, h3⟩ := refFrame_spec ((MotionEstimator.create (K := K) none).outputs fl none g.getter (f0 :: hs)) k
  generalize hρ : refFrame ((MotionEstimator.create (K := K) none).outputs fl none g.getter (f0 :: hs)) k = ρ at *
  cases ρ with
  | zero =>
    cases hr
    refine C47_translation g hd f0 hs hi hv fun j hj => ?_
    rcases Nat.eq_zero_or_pos j with rfl | hpos
    · exact hfirst
    · exact h3 j hpos hj.le
  | succ ρ =>
    have h2 := h2.resolve_left (by omega)
    have hlt : ρ + 1 < k := by
      rcases Nat.lt_or_ge (ρ + 1) k with h | h
      · exact h
      · obtain rfl : ρ + 1 = k := by omega
        rw [hv] at h2
        cases h2
    rw [List.getElem?_cons_succ] at hr
    have hρl := (List.getElem?_eq_some_iff.mp hr).1
    have hsplit : f0 :: hs = f0 :: hs.take ρ ++ rimg :: hs.drop (ρ + 1) := by
      have e : hs[ρ] = rimg := by rw [List.getElem?_eq_getElem hρl] at hr; exact Option.some.inj hr
      rw [List.cons_append, ← e, List.cons_getElem_drop_succ, List.take_append_drop]
    have hlen : (hs.take ρ).length = ρ := by simp; omega
    obtain ⟨n, rfl⟩ : ∃ n, k = ρ + 1 + 1 + n := ⟨k - (ρ + 2), by omega⟩
    rw [hsplit] at h2 hv h3
    refine C47_translation_restart g hd f0 (hs.take ρ) rimg (hs.drop (ρ + 1)) (n := n) (fn := img)
      (by rw [hlen]; exact h2) ?_ (by rw [hlen]; exact hv) (fun j hj => by rw [hlen]; exact h3 _ (by omega) (by omega))
    rw [show ρ + 1 + 1 + n = (ρ + 1 + n) + 1 by omega, List.getElem?_cons_succ] at hi
    rw [List.getElem?_drop]
    exact hi

/-- the outputs of the estimator -/
abbrev outsOf (fl : Flow K Img Mask) (g : TransGetter K) (f0 : Img × Option Mask) (hs : List (Img × Option Mask)) :
    List (Option (K × K)) := (MotionEstimator.create (K := K) none).outputs fl none g.getter (f0 :: hs)

/-- the absolute coordinates after frame `k` -/
def sceneAt (fl : Flow K Img Mask) (g : TransGetter K) (d : Img → K × K) (f0 : Img × Option Mask)
    (hs : List (Img × Option Mask)) (q : T → List (K × K)) (label : T → L) (k : Nat) : Scene K L T :=
  ⟨fun t => planePts ((q t).map (· + (d (((f0 :: hs)[refFrame (outsOf fl g f0 hs) k]?).getD f0).1 - d f0.1))), label⟩

theorem refFrame_image (fl : Flow K Img Mask) (g : TransGetter K) (f0 : Img × Option Mask)
    (hs : List (Img × Option Mask)) (k : Nat) : ∃ rimg, (f0 :: hs)[refFrame (outsOf fl g f0 hs) k]? = some rimg := by
  rcases (refFrame_spec (outsOf fl g f0 hs) k).2.1 with h | h
  · rw [h]; exact ⟨f0, rfl⟩
  · have := (List.getElem?_eq_some_iff.mp h).1
    rw [outputs_length] at this
    exact ⟨_, List.getElem?_eq_getElem this⟩

theorem planePts_map_add (l : List (K × K)) (a b : K × K) :
    planePts ((l.map (· + a)).map (· + b)) = planePts (l.map (· + (a + b))) := by
  rw [List.map_map]
  congr 1
  apply List.map_congr_left
  intro x _
  simp [add_assoc]

/-- a distance that does not change when both arrays are moved -/
theorem unmoved_plane {f : Pts K → Pts K → Option (Option D)} {shape : L → Nat × Nat} (hun : Unmoved f shape)
    {a : L} {l m : List (K × K)} (hl : shape a = (l.length, 2)) (hm : shape a = (m.length, 2)) (v : K × K) :
    f (planePts (l.map (· + v))) (planePts (m.map (· + v))) = f (planePts l) (planePts m) := by
  rw [← planePts_translate, ← planePts_translate]
  exact hun a _ _ _ (by rw [hl]; exact planePts_shape l) (by rw [hm]; exact planePts_shape m)

theorem movie_reel {fl : Flow K Img Mask} (g : TransGetter K) {d : Img → K × K} (hd : TrueFlow fl g.bin d)
    (f0 : Img × Option Mask) (hs : List (Img × Option Mask)) {f : Pts K → Pts K → Option (Option D)} {thr : D}
    {detThr : K} {shape : L → Nat × Nat} (hun : Unmoved f shape) {q : T → List (K × K)} {label : T → L}
    (hq : ∀ t, shape (label t) = ((q t).length, 2))
    (hfar : ∀ t t', label t = label t' → ∀ x, f (planePts (q t)) (planePts (q t')) = some (some x) →
      (x < thr ↔ t = t')) (hfirst : (outsOf fl g f0 hs)[0]? ≠ some none)
    {truth : Ref → T} {fs : List (Frame K L D F X)}
    (hfs : ∀ k fr, fs[k]? = some fr → ∃ img out, Taken fl g d f0 hs q label truth k img out fr ∧
      (out = none → Blinks f thr detThr fl g d f0 hs q label truth k img fr)) :
    Reel (sceneAt fl g d f0 hs q label) shape f thr detThr truth fs := by
  have hlen : ∀ (t : T) (a : K × K), shape (label t) = (((q t).map (· + a)).length, 2) := by
    intro t a; rw [List.length_map]; exact hq t
  intro k fr hk
  obtain ⟨img, out, h, hB⟩ := hfs k fr hk
  obtain ⟨rimg, hrimg⟩ := refFrame_image fl g f0 hs k
  have hplace : ∀ t, (sceneAt fl g d f0 hs q label k).place t = planePts ((q t).map (· + (d rimg.1 - d f0.1))) := by
    intro t; unfold sceneAt; rw [hrimg]; rfl
  cases out with
  | some v =>
    left
    have hv : v = d img.1 - d rimg.1 := estimate_ref g hd f0 hs hfirst h.image h.estimated hrimg
    have hct : fr.ct = some (translation [v.1, v.2]) := h.told
    have hseen : ∀ t, seenAt fr.ct ((sceneAt fl g d f0 hs q label k).place t) =
        planePts ((q t).map (· + (d img.1 - d f0.1))) := by
      intro t
      rw [hct, hplace]
      show (translation [v.1, v.2]).absToRel _ = _
      rw [planePts_translate, planePts_map_add, hv]
      congr 3
      funext x
      ring
    refine ⟨⟨by rw [hct]; exact translation_camera _ _ _, Or.inr h.dets, h.nodup, h.once, h.fresh,
      fun r hr => (h.points r hr).trans (hseen _).symm, h.new, h.label, ?_, ?_⟩, fun hpos => ?_⟩
    · intro r hr s hs'
      show s.length = (shape (label (truth r))).1
      rw [h.scores r hr s hs', hq]
    · intro r hr t hl x hx
      change label (truth r) = label t at hl
      rw [hseen, hseen, unmoved_plane hun (hq (truth r)) (by rw [hl]; exact hq t)] at hx
      exact hfar _ _ hl x hx
    · have e : refFrame (outsOf fl g f0 hs) k = refFrame (outsOf fl g f0 hs) (k - 1) := by
        obtain ⟨j, rfl⟩ : ∃ j, k = j + 1 := ⟨k - 1, by omega⟩
        have he := h.estimated
        change (outsOf fl g f0 hs)[j + 1]? = _ at he
        rw [Nat.add_sub_cancel, refFrame, he]
      unfold sceneAt
      rw [e]
  | none =>
    right
    obtain ⟨⟨j, img', v, rfl, hj, hvj, hsmall⟩, hsn, hall⟩ := hB rfl
    obtain ⟨fr', hfr'⟩ : ∃ fr', fs[j]? = some fr' := by
      have := (List.getElem?_eq_some_iff.mp hk).1
      exact ⟨_, List.getElem?_eq_getElem (by omega)⟩
    obtain ⟨img2, out', h', -⟩ := hfs j fr' hfr'
    obtain rfl : img' = img2 := Option.some.inj (hj.symm.trans h'.image)
    obtain rfl : some v = out' := Option.some.inj (hvj.symm.trans h'.estimated)
    refine ⟨j, fr', translation [v.1, v.2], rfl, hfr', h'.told, h.told, rfl, h.nodup, h.once, h.fresh, ?_, h.new, h.label,
      ?_, ?_, hall, ?_⟩
    · intro r hr
      rw [h.points r hr, hplace]
      have he : refFrame (outsOf fl g f0 hs) (j + 1) = j + 1 := by
        have he := h.estimated
        change (outsOf fl g f0 hs)[j + 1]? = _ at he
        rw [refFrame, he]
      rw [he] at hrimg
      obtain rfl : img = rimg := Option.some.inj (h.image.symm.trans hrimg)
      rfl
    · intro r hr s hs'
      show s.length = (shape (label (truth r))).1
      rw [h.scores r hr s hs', hq]
    · intro r hr i hi
      change i < (shape (label (truth r))).1 at hi
      rw [hq] at hi
      exact hsn r hr i hi
    · intro r hr t hl x hx
      change label (truth r) = label t at hl
      have he : refFrame (outsOf fl g f0 hs) (j + 1) = j + 1 := by
        have he := h.estimated
        change (outsOf fl g f0 hs)[j + 1]? = _ at he
        rw [refFrame, he]
      rw [he] at hrimg
      obtain rfl : img = rimg := Option.some.inj (h.image.symm.trans hrimg)
      obtain ⟨rj, hrj⟩ := refFrame_image fl g f0 hs j
      have hv : v = d img'.1 - d rj.1 := estimate_ref g hd f0 hs hfirst hj hvj hrj
      have hpj : (sceneAt fl g d f0 hs q label j).place t = planePts ((q t).map (· + (d rj.1 - d f0.1))) := by
        unfold sceneAt; rw [hrj]; rfl
      rw [hplace, hpj, planePts_translate, planePts_map_add] at hx
      refine hsmall r hr t hl x ?_
      rw [← hx, ← unmoved_plane hun (a := label (truth r)) (hlen _ _) (by rw [hl]; exact hq t) (d img'.1 - d f0.1),
        planePts_map_add, hv]
      congr 4 <;> funext x <;> ring

/-- **C106** (partial: `NoFilter`; all tracked targets are detected in frames without estimate; such frames are not the
first one and do not follow each other; estimates returned in these frames are excepted) The `MotionEstimator` and the
tracker together, where the estimator sometimes returns `None`. Then no call raises; a detection of a target that is
tracked goes to the object of the target, which keeps its id; no object changes its target, and no other object that
can be matched has its target; velocities are 0; absolute coordinates are those that the target has in the frame
`rimg` of the last failure; and in every frame with an estimate, relative coordinates are those that the target has in
the picture. In frames without an estimate the relative coordinates of objects that were there before are wrong by the
movement of the camera from the earlier reference frame `r'` to the frame before (`img'`). -/
theorem C106_movie_partial {cfg : Cfg K L D (NoFilter K) X} (hflt : cfg.flt = noFilterOps)
    {f : Pts K → Pts K → Option (Option D)}
    (hf : cfg.dist = ofPoints cfg.flt f) (hre : cfg.reid = none) (hmax : cfg.reidMax = none)
    (hfill : cfg.thr ≤ cfg.fill) {shape : L → Nat × Nat}
    (hsd : ShapedDist cfg.flt shape cfg.dist) (hun : Unmoved f shape)
    {fl : Flow K Img Mask} (g : TransGetter K) {d : Img → K × K} (hd : TrueFlow fl g.bin d)
    (f0 : Img × Option Mask) (hs : List (Img × Option Mask)) {outs : List (Option (K × K))}
    (houts : outs = (MotionEstimator.create (K := K) none).outputs fl none g.getter (f0 :: hs))
    (hfirst : outs[0]? ≠ some none) {q : T → List (K × K)} {label : T → L}
    (hq : ∀ t, shape (label t) = ((q t).length, 2))
    (hfar : ∀ t t', label t = label t' → ∀ x, f (planePts (q t)) (planePts (q t')) = some (some x) →
      (x < cfg.thr ↔ t = t')) {truth : Ref → T} {w0 w : World K L D (NoFilter K) X} (h0 : w0.Initial)
    {fs : List (Frame K L D (NoFilter K) X)} (ht : Trace cfg w0 fs w)
    (hfs : ∀ k fr, fs[k]? = some fr → ∃ img out, Taken fl g d f0 hs q label truth k img out fr ∧
      (out = none → Blinks f cfg.thr cfg.detThr fl g d f0 hs q label truth k img fr)) :
    ∀ (k : Nat) (fr : Frame K L D (NoFilter K) X), fs[k]? = some fr → Succeeds fr ∧
      (∀ o ∈ fr.before.objs, 0 ≤ o.hitCounter → ∀ r ∈ given fr, truth r = truth o.lastDet →
        ∃ o' ∈ fr.after.objs, o'.initId = o.initId ∧ o'.lastDet = r ∧ (o.id ≠ none → o'.id = o.id)) ∧
      ∃ img rimg, (f0 :: hs)[k]? = some img ∧ (f0 :: hs)[refFrame outs k]? = some rimg ∧
      ∀ o ∈ fr.after.objs,
        o.positions cfg.flt = planePts ((q (truth o.lastDet)).map (· + (d rimg.1 - d f0.1))) ∧
        (o.velocity cfg.flt).data = List.replicate o.dimZ 0 ∧
        (outs[k]? ≠ some none →
          o.estimate cfg.flt = planePts ((q (truth o.lastDet)).map (· + (d img.1 - d f0.1)))) ∧
        (outs[k]? = some none → (∀ p ∈ fr.before.objs, p.initId ≠ o.initId) →
          o.estimate cfg.flt = planePts ((q (truth o.lastDet)).map (· + (d img.1 - d f0.1)))) ∧
        (outs[k]? = some none → (∃ p ∈ fr.before.objs, p.initId = o.initId) →
          ∃ j img' r', k = j + 1 ∧ (f0 :: hs)[j]? = some img' ∧ (f0 :: hs)[refFrame outs j]? = some r' ∧
          o.estimate cfg.flt =
            planePts ((q (truth o.lastDet)).map (· + (d img.1 - d f0.1 + (d img'.1 - d r'.1))))) ∧
        (∀ p ∈ fr.after.objs, 0 ≤ o.hitCounter → 0 ≤ p.hitCounter → truth o.lastDet = truth p.lastDet → o = p) ∧
        ∀ j fr', j ≤ k → fs[j]? = some fr' → ∀ p ∈ fr'.after.objs, p.initId = o.initId ∨ p.id ≠ none ∧ p.id = o.id →
          truth p.lastDet = truth o.lastDet := by
  subst houts
  have hL : FilterLaws cfg.flt NoFilter.Ok := by rw [hflt]; exact noFilter_laws
  have hSt : StaticLaws cfg.flt NoFilter.Ok := by rw [hflt]; exact C34_noFilter_static
  have hJ : JumpLaws cfg.flt NoFilter.Ok := by rw [hflt]; exact noFilter_jumps
  have hR := movie_reel (thr := cfg.thr) (detThr := cfg.detThr) g hd f0 hs hun hq hfar hfirst hfs
  have hS : ∀ k t, HasShape (shape ((sceneAt fl g d f0 hs q label k).label t))
      ((sceneAt fl g d f0 hs q label k).place t) := by
    intro k t
    show HasShape (shape (label t)) (planePts _)
    rw [hq]
    have := planePts_shape ((q t).map (· + (d (((f0 :: hs)[refFrame (outsOf fl g f0 hs) k]?).getD f0).1 - d f0.1)))
    rw [List.length_map] at this
    exact this
  intro k fr hk
  obtain ⟨e1, e2, e3⟩ := reel_exact hf hre hmax hfill hL hSt hJ hsd hS h0 ht hR hk
  obtain ⟨img, out, h, hB⟩ := hfs k fr hk
  obtain ⟨rimg, hrimg⟩ := refFrame_image fl g f0 hs k
  have hplace : ∀ t, (sceneAt fl g d f0 hs q label k).place t = planePts ((q t).map (· + (d rimg.1 - d f0.1))) := by
    intro t; unfold sceneAt; rw [hrimg]; rfl
  have hcan : ∀ {o : Obj K L D (NoFilter K)}, 0 ≤ o.hitCounter → CanMatch cfg.reidMax o := fun h => ⟨h, Or.inl hmax⟩
  refine ⟨e1, fun o ho hc => e2 o ho (hcan hc), img, rimg, h.image, hrimg, fun o ho => ?_⟩
  obtain ⟨p1, p2, p3, p4, p5, p6, p7, p8⟩ := e3 o ho
  have himg : out = none → img = rimg := by
    rintro rfl
    have he : refFrame (outsOf fl g f0 hs) k = k := by
      obtain ⟨⟨j, img', v, rfl, -⟩, -, -⟩ := hB rfl
      have he := h.estimated
      change (outsOf fl g f0 hs)[j + 1]? = _ at he
      rw [refFrame, he]
    rw [he] at hrimg
    exact Option.some.inj (h.image.symm.trans hrimg)
  refine ⟨p1.trans (hplace _), p2, fun hn => ?_, fun hn hnew => ?_, fun hn hold => ?_, fun p hp hc hc' =>
    p7 p hp (hcan hc) (hcan hc'), p8⟩
  · cases out with
    | none => exact absurd h.estimated hn
    | some v =>
      have hv : v = d img.1 - d rimg.1 := estimate_ref g hd f0 hs hfirst h.image h.estimated hrimg
      rw [p4 _ h.told, hplace, planePts_translate, planePts_map_add, hv]
      congr 3
      funext x
      ring
  · obtain rfl : out = none := Option.some.inj (h.estimated.symm.trans hn)
    rw [p5 h.told hnew, hplace, himg rfl]
  · obtain rfl : out = none := Option.some.inj (h.estimated.symm.trans hn)
    obtain ⟨⟨j, img', v, rfl, hj, hvj, -⟩, -, -⟩ := hB rfl
    obtain ⟨fr', hfr'⟩ : ∃ fr', fs[j]? = some fr' := by
      have := (List.getElem?_eq_some_iff.mp hk).1
      exact ⟨_, List.getElem?_eq_getElem (by omega)⟩
    obtain ⟨img2, out', h', -⟩ := hfs j fr' hfr'
    obtain rfl : img' = img2 := Option.some.inj (hj.symm.trans h'.image)
    obtain rfl : some v = out' := Option.some.inj (hvj.symm.trans h'.estimated)
    obtain ⟨rj, hrj⟩ := refFrame_image fl g f0 hs j
    have hv : v = d img'.1 - d rj.1 := estimate_ref g hd f0 hs hfirst hj hvj hrj
    refine ⟨j, img', rj, rfl, hj, hrj, ?_⟩
    rw [p6 j fr' _ h.told rfl hfr' h'.told hold, hplace, planePts_translate, planePts_map_add, hv, himg rfl]

end

/-! ### Where the claim fails, and examples -/

section examples

/-- as `toyFlow`, but optical flow does not find movements of more than 2 -/
def joltFlow : Flow ℚ Int Unit where
  corners := toyFlow.corners
  track := fun r next p => if 2 < |next - r| then none else toyFlow.track r next p

theorem joltFlow_true : TrueFlow joltFlow 1 toyPos := by
  rintro r next curr prev ⟨pts, mask, h⟩ hne f hf
  refine toyFlow_true r next curr prev ⟨pts, mask, ?_⟩ hne f hf
  unfold Flow.sparse at h ⊢
  by_cases hb : 2 < |next - r|
  · have : joltFlow.track r next = fun _ => none := by funext p; exact if_pos hb
    rw [this] at h
    split at h <;> cases h
  · have : joltFlow.track r next = toyFlow.track r next := by funext p; exact if_neg hb
    rw [this] at h
    exact h

/-- threshold 4 -/
def joltCfg {F : Type} (flt : FilterOps ℚ F) : Cfg ℚ Nat (WithTop ℚ) F Unit where
  dist := ofPoints flt cityBlock
  thr := ((4 : ℚ) : WithTop ℚ)
  fill := ((5 : ℚ) : WithTop ℚ)
  hitCounterMax := 4
  initDelay := 1
  pwMax := 4
  detThr := 0
  flt := flt
  pastLen := 2
  reid := none
  reidThr := 0
  reidFill := 1
  reidMax := none

/-- the positions of the camera; between frames 6 and 7 it moves by 3 -/
def joltVideo : List (Int × Option Unit) :=
  [(3, none), (5, none), (7, none), (9, none), (11, none), (13, none), (15, none), (18, none), (19, none)]

/-- detection `10 * k + t` shows target `t` in frame `k` -/
def joltHeap (r : Ref) : Det ℚ Nat Unit :=
  let p := planePts ((filmPlaces (filmTruth r)).map (· + (toyPos ((joltVideo.getD (r / 10) (3, none)).1) - toyPos 3)))
  ⟨p, none, filmLabels (filmTruth r), (), p, none⟩

/-- what the estimator returns -/
theorem jolt_outs : (MotionEstimator.create (K := ℚ) none).outputs joltFlow none (⟨1, 2⟩ : TransGetter ℚ).getter
    joltVideo = [some (0, 0), some (2, 0), some (4, 0), some (6, 0), some (8, 0), some (10, 0), some (12, 0), none,
      some (1, 0)] := by decide +kernel

/-- the calls: targets 0 and 1 are detected in all frames, or target 1 is not detected in frame 7 -/
def joltCalls (always : Bool) : List (List Ref × Option (ℚ × ℚ)) :=
  [([0, 1], some (0, 0)), ([10, 11], some (2, 0)), ([20, 21], some (4, 0)), ([30, 31], some (6, 0)),
    ([40, 41], some (8, 0)), ([50, 51], some (10, 0)), ([60, 61], some (12, 0)),
    (if always then [70, 71] else [70], none), ([80, 81], some (1, 0))]

def joltNext {F : Type} (flt : FilterOps ℚ F) (w : World ℚ Nat (WithTop ℚ) F Unit) (c : List Ref × Option (ℚ × ℚ)) :
    World ℚ Nat (WithTop ℚ) F Unit × Except Err (List (Obj ℚ Nat (WithTop ℚ) F)) :=
  update (joltCfg flt) w (some c.1) 1 (c.2.map fun v => translation [v.1, v.2])

/-- the states of the tracker -/
def joltWorld {F : Type} (flt : FilterOps ℚ F) (always : Bool) (n : Nat) : World ℚ Nat (WithTop ℚ) F Unit :=
  ((joltCalls always).take n).foldl (fun w c => (joltNext flt w c).1) ⟨joltHeap, 0, 0, 0, []⟩

/-- **C106** is false of the code: in frame 7, in which the estimator returns `None`, the object 1 gets the detection 70
of its target, which is at (15, 0) in the picture. Its estimate in the picture is (27, 0), with `NoFilter`, -/
theorem C106_false_estimate : (joltHeap 70).points.data = [15, 0] ∧
    ∃ o ∈ (joltWorld noFilterOps true 8).objs, o.id = some 1 ∧ o.lastDet = 70 ∧
      (o.estimate noFilterOps).data = [27, 0] := by decide +kernel

/-- **C106** ... a target that is not detected in frame 7 loses its id: the detection 81 of target 1 in frame 8, in which
there is an estimate again, goes to a new object, though the object 2 of this target is still there and would have
been matched without the missing estimate (C103), -/
theorem C106_false_missed : filmTruth 81 = 1 ∧
    (∃ o ∈ (joltWorld noFilterOps false 7).objs, o.id = some 2 ∧ filmTruth o.lastDet = 1 ∧ o.hitCounter = 4) ∧
    (∃ o ∈ (joltWorld noFilterOps false 9).objs, o.id = some 2 ∧ filmTruth o.lastDet = 1 ∧ o.lastDet ≠ 81 ∧
      o.hitCounter = 2) ∧
    ∃ o ∈ (joltWorld noFilterOps false 9).objs, o.id = none ∧ o.lastDet = 81 := by decide +kernel

/-- **C106** ... and with the default filter also targets that are detected in every frame lose their ids, and estimates
stay wrong: the detection 80 of target 0, at (16, 0) in the picture, goes to a new object, and the object 1 of this
target is left behind, more than 5 pixels away. -/
theorem C106_false_filter : (joltHeap 80).points.data = [16, 0] ∧
    (∃ o ∈ (joltWorld (okfOps okfDefaults) true 8).objs, o.id = some 1 ∧ filmTruth o.lastDet = filmTruth 80) ∧
    (∃ o ∈ (joltWorld (okfOps okfDefaults) true 9).objs, o.id = none ∧ o.lastDet = 80) ∧
    ∃ o ∈ (joltWorld (okfOps okfDefaults) true 9).objs, o.id = some 1 ∧ filmTruth o.lastDet = filmTruth 80 ∧
      o.lastDet ≠ 80 ∧ ((o.estimate (okfOps okfDefaults)).data.getD 0 0) < 11 := by decide +kernel

/-- the calls of `joltWorld noFilterOps true` -/
def joltFrame (n : Nat) : Frame ℚ Nat (WithTop ℚ) (NoFilter ℚ) Unit :=
  let c := (joltCalls true).getD n ([], none)
  ⟨some c.1, 1, c.2.map fun v => translation [v.1, v.2], joltWorld noFilterOps true n, joltWorld noFilterOps true (n + 1),
    (joltNext noFilterOps (joltWorld noFilterOps true n) c).2⟩

def joltFrames : List (Frame ℚ Nat (WithTop ℚ) (NoFilter ℚ) Unit) := (List.range 9).map joltFrame

theorem joltFrames_trace : Trace (joltCfg noFilterOps) (joltWorld noFilterOps true 0) joltFrames
    (joltWorld noFilterOps true 9) :=
  .call (some [80, 81]) 1 (some (translation [1, 0])) (.call (some [70, 71]) 1 none
    (.call (some [60, 61]) 1 (some (translation [12, 0])) (.call (some [50, 51]) 1 (some (translation [10, 0]))
    (.call (some [40, 41]) 1 (some (translation [8, 0])) (.call (some [30, 31]) 1 (some (translation [6, 0]))
    (.call (some [20, 21]) 1 (some (translation [4, 0])) (.call (some [10, 11]) 1 (some (translation [2, 0]))
    (.call (some [0, 1]) 1 (some (translation [0, 0])) (.nil _)))))))))

theorem jolt_far (t t' : Fin 3) (hl : filmLabels t = filmLabels t') (x : WithTop ℚ) (m : ℚ × ℚ) (hm : m = 0 ∨ m = (3, 0))
    (hx : cityBlock (planePts ((filmPlaces t).map (· + m))) (planePts (filmPlaces t')) = some (some x)) :
    x < (joltCfg (noFilterOps (K := ℚ))).thr ↔ t = t' := by
  have : ∀ t t' : Fin 3, filmLabels t = filmLabels t' →
      ∃ x, cityBlock (planePts ((filmPlaces t).map (· + m))) (planePts (filmPlaces t')) = some (some x) ∧
        (x < (joltCfg (noFilterOps (K := ℚ))).thr ↔ t = t') := by
    intro t t'
    rcases hm with rfl | rfl <;> fin_cases t <;> fin_cases t' <;> intro h <;>
      first | exact absurd h (by decide) | exact ⟨_, rfl, by decide +kernel⟩
  obtain ⟨y, hy, h⟩ := this t t' hl
  rw [hy] at hx
  cases hx
  exact h

theorem jolt_taken (k : Nat) (fr : Frame ℚ Nat (WithTop ℚ) (NoFilter ℚ) Unit) (hk : joltFrames[k]? = some fr) :
    ∃ img out, Taken joltFlow (⟨1, 2⟩ : TransGetter ℚ) toyPos (3, none) joltVideo.tail filmPlaces filmLabels
        filmTruth k img out fr ∧
      (out = none → Blinks cityBlock (joltCfg (noFilterOps (K := ℚ))).thr (joltCfg (noFilterOps (K := ℚ))).detThr joltFlow
        (⟨1, 2⟩ : TransGetter ℚ) toyPos (3, none) joltVideo.tail filmPlaces filmLabels filmTruth k img fr) := by
  have hlt : k < 9 := (List.getElem?_eq_some_iff.mp hk).1
  obtain rfl : joltFrame k = fr := by
    unfold joltFrames at hk
    rw [List.getElem?_map, List.getElem?_range hlt] at hk
    exact Option.some.inj hk
  clear hk
  refine ⟨joltVideo.getD k (3, none), ((joltCalls true).getD k ([], none)).2, ⟨?_, ?_, rfl, by simp [joltFrame], ?_, ?_, ?_,
    ?_, ?_, ?_, ?_⟩, fun hn => ?_⟩
  · change joltVideo[k]? = _
    revert k; decide
  · change (_ : List (Option (ℚ × ℚ)))[k]? = _
    rw [show ((3 : Int), (none : Option Unit)) :: joltVideo.tail = joltVideo from rfl, jolt_outs]
    revert k; decide
  · revert k; decide
  · revert k; decide
  · revert k; decide +kernel
  · revert k; decide +kernel
  · revert k; decide +kernel
  · revert k; decide +kernel
  · revert k; decide +kernel
  · obtain rfl : k = 7 := by revert hn; revert k; decide
    refine ⟨⟨6, (15, none), (12, 0), rfl, rfl, ?_, ?_⟩, ?_, ?_⟩
    · rw [show ((3 : Int), (none : Option Unit)) :: joltVideo.tail = joltVideo from rfl, jolt_outs]; rfl
    · intro r hr t hl x hx
      exact jolt_far _ _ hl x _ (Or.inr (by decide +kernel)) hx
    · intro r hr i hi s hs
      exact nomatch (show (none : Option (List ℚ)) = some s from (by
        have : ∀ r ∈ given (joltFrame 7), ((joltFrame 7).before.heap r).scores = none := by decide +kernel
        rw [← this r hr]; exact hs))
    · decide +kernel

theorem jolt_shapedDist : ShapedDist noFilterOps (fun _ : Nat => (1, 2)) (joltCfg (noFilterOps (K := ℚ))).dist := by
  intro d v _ hp hq
  obtain ⟨x, y, e⟩ := List.length_eq_two.mp hp.2.2
  obtain ⟨x', y', e'⟩ := List.length_eq_two.mp hq.2.2
  simp only [cityBlock, e, e']
  exact ⟨_, rfl⟩

/-- C106: with `NoFilter` and all targets detected, estimates are exact again in frame 8, with the same ids -/
example : ∀ o ∈ (joltWorld noFilterOps true 9).objs, o.estimate noFilterOps =
    planePts ((filmPlaces (filmTruth o.lastDet)).map (· + (toyPos 19 - toyPos 3))) := by
  obtain ⟨_, _, img, rimg, h1, h2, h3⟩ := C106_movie_partial (cfg := joltCfg noFilterOps) rfl rfl rfl rfl (by decide +kernel)
    jolt_shapedDist cityBlock_unmoved (⟨1, 2⟩ : TransGetter ℚ) joltFlow_true (3, none) joltVideo.tail rfl
    (by decide +kernel) (q := filmPlaces) (label := filmLabels) (by decide +kernel)
    (fun t t' hl x hx => jolt_far t t' hl x 0 (Or.inl rfl) (by simpa using hx)) (truth := filmTruth)
    ⟨rfl, rfl, rfl⟩ joltFrames_trace jolt_taken 8 (joltFrame 8) rfl
  obtain rfl : img = (19, none) := (Option.some.inj h1).symm
  intro o ho
  exact (h3 o ho).2.2.1 (by
    rw [show ((3 : Int), (none : Option Unit)) :: joltVideo.tail = joltVideo from rfl, jolt_outs]; decide)

example : (joltWorld noFilterOps true 9).objs.map (fun o => (o.id, o.lastDet, (o.estimate noFilterOps).data)) =
    [(some 1, 80, [16, 0]), (some 2, 81, [26, 5])] := by decide +kernel

end examples

end Norfair.Props
