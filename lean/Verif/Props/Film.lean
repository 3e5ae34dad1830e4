import Verif.Props.Told
import Verif.Spec.Film
import Verif.Spec.Affine
import Verif.Props.Stabilized

/-! C103: a still scene filmed by a camera that may move. -/

set_option linter.unusedSectionVars false

namespace Norfair.Props

open Norfair Norfair.Spec Norfair.Toy

variable {K L D F X T : Type}

section
variable [LinearOrder K] [Zero K] [LinearOrder D] [OrderTop D] [Zero D] [DecidableEq L]

/-- where the detections of a picture are after the call -/
theorem film_placed {S : Scene K L T} {shape : L → Nat × Nat} {moving : Prop} {f : Pts K → Pts K → Option (Option D)}
    {thr : D} {truth : Ref → T} {fr : Frame K L D F X} (hF : Films S shape moving f thr truth fr) {r : Ref}
    (hr : r ∈ given fr) : (startHeap fr.before fr.dets fr.ct r).absPoints = S.place (truth r) := by
  have hc := hF.camera
  have hp := (hF.new r hr).trans (hF.points r hr)
  have hd := hF.dets
  have hn := hF.nodup
  unfold given at hr hn
  unfold startHeap
  cases hct : fr.ct with
  | none =>
    rw [hct] at hp
    exact hp
  | some c =>
    rw [hct] at hp hd hc
    cases hdd : fr.dets with
    | none => rw [hdd] at hr; cases hr
    | some l =>
      rw [hdd] at hr hn
      obtain ⟨_, e⟩ := foldl_transform_apply c l fr.before.heap hn r
      rw [if_pos (show r ∈ l from hr)] at e
      show ((l.foldl (transformDet c) fr.before.heap) r).absPoints = _
      rw [e, hp]
      exact hc.2.2 (truth r)

theorem film_shaped {S : Scene K L T} {shape : L → Nat × Nat} (hS : ∀ t, HasShape (shape (S.label t)) (S.place t))
    {moving : Prop} {f : Pts K → Pts K → Option (Option D)}
    {thr : D} {truth : Ref → T} {fr : Frame K L D F X} (hF : Films S shape moving f thr truth fr) :
    CallShaped shape (given fr) fr.ct fr.before.heap := by
  have hc := hF.camera
  have hk : ∀ c, fr.ct = some c → KeepsBoth shape c := by
    intro c e
    rw [e] at hc
    exact hc.2.1
  have hp : ∀ r ∈ given fr, HasShape (shape (fr.before.heap r).label) (fr.before.heap r).points := by
    intro r hr
    rw [hF.label r hr, hF.points r hr]
    cases hct : fr.ct with
    | none => exact hS _
    | some c => exact (hk c hct _ _ (hS _)).2
  refine ⟨⟨fun c e a p h1 h2 h3 => ?_, fun r hr => ?_⟩, hk, hp⟩
  · obtain ⟨q1, q2, q3⟩ := (hk c e a p ⟨h1, h2, by rw [h3, h1, h2]⟩).1
    exact ⟨q1.trans h1.symm, q2.trans h2.symm, q3.trans (by rw [h3, h1, h2])⟩
  · obtain ⟨q1, q2, q3⟩ := hp r hr
    refine ⟨?_, ?_, ?_, ?_⟩
    · rw [hF.new r hr]; exact q1
    · rw [hF.new r hr]; exact q2
    · rw [hF.new r hr, q1, q2]; exact q3
    · intro s hs
      rw [hF.new r hr, q1, hF.label r hr]
      exact hF.scores r hr s hs

/-- what is known of an object of the scene -/
structure OfScene (flt : FilterOps K F) (S : Scene K L T) (moving : Prop) (truth : Ref → T) (o : Obj K L D F) :
    Prop where
  rest : AtRest flt (S.place (truth o.lastDet)).data o.filter
  label : o.label = S.label (truth o.lastDet)
  camera : ¬ moving → o.absToRel = none

/-- the estimate of a resting object -/
theorem OfScene.positions {cfg : Cfg K L D F X} {Ok : F → Prop} {S : Scene K L T}
    {shape : L → Nat × Nat} (hS : ∀ t, HasShape (shape (S.label t)) (S.place t)) {moving : Prop} {truth : Ref → T}
    {o : Obj K L D F} (h : OfScene cfg.flt S moving truth o) (hP : PointsOk cfg.flt Ok shape o) :
    o.positions cfg.flt = S.place (truth o.lastDet) ∧ (o.velocity cfg.flt).data = List.replicate o.dimZ 0 := by
  obtain ⟨q1, q2, q3⟩ := hS (truth o.lastDet)
  have hl : (S.place (truth o.lastDet)).data.length = o.dimZ := by
    rw [q3, ← h.label, ← hP.n, ← hP.dim]; rfl
  have hr := h.rest
  unfold AtRest at hr
  constructor
  · unfold Obj.positions
    rw [hr, List.take_left' hl, hP.n, hP.dim, h.label, ← q1, ← q2]
  · unfold Obj.velocity
    rw [hr, List.drop_left' hl, hP.dimZ]

/-- the distances of one picture tell its targets apart -/
theorem film_told {cfg : Cfg K L D F X} {f : Pts K → Pts K → Option (Option D)} {Ok : F → Prop}
    (hSt : StaticLaws cfg.flt Ok) {S : Scene K L T} {shape : L → Nat × Nat}
    (hS : ∀ t, HasShape (shape (S.label t)) (S.place t)) {moving : Prop} {truth : Ref → T} {fr : Frame K L D F X}
    (hF : Films S shape moving f cfg.thr truth fr)
    (hobj : ∀ o ∈ fr.before.objs, PointsOk cfg.flt Ok shape o ∧ OfScene cfg.flt S moving truth o) :
    TellsApart cfg (fun d v => f d.points (v.obj.estimate cfg.flt)) truth fr := by
  refine ⟨hF.nodup, hF.once, hF.fresh, ?_⟩
  intro h hh r hr o ho _ x hx
  obtain ⟨hP, hO⟩ := hobj o ho
  obtain ⟨a, ha⟩ := hh r
  obtain ⟨b, hb⟩ := startHeap_fields fr.before fr.dets fr.ct r
  have hpts : (h r).points = seenAt fr.ct (S.place (truth r)) := by
    rw [ha]; simp only [hb]; exact hF.points r hr
  have hlab : (h r).label = S.label (truth r) := by rw [ha]; simp only [hb]; exact hF.label r hr
  set p := (o.trackerStep cfg).updateCT fr.ct with hp
  have hsp : SteppedPoints cfg o p := stepped_points cfg fr.ct o
  have hplab : p.label = S.label (truth o.lastDet) := hsp.label.trans hO.label
  obtain ⟨q1, q2, q3⟩ := hS (truth o.lastDet)
  have hl : (S.place (truth o.lastDet)).data.length = o.dimZ := by
    rw [q3, ← hO.label, ← hP.n, ← hP.dim]; rfl
  have hrest : AtRest cfg.flt (S.place (truth o.lastDet)).data p.filter := by
    rw [hsp.filter]
    exact hSt.predict _ _ hP.ok (hl.trans hP.dimZ.symm) hO.rest
  have hpos : p.positions cfg.flt = S.place (truth o.lastDet) := by
    unfold Obj.positions
    rw [hrest, List.take_left' (hl.trans hsp.dimZ.symm), hsp.numPoints, hsp.dimPoints, hP.n, hP.dim, hO.label,
      ← q1, ← q2]
  have hest : p.estimate cfg.flt = seenAt fr.ct (S.place (truth o.lastDet)) := by
    have hc := hF.camera
    cases hct : fr.ct with
    | none =>
      rw [hct] at hc
      have : p.absToRel = none := by rw [hp, hct]; exact hO.camera hc
      unfold Obj.estimate
      rw [this]
      exact hpos
    | some c =>
      have : p.absToRel = some c.absToRel := by rw [hp, hct]; rfl
      unfold Obj.estimate
      rw [this]
      show c.absToRel (p.positions cfg.flt) = _
      rw [hpos]; rfl
  rcases hx with ⟨hll, hfx⟩ | ⟨hll, rfl⟩
  · change f (h r).points (p.estimate cfg.flt) = _ at hfx
    rw [hpts, hest] at hfx
    refine hF.apart r hr _ ?_ x hfx
    rw [← hlab, ← hplab]; exact hll
  · constructor
    · intro hlt; exact absurd hlt not_top_lt
    · intro e
      refine absurd ?_ hll
      show (h r).label = p.label
      rw [hlab, hplab, e]

/-- one picture: what is known of the objects after the call -/
theorem film_step {cfg : Cfg K L D F X} {f : Pts K → Pts K → Option (Option D)} {Ok : F → Prop}
    (hf : cfg.dist = ofPoints cfg.flt f) (hre : cfg.reid = none)
    (hL : FilterLaws cfg.flt Ok) (hSt : StaticLaws cfg.flt Ok) {S : Scene K L T} {shape : L → Nat × Nat}
    (hS : ∀ t, HasShape (shape (S.label t)) (S.place t)) {moving : Prop} {truth : Ref → T} {fr : Frame K L D F X}
    (hr2 : Reachable cfg fr.before) {act : List (Obj K L D F)}
    (hup : update cfg fr.before fr.dets fr.period fr.ct = (fr.after, .ok act))
    (hFl : Films S shape moving f cfg.thr truth fr)
    (hobj : ∀ o ∈ fr.before.objs, PointsOk cfg.flt Ok shape o ∧ OfScene cfg.flt S moving truth o)
    (hone : OnePerTarget cfg truth fr.before) : ∀ o' ∈ fr.after.objs, OfScene cfg.flt S moving truth o' := by
  obtain ⟨-, s2, -⟩ := told_step hf hre hr2 hup (film_told hSt hS hFl hobj) hone
  obtain ⟨dets, period, ct, w2, w3, out⟩ := fr
  simp only at hr2 hup hobj hone s2 ⊢
  intro o' ho'
  obtain ⟨_, _, hits, merges, news, U⟩ := update_ok hr2.inv.nodup hup
  -- the transformation
  have hcam : ¬ moving → o'.absToRel = none := by
    intro hm
    have hc := hFl.camera
    cases ct with
    | some c => exact absurd hc.1 hm
    | none =>
      rcases C26_transformation_kept hr2 dets period (by rw [hup]; exact ho') with ⟨o, ho, _, e⟩ | ⟨_, e⟩
      · rw [e]; exact (hobj o ho).2.camera hm
      · exact e
  by_cases hnew : o'.initId ∈ w2.keys
  · obtain ⟨o, ho, hk⟩ := List.mem_map.mp hnew
    have hk : o.initId = o'.initId := hk
    obtain ⟨hP1, hO⟩ := hobj o ho
    have htr := s2 o ho o' ho' hk
    obtain ⟨q1, q2, q3⟩ := hS (truth o.lastDet)
    have hl : (S.place (truth o.lastDet)).data.length = cfg.flt.dimZ o.filter := by
      rw [q3, ← hO.label, ← hP1.n, ← hP1.dim, hP1.dimZ]; rfl
    have hpred := hSt.predict o.filter _ hP1.ok hl hO.rest
    refine ⟨?_, ?_, hcam⟩
    · rw [htr]
      rcases update_points hr2.inv hup ho ho' hk (Or.inl hre) hP1.hits with ⟨v, rfl⟩ |
        ⟨r, hrm, hlast, d, hds, _, hda, _, p, o'', hPp, hSn, g1, g2, g3, g4, _⟩
      · show AtRest cfg.flt _ (stepped cfg ct o).filter
        rw [(stepped_points cfg ct o).filter]
        exact hpred
      · rw [g3]
        refine SensorsOk.rest_static hL hSt hSn (by rw [hPp.filter]; exact (hL.predict _ hP1.ok).1) ?_
          (by rw [hPp.filter]; exact hpred)
        rw [hda, show (startHeap w2 dets ct r).absPoints = _ from film_placed hFl hrm, ← hlast, htr]
    · rw [htr, ← hO.label]
      have hre' : Reaches' cfg w2 w3 := by
        have := Reaches.call (cfg := cfg) (E := fun _ _ => True) (P := fun _ _ _ _ => True) dets period ct (.refl w2) trivial
        rw [hup] at this
        exact this
      exact (C07_identity_stable hr2 hre' ho ho' hk).1
  · obtain ⟨hm, -, -, hrest⟩ := C34_born_at_rest hL hr2 hup (film_shaped hS hFl).ok ho' hnew
    have hpl : (w3.heap o'.lastDet).absPoints = S.place (truth o'.lastDet) := by
      rw [(U.heap.pts o'.lastDet).2]
      exact film_placed hFl hm
    refine ⟨by rw [← hpl]; exact hrest, ?_, hcam⟩
    rw [(C11_new_objects hr2 hup ho' fun o ho e => hnew (e ▸ List.mem_map_of_mem ho)).2.2.2.2.2.2.2]
    exact hFl.label _ hm

/-- **C103** Everything about a film of a still scene, by induction over the calls. -/
theorem film_inv {cfg : Cfg K L D F X} {f : Pts K → Pts K → Option (Option D)} {Ok : F → Prop}
    (hf : cfg.dist = ofPoints cfg.flt f) (hre : cfg.reid = none) (hfill : cfg.thr ≤ cfg.fill)
    (hL : FilterLaws cfg.flt Ok) (hSt : StaticLaws cfg.flt Ok) {S : Scene K L T} {shape : L → Nat × Nat}
    (hd : ShapedDist cfg.flt shape cfg.dist)
    (hS : ∀ t, HasShape (shape (S.label t)) (S.place t)) {moving : Prop} {truth : Ref → T}
    {w0 w : World K L D F X} (h0 : w0.Initial) {fs : List (Frame K L D F X)} (ht : Trace cfg w0 fs w)
    (hF : ∀ fr ∈ fs, Films S shape moving f cfg.thr truth fr) :
    AlwaysTold cfg (fun d v => f d.points (v.obj.estimate cfg.flt)) truth fs ∧
    (∀ o ∈ w.objs, PointsOk cfg.flt Ok shape o ∧ OfScene cfg.flt S moving truth o) := by
  have hs : ∀ a b, Compat cfg a b → shape a = shape b := by
    intro a b hab
    unfold Compat at hab
    rw [hf] at hab
    exact congrArg shape hab
  obtain ⟨hsucc, -⟩ := C67_trace hL hs hd hre hfill h0 ht fun fr hfr => ⟨film_shaped hS (hF fr hfr), (hF fr hfr).dets⟩
  induction ht with
  | nil =>
    refine ⟨fun fr h => absurd h (by simp), fun o ho => ?_⟩
    rw [h0.1] at ho
    cases ho
  | env heap g _ he ih => exact ih hF hsucc
  | @call fs w2 dets period ct ht ih =>
    have hF1 : ∀ fr ∈ fs, Films S shape moving f cfg.thr truth fr := fun fr h => hF fr (List.mem_append_left _ h)
    obtain ⟨ih1, ih2⟩ := ih hF1 fun fr h => hsucc fr (List.mem_append_left _ h)
    have hFl := hF _ (List.mem_append_right _ (List.mem_singleton.mpr rfl))
    obtain ⟨act, hact⟩ := hsucc _ (List.mem_append_right _ (List.mem_singleton.mpr rfl))
    have hT := film_told hSt hS hFl ih2
    have hr2 : Reachable cfg w2 := ⟨w0, h0, ht.reaches⟩
    have hone := (told_from hf hre ⟨w0, h0, .refl _⟩ (onePerTarget_initial h0) ht ih1).1
    have hup : update cfg w2 dets period ct = ((update cfg w2 dets period ct).1, .ok act) := Prod.ext rfl hact
    refine ⟨?_, ?_⟩
    · intro fr hfr
      rcases List.mem_append.mp hfr with h | h
      · exact ih1 fr h
      · rw [List.mem_singleton.mp h]
        exact ⟨⟨act, hact⟩, hT⟩
    have hwf : WfReaches cfg shape w0 (update cfg w2 dets period ct).1 := by
      have := (C67_trace hL hs hd hre hfill h0 (Trace.call dets period ct ht) fun fr hfr =>
        ⟨film_shaped hS (hF fr hfr), (hF fr hfr).dets⟩).2
      exact this.mono (fun _ _ h => h) fun _ _ _ _ h => h.ok
    intro o' ho'
    have hP := WfReaches.pointsOk hL hs h0 hwf o' ho'
    exact ⟨hP, film_step hf hre hL hSt hS hr2 hup hFl ih2 hone o' ho'⟩

/-- the calls up to a given one -/
theorem _root_.Norfair.Trace.upTo {cfg : Cfg K L D F X} {w0 w : World K L D F X} {fs : List (Frame K L D F X)}
    (h : Trace cfg w0 fs w) {k : Nat} {fr : Frame K L D F X} (hk : fs[k]? = some fr) :
    Trace cfg w0 (fs.take k ++ [fr]) fr.after := by
  induction h with
  | nil => simp at hk
  | env heap g _ he ih => exact ih hk
  | @call fs w2 dets period ct ht ih =>
    rcases Nat.lt_or_ge k fs.length with h | h
    · rw [List.getElem?_append_left h] at hk
      rw [List.take_append_of_le_length (by omega)]
      exact ih hk
    · have hk' := (List.getElem?_eq_some_iff.mp hk).1
      simp only [List.length_append, List.length_singleton] at hk'
      obtain rfl : k = fs.length := by omega
      rw [List.getElem?_append_right le_rfl, Nat.sub_self, List.getElem?_cons_zero, Option.some.injEq] at hk
      subst hk
      rw [List.take_left]
      exact .call dets period ct ht

/-- **C103** A still scene is filmed: in every call the detections of any of its targets are where the camera, moved
in any way, sees them (with any scores), and the camera sees targets of equal label only at distances not below the
threshold from each other. Then no call raises; -/
theorem C103_returns {cfg : Cfg K L D F X} {f : Pts K → Pts K → Option (Option D)} {Ok : F → Prop}
    (hf : cfg.dist = ofPoints cfg.flt f) (hre : cfg.reid = none) (hfill : cfg.thr ≤ cfg.fill)
    (hL : FilterLaws cfg.flt Ok) (hSt : StaticLaws cfg.flt Ok) {S : Scene K L T} {shape : L → Nat × Nat}
    (hd : ShapedDist cfg.flt shape cfg.dist)
    (hS : ∀ t, HasShape (shape (S.label t)) (S.place t)) {moving : Prop} {truth : Ref → T}
    {w0 w : World K L D F X} (h0 : w0.Initial) {fs : List (Frame K L D F X)} (ht : Trace cfg w0 fs w)
    (hF : ∀ fr ∈ fs, Films S shape moving f cfg.thr truth fr) : ∀ fr ∈ fs, Succeeds fr := fun fr hfr =>
  ((film_inv hf hre hfill hL hSt hd hS h0 ht hF).1 fr hfr).1

/-- **C103** ... the estimate of every object is exact, also if it is not detected: in absolute coordinates it is
always at the place of its target, with velocity 0, and in the picture it is where the camera sees this place now; -/
theorem C103_exact {cfg : Cfg K L D F X} {f : Pts K → Pts K → Option (Option D)} {Ok : F → Prop}
    (hf : cfg.dist = ofPoints cfg.flt f) (hre : cfg.reid = none) (hfill : cfg.thr ≤ cfg.fill)
    (hL : FilterLaws cfg.flt Ok) (hSt : StaticLaws cfg.flt Ok) {S : Scene K L T} {shape : L → Nat × Nat}
    (hd : ShapedDist cfg.flt shape cfg.dist)
    (hS : ∀ t, HasShape (shape (S.label t)) (S.place t)) {moving : Prop} {truth : Ref → T}
    {w0 w : World K L D F X} (h0 : w0.Initial) {fs : List (Frame K L D F X)} (ht : Trace cfg w0 fs w)
    (hF : ∀ fr ∈ fs, Films S shape moving f cfg.thr truth fr) {fr : Frame K L D F X} (hfr : fr ∈ fs)
    {o : Obj K L D F} (ho : o ∈ fr.after.objs) :
    o.positions cfg.flt = S.place (truth o.lastDet) ∧ (o.velocity cfg.flt).data = List.replicate o.dimZ 0 ∧
    o.label = S.label (truth o.lastDet) ∧ o.estimate cfg.flt = seenAt fr.ct (S.place (truth o.lastDet)) ∧
    (moving → o.getEstimate cfg.flt true = some (S.place (truth o.lastDet))) := by
  obtain ⟨k, hk⟩ := List.mem_iff_getElem?.mp hfr
  have htk := ht.upTo hk
  have hsub : ∀ fr' ∈ fs.take k ++ [fr], fr' ∈ fs := by
    intro fr' h
    rcases List.mem_append.mp h with h | h
    · exact List.mem_of_mem_take h
    · rw [List.mem_singleton.mp h]; exact hfr
  obtain ⟨hP, hO⟩ := (film_inv hf hre hfill hL hSt hd hS h0 htk fun fr' h => hF fr' (hsub fr' h)).2 o ho
  obtain ⟨p1, p2⟩ := hO.positions hS hP
  refine ⟨p1, p2, hO.label, ?_⟩
  have hc := (hF fr hfr).camera
  have hdets := (hF fr hfr).dets
  obtain ⟨htl, hup⟩ := htk.last
  have hr : Reachable cfg fr.before := ⟨w0, h0, htl.reaches⟩
  have hup : (update cfg fr.before fr.dets fr.period fr.ct).1 = fr.after := by rw [hup]
  rw [← hup] at ho
  cases hct : fr.ct with
  | none =>
    rw [hct] at hc
    refine ⟨?_, fun hm => absurd hm hc⟩
    unfold Obj.estimate
    rw [hO.camera hc]
    exact p1
  | some c =>
    rw [hct] at ho hdets
    cases hdd : fr.dets with
    | none => rw [hdd] at hdets; simp at hdets
    | some l =>
      rw [hdd] at ho
      obtain ⟨e1, _, e3⟩ := C26_estimates_follow_camera hr l fr.period c ho
      have hpos : (⟨o.numPoints, o.dimPoints, (cfg.flt.getX o.filter).take (o.dimPoints * o.numPoints)⟩ : Pts K) =
          S.place (truth o.lastDet) := p1
      rw [hpos] at e1 e3
      exact ⟨e3, fun _ => e1⟩

/-- **C103** ... no two objects that can be matched are of one target; -/
theorem C103_one_per_target {cfg : Cfg K L D F X} {f : Pts K → Pts K → Option (Option D)} {Ok : F → Prop}
    (hf : cfg.dist = ofPoints cfg.flt f) (hre : cfg.reid = none) (hfill : cfg.thr ≤ cfg.fill)
    (hL : FilterLaws cfg.flt Ok) (hSt : StaticLaws cfg.flt Ok) {S : Scene K L T} {shape : L → Nat × Nat}
    (hd : ShapedDist cfg.flt shape cfg.dist)
    (hS : ∀ t, HasShape (shape (S.label t)) (S.place t)) {moving : Prop} {truth : Ref → T}
    {w0 w : World K L D F X} (h0 : w0.Initial) {fs : List (Frame K L D F X)} (ht : Trace cfg w0 fs w)
    (hF : ∀ fr ∈ fs, Films S shape moving f cfg.thr truth fr) :
    ∀ o ∈ w.objs, ∀ o' ∈ w.objs, CanMatch cfg.reidMax o → CanMatch cfg.reidMax o' →
      truth o.lastDet = truth o'.lastDet → o = o' :=
  C94_one_per_target hf hre h0 ht (film_inv hf hre hfill hL hSt hd hS h0 ht hF).1

/-- **C103** ... an object, and so an id, never changes its target; -/
theorem C103_never_switched {cfg : Cfg K L D F X} {f : Pts K → Pts K → Option (Option D)} {Ok : F → Prop}
    (hf : cfg.dist = ofPoints cfg.flt f) (hre : cfg.reid = none) (hfill : cfg.thr ≤ cfg.fill)
    (hL : FilterLaws cfg.flt Ok) (hSt : StaticLaws cfg.flt Ok) {S : Scene K L T} {shape : L → Nat × Nat}
    (hd : ShapedDist cfg.flt shape cfg.dist)
    (hS : ∀ t, HasShape (shape (S.label t)) (S.place t)) {moving : Prop} {truth : Ref → T}
    {w0 w1 w2 : World K L D F X} (h0 : w0.Initial) {fs gs : List (Frame K L D F X)} (ht : Trace cfg w0 fs w1)
    (ht' : Trace cfg w1 gs w2) (hF : ∀ fr ∈ fs ++ gs, Films S shape moving f cfg.thr truth fr)
    {o1 o2 : Obj K L D F} (ho1 : o1 ∈ w1.objs) (ho2 : o2 ∈ w2.objs)
    (hk : o1.initId = o2.initId ∨ o1.id ≠ none ∧ o1.id = o2.id) : truth o1.lastDet = truth o2.lastDet :=
  C94_never_switched hf hre h0 ht ht' (film_inv hf hre hfill hL hSt hd hS h0 (ht.append ht') hF).1 ho1 ho2 hk

/-- **C103** ... and a target that was out of the picture for `n` calls gets its object and id back if `n` is at
most the hit counter that the object had. -/
theorem C103_found_again {cfg : Cfg K L D F X} {f : Pts K → Pts K → Option (Option D)} {Ok : F → Prop}
    (hf : cfg.dist = ofPoints cfg.flt f) (hre : cfg.reid = none) (hmax : cfg.reidMax = none)
    (hfill : cfg.thr ≤ cfg.fill)
    (hL : FilterLaws cfg.flt Ok) (hSt : StaticLaws cfg.flt Ok) {S : Scene K L T} {shape : L → Nat × Nat}
    (hd : ShapedDist cfg.flt shape cfg.dist)
    (hS : ∀ t, HasShape (shape (S.label t)) (S.place t)) {moving : Prop} {truth : Ref → T}
    {w0 w1 w2 : World K L D F X} (h0 : w0.Initial) {fs gs : List (Frame K L D F X)} {fr : Frame K L D F X}
    (ht : Trace cfg w0 fs w1) (ht' : Trace cfg w1 (gs ++ [fr]) w2)
    (hF : ∀ fr' ∈ fs ++ gs ++ [fr], Films S shape moving f cfg.thr truth fr')
    {o : Obj K L D F} (ho : o ∈ w1.objs) (hpos : 0 ≤ o.hitCounter)
    (hmiss : ∀ g ∈ gs, ∀ r ∈ given g, truth r ≠ truth o.lastDet)
    {r : Ref} (hr : r ∈ given fr) (hrt : truth r = truth o.lastDet) :
    ∃ o' ∈ fr.after.objs, o'.lastDet = r ∧ (∀ p ∈ fr.after.objs, p.lastDet = r → p = o') ∧
      ((gs.length : Int) ≤ o.hitCounter → o'.initId = o.initId ∧ (o.id ≠ none → o'.id = o.id)) ∧
      (o.hitCounter < gs.length → o'.initId ≠ o.initId ∧ fr.before.initCount < o'.initId) := by
  have hT := (film_inv hf hre hfill hL hSt hd hS h0 (ht.append ht') (by
    rw [← List.append_assoc]; exact hF)).1
  rw [← List.append_assoc] at hT
  exact C94_found_again hf hre hmax h0 ht ht' hT ho hpos hmiss hr hrt

end

/-! ### The motion estimator and the tracker together -/

section
variable [Field K] [LinearOrder K] [IsStrictOrderedRing K] [FloorRing K] [LinearOrder D] [OrderTop D] [Zero D]
  [DecidableEq L] {Img Mask : Type}

theorem translation_camera (S : Scene K L T) (shape : L → Nat × Nat) (v : List K) :
    Camera S shape True (some (translation v)) := by
  refine ⟨trivial, fun a p hp => ?_, fun t => (C44_round_trip v _).2⟩
  obtain ⟨h1, h2, h3⟩ := hp
  exact ⟨⟨h1, h2, by simpa [translation] using h3⟩, ⟨h1, h2, by simpa [translation] using h3⟩⟩

theorem planePts_shape (q : List (K × K)) : HasShape (q.length, 2) (planePts q) := by
  refine ⟨rfl, rfl, ?_⟩
  show (q.flatMap fun z => [z.1, z.2]).length = _
  induction q with
  | nil => rfl
  | cons a l ih =>
    rw [List.flatMap_cons, List.length_append, ih]
    simp only [List.length_cons, List.length_nil]
    omega

theorem movie_films {fl : Flow K Img Mask} (g : TransGetter K) {d : Img → K × K} (hd : TrueFlow fl g.bin d)
    (f0 : Img × Option Mask) (hs : List (Img × Option Mask)) {f : Pts K → Pts K → Option (Option D)} {thr : D}
    {shape : L → Nat × Nat} (hun : Unmoved f shape) {q : T → List (K × K)} {label : T → L}
    (hq : ∀ t, shape (label t) = ((q t).length, 2))
    (hfar : ∀ t t', label t = label t' → ∀ x, f (planePts (q t)) (planePts (q t')) = some (some x) →
      (x < thr ↔ t = t')) {truth : Ref → T} {fs : List (Frame K L D F X)}
    (hfs : ∀ k fr, fs[k]? = some fr → Shot fl g d f0 hs q label truth k fr) :
    (∀ fr ∈ fs, Films ⟨fun t => planePts (q t), label⟩ shape True f thr truth fr) ∧
    ∀ (k : Nat) (fr : Frame K L D F X), fs[k]? = some fr → ∃ img, (f0 :: hs)[k]? = some img ∧
      ∀ t, seenAt fr.ct (planePts (q t)) = planePts ((q t).map (· + (d img.1 - d f0.1))) := by
  have hall : ∀ (k : Nat) (fr : Frame K L D F X), fs[k]? = some fr → ∃ img, (f0 :: hs)[k]? = some img ∧
      ∀ t, seenAt fr.ct (planePts (q t)) = planePts ((q t).map (· + (d img.1 - d f0.1))) := by
    intro k fr hk
    obtain ⟨img, v, h⟩ := hfs k fr hk
    refine ⟨img, h.image, fun t => ?_⟩
    have := (C47_translation_points g hd f0 hs h.image h.estimated (by
      intro j hj e
      obtain ⟨fr', hfr'⟩ : ∃ fr', fs[j]? = some fr' := by
        have := (List.getElem?_eq_some_iff.mp hk).1
        exact ⟨_, List.getElem?_eq_getElem (by omega)⟩
      obtain ⟨_, v', h'⟩ := hfs j fr' hfr'
      have := h'.estimated
      rw [e] at this
      cases this) (q t)).1
    rw [h.told]
    show (translation [v.1, v.2]).absToRel (planePts (q t)) = _
    unfold planePts
    rw [this]
    simp [List.flatMap_map]
  refine ⟨fun fr hfr => ?_, hall⟩
  obtain ⟨k, hk⟩ := List.mem_iff_getElem?.mp hfr
  obtain ⟨img, hi, hseen⟩ := hall k fr hk
  obtain ⟨img', v, h⟩ := hfs k fr hk
  obtain rfl : img = img' := Option.some.inj (hi.symm.trans h.image)
  refine ⟨by rw [h.told]; exact translation_camera _ _ _, Or.inr h.dets, h.nodup, h.once, h.fresh, ?_, h.new, h.label,
    ?_, ?_⟩
  · intro r hr
    rw [h.points r hr]
    exact (hseen _).symm
  · intro r hr s hs'
    show s.length = (shape (label (truth r))).1
    rw [h.scores r hr s hs', hq]
  · intro r hr t hl x hx
    change label (truth r) = label t at hl
    refine hfar _ _ hl x ?_
    rw [← hx, h.told]
    have hshape : ∀ t, HasShape (shape (label t)) (planePts (q t)) := fun t => by rw [hq]; exact planePts_shape _
    exact (hun _ _ _ _ (hshape _) (by rw [hl]; exact hshape t)).symm

/-- **C103** The `MotionEstimator` and the tracker together: a still scene is filmed by a camera that is moved
sideways and up and down; the tracker gets the translations that the estimator finds (the true flow is the most
frequent one, and the estimator always returns a translation) and detections of any targets at the places where
they are in the picture. The distance does not change if both arrays are moved, and in the first frame targets of equal
label are not below the threshold from each other. Then no call raises, and for every object, detected or not,
absolute coordinates are those that its target has in the first frame, relative ones are those that its target has in
the current frame, no other object that can be matched is of its target, and no object changes its target. -/
theorem C103_movie {cfg : Cfg K L D F X} {f : Pts K → Pts K → Option (Option D)} {Ok : F → Prop}
    (hf : cfg.dist = ofPoints cfg.flt f) (hre : cfg.reid = none) (hfill : cfg.thr ≤ cfg.fill)
    (hL : FilterLaws cfg.flt Ok) (hSt : StaticLaws cfg.flt Ok) {shape : L → Nat × Nat}
    (hsd : ShapedDist cfg.flt shape cfg.dist) (hun : Unmoved f shape)
    {fl : Flow K Img Mask} (g : TransGetter K) {d : Img → K × K} (hd : TrueFlow fl g.bin d)
    (f0 : Img × Option Mask) (hs : List (Img × Option Mask)) {q : T → List (K × K)} {label : T → L}
    (hq : ∀ t, shape (label t) = ((q t).length, 2))
    (hfar : ∀ t t', label t = label t' → ∀ x, f (planePts (q t)) (planePts (q t')) = some (some x) →
      (x < cfg.thr ↔ t = t')) {truth : Ref → T} {w0 w : World K L D F X} (h0 : w0.Initial)
    {fs : List (Frame K L D F X)} (ht : Trace cfg w0 fs w)
    (hfs : ∀ k fr, fs[k]? = some fr → Shot fl g d f0 hs q label truth k fr) :
    ∀ (k : Nat) (fr : Frame K L D F X), fs[k]? = some fr → Succeeds fr ∧ ∃ img, (f0 :: hs)[k]? = some img ∧
      ∀ o ∈ fr.after.objs, o.getEstimate cfg.flt true = some (planePts (q (truth o.lastDet))) ∧
        o.estimate cfg.flt = planePts ((q (truth o.lastDet)).map (· + (d img.1 - d f0.1))) ∧
        (o.velocity cfg.flt).data = List.replicate o.dimZ 0 ∧
        (∀ p ∈ fr.after.objs, CanMatch cfg.reidMax o → CanMatch cfg.reidMax p →
          truth o.lastDet = truth p.lastDet → o = p) ∧
        ∀ j fr', j ≤ k → fs[j]? = some fr' → ∀ p ∈ fr'.after.objs, p.initId = o.initId ∨ p.id ≠ none ∧ p.id = o.id →
          truth p.lastDet = truth o.lastDet := by
  obtain ⟨hF, hseen⟩ := movie_films (thr := cfg.thr) g hd f0 hs hun hq hfar hfs
  have hS : ∀ t, HasShape (shape (label t)) (planePts (q t)) := fun t => by rw [hq]; exact planePts_shape _
  intro k fr hk
  have hmem := List.mem_of_getElem? hk
  refine ⟨C103_returns hf hre hfill hL hSt hsd hS h0 ht hF fr hmem, ?_⟩
  obtain ⟨img, hi, hsee⟩ := hseen k fr hk
  refine ⟨img, hi, fun o ho => ?_⟩
  obtain ⟨_, e2, _, e4, e5⟩ := C103_exact hf hre hfill hL hSt hsd hS h0 ht hF hmem ho
  have htake : ∀ {j} {fr' : Frame K L D F X}, fs[j]? = some fr' → ∀ x ∈ fs.take j ++ [fr'], x ∈ fs := by
    intro j fr' hj x hx
    rcases List.mem_append.mp hx with h | h
    · exact List.mem_of_mem_take h
    · rw [List.mem_singleton.mp h]; exact List.mem_of_getElem? hj
  refine ⟨e5 trivial, e4.trans (hsee _), e2, fun p hp hc hc' e => ?_, fun j fr' hj hj' p hp hkk => ?_⟩
  · exact C103_one_per_target hf hre hfill hL hSt hsd hS h0 (ht.upTo hk) (fun x hx => hF x (htake hk x hx)) o ho p hp
      hc hc' e
  · have h1 := ht.upTo hj'
    rcases Nat.lt_or_ge j k with hlt | hge
    · -- the calls between the two
      obtain ⟨gs, hgs, hsub⟩ : ∃ gs, Trace cfg fr'.after gs fr.after ∧ ∀ x ∈ gs, x ∈ fs := by
        have key : ∀ {fs : List (Frame K L D F X)} {w : World K L D F X}, Trace cfg w0 fs w → ∀ {k : Nat} {fr},
            fs[k]? = some fr → j < k → fs[j]? = some fr' →
            ∃ gs, Trace cfg fr'.after gs fr.after ∧ ∀ x ∈ gs, x ∈ fs := by
          intro fs w ht
          have hw : ∀ {fs : List (Frame K L D F X)} {w : World K L D F X}, Trace cfg w0 fs w → fs[j]? = some fr' →
              ∃ gs, Trace cfg fr'.after gs w ∧ ∀ x ∈ gs, x ∈ fs := by
            intro fs w ht hj
            induction ht with
            | nil => simp at hj
            | env heap g _ he ih =>
              obtain ⟨gs, h, h'⟩ := ih hj
              exact ⟨gs, .env heap g h he, h'⟩
            | @call fs w2 dets period ct ht ih =>
              rcases Nat.lt_or_ge j fs.length with h | h
              · rw [List.getElem?_append_left h] at hj
                obtain ⟨gs, a, b⟩ := ih hj
                refine ⟨_, .call dets period ct a, fun x hx => ?_⟩
                rcases List.mem_append.mp hx with h | h
                · exact List.mem_append_left _ (b x h)
                · exact List.mem_append_right _ h
              · have hj' := (List.getElem?_eq_some_iff.mp hj).1
                simp only [List.length_append, List.length_singleton] at hj'
                obtain rfl : j = fs.length := by omega
                rw [List.getElem?_append_right le_rfl, Nat.sub_self, List.getElem?_cons_zero, Option.some.injEq] at hj
                subst hj
                exact ⟨[], .nil _, by simp⟩
          intro k fr hk hjk hj
          have h2 := hw (ht.upTo hk) (by
            rw [List.getElem?_append_left (by
              have := (List.getElem?_eq_some_iff.mp hk).1
              rw [List.length_take]; omega), List.getElem?_take_of_lt hjk]
            exact hj)
          obtain ⟨gs, a, b⟩ := h2
          refine ⟨gs, a, fun x hx => ?_⟩
          rcases List.mem_append.mp (b x hx) with h | h
          · exact List.mem_of_mem_take h
          · rw [List.mem_singleton.mp h]; exact List.mem_of_getElem? hk
        exact key ht hk hlt hj'
      refine C103_never_switched (S := ⟨fun t => planePts (q t), label⟩) (moving := True) hf hre hfill hL hSt hsd hS h0 h1 hgs (fun x hx => ?_) hp ho hkk
      rcases List.mem_append.mp hx with h | h
      · exact hF x (htake hj' x h)
      · exact hF x (hsub x h)
    · obtain rfl : j = k := by omega
      obtain rfl : fr' = fr := Option.some.inj (hj'.symm.trans hk)
      exact C103_never_switched (S := ⟨fun t => planePts (q t), label⟩) (moving := True) hf hre hfill hL hSt hsd hS h0 h1 (.nil _)
        (fun x hx => hF x (htake hk x (by simpa using hx))) hp ho hkk

/-- **C103** These distances do not change when both arrays are moved. -/
theorem C103_unmoved {f : Pts ℝ → Pts ℝ → Option (Option ℝ)} (hf : Invariant f) (shape : L → Nat × Nat) :
    Unmoved (fun p q => (f p q).map (·.map fun x : ℝ => (x : WithTop ℝ))) shape := by
  intro a v p q hp hq
  have := hf (shape a).2 (fun j => v.getD j 0) p q hp.2.1 hq.2.1 (by rw [hp.2.2, hp.1, hp.2.1])
    (by rw [hq.2.2, hq.1, hq.2.1])
  unfold shiftAxis at this
  rw [← (translation_aff v p hp.2.1).1, ← (translation_aff v q hq.2.1).1] at this
  simp only [this]

end

/-! ### Examples -/

section examples

/-- the default filter, threshold 3 -/
def filmCfg : Cfg ℚ Nat (WithTop ℚ) (OKF ℚ) Unit where
  dist := ofPoints (okfOps okfDefaults) cityBlock
  thr := ((3 : ℚ) : WithTop ℚ)
  fill := ((4 : ℚ) : WithTop ℚ)
  hitCounterMax := 4
  initDelay := 1
  pwMax := 4
  detThr := 0
  flt := okfOps okfDefaults
  pastLen := 2
  reid := none
  reidThr := 0
  reidFill := 1
  reidMax := none

/-- three targets; the last one is where the first one is, with another label -/
def filmPlaces (t : Fin 3) : List (ℚ × ℚ) := if t = 1 then [(10, 5)] else [(0, 0)]

/-- labels -/
def filmLabels (t : Fin 3) : Nat := if t = 2 then 1 else 0

/-- detection `10 * k + t` shows target `t` in frame `k` of the video -/
def filmTruth (r : Ref) : Fin 3 := Fin.ofNat 3 (r % 10)

/-- frames 0, 1, 2 and 3 of the video (the positions of the camera) -/
def filmVideo : List (Int × Option Unit) := [(3, none), (5, none), (4, none), (9, none)]

def filmHeap (r : Ref) : Det ℚ Nat Unit :=
  let p := planePts ((filmPlaces (filmTruth r)).map (· + (toyPos ((filmVideo.getD (r / 10) (3, none)).1) - toyPos 3)))
  ⟨p, none, filmLabels (filmTruth r), (), p, none⟩

/-- the calls: in the first frame all three targets are detected, then two, one and two -/
def filmCalls : List (List Ref × List ℚ) :=
  [([0, 1, 2], [0, 0]), ([11, 12], [2, 0]), ([21], [1, 0]), ([32, 31], [6, 0])]

/-- the states of the tracker -/
def filmWorld (n : Nat) : World ℚ Nat (WithTop ℚ) (OKF ℚ) Unit :=
  (filmCalls.take n).foldl (fun w c => (update filmCfg w (some c.1) 1 (some (translation c.2))).1)
    ⟨filmHeap, 0, 0, 0, []⟩

def filmFrame (n : Nat) (c : List Ref × List ℚ) : Frame ℚ Nat (WithTop ℚ) (OKF ℚ) Unit :=
  ⟨some c.1, 1, some (translation c.2), filmWorld n,
    (update filmCfg (filmWorld n) (some c.1) 1 (some (translation c.2))).1,
    (update filmCfg (filmWorld n) (some c.1) 1 (some (translation c.2))).2⟩

def filmFrames : List (Frame ℚ Nat (WithTop ℚ) (OKF ℚ) Unit) :=
  [filmFrame 0 ([0, 1, 2], [0, 0]), filmFrame 1 ([11, 12], [2, 0]), filmFrame 2 ([21], [1, 0]),
    filmFrame 3 ([32, 31], [6, 0])]

theorem filmFrames_trace : Trace filmCfg (filmWorld 0) filmFrames (filmWorld 4) :=
  .call (some [32, 31]) 1 (some (translation [6, 0])) (.call (some [21]) 1 (some (translation [1, 0]))
    (.call (some [11, 12]) 1 (some (translation [2, 0])) (.call (some [0, 1, 2]) 1 (some (translation [0, 0])) (.nil _))))

theorem cityBlock_unmoved : Unmoved cityBlock (fun _ : Nat => (1, 2)) := by
  rintro a v ⟨n, dim, l⟩ ⟨n', dim', m⟩ ⟨h1, h2, h3⟩ ⟨g1, g2, g3⟩
  simp only at h1 h2 h3 g1 g2 g3
  subst h2 g2
  obtain ⟨x, y, rfl⟩ := List.length_eq_two.mp h3
  obtain ⟨x', y', rfl⟩ := List.length_eq_two.mp g3
  simp [cityBlock, translation]

theorem film_shapedDist : ShapedDist (okfOps okfDefaults) (fun _ : Nat => (1, 2)) filmCfg.dist := by
  intro d v _ hp hq
  obtain ⟨x, y, e⟩ := List.length_eq_two.mp hp.2.2
  obtain ⟨x', y', e'⟩ := List.length_eq_two.mp hq.2.2
  simp only [cityBlock, e, e']
  exact ⟨_, rfl⟩

theorem film_far (t t' : Fin 3) (hl : filmLabels t = filmLabels t') (x : WithTop ℚ)
    (hx : cityBlock (planePts (filmPlaces t)) (planePts (filmPlaces t')) = some (some x)) :
    x < filmCfg.thr ↔ t = t' := by
  have : ∀ t t' : Fin 3, filmLabels t = filmLabels t' →
      ∃ x, cityBlock (planePts (filmPlaces t)) (planePts (filmPlaces t')) = some (some x) ∧
        (x < filmCfg.thr ↔ t = t') := by
    intro t t'
    fin_cases t <;> fin_cases t' <;> intro h <;>
      first | exact absurd h (by decide) | exact ⟨_, rfl, by decide +kernel⟩
  obtain ⟨y, hy, h⟩ := this t t' hl
  rw [hy] at hx
  cases hx
  exact h

theorem film_shot (k : Nat) (fr : Frame ℚ Nat (WithTop ℚ) (OKF ℚ) Unit) (hk : filmFrames[k]? = some fr) :
    Shot toyFlow (⟨1, 2⟩ : TransGetter ℚ) toyPos (3, none) [(5, none), (4, none), (9, none)] filmPlaces filmLabels
      filmTruth k fr := by
  match k with
  | 0 =>
    cases hk
    exact ⟨(3, none), (0, 0), rfl, by decide +kernel, rfl, by simp [filmFrame], by decide, by decide,
      (by intro o ho; cases ho), by decide +kernel, by decide +kernel, by decide +kernel,
      (by intro r _ s hs; cases hs)⟩
  | 1 =>
    cases hk
    exact ⟨(5, none), (2, 0), rfl, by decide +kernel, rfl, by simp [filmFrame], by decide, by decide,
      by decide +kernel, by decide +kernel, by decide +kernel, by decide +kernel,
      by decide +kernel⟩
  | 2 =>
    cases hk
    exact ⟨(4, none), (1, 0), rfl, by decide +kernel, rfl, by simp [filmFrame], by decide, by decide,
      by decide +kernel, by decide +kernel, by decide +kernel, by decide +kernel,
      by decide +kernel⟩
  | 3 =>
    cases hk
    exact ⟨(9, none), (6, 0), rfl, by decide +kernel, rfl, by simp [filmFrame], by decide, by decide,
      by decide +kernel, by decide +kernel, by decide +kernel, by decide +kernel,
      by decide +kernel⟩
  | k + 4 => simp [filmFrames] at hk

theorem film_filmed : ∀ fr ∈ filmFrames, Films ⟨fun t => planePts (filmPlaces t), filmLabels⟩ (fun _ => (1, 2)) True
    cityBlock filmCfg.thr filmTruth fr :=
  (movie_films (⟨1, 2⟩ : TransGetter ℚ) toyFlow_true _ _ cityBlock_unmoved (by decide +kernel) film_far film_shot).1

theorem film_scene (t : Fin 3) : HasShape (1, 2) (planePts (filmPlaces t)) := by
  fin_cases t <;> exact ⟨rfl, rfl, rfl⟩

/-- C103: the calls of this example -/
example : ∀ (k : Nat) (fr : Frame ℚ Nat (WithTop ℚ) (OKF ℚ) Unit), filmFrames[k]? = some fr → Succeeds fr ∧
    ∃ img, filmVideo[k]? = some img ∧ ∀ o ∈ fr.after.objs,
      o.estimate (okfOps okfDefaults) =
        planePts ((filmPlaces (filmTruth o.lastDet)).map (· + (toyPos img.1 - toyPos 3))) := by
  intro k fr hk
  obtain ⟨h1, img, h2, h3⟩ := C103_movie (cfg := filmCfg) rfl rfl (by decide +kernel) (okf_laws _) (C34_okf_static _)
    film_shapedDist cityBlock_unmoved (⟨1, 2⟩ : TransGetter ℚ) toyFlow_true (3, none) _ (by decide +kernel) film_far
    ⟨rfl, rfl, rfl⟩ filmFrames_trace film_shot k fr hk
  exact ⟨h1, img, h2, fun o ho => (h3 o ho).2.1⟩

/-- object 3 is not detected in frame 2; there it is where its target is in the picture, and in frame 3 it gets the
detection of its target. Object 1 is never detected again. -/
example : (filmWorld 3).objs.map (fun o => (o.initId, o.lastDet, (o.estimate (okfOps okfDefaults)).data)) =
    [(1, 0, [1, 0]), (2, 21, [11, 5]), (3, 12, [1, 0])] := by decide +kernel

example : (filmWorld 4).objs.map (fun o => (o.initId, o.lastDet, (o.estimate (okfOps okfDefaults)).data)) =
    [(2, 31, [16, 5]), (3, 32, [6, 0])] := by decide +kernel

/-- C103: object 3 after frame 1 and the detection in frame 3 -/
example : ∃ o ∈ (filmWorld 2).objs, o.initId = 3 ∧ ∃ o' ∈ (filmWorld 4).objs, o'.lastDet = 32 ∧ o'.initId = o.initId := by
  obtain ⟨o, ho, h3, hpos, hl⟩ : ∃ o ∈ (filmWorld 2).objs, o.initId = 3 ∧ o.hitCounter = 2 ∧ o.lastDet = 12 := by
    decide +kernel
  refine ⟨o, ho, h3, ?_⟩
  obtain ⟨o', ho', e1, _, e2, _⟩ := C103_found_again (cfg := filmCfg) (T := Fin 3) (truth := filmTruth)
    (S := ⟨fun t => planePts (filmPlaces t), filmLabels⟩) (moving := True) (w0 := filmWorld 0) (w1 := filmWorld 2)
    (w2 := filmWorld 4) (fs := [filmFrame 0 ([0, 1, 2], [0, 0]), filmFrame 1 ([11, 12], [2, 0])])
    (gs := [filmFrame 2 ([21], [1, 0])]) (fr := filmFrame 3 ([32, 31], [6, 0])) (r := 32)
    rfl rfl rfl (by decide +kernel) (okf_laws _) (C34_okf_static _) film_shapedDist film_scene ⟨rfl, rfl, rfl⟩
    (.call (some [11, 12]) 1 (some (translation [2, 0])) (.call (some [0, 1, 2]) 1 (some (translation [0, 0])) (.nil _)))
    (.call (some [32, 31]) 1 (some (translation [6, 0])) (.call (some [21]) 1 (some (translation [1, 0])) (.nil _)))
    film_filmed ho (by omega)
    (by rw [hl]; decide) (by decide) (by rw [hl]; decide)
  exact ⟨o', ho', e1, (e2 (by simp [hpos])).1⟩

/-- C103: the hypotheses of the other theorems -/
example : (∀ fr ∈ filmFrames, Succeeds fr) ∧
    ∀ o ∈ (filmWorld 4).objs, ∀ o' ∈ (filmWorld 4).objs, CanMatch filmCfg.reidMax o → CanMatch filmCfg.reidMax o' →
      filmTruth o.lastDet = filmTruth o'.lastDet → o = o' :=
  ⟨C103_returns (cfg := filmCfg) rfl rfl (by decide +kernel) (okf_laws _) (C34_okf_static _) film_shapedDist film_scene
      ⟨rfl, rfl, rfl⟩ filmFrames_trace film_filmed,
    C103_one_per_target (cfg := filmCfg) rfl rfl (by decide +kernel) (okf_laws _) (C34_okf_static _) film_shapedDist
      film_scene ⟨rfl, rfl, rfl⟩ filmFrames_trace film_filmed⟩

/-- C103: the distances of norfair -/
example : Unmoved (fun p q => (frobenius p q).map (·.map fun x : ℝ => (x : WithTop ℝ))) (fun _ : Nat => (2, 2)) :=
  C103_unmoved (C83_invariant 1 1).1 _

end examples

end Norfair.Props
