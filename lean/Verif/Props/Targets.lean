import Verif.Props.TrackerRounds
import Verif.Props.TrackerCounters
import Verif.Props.TrackerLife
import Verif.Props.Drift
import Verif.Spec.Targets
import Verif.Props.TrackerIds
import Verif.Props.TrackerCamera

/-! C88: detections and objects that cannot be confused. -/

set_option linter.unusedSectionVars false

namespace Norfair.Props

open Norfair Norfair.Spec Norfair.Toy

variable {K L D F X : Type}

section
variable [LinearOrder K] [Zero K] [LinearOrder D] [OrderTop D] [Zero D] [DecidableEq L]

/-- In this call, the distance of a detection and an object that can be matched is below the threshold
exactly if the detection belongs to the object. (The distance is taken after the prediction of this call;
`h`: between the two rounds of matching only `age`s of detections change.) -/
def Gated (cfg : Cfg K L D F X) (f : Det K L X → ObjView K L D F X → Option (Option D))
    (w : World K L D F X) (dets : Option (List Ref)) (ct : Option (CoordTrans K)) (B : Ref → Nat → Prop) : Prop :=
  ∀ h : Ref → Det K L X, (∀ r, ∃ a, h r = { startHeap w dets ct r with age := a }) →
    ∀ r ∈ dets.getD [], ∀ o ∈ w.objs, CanMatch cfg.reidMax o →
      ∀ x, ScalarDist f (h r) (((o.trackerStep cfg).updateCT ct).view h) x → (x < cfg.thr ↔ B r o.initId)

theorem leftOver_sublist {α : Type} (l : List α) (idx : List Nat) : (leftOver l idx).Sublist l := by
  rw [← leftOver_eq]
  unfold unmatchedOf
  refine (List.filter_sublist.map _).trans ?_
  simp

theorem leftOver_mem {α : Type} {l : List α} {idx : List Nat} {i : Nat} {a : α} (h : l[i]? = some a)
    (hi : i ∉ idx) : a ∈ leftOver l idx := by
  unfold leftOver
  refine List.mem_filterMap.mpr ⟨i, List.mem_range.mpr (List.getElem?_eq_some_iff.mp h).1, ?_⟩
  rw [if_neg hi]; exact h

/-- what a round does if the pairs below the threshold are one-to-one -/
theorem Round.gated {f : Det K L X → ObjView K L D F X → Option (Option D)} {thr : D} {h : Ref → Det K L X}
    {objs : List (Obj K L D F)} {dets : List Ref} {d : Nat → Nat → D} {pairs : List (Nat × Nat)}
    {rest : List Ref} {after : List (Obj K L D F)} (R : Round f thr h objs dets d pairs rest after)
    (hnd : dets.Nodup) (hko : (objs.map (·.initId)).Nodup) {B : Ref → Nat → Prop}
    (hB : ∀ r ∈ dets, ∀ o ∈ objs, ∀ x, ScalarDist f (h r) ⟨o, h o.lastDet, o.past.map h⟩ x →
      (x < thr ↔ B r o.initId))
    (h1 : ∀ r ∈ dets, ∀ r' ∈ dets, ∀ o ∈ objs, B r o.initId → B r' o.initId → r = r')
    (h2 : ∀ r ∈ dets, ∀ o ∈ objs, ∀ o' ∈ objs, B r o.initId → B r o'.initId → o.initId = o'.initId) :
    (∀ r ∈ dets, ∀ o ∈ objs, B r o.initId → (∀ o' ∈ after, o'.initId = o.initId → o'.lastDet = r) ∧ r ∉ rest) ∧
    (∀ r ∈ dets, (∀ o ∈ objs, ¬ B r o.initId) → r ∈ rest) := by
  constructor
  · intro r hr o ho hb
    obtain ⟨i, hi⟩ := List.mem_iff_getElem?.mp hr
    obtain ⟨j, hj⟩ := List.mem_iff_getElem?.mp ho
    have hlt := (hB r hr o ho _ (R.dist i j r o hi hj)).mpr hb
    obtain ⟨p, hp, hpij, _⟩ := R.greedy.stable i (List.getElem?_eq_some_iff.mp hi).1 j
      (List.getElem?_eq_some_iff.mp hj).1 hlt
    obtain ⟨r', o', hr', ho', hout⟩ := R.outcome p hp
    have hb' := (hB r' (List.mem_of_getElem? hr') o' (List.mem_of_getElem? ho') _
      (R.dist _ _ _ _ hr' ho')).mp (R.greedy.below p hp)
    have hp1 : p.1 = i ∧ r' = r ∧ o'.initId = o.initId := by
      rcases hpij with e | e
      · rw [e, hi] at hr'
        cases hr'
        exact ⟨e, rfl, h2 _ hr o' (List.mem_of_getElem? ho') o ho hb' hb⟩
      · rw [e, hj] at ho'
        cases ho'
        have := h1 r' (List.mem_of_getElem? hr') r hr o ho hb' hb
        subst this
        exact ⟨(List.getElem?_inj (List.getElem?_eq_some_iff.mp hr').1 hnd).mp (hr'.trans hi.symm), rfl, rfl⟩
    obtain ⟨e1, rfl, e3⟩ := hp1
    refine ⟨fun q hq hqk => (hout q hq (hqk.trans e3.symm)).1, fun hrest => ?_⟩
    rw [R.rest] at hrest
    obtain ⟨i', hi', hn⟩ := mem_leftOver hrest
    have : i' = i := (List.getElem?_inj (List.getElem?_eq_some_iff.mp hi').1 hnd).mp (hi'.trans hi.symm)
    subst this
    exact hn (e1 ▸ List.mem_map_of_mem hp)
  · intro r hr hno
    obtain ⟨i, hi⟩ := List.mem_iff_getElem?.mp hr
    rw [R.rest]
    refine leftOver_mem hi fun hmem => ?_
    obtain ⟨p, hp, e⟩ := List.mem_map.mp hmem
    obtain ⟨r', o', hr', ho', _⟩ := R.outcome p hp
    rw [e, hi] at hr'
    cases hr'
    exact hno o' (List.mem_of_getElem? ho') ((hB r hr o' (List.mem_of_getElem? ho') _
      (R.dist _ _ _ _ (by rw [e]; exact hi) ho')).mp (R.greedy.below p hp))

/-- **C88** One call in which nothing can be confused: if the pairs of a detection and an object with a
distance below the threshold are those in which the detection belongs to the object, and this is one-to-one,
then every object that can be matched stays and gets the detection that belongs to it, an object to which
none belongs gets none, and exactly the detections that belong to no object start new ones, in their order.
There is no ReID; the detections are different and new. -/
theorem C88_one_call {cfg : Cfg K L D F X} {f} (hf : cfg.dist = .scalar f) (hre : cfg.reid = none)
    {w w' : World K L D F X} (hw : Reachable cfg w) {dets : Option (List Ref)} {period : Int}
    {ct : Option (CoordTrans K)} {act : List (Obj K L D F)}
    (h : update cfg w dets period ct = (w', .ok act)) (hnd : (dets.getD []).Nodup)
    (hfresh : ∀ o ∈ w.objs, o.lastDet ∉ dets.getD []) {B : Ref → Nat → Prop}
    (hB : Gated cfg f w dets ct B)
    (h1 : ∀ r ∈ dets.getD [], ∀ r' ∈ dets.getD [], ∀ o ∈ w.objs, CanMatch cfg.reidMax o →
      B r o.initId → B r' o.initId → r = r')
    (h2 : ∀ r ∈ dets.getD [], ∀ o ∈ w.objs, ∀ o' ∈ w.objs, CanMatch cfg.reidMax o → CanMatch cfg.reidMax o' →
      B r o.initId → B r o'.initId → o.initId = o'.initId) :
    (∀ o ∈ w.objs, CanMatch cfg.reidMax o → ∃ o' ∈ w'.objs, o'.initId = o.initId ∧
      (∀ r ∈ dets.getD [], B r o.initId → o'.lastDet = r) ∧
      ((∀ r ∈ dets.getD [], ¬ B r o.initId) → o'.lastDet = o.lastDet)) ∧
    ∃ old news, w'.objs = old ++ news ∧ (∀ o ∈ old, o.initId ∈ w.objs.map (·.initId)) ∧
      (∀ o ∈ news, o.initId ∉ w.objs.map (·.initId)) ∧ (news.map (·.lastDet)).Sublist (dets.getD []) ∧
      ∀ r ∈ dets.getD [], r ∈ news.map (·.lastDet) ↔ ∀ o ∈ w.objs, CanMatch cfg.reidMax o → ¬ B r o.initId := by
  have hI := hw.inv
  obtain ⟨g1, d1, d2, pairs1, pairs2, rest1, rest2, hages, R1, R2, old, news, e1, e2, e3, e4, e5, e6⟩ :=
    C64_two_greedy_rounds hf hw h
  have hmemc : ∀ {init p}, p ∈ compared cfg ct w.objs init → ∃ o ∈ w.objs, CanMatch cfg.reidMax o ∧
      o.isInit = init ∧ p = (o.trackerStep cfg).updateCT ct := by
    intro init p hp
    obtain ⟨o, ho, rfl⟩ := List.mem_map.mp hp
    rw [List.mem_filter, decide_eq_true_eq] at ho
    exact ⟨o, ho.1, ho.2.1, ho.2.2, rfl⟩
  have hcmem : ∀ {o}, o ∈ w.objs → CanMatch cfg.reidMax o → (o.trackerStep cfg).updateCT ct ∈ compared cfg ct w.objs o.isInit := by
    intro o ho hc
    exact List.mem_map.mpr ⟨o, List.mem_filter.mpr ⟨ho, by simp [hc]⟩, rfl⟩
  have hid : ∀ o : Obj K L D F, ((o.trackerStep cfg).updateCT ct).initId = o.initId := fun o => by
    simp [Obj.trackerStep]
  have hkeys : ∀ init, ((compared cfg ct w.objs init).map (·.initId)).Nodup := by
    intro init
    unfold compared
    rw [List.map_map]
    have : ((fun o : Obj K L D F => o.initId) ∘ fun o : Obj K L D F => (o.trackerStep cfg).updateCT ct) =
        fun o => o.initId := funext hid
    rw [this]
    exact (List.filter_sublist.map _).nodup hI.nodup
  have hsub1 : ∀ r, r ∈ rest1 → r ∈ dets.getD [] := fun r hr => by
    rw [R1.rest] at hr; exact (leftOver_sublist _ _).subset hr
  have hnd1 : rest1.Nodup := by rw [R1.rest]; exact (leftOver_sublist _ _).nodup hnd
  have hgate : ∀ g : Ref → Det K L X, (∀ r, ∃ a, g r = { startHeap w dets ct r with age := a }) → ∀ init,
      ∀ r ∈ dets.getD [], ∀ p ∈ compared cfg ct w.objs init, ∀ x,
      ScalarDist f (g r) ⟨p, g p.lastDet, p.past.map g⟩ x → (x < cfg.thr ↔ B r p.initId) := by
    intro g hg init r hr p hp x hx
    obtain ⟨o, ho, hc, _, rfl⟩ := hmemc hp
    rw [hid]
    exact hB g hg r hr o ho hc x hx
  have G1 := Round.gated R1 hnd (hkeys false)
    (hgate _ (fun r => ⟨(startHeap w dets ct r).age, rfl⟩) false)
    (by
      intro r hr r' hr' p hp
      obtain ⟨o, ho, hc, _, rfl⟩ := hmemc hp
      rw [hid]
      exact h1 r hr r' hr' o ho hc)
    (by
      intro r hr p hp p' hp'
      obtain ⟨o, ho, hc, _, rfl⟩ := hmemc hp
      obtain ⟨o', ho', hc', _, rfl⟩ := hmemc hp'
      rw [hid, hid]
      exact h2 r hr o ho o' ho' hc hc')
  have G2 := Round.gated R2 hnd1 (hkeys true)
    (fun r hr => hgate _ hages true r (hsub1 r hr))
    (by
      intro r hr r' hr' p hp
      obtain ⟨o, ho, hc, _, rfl⟩ := hmemc hp
      rw [hid]
      exact h1 r (hsub1 r hr) r' (hsub1 r' hr') o ho hc)
    (by
      intro r hr p hp p' hp'
      obtain ⟨o, ho, hc, _, rfl⟩ := hmemc hp
      obtain ⟨o', ho', hc', _, rfl⟩ := hmemc hp'
      rw [hid, hid]
      exact h2 r (hsub1 r hr) o ho o' ho' hc hc')
  -- a detection that belongs to an object arrives there
  have harr : ∀ r ∈ dets.getD [], ∀ o ∈ w.objs, CanMatch cfg.reidMax o → B r o.initId →
      (∀ o' ∈ w'.objs, o'.initId = o.initId → o'.lastDet = r) ∧ r ∉ rest2 := by
    intro r hr o ho hc hb
    have hb' : B r ((o.trackerStep cfg).updateCT ct).initId := by rw [hid]; exact hb
    have hsub2 : r ∈ rest2 → r ∈ rest1 := fun hx => by
      rw [R2.rest] at hx; exact (leftOver_sublist _ _).subset hx
    cases hi : o.isInit with
    | false =>
      have hm := hcmem (o := o) ho hc
      rw [hi] at hm
      obtain ⟨a, b⟩ := G1.1 r hr _ hm hb'
      rw [hid] at a
      exact ⟨a, fun hx => b (hsub2 hx)⟩
    | true =>
      have hm := hcmem (o := o) ho hc
      rw [hi] at hm
      have hr1 : r ∈ rest1 := by
        refine G1.2 r hr fun p hp hbp => ?_
        obtain ⟨o', ho', hc', hi', rfl⟩ := hmemc hp
        rw [hid] at hbp
        have : o'.initId = o.initId := h2 r hr o' ho' o ho hc' hc hbp hb
        have : o' = o := World.eq_of_mem_of_key hI.nodup ho' ho this
        subst this
        rw [hi] at hi'
        cases hi'
      obtain ⟨a, b⟩ := G2.1 r hr1 _ hm hb'
      rw [hid] at a
      exact ⟨a, b⟩
  have hnone : ∀ r ∈ dets.getD [], (∀ o ∈ w.objs, CanMatch cfg.reidMax o → ¬ B r o.initId) → r ∈ rest2 := by
    intro r hr hno
    have key : ∀ init, ∀ p ∈ compared cfg ct w.objs init, ¬ B r p.initId := by
      intro init p hp
      obtain ⟨o, ho, hc, _, rfl⟩ := hmemc hp
      rw [hid]
      exact hno o ho hc
    exact G2.2 r (G1.2 r hr (key false)) (key true)
  refine ⟨fun o ho hc => ?_, old, news, e1, e3, e4, ?_, fun r hr => ?_⟩
  · have hkept : ∃ o' ∈ w'.objs, o'.initId = o.initId := by
      have : o.initId ∈ old.map (·.initId) := by
        have hm := hcmem (o := o) ho hc
        cases hi : o.isInit with
        | false => rw [hi] at hm; exact hid o ▸ e5 _ hm
        | true => rw [hi] at hm; exact hid o ▸ e6 hre _ hm
      obtain ⟨o', ho', e⟩ := List.mem_map.mp this
      exact ⟨o', by rw [e1]; exact List.mem_append_left _ ho', e⟩
    obtain ⟨o', ho', hk⟩ := hkept
    refine ⟨o', ho', hk, fun r hr hb => (harr r hr o ho hc hb).1 o' ho' hk, fun hno => ?_⟩
    rcases (update_obj_cases hI h ho ho' hk.symm).2 with ⟨v, rfl⟩ | ⟨r, hr, hH, _⟩ | ⟨hx, _⟩
    · show (stepped cfg ct o).lastDet = _
      simp
    · exfalso
      cases hdets : dets with
      | none => rw [hdets] at hr; cases hr
      | some l =>
        rw [hdets] at hr
        have hfresh' : ∀ o ∈ w.objs, o.lastDet ∉ l := fun q hq => by
          have := hfresh q hq; rw [hdets] at this; exact this
        have hnd' : l.Nodup := by rw [hdets] at hnd; exact hnd
        obtain ⟨q, hq, hql, huniq⟩ := C10_unique_owner hw (hdets ▸ h) hfresh' hnd' hr
        have hqo : o' = q := huniq o' ho' hH.lastDet
        by_cases hown : ∀ p ∈ w.objs, CanMatch cfg.reidMax p → ¬ B r p.initId
        · have hrr := hnone r (by rw [hdets]; exact hr) hown
          rw [← e2] at hrr
          obtain ⟨n, hn, hnl⟩ := List.mem_map.mp hrr
          have : n = q := huniq n (by rw [e1]; exact List.mem_append_right _ hn) hnl
          subst this
          refine e4 n hn ?_
          rw [← hqo, hk]
          exact List.mem_map_of_mem ho
        · push Not at hown
          obtain ⟨p, hp, hpc, hpb⟩ := hown
          have hpo : p.initId ≠ o.initId := by
            intro e
            exact hno r (by rw [hdets]; exact hr) (e ▸ hpb)
          have harr' := (harr r (by rw [hdets]; exact hr) p hp hpc hpb).1
          have hkept : p.initId ∈ old.map (·.initId) := by
            have hm := hcmem (o := p) hp hpc
            cases hi : p.isInit with
            | false => rw [hi] at hm; exact hid p ▸ e5 _ hm
            | true => rw [hi] at hm; exact hid p ▸ e6 hre _ hm
          obtain ⟨p', hp', ep⟩ := List.mem_map.mp hkept
          have hp'm : p' ∈ w'.objs := by rw [e1]; exact List.mem_append_left _ hp'
          have : p' = q := huniq p' hp'm (harr' p' hp'm ep)
          rw [this, ← hqo] at ep
          exact hpo (ep.symm.trans hk)
    · exact absurd hre hx
  · rw [e2]
    exact (R2.rest ▸ leftOver_sublist _ _).trans (R1.rest ▸ leftOver_sublist _ _)
  · rw [e2]
    constructor
    · intro hr2 o ho hc hb
      exact (harr r hr o ho hc hb).2 hr2
    · exact hnone r hr

end

section
variable [Field K] [LinearOrder K] [IsStrictOrderedRing K] [LinearOrder D] [OrderTop D] [Zero D]
  [DecidableEq L] {ι : Type}

/-- the state of a detection of `T` in frame `k` after the call -/
structure Measured (thr : K) (shape : L → Nat × Nat) (W : K) (T : Target K L) (k : Nat) (d : Det K L X) :
    Prop where
  seen : ∀ i < (shape T.label).1, Seen thr d i
  abs : HasShape (shape T.label) d.absPoints
  close : ∀ c y, d.absPoints.data[c]? = some y → |y - T.at k c| ≤ W

theorem _root_.Norfair.Spec.Shows.callOk {thr : K} {shape : L → Nat × Nat} {W : K} {ct : Option (CoordTrans K)}
    {T : Target K L} {k : Nat} {d : Det K L X} (h : Shows thr shape W ct T k d) : DetOk shape d := by
  obtain ⟨p1, p2, p3⟩ := h.points
  refine ⟨?_, ?_, ?_, ?_⟩
  · rw [h.new, h.label]; exact p1
  · rw [h.new, h.label]; exact p2
  · rw [h.new, p1, p2]; exact p3
  · intro s hs; rw [h.new]; exact h.scores s hs

theorem _root_.Norfair.Spec.Rigid.keeps {shape : L → Nat × Nat} {c : CoordTrans K} (h : Rigid shape c) :
    KeepsShape shape c := by
  intro a p h1 h2 h3
  obtain ⟨q1, q2, q3⟩ := h.toAbs a p ⟨h1, h2, by rw [h3, h1, h2]⟩
  exact ⟨q1.trans h1.symm, q2.trans h2.symm, q3.trans (by rw [h3, h1, h2])⟩

theorem showsAll_callOk {thr : K} {shape : L → Nat × Nat} {W : K} {moving : Prop} {tgt : ι → Target K L}
    {who : Ref → ι} {k : Nat} {f : Frame K L D F X} (h : ShowsAll thr shape W moving tgt who k f) :
    CallOk shape (given f) f.ct f.before.heap := by
  refine ⟨fun c hc => ?_, fun r hr => (h.shown r hr).callOk⟩
  have := h.camera
  rw [hc] at this
  exact this.2.keeps

/-- what the detections of a call are after it -/
theorem shows_after {cfg : Cfg K L D F X} {shape : L → Nat × Nat} {W : K} {moving : Prop} {T : Target K L}
    {k : Nat} {w w' : World K L D F X} (hw : Reachable cfg w) {dets : Option (List Ref)} {period : Int}
    {ct : Option (CoordTrans K)} {act : List (Obj K L D F)} (h : update cfg w dets period ct = (w', .ok act))
    (hnd : (dets.getD []).Nodup) (hcam : CameraOk shape moving ct) {r : Ref} (hr : r ∈ dets.getD [])
    (hS : Shows cfg.detThr shape W ct T k (w.heap r)) : Measured cfg.detThr shape W T k (w'.heap r) := by
  obtain ⟨_, _, hits, merges, news, S⟩ := update_ok hw.inv.nodup h
  have hpts : (w'.heap r).absPoints = placed ct (w.heap r) := by
    have hw' : w' = (update cfg w dets period ct).1 := by rw [h]
    cases ct with
    | none =>
      rw [hw', (C26_detections_unchanged hw dets period r).2]
      exact hS.new
    | some c =>
      cases dets with
      | none => cases hr
      | some l =>
        rw [hw', (C26_detections_absolute_partial (l := l) hw hnd period c r).2]
        rw [if_pos (show r ∈ l from hr), hS.new]
        rfl
  have hsc : (w'.heap r).scores = (w.heap r).scores := by
    obtain ⟨x1, hx1⟩ := (S.heap r).1
    obtain ⟨x2, hx2⟩ := startHeap_fields w dets ct r
    rw [hx1]
    simp only [hx2]
  refine ⟨fun i hi => (seen_congr hsc i).mpr (hS.seen i hi), ?_, ?_⟩
  · rw [hpts]
    cases ct with
    | none => exact hS.points
    | some c => exact hcam.2.toAbs _ _ hS.points
  · rw [hpts]; exact hS.close

/-- the bound on the error only gets better -/
theorem bound_le {n : Noise K} (hn : n.Valid) (W x y : K) (k : Nat) : n.bound W x y k ≤ n.bound W x y 0 := by
  obtain ⟨f1, f2, f3, f4, f5, f6⟩ := Noise.Valid.facts hn
  have hst : 0 ≤ n.start x y := by
    unfold Noise.start
    have ha := hn.a
    have hdet := hn.det
    apply div_nonneg _ (by linarith)
    have : 0 ≤ n.a * (n.c * x ^ 2 - 2 * n.b * x * y + n.a * y ^ 2) := by
      nlinarith [sq_nonneg (n.a * y - n.b * x), mul_nonneg (sub_nonneg.mpr hdet.le) (sq_nonneg x)]
    exact nonneg_of_mul_nonneg_right this ha
  unfold Noise.bound
  have : n.rate ^ k * n.start x y ≤ n.start x y := by
    refine mul_le_of_le_one_left hst (pow_le_one₀ f5.le f6.le)
  simpa using this

/-- the object of a target, as the next frame finds it -/
structure Follows (cfg : Cfg K L D F X) (shape : L → Nat × Nat) (T : Target K L) (e : K) (k : Nat)
    (o : Obj K L D F) : Prop where
  label : o.label = T.label
  n : o.numPoints = (shape T.label).1
  dim : o.dimPoints = (shape T.label).2
  pos : ∀ c < o.dimPoints * o.numPoints, ∃ x v, (o.positions cfg.flt).data[c]? = some x ∧
    (o.velocity cfg.flt).data[c]? = some v ∧ |x - T.at k c| ≤ e ∧ |x + v - T.at (k + 1) c| ≤ e

theorem steady_path {T : Target K L} {A : K} (h : T.Steady A) (c k : Nat) :
    |T.at (k + 2) c - 2 * T.at (k + 1) c + T.at k c| ≤ A := by
  have := h k c
  unfold Target.vel at this
  rwa [show T.at (k + 1 + 1) c - T.at (k + 1) c - (T.at (k + 1) c - T.at k c) =
    T.at (k + 2) c - 2 * T.at (k + 1) c + T.at k c by ring] at this

/-- what the second theorem of C88 assumes about the tracker and the targets -/
structure TargetsApart (cfg : Cfg K L D F X) (f : Det K L X → ObjView K L D F X → Option (Option D)) (n : Noise K)
    (shape : L → Nat × Nat) (tgt : ι → Target K L) (η A W e near far : K) : Prop where
  /-- the distance tells near from far -/
  gauge : Gauge cfg.flt shape f cfg.thr near far
  /-- no target changes its velocity by more than `A` per frame -/
  steady : ∀ i, (tgt i).Steady A
  margin : n.Margin η A
  /-- `e` bounds the error of the predictions -/
  nonneg : 0 ≤ e
  error : ∀ i, ∀ c < (shape (tgt i).label).2 * (shape (tgt i).label).1, ∀ x, |x| ≤ W →
    2 * (n.posVar + n.velVar) * n.boundA η W A x (0 - (tgt i).vel 0 c) 0 ≤ e ^ 2
  /-- a detection and the prediction for its target count as near -/
  near : e + W ≤ near
  /-- different targets of equal label are far apart in every frame -/
  far : ∀ i j, i ≠ j → (tgt i).label = (tgt j).label → ∀ k, 1 ≤ k →
    ∃ c < (shape (tgt i).label).2 * (shape (tgt i).label).1,
      far + (e + W) ≤ |(tgt i).at k c - (tgt j).at k c|

theorem split_index {n d c : Nat} (hc : c < d * n) : ∃ pt < n, ∃ j < d, c = pt * d + j := by
  have hd : 0 < d := Nat.pos_of_ne_zero (by rintro rfl; simp at hc)
  exact ⟨c / d, Nat.div_lt_of_lt_mul hc, c % d, Nat.mod_lt _ hd, by
    rw [Nat.mul_comm]; exact (Nat.div_add_mod c d).symm⟩

/-- two squares are small: the sum is small -/
theorem abs_add_le_of_sq {a b p q B e : K} (he : 0 ≤ e) (ha : a ^ 2 ≤ p * B) (hb : b ^ 2 ≤ q * B)
    (h : 2 * (p + q) * B ≤ e ^ 2) : |a + b| ≤ e := by
  apply abs_le_of_sq_le_sq _ he
  nlinarith [sq_nonneg (a - b)]

/-- the estimate of the object of a target that was followed so far -/
theorem follows_of_trace {cfg : Cfg K L D F X} {g} (hf : cfg.dist = .scalar g) (hre : cfg.reid = none)
    {Ok : F → Prop} (hL : FilterLaws cfg.flt Ok) {n : Noise K} (hn : n.Valid) {view : F → Nat → KF2 K}
    (hK : KalmanLaws cfg.flt Ok n view) {shape : L → Nat × Nat} {tgt : ι → Target K L} {η A W e near far : K}
    (hA : TargetsApart cfg g n shape tgt η A W e near far) {who : Ref → ι}
    {w0 w w1 w' : World K L D F X} (h0 : w0.Initial)
    (hr : Reaches cfg (fun _ _ => True) (fun dets _ ct w => CallOk shape (dets.getD []) ct w.heap) w0 w)
    {dets : Option (List Ref)} {period : Int} {ct : Option (CoordTrans K)} {act : List (Obj K L D F)}
    (h : update cfg w dets period ct = (w1, .ok act)) (hcall : CallOk shape (dets.getD []) ct w.heap)
    {o o' : Obj K L D F} (ho : o ∈ w1.objs) (hnew : o.initId ∉ w.keys)
    (hlab : o.label = (tgt (who o.lastDet)).label)
    (hm : Measured cfg.detThr shape W (tgt (who o.lastDet)) 0 (w1.heap o.lastDet))
    {fs : List (Frame K L D F X)} (ht : Trace cfg w1 fs w')
    (hfs : ∀ k f, fs[k]? = some f → Succeeds f ∧ CallOk shape (given f) f.ct f.before.heap ∧
      Matched o.initId f ∧ ∀ p ∈ f.after.objs, p.initId = o.initId →
        p.label = o.label ∧ p.numPoints = o.numPoints ∧ p.dimPoints = o.dimPoints ∧
        Measured cfg.detThr shape W (tgt (who o.lastDet)) (k + 1) (f.after.heap p.lastDet))
    (ho' : o' ∈ w'.objs) (hk : o'.initId = o.initId) :
    Follows cfg shape (tgt (who o.lastDet)) e fs.length o' := by
  have hs : ∀ a b, Compat cfg a b → shape a = shape b := by
    intro a b hab
    unfold Compat at hab
    rw [hf] at hab
    exact congrArg shape hab
  have hr1 : Reaches cfg (fun _ _ => True) (fun dets _ ct w => CallOk shape (dets.getD []) ct w.heap) w0 w1 := by
    have := Reaches.call (cfg := cfg) dets period ct hr hcall
    rwa [h] at this
  have hR1 : Reachable cfg w1 := ⟨w0, h0, hr1.mono (fun _ _ h => h) (fun _ _ _ _ _ => trivial)⟩
  have hP := WfReaches.pointsOk hL hs h0 hr1 o ho
  obtain ⟨s1, _, s2, s3, _⟩ := C07_identity_stable hR1 ht.reaches ho ho' hk.symm
  set T := tgt (who o.lastDet) with hT
  have hn1 : o.numPoints = (shape T.label).1 := by rw [hP.n, hlab]
  have hd1 : o.dimPoints = (shape T.label).2 := by rw [hP.dim, hlab]
  refine ⟨s1.trans hlab, s2.trans hn1, s3.trans hd1, ?_⟩
  intro c hc
  rw [s2, s3] at hc
  obtain ⟨pt, hpt, j, hj, rfl⟩ := split_index hc
  have hlen : (w1.heap o.lastDet).absPoints.data.length = (shape T.label).2 * (shape T.label).1 := hm.abs.2.2
  have hcl : pt * o.dimPoints + j < (w1.heap o.lastDet).absPoints.data.length := by
    rw [hlen, ← hn1, ← hd1]; exact hc
  have hz := List.getElem?_eq_getElem hcl
  set z := (w1.heap o.lastDet).absPoints.data[pt * o.dimPoints + j] with hzd
  obtain ⟨x, v, e1, e2, e3, e4⟩ := C120_follows hL hn hK hre hs h0 hr h hcall ho hnew hpt hj
    (hm.seen pt (hn1 ▸ hpt)) hz (p := fun k => T.at k (pt * o.dimPoints + j)) (W := W) hA.margin
    (steady_path (hA.steady _) _) ht
    (fun k f hkf => by
      obtain ⟨a1, a2, a3, a4⟩ := hfs k f hkf
      refine ⟨a1, a2, a3, fun p hp hpk => ?_⟩
      obtain ⟨b1, b2, b3, b4⟩ := a4 p hp hpk
      refine ⟨b4.seen pt (hn1 ▸ hpt), ?_⟩
      have hl : pt * o.dimPoints + j < (f.after.heap p.lastDet).absPoints.data.length := by
        rw [b4.abs.2.2, ← hn1, ← hd1]; exact hc
      rw [b3]
      exact ⟨_, List.getElem?_eq_getElem hl, b4.close _ _ (List.getElem?_eq_getElem hl)⟩)
    ho' hk
  rw [s3] at e1 e2
  refine ⟨x, v, e1, e2, ?_⟩
  have hx := hm.close _ _ hz
  have herr := hA.error (who o.lastDet) (pt * o.dimPoints + j) (by
    rw [← hT, ← hn1, ← hd1]; exact hc) _ hx
  obtain ⟨f1, f2, f3, f4, f5, f6⟩ := Noise.Valid.facts hn
  have hb : 2 * (n.posVar + n.velVar) *
      n.boundA η W A (z - T.at 0 (pt * o.dimPoints + j)) (0 - T.vel 0 (pt * o.dimPoints + j)) fs.length ≤ e ^ 2 := by
    refine le_trans (mul_le_mul_of_nonneg_left (boundA_le hn hA.margin _ _ _ _) (by positivity)) ?_
    exact herr
  have hB : 0 ≤ n.boundA η W A (z - T.at 0 (pt * o.dimPoints + j)) (0 - T.vel 0 (pt * o.dimPoints + j)) fs.length := by
    exact nonneg_of_mul_nonneg_right ((sq_nonneg _).trans e3) f1
  constructor
  · apply abs_le_of_sq_le_sq _ hA.nonneg
    refine e3.trans (le_trans ?_ hb)
    apply mul_le_mul_of_nonneg_right _ hB
    linarith
  · have := abs_add_le_of_sq hA.nonneg e3 e4 hb
    rw [show x + v - T.at (fs.length + 1) (pt * o.dimPoints + j) = (x - T.at fs.length (pt * o.dimPoints + j)) +
      (v - (T.at (fs.length + 1) (pt * o.dimPoints + j) - T.at fs.length (pt * o.dimPoints + j))) by ring]
    exact this

/-- in a call in which every object is where it should be, exactly the distances of detections and objects of
the same target are below the threshold -/
theorem gated_of_follows {cfg : Cfg K L D F X} {g} {Ok : F → Prop} (hL : FilterLaws cfg.flt Ok) {n : Noise K}
    {view : F → Nat → KF2 K} (hK : KalmanLaws cfg.flt Ok n view) {shape : L → Nat × Nat}
    {tgt : ι → Target K L} {η A W e near far : K} (hA : TargetsApart cfg g n shape tgt η A W e near far) {who : Ref → ι}
    {moving : Prop} {k : Nat} {w : World K L D F X} {dets : Option (List Ref)} {ct : Option (CoordTrans K)}
    (hcam : CameraOk shape moving ct)
    (hshown : ∀ r ∈ dets.getD [], Shows cfg.detThr shape W ct (tgt (who r)) (k + 1) (w.heap r))
    (hobj : ∀ o ∈ w.objs, PointsOk cfg.flt Ok shape o ∧ (¬ moving → o.absToRel = none) ∧
      Follows cfg shape (tgt (who o.lastDet)) e k o) {B : Ref → Nat → Prop}
    (hB : ∀ r ∈ dets.getD [], ∀ o ∈ w.objs, B r o.initId ↔ who r = who o.lastDet) :
    Gated cfg g w dets ct B := by
  intro h hages r hr o ho _ x hx
  rw [hB r hr o ho]
  obtain ⟨hP, hrel, hF⟩ := hobj o ho
  have hS := hshown r hr
  obtain ⟨a, ha⟩ := hages r
  obtain ⟨ap, hap⟩ := startHeap_fields w dets ct r
  have hpts : (h r).points = (w.heap r).points := by rw [ha]; simp only [hap]
  have hlab : (h r).label = (tgt (who r)).label := by rw [ha]; simp only [hap]; exact hS.label
  set p := (o.trackerStep cfg).updateCT ct with hp
  have hsp : SteppedPoints cfg o p := stepped_points cfg ct o
  have hplab : p.label = (tgt (who o.lastDet)).label := hsp.label.trans hF.label
  -- positions of the predicted object
  set T := tgt (who o.lastDet) with hT
  have hpred := hL.predict _ hP.ok
  have hposs : HasShape (shape T.label) (p.positions cfg.flt) := by
    refine ⟨hsp.numPoints.trans hF.n, hsp.dimPoints.trans hF.dim, ?_⟩
    show ((cfg.flt.getX p.filter).take p.dimZ).length = _
    rw [List.length_take, hsp.filter, hL.len _ hpred.1, hpred.2.1, hP.dimZ, hsp.dimZ, ← hF.n, ← hF.dim]
    show min (o.dimPoints * o.numPoints) (2 * (o.dimPoints * o.numPoints)) = _
    omega
  have hpos : ∀ c y, (p.positions cfg.flt).data[c]? = some y → |y - T.at (k + 1) c| ≤ e := by
    intro c y hy
    have hc : c < o.dimPoints * o.numPoints := by
      have := (List.getElem?_eq_some_iff.mp hy).1
      rw [hposs.2.2, ← hF.n, ← hF.dim] at this
      exact this
    obtain ⟨x, v, x1, x2, _, x4⟩ := hF.pos c hc
    have hcz : c < cfg.flt.dimZ o.filter := by rw [hP.dimZ]; exact hc
    obtain ⟨y1, y2⟩ := hK.x o.filter c hP.ok hcz
    have hah := hK.ahead o.filter c hP.ok hcz
    have q1 : x = (view o.filter c).p := by
      simp only [Obj.positions] at x1
      rw [List.getElem?_take_of_lt (show c < o.dimZ from hc), y1] at x1
      exact (Option.some.inj x1).symm
    have q2 : v = (view o.filter c).v := by
      simp only [Obj.velocity] at x2
      rw [List.getElem?_drop] at x2
      rw [hP.dimZ] at y2
      rw [y2] at x2
      exact (Option.some.inj x2).symm
    have q3 : y = x + v := by
      simp only [Obj.positions] at hy
      rw [List.getElem?_take_of_lt (show c < p.dimZ by rw [hsp.dimZ]; exact hc), hsp.filter, hah] at hy
      rw [q1, q2]
      exact (Option.some.inj hy).symm
    rw [q3]
    exact x4
  -- coordinates as compared and as in absolute coordinates
  have hest : HasShape (shape T.label) (p.estimate cfg.flt) ∧
      (T.label = (tgt (who r)).label → ∀ (c : Nat) (a b : K), (h r).points.data[c]? = some a →
        (p.estimate cfg.flt).data[c]? = some b →
      ∃ a' b', (placed ct (w.heap r)).data[c]? = some a' ∧ (p.positions cfg.flt).data[c]? = some b' ∧
        a - b = a' - b') := by
    cases ct with
    | none =>
      have : p.estimate cfg.flt = p.positions cfg.flt := by
        unfold Obj.estimate
        have : p.absToRel = none := hrel hcam
        rw [this]
      rw [this, hpts]
      exact ⟨hposs, fun _ c a b ha hb => ⟨a, b, ha, hb, rfl⟩⟩
    | some ctr =>
      have : p.estimate cfg.flt = ctr.absToRel (p.positions cfg.flt) := rfl
      rw [this, hpts]
      refine ⟨hcam.2.toRel _ _ hposs, fun hl c a b ha hb => ?_⟩
      have h1 : HasShape (shape T.label) (w.heap r).points := by rw [hl]; exact hS.points
      have h2 := hcam.2.toAbs _ _ h1
      have hc := (List.getElem?_eq_some_iff.mp ha).1
      rw [h1.2.2] at hc
      have c1 : c < (ctr.relToAbs (w.heap r).points).data.length := by rw [h2.2.2]; exact hc
      have c2 : c < (p.positions cfg.flt).data.length := by rw [hposs.2.2]; exact hc
      exact ⟨_, _, List.getElem?_eq_getElem c1, List.getElem?_eq_getElem c2,
        hcam.2.diff _ _ _ h1 hposs c _ _ _ _ ha (List.getElem?_eq_getElem c1) (List.getElem?_eq_getElem c2) hb⟩
  rcases hx with ⟨hl, hfx⟩ | ⟨hl, rfl⟩
  · have hl' : T.label = (tgt (who r)).label := by rw [← hplab, ← hlab]; exact hl.symm
    have s1 : HasShape (shape (h r).label) (h r).points := by rw [hlab, hpts]; exact hS.points
    have s2 : HasShape (shape (h r).label) (p.estimate cfg.flt) := by rw [hlab, ← hl']; exact hest.1
    by_cases hw : who r = who o.lastDet
    · refine ⟨fun _ => hw, fun _ => hA.gauge.near _ _ _ hl s1 s2 hfx fun c a b ha hb => ?_⟩
      obtain ⟨a', b', ha', hb', hd⟩ := hest.2 hl' c a b ha hb
      have d1 := hS.close c a' ha'
      have d2 := hpos c b' hb'
      rw [hw, ← hT] at d1
      rw [hd]
      calc |a' - b'| = |(a' - T.at (k + 1) c) - (b' - T.at (k + 1) c)| := by ring_nf
        _ ≤ |a' - T.at (k + 1) c| + |b' - T.at (k + 1) c| := abs_sub _ _
        _ ≤ near := by linarith [hA.near]
    · refine ⟨fun hlt => absurd hlt (not_lt.mpr ?_), fun e => absurd e hw⟩
      obtain ⟨c, hc, hfar⟩ := hA.far (who r) (who o.lastDet) hw hl'.symm (k + 1) (by omega)
      have c1 : c < (h r).points.data.length := by rw [s1.2.2, hlab]; exact hc
      have c2 : c < (p.estimate cfg.flt).data.length := by rw [s2.2.2, hlab]; exact hc
      obtain ⟨a', b', ha', hb', hd⟩ := hest.2 hl' c _ _ (List.getElem?_eq_getElem c1) (List.getElem?_eq_getElem c2)
      refine hA.gauge.far _ _ _ hl s1 s2 hfx c _ _ (List.getElem?_eq_getElem c1) (List.getElem?_eq_getElem c2) ?_
      rw [hd]
      have d1 := hS.close c a' ha'
      have d2 := hpos c b' hb'
      rw [← hT] at hfar
      have : |(tgt (who r)).at (k + 1) c - T.at (k + 1) c| ≤
          |a' - b'| + |a' - (tgt (who r)).at (k + 1) c| + |b' - T.at (k + 1) c| := by
        calc _ = |(a' - b') - (a' - (tgt (who r)).at (k + 1) c) + (b' - T.at (k + 1) c)| := by ring_nf
          _ ≤ |(a' - b') - (a' - (tgt (who r)).at (k + 1) c)| + |b' - T.at (k + 1) c| := abs_add_le _ _
          _ ≤ _ := by gcongr; exact abs_sub _ _
      linarith
  · constructor
    · intro hlt; exact absurd hlt not_top_lt
    · intro hw
      refine absurd ?_ hl
      show (h r).label = p.label
      rw [hlab, hplab, hT, hw]

/-- which object follows which target: the numbers of the objects with the targets of their last detections -/
def roster (who : Ref → ι) (w : World K L D F X) : List (Nat × ι) :=
  w.objs.map fun o => (o.initId, who o.lastDet)

/-- without objects every detection starts one -/
theorem first_call {cfg : Cfg K L D F X} {g} (hf : cfg.dist = .scalar g) {w w' : World K L D F X}
    (hw : Reachable cfg w) (hempty : w.objs = []) {dets : Option (List Ref)} {period : Int}
    {ct : Option (CoordTrans K)} {act : List (Obj K L D F)} (h : update cfg w dets period ct = (w', .ok act)) :
    w'.objs.map (·.lastDet) = dets.getD [] := by
  obtain ⟨g1, d1, d2, pairs1, pairs2, rest1, rest2, _, R1, R2, old, news, e1, e2, e3, _⟩ :=
    C64_two_greedy_rounds hf hw h
  have hc : ∀ init, compared cfg ct w.objs init = [] := fun init => by unfold compared; rw [hempty]; rfl
  have hp : ∀ {h : Ref → Det K L X} {init dets d pairs rest}, Round g cfg.thr h (compared cfg ct w.objs init) dets d pairs rest
      w'.objs → rest = dets := by
    intro h init dets d pairs rest R
    have : pairs = [] := by
      rw [List.eq_nil_iff_forall_not_mem]
      intro p hp
      have := (R.greedy.inRange p hp).2
      rw [hc] at this
      simp at this
    rw [R.rest, this, ← leftOver_eq]
    simp [unmatchedOf]
  have hold : old = [] := by
    rw [List.eq_nil_iff_forall_not_mem]
    intro o ho
    have := e3 o ho
    rw [hempty] at this
    simp at this
  rw [e1, hold, List.nil_append, e2, hp R2, hp R1]

/-- **C88** Targets that are far apart are followed without ever being confused. The tracker starts with no
objects; every call gets exactly one new detection of each target, in any order, off by at most `W`; the targets
may change their velocities by up to `A` per frame. If the error that C120 allows for predictions, plus `W`, is near for the distance,
and different targets of equal label are always far apart, then every detection of the first call starts an
object, and whatever the number of calls: the tracker has exactly these objects, each of them got in every call
the detection of its own target, and each estimated coordinate is off by at most `e`. The camera may be still,
or move with transformations passed in all calls. There is no ReID. -/
theorem C88_targets {cfg : Cfg K L D F X} {g} (hf : cfg.dist = .scalar g) (hre : cfg.reid = none)
    (hmax : cfg.reidMax = none) (hcm : 0 ≤ cfg.hitCounterMax)
    {Ok : F → Prop} (hL : FilterLaws cfg.flt Ok) {n : Noise K} (hn : n.Valid) {view : F → Nat → KF2 K}
    (hK : KalmanLaws cfg.flt Ok n view) {shape : L → Nat × Nat} {tgt : ι → Target K L} {η A W e near far : K}
    (hA : TargetsApart cfg g n shape tgt η A W e near far) {who : Ref → ι} {moving : Prop}
    {w0 w w1 w' : World K L D F X} (h0 : w0.Initial)
    (hr : Reaches cfg (fun _ _ => True) (fun dets _ ct w => CallOk shape (dets.getD []) ct w.heap) w0 w)
    (hempty : w.objs = []) {dets : Option (List Ref)} {period : Int} {ct : Option (CoordTrans K)}
    {act : List (Obj K L D F)} (h : update cfg w dets period ct = (w1, .ok act))
    (hfirst : ShowsAll cfg.detThr shape W moving tgt who 0 (⟨dets, period, ct, w, w1, .ok act⟩ : Frame K L D F X))
    {fs : List (Frame K L D F X)} (ht : Trace cfg w1 fs w')
    (hfs : ∀ k f, fs[k]? = some f → Succeeds f ∧ ShowsAll cfg.detThr shape W moving tgt who (k + 1) f) :
    w1.objs.map (·.lastDet) = dets.getD [] ∧ roster who w' = roster who w1 ∧
    (∀ f ∈ fs, roster who f.after = roster who w1 ∧ ∀ o ∈ f.after.objs, o.lastDet ∈ given f) ∧
    ∀ o ∈ w'.objs, o.label = (tgt (who o.lastDet)).label ∧ ∀ c < o.dimPoints * o.numPoints,
      ∃ x, (o.positions cfg.flt).data[c]? = some x ∧ |x - (tgt (who o.lastDet)).at fs.length c| ≤ e := by
  have hs : ∀ a b, Compat cfg a b → shape a = shape b := by
    intro a b hab
    unfold Compat at hab
    rw [hf] at hab
    exact congrArg shape hab
  have toR : ∀ {v}, Reaches cfg (fun _ _ => True) (fun dets _ ct w => CallOk shape (dets.getD []) ct w.heap) w0 v →
      Reachable cfg v := fun hv => ⟨w0, h0, hv.mono (fun _ _ h => h) (fun _ _ _ _ _ => trivial)⟩
  have hW := toR hr
  have hcall := showsAll_callOk hfirst
  have hcall' : CallOk shape (dets.getD []) ct w.heap := hcall
  have hr1 : Reaches cfg (fun _ _ => True) (fun dets _ ct w => CallOk shape (dets.getD []) ct w.heap) w0 w1 := by
    have := Reaches.call (cfg := cfg) dets period ct hr hcall
    rwa [h] at this
  have hW1 := toR hr1
  have hI1 := hW1.inv
  have hkeys : w.keys = [] := by unfold World.keys; rw [hempty]; rfl
  have hlast := first_call hf hW hempty h
  have hnew : ∀ o ∈ w1.objs, o.initId ∉ w.keys := fun o _ => by rw [hkeys]; simp
  have hborn : ∀ o ∈ w1.objs, 0 ≤ o.hitCounter ∧ o.lastDet ∈ dets.getD [] ∧
      o.label = (tgt (who o.lastDet)).label ∧
      Measured cfg.detThr shape W (tgt (who o.lastDet)) 0 (w1.heap o.lastDet) ∧ (¬ moving → o.absToRel = none) := by
    intro o ho
    obtain ⟨b1, b2, _, _, _, _, _, b3⟩ := C11_new_objects hW h ho (by rw [hempty]; intro p hp; cases hp)
    have hsh := hfirst.shown _ b2
    refine ⟨by rw [b1]; have := hfirst.period; simp only at this; omega, b2, b3.trans hsh.label,
      shows_after hW h hfirst.nodup hfirst.camera b2 hsh, fun hm => ?_⟩
    have hct : ct = none := by
      cases hc : ct with
      | none => rfl
      | some c =>
        have := hfirst.camera
        simp only [hc] at this
        exact absurd this.1 hm
    subst hct
    have hw1 : w1 = (update cfg w dets period none).1 := by rw [h]
    rcases C26_transformation_kept hW dets period (hw1 ▸ ho) with ⟨p, hp, _⟩ | ⟨_, e⟩
    · rw [hempty] at hp; cases hp
    · exact e
  have hwho : (w1.objs.map fun o => who o.lastDet).Nodup := by
    have : (w1.objs.map fun o => who o.lastDet) = (dets.getD []).map who := by
      rw [← hlast, List.map_map]; rfl
    rw [this]
    exact List.Nodup.map_on (fun a ha b hb => hfirst.once a ha b hb) hfirst.nodup
  -- the objects and targets of the first call
  have hin : ∀ {v : World K L D F X}, roster who v = roster who w1 → ∀ o ∈ v.objs,
      ∃ p ∈ w1.objs, p.initId = o.initId ∧ who p.lastDet = who o.lastDet := by
    intro v hv o ho
    have : (o.initId, who o.lastDet) ∈ roster who w1 := by rw [← hv]; exact List.mem_map_of_mem ho
    obtain ⟨p, hp, e⟩ := List.mem_map.mp this
    exact ⟨p, hp, (Prod.mk.inj e).1, (Prod.mk.inj e).2⟩
  -- the estimates follow
  have hfol : ∀ {fs v}, Trace cfg w1 fs v → roster who v = roster who w1 →
      (∀ k f, fs[k]? = some f → Succeeds f ∧ ShowsAll cfg.detThr shape W moving tgt who (k + 1) f ∧
        Reachable cfg f.before ∧ f.after = (update cfg f.before f.dets f.period f.ct).1 ∧
        f.out = (update cfg f.before f.dets f.period f.ct).2 ∧ Reaches' cfg w1 f.after ∧
        roster who f.after = roster who w1 ∧ ∀ o ∈ f.after.objs, o.lastDet ∈ given f) →
      ∀ o ∈ v.objs, Follows cfg shape (tgt (who o.lastDet)) e fs.length o := by
    intro fs v htr hro hf' o ho
    obtain ⟨p, hp, hpk, hpw⟩ := hin hro o ho
    obtain ⟨b1, b2, b3, b4, _⟩ := hborn p hp
    rw [← hpw]
    refine follows_of_trace hf hre hL hn hK hA h0 hr h hcall' hp (hnew p hp) b3 b4 htr ?_ ho hpk.symm
    intro k f hkf
    obtain ⟨c1, c2, c3, c4, c5, c6, c7, c8⟩ := hf' k f hkf
    refine ⟨c1, showsAll_callOk c2, ⟨fun q hq _ => c2.fresh q hq, fun q hq _ => c8 q hq⟩, fun q hq hqk => ?_⟩
    obtain ⟨d1, _, d2, d3, _⟩ := C07_identity_stable hW1 c6 hp hq hqk.symm
    refine ⟨d1, d2, d3, ?_⟩
    obtain ⟨p', hp', hpk', hpw'⟩ := hin c7 q hq
    have : p' = p := World.eq_of_mem_of_key hI1.nodup hp' hp (hpk'.trans hqk)
    subst this
    rw [hpw']
    obtain ⟨act', hact'⟩ := c1
    have hup : update cfg f.before f.dets f.period f.ct = (f.after, .ok act') := by
      rw [c4]; exact Prod.ext rfl (c5.symm.trans hact')
    exact shows_after c3 hup c2.nodup c2.camera (c8 q hq) (c2.shown _ (c8 q hq))
  suffices hsuff : roster who w' = roster who w1 ∧
      (∀ k f, fs[k]? = some f → Succeeds f ∧ ShowsAll cfg.detThr shape W moving tgt who (k + 1) f ∧
        Reachable cfg f.before ∧ f.after = (update cfg f.before f.dets f.period f.ct).1 ∧
        f.out = (update cfg f.before f.dets f.period f.ct).2 ∧ Reaches' cfg w1 f.after ∧
        roster who f.after = roster who w1 ∧ ∀ o ∈ f.after.objs, o.lastDet ∈ given f) ∧
      (∀ o ∈ w'.objs, 0 ≤ o.hitCounter ∧ (¬ moving → o.absToRel = none)) ∧
      Reaches cfg (fun _ _ => True) (fun dets _ ct w => CallOk shape (dets.getD []) ct w.heap) w0 w' by
    obtain ⟨s1, s2, s3, s4⟩ := hsuff
    refine ⟨hlast, s1, fun f hf' => ?_, fun o ho => ?_⟩
    · obtain ⟨k, hk⟩ := List.mem_iff_getElem?.mp hf'
      exact (s2 k f hk).2.2.2.2.2.2
    · have hF := hfol ht s1 s2 o ho
      refine ⟨hF.label, fun c hc => ?_⟩
      obtain ⟨x, _, x1, _, x3, _⟩ := hF.pos c hc
      exact ⟨x, x1, x3⟩
  induction ht with
  | nil =>
    exact ⟨rfl, by simp, fun o ho => ⟨(hborn o ho).1, (hborn o ho).2.2.2.2⟩, hr1⟩
  | env heap gc _ he ih =>
    obtain ⟨s1, s2, s3, s4⟩ := ih hfs
    exact ⟨s1, s2, s3, .env heap gc s4 he trivial⟩
  | @call fs w2 dets2 period2 ct2 ht ih =>
    obtain ⟨s1, s2, s3, s4⟩ := ih (fun k f hf => hfs k f (by
      rw [List.getElem?_append_left (List.getElem?_eq_some_iff.mp hf).1]; exact hf))
    obtain ⟨⟨act2, hact2⟩, hsh⟩ := hfs fs.length _ List.getElem?_concat_length
    have hfol2 := hfol ht s1 s2
    have hW2 := toR s4
    have hI2 := hW2.inv
    have hup : update cfg w2 dets2 period2 ct2 = ((update cfg w2 dets2 period2 ct2).1, .ok act2) :=
      Prod.ext rfl hact2
    set w3 := (update cfg w2 dets2 period2 ct2).1 with hw3
    have hcan : ∀ o ∈ w2.objs, CanMatch cfg.reidMax o := fun o ho => ⟨(s3 o ho).1, Or.inl hmax⟩
    have hgiven : given (⟨dets2, period2, ct2, w2, w3, (update cfg w2 dets2 period2 ct2).2⟩ : Frame K L D F X) =
      dets2.getD [] := rfl
    have hndw : (w2.objs.map fun o => who o.lastDet).Nodup := by
      have e1 : (w2.objs.map fun o => who o.lastDet) = (roster who w2).map Prod.snd := by
        unfold roster; rw [List.map_map]; rfl
      have e2 : (w1.objs.map fun o => who o.lastDet) = (roster who w1).map Prod.snd := by
        unfold roster; rw [List.map_map]; rfl
      rw [e1, s1, ← e2]
      exact hwho
    -- ownership
    have hBiff : ∀ r ∈ dets2.getD [], ∀ o ∈ w2.objs,
        (∃ p ∈ w2.objs, p.initId = o.initId ∧ who r = who p.lastDet) ↔ who r = who o.lastDet := by
      intro r _ o ho
      constructor
      · rintro ⟨p, hp, hk, e⟩
        have : p = o := World.eq_of_mem_of_key hI2.nodup hp ho hk
        rw [e, this]
      · intro e
        exact ⟨o, ho, rfl, e⟩
    have hgate := gated_of_follows (B := fun r k => ∃ p ∈ w2.objs, p.initId = k ∧ who r = who p.lastDet) hL hK hA
      hsh.camera hsh.shown
      (fun o ho => ⟨WfReaches.pointsOk hL hs h0 s4 o ho, (s3 o ho).2, hfol2 o ho⟩) hBiff
    obtain ⟨hold, old, news, n1, n2, n3, n4, n5⟩ := C88_one_call hf hre hW2 hup hsh.nodup hsh.fresh hgate
      (fun r hr r' hr' o ho _ hb hb' => by
        rw [hBiff r hr o ho] at hb
        rw [hBiff r' hr' o ho] at hb'
        exact hsh.once r hr r' hr' (hb.trans hb'.symm))
      (fun r hr o ho o' ho' _ _ hb hb' => by
        rw [hBiff r hr o ho] at hb
        rw [hBiff r hr o' ho'] at hb'
        have : o = o' := List.inj_on_of_nodup_map hndw ho ho' (hb.symm.trans hb')
        rw [this])
    -- every target has its object
    have hobjOf : ∀ r ∈ dets2.getD [], ∃ o ∈ w2.objs, who r = who o.lastDet := by
      intro r _
      obtain ⟨r0, hr0, e⟩ := hfirst.every (who r)
      have hr0' : r0 ∈ w1.objs.map (·.lastDet) := by rw [hlast]; exact hr0
      obtain ⟨p, hp, rfl⟩ := List.mem_map.mp hr0'
      have : (p.initId, who p.lastDet) ∈ roster who w2 := by rw [s1]; exact List.mem_map_of_mem hp
      obtain ⟨o, ho, eo⟩ := List.mem_map.mp this
      exact ⟨o, ho, e.symm.trans (Prod.mk.inj eo).2.symm⟩
    have hnews : news = [] := by
      rw [List.eq_nil_iff_forall_not_mem]
      intro q hq
      have hqr : q.lastDet ∈ news.map (·.lastDet) := List.mem_map_of_mem hq
      have hqd := n4.subset hqr
      obtain ⟨o, ho, e⟩ := hobjOf _ hqd
      exact (n5 _ hqd).mp hqr o ho (hcan o ho) ⟨o, ho, rfl, e⟩
    -- each object got the detection of its target
    have hgot : ∀ o ∈ w2.objs, ∃ o' ∈ w3.objs, o'.initId = o.initId ∧ o'.lastDet ∈ dets2.getD [] ∧
        who o'.lastDet = who o.lastDet := by
      intro o ho
      obtain ⟨r, hr, e⟩ := hsh.every (who o.lastDet)
      obtain ⟨o', ho', hk, hb, _⟩ := hold o ho (hcan o ho)
      have := hb r hr ⟨o, ho, rfl, e⟩
      exact ⟨o', ho', hk, by rw [this]; exact hr, by rw [this]; exact e⟩
    obtain ⟨_, _, hits, merges, news', S⟩ := update_ok hI2.nodup hup
    have hI3 : Inv w3 := (update_inv (cfg := cfg) hI2 dets2 period2 ct2).1
    have hsurv : survivors cfg w2.objs = w2.objs := by
      unfold survivors
      rw [hmax]
      exact List.filter_eq_self.mpr fun o ho => by simp [Obj.hcPos, (s3 o ho).1]
    have hk3 : w3.keys = w2.keys := by
      have e := S.keys
      rw [S.noreid hre] at e
      simp only [hsurv, List.map_nil, List.not_mem_nil, not_false_eq_true, decide_true, List.filter_true] at e
      have hn' : news' = [] := by
        by_contra hne
        have hpos : 0 < news'.length := List.length_pos_iff.mpr hne
        have hm : w2.initCount + 1 + 0 ∈ w3.keys := by
          rw [e]
          exact List.mem_append_right _ (List.mem_map.mpr ⟨0, List.mem_range.mpr hpos, rfl⟩)
        obtain ⟨q, hq, eq⟩ := List.mem_map.mp hm
        rw [n1, hnews, List.append_nil] at hq
        obtain ⟨q', hq', eq'⟩ := List.mem_map.mp (n2 q hq)
        have := (hI2.bounded q' hq').2
        change q.initId = w2.initCount + 1 + 0 at eq
        change q'.initId = q.initId at eq'
        omega
      rw [hn'] at e
      simpa [World.keys] using e
    have hback : ∀ o' ∈ w3.objs, ∃ o ∈ w2.objs, o.initId = o'.initId ∧ o'.lastDet ∈ dets2.getD [] ∧
        who o'.lastDet = who o.lastDet := by
      intro o' ho'
      have : o'.initId ∈ w2.keys := by rw [← hk3]; exact List.mem_map_of_mem ho'
      obtain ⟨o, ho, ek⟩ := List.mem_map.mp this
      obtain ⟨q, hq, hqk, hq1, hq2⟩ := hgot o ho
      have : q = o' := World.eq_of_mem_of_key hI3.nodup hq ho' (hqk.trans ek)
      subst this
      exact ⟨o, ho, ek, hq1, hq2⟩
    have hroster : roster who w3 = roster who w1 := by
      rw [← s1]
      unfold roster
      apply List.ext_getElem
      · rw [List.length_map, List.length_map]
        have := congrArg List.length hk3
        unfold World.keys at this
        simpa using this
      · intro i h1 h2
        rw [List.getElem_map, List.getElem_map]
        rw [List.length_map] at h1 h2
        have hki : w3.objs[i].initId = w2.objs[i].initId := by
          have e1 : w3.keys[i]? = w2.keys[i]? := by rw [hk3]
          unfold World.keys at e1
          rw [List.getElem?_map, List.getElem?_map, List.getElem?_eq_getElem h1, List.getElem?_eq_getElem h2] at e1
          exact Option.some.inj e1
        obtain ⟨o, ho, ek, _, ew⟩ := hback _ (List.getElem_mem h1)
        have : o = w2.objs[i] := World.eq_of_mem_of_key hI2.nodup ho (List.getElem_mem h2) (ek.trans hki)
        rw [hki, ew, this]
    refine ⟨hroster, ?_, ?_, .call _ _ _ s4 (showsAll_callOk hsh)⟩
    · intro k f hkf
      rcases Nat.lt_or_ge k fs.length with hlt | hge
      · rw [List.getElem?_append_left hlt] at hkf
        exact s2 k f hkf
      · rw [List.getElem?_append_right hge] at hkf
        have hk0 : k - fs.length = 0 := by
          have := (List.getElem?_eq_some_iff.mp hkf).1
          simp at this
          omega
        have hk : k = fs.length := by omega
        subst hk
        rw [Nat.sub_self] at hkf
        simp only [List.getElem?_cons_zero, Option.some.injEq] at hkf
        subst hkf
        exact ⟨⟨act2, hact2⟩, hsh, hW2, rfl, rfl, .call _ _ _ ht.reaches trivial, hroster, fun o ho => by
          obtain ⟨_, _, _, h1, _⟩ := hback o ho
          exact h1⟩
    · intro o' ho'
      obtain ⟨o, ho, ek, hd, _⟩ := hback o' ho'
      constructor
      · rcases (update_obj_cases hI2 hup ho ho' ek).2 with ⟨v, rfl⟩ | ⟨r, _, hH, _⟩ | ⟨hx, _⟩
        · exfalso
          refine hsh.fresh o ho ?_
          have : ({ stepped cfg ct2 o with curMin := v } : Obj K L D F).lastDet = o.lastDet := by
            show (stepped cfg ct2 o).lastDet = _
            simp
          rw [this] at hd
          exact hd
        · rw [hH.hitCounter]
          have := (s3 o ho).1
          have hper := hsh.period
          simp only at hper
          omega
        · exact absurd hre hx
      · intro hm
        have hct : ct2 = none := by
          cases hc : ct2 with
          | none => rfl
          | some c =>
            have := hsh.camera
            simp only [hc] at this
            exact absurd this.1 hm
        subst hct
        rcases C26_transformation_kept hW2 dets2 period2 ho' with ⟨p, hp, epk, ea⟩ | ⟨hno, _⟩
        · rw [ea]
          exact (s3 p hp).2 hm
        · exact absurd (List.mem_map.mpr ⟨o, ho, ek⟩) hno

end

end Norfair.Props
