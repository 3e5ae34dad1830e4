import Verif.Spec.DemoLoop
import Verif.Props.KeyLoop

/-! Loops of demos and the calls of the tracker (for C132 and C133). -/

set_option linter.unusedSectionVars false

namespace Norfair.Props

open Norfair Norfair.Spec

variable {K L D F X H α S : Type}

/-! ### Detections in the memory -/

/-- the references are to these detections, whatever their ages -/
def Holds (h : Ref → Det K L X) (refs : List Ref) (ds : List (Det K L X)) : Prop :=
  List.Forall₂ (fun r d => ∃ a, h r = { d with age := a }) refs ds

theorem Holds.map {h : Ref → Det K L X} {refs : List Ref} {ds : List (Det K L X)} (hh : Holds h refs ds) {G : Type}
    (φ : Det K L X → G) (hφ : ∀ d a, φ { d with age := a } = φ d) : refs.map (fun r => φ (h r)) = ds.map φ := by
  induction hh with
  | nil => rfl
  | cons e _ ih =>
    obtain ⟨a, e⟩ := e
    rw [List.map_cons, List.map_cons, ih, e, hφ]

/-- the same detections, whatever their ages -/
def SameDets (h h' : Ref → Det K L X) : Prop := ∀ r, ∃ a, h' r = { h r with age := a }

theorem SameDets.holds {h h' : Ref → Det K L X} (hs : SameDets h h') {refs : List Ref} {ds : List (Det K L X)}
    (hh : Holds h refs ds) : Holds h' refs ds := by
  refine List.Forall₂.imp (fun r d => ?_) hh
  rintro ⟨a, e⟩
  obtain ⟨b, e'⟩ := hs r
  exact ⟨b, by rw [e', e]⟩

theorem detHeap_append (label : L) (extra : X) (pre ls : List (Det K L X)) (i : Nat) (hi : i < ls.length) :
    detHeap label extra (pre ++ ls) (pre.length + i) = ls[i] := by
  rw [detHeap, List.getD_eq_getElem?_getD, List.getElem?_append_right (by omega), Nat.add_sub_cancel_left,
    List.getElem?_eq_getElem hi]
  rfl

theorem refsFrom_holds (label : L) (extra : X) (dets : List (List (Det K L X))) : ∀ (pre : List (Det K L X)),
    ∀ p ∈ dets.zip (refsFrom pre.length dets), Holds (detHeap label extra (pre ++ dets.flatten)) p.2 p.1 := by
  induction dets with
  | nil => intro pre p hp; cases hp
  | cons l ls ih =>
    intro pre p hp
    rw [refsFrom, List.zip_cons_cons] at hp
    rcases List.mem_cons.mp hp with rfl | hp
    · unfold Holds
      rw [List.forall₂_iff_get]
      refine ⟨by simp, fun i h1 (h2 : i < l.length) => ⟨l[i].age, ?_⟩⟩
      simp only [List.get_eq_getElem, List.getElem_range', Nat.one_mul, List.flatten_cons]
      rw [detHeap_append _ _ _ _ _ (by rw [List.length_append]; omega), List.getElem_append_left h2]
    · have := ih (pre ++ l) p (by rwa [List.length_append])
      rwa [List.append_assoc] at this

theorem detHeap_mem {label : L} {extra : X} {dets : List (List (Det K L X))} {r : Ref} (hr : r < dets.flatten.length) :
    ∃ l ∈ dets, detHeap label extra dets.flatten r ∈ l := by
  have : detHeap label extra dets.flatten r = dets.flatten[r] := by
    rw [detHeap, List.getD_eq_getElem?_getD, List.getElem?_eq_getElem hr]
    rfl
  rw [this]
  exact List.mem_flatten.mp (List.getElem_mem hr)

section
variable [LinearOrder K] [Zero K] [LinearOrder D] [OrderTop D] [Zero D] [DecidableEq L]

theorem update_sameDets {cfg : Cfg K L D F X} {w w' : World K L D F X} {h : Ref → Det K L X} (hI : Inv w)
    (hs : SameDets h w.heap) {dets : Option (List Ref)} {period : Int} {act : List (Obj K L D F)}
    (hu : update cfg w dets period none = (w', .ok act)) : SameDets h w'.heap := fun r =>
  heap_keeps (Q := fun d => ∃ a, d = { h r with age := a }) (fun _ a ⟨b, e⟩ => ⟨a, by rw [e]⟩) (fun c e => by cases e) hI hu r
    (hs r)

/-! ### The loop -/

theorem demoLoop_track (cfg : Cfg K L D F X) (ops : DemoOps K L D F X α S) (J : Nat → S → Prop)
    (C : α × Nat → Option (List Ref) × Int) (P : α × Nat → List (Obj K L D F) → Option Pic) (h : Ref → Det K L X)
    (xs : List α) : ∀ (i : Nat) (st : S) (w : World K L D F X), J i st → Inv w → SameDets h w.heap →
    (∀ p ∈ xs.zipIdx i, ∀ st, J p.2 st → J (p.2 + 1) (ops.call st p.2 p.1).1 ∧ (ops.call st p.2 p.1).2 = C p) →
    (∀ w' acts, trackCalls cfg w ((xs.zipIdx i).map C) = some (w', acts) → ∀ p ∈ xs.zipIdx i, ∀ st, J p.2 st →
      ∀ act ∈ acts, ∀ h', SameDets h h' → ops.shot (ops.call st p.2 p.1).1 p.2 p.1 h' act = some (P p act)) →
    demoLoop cfg ops i st w xs = (trackCalls cfg w ((xs.zipIdx i).map C)).map fun r =>
      (r.1, ((xs.zipIdx i).zip r.2).filterMap fun y => P y.1 y.2) := by
  induction xs with
  | nil => intro i st w _ _ _ _ _; rfl
  | cons x xs ih =>
    intro i st w hJ hI hs hc hp
    rw [List.zipIdx_cons] at hc hp ⊢
    obtain ⟨hJ', hcall⟩ := hc (x, i) List.mem_cons_self st hJ
    simp only at hJ' hcall
    rw [demoLoop]
    rw [List.map_cons, trackCalls, ← hcall] at hp ⊢
    rcases hu : update cfg w (ops.call st i x).2.1 (ops.call st i x).2.2 none with ⟨w1, out⟩
    simp only [hu] at hp ⊢
    cases out with
    | error e => rfl
    | ok act =>
      simp only at hp ⊢
      have hI1 : Inv w1 := by
        have := (update_inv (cfg := cfg) hI (ops.call st i x).2.1 (ops.call st i x).2.2 none).1
        rwa [hu] at this
      have hs1 := update_sameDets hI hs hu
      have hc' : ∀ p ∈ xs.zipIdx (i + 1), ∀ st, J p.2 st → J (p.2 + 1) (ops.call st p.2 p.1).1 ∧
          (ops.call st p.2 p.1).2 = C p := fun p hp => hc p (List.mem_cons_of_mem _ hp)
      rcases ht : trackCalls cfg w1 ((xs.zipIdx (i + 1)).map C) with _ | ⟨w', acts⟩
      · rw [ih (i + 1) _ w1 hJ' hI1 hs1 hc' (fun w' acts h => by rw [ht] at h; cases h), ht]
        rcases ops.shot (ops.call st i x).1 i x w1.heap act with _ | p <;> rfl
      · rw [ht] at hp
        have hp := hp w' (act :: acts) rfl
        have := ih (i + 1) _ w1 hJ' hI1 hs1 hc' (fun w'' acts' h p hm st hst a ha => by
          rw [ht] at h
          cases h
          exact hp p (List.mem_cons_of_mem _ hm) st hst a (List.mem_cons_of_mem _ ha))
        rw [this, ht, hp (x, i) List.mem_cons_self st hJ act List.mem_cons_self w1.heap hs1]
        simp only [Option.map_some, List.zip_cons_cons, List.filterMap_cons]
        rcases P (x, i) act with _ | p <;> rfl

theorem zip_zipIdx {β γ : Type} (l : List β) (m : List γ) (k : Nat) (h : l.length = m.length) :
    ((l.zip m).zipIdx k).map (fun p => (p.1.1, p.2)) = l.zipIdx k ∧
    ∀ p ∈ (l.zip m).zipIdx k, (p.1.1, p.2) ∈ l.zipIdx k ∧ ((p.1.1, p.2), p.1.2) ∈ (l.zipIdx k).zip m := by
  induction l generalizing m k with
  | nil => simp
  | cons a l ih =>
    match m, h with
    | b :: m, h =>
      obtain ⟨h1, h2⟩ := ih m (k + 1) (by simpa using h)
      rw [List.zip_cons_cons, List.zipIdx_cons, List.zipIdx_cons, List.map_cons, h1]
      refine ⟨rfl, fun p hp => ?_⟩
      rcases List.mem_cons.mp hp with rfl | hp
      · exact ⟨List.mem_cons_self, by simp⟩
      · obtain ⟨a1, a2⟩ := h2 p hp
        exact ⟨List.mem_cons_of_mem _ a1, by rw [List.zip_cons_cons]; exact List.mem_cons_of_mem _ a2⟩

/-- a demo does what the tracker does for the calls `C`, and writes the frames `P` -/
theorem demoRun_track (cfg : Cfg K L D F X) (ops : DemoOps K L D F X (α × List Ref) S) (J : Nat → S → Prop)
    {conv : Nat → α → Option (List (Det K L X))} (C : α × Nat → Option (List (Det K L X)) × Int)
    (P : α × Nat → List (Obj K L D F) → Option Pic) (label : L) (extra : X) (st : S) (g : Nat) (frames : List α)
    (h : Ref → Det K L X) (hh : h = detHeap label extra (newDets (frames.zipIdx.map C)).flatten) (hJ : J 0 st)
    (hconv : ∀ y ∈ frames.zipIdx, conv y.2 y.1 = some ((C y).1.getD []))
    (hcall : ∀ y ∈ frames.zipIdx, ∀ refs, Holds h refs ((C y).1.getD []) → ∀ st, J y.2 st →
      J (y.2 + 1) (ops.call st y.2 (y.1, refs)).1 ∧
        (ops.call st y.2 (y.1, refs)).2 = ((C y).1.map fun _ => refs, (C y).2))
    (hshot : ∀ w' acts, demoTrack cfg label extra g (frames.zipIdx.map C) = some (w', acts) → ∀ y ∈ frames.zipIdx,
      ∀ refs, Holds h refs ((C y).1.getD []) → ∀ st, J y.2 st → ∀ act ∈ acts, ∀ h', SameDets h h' →
      ops.shot (ops.call st y.2 (y.1, refs)).1 y.2 (y.1, refs) h' act = some (P y act)) :
    demoRun cfg ops conv label extra st g frames = (demoTrack cfg label extra g (frames.zipIdx.map C)).map fun r =>
      (r.1, (frames.zipIdx.zip r.2).filterMap fun y => P y.1 y.2) := by
  have hd : (frames.zipIdx.mapM fun y => conv y.2 y.1) = some (newDets (frames.zipIdx.map C)) := by
    rw [mapM_some_map hconv, newDets, List.map_map]
    rfl
  rw [demoRun, hd, Option.bind_some, ← hh]
  unfold demoTrack at hshot ⊢
  rw [← hh] at hshot ⊢
  have hlen : frames.length = (refsFrom 0 (newDets (frames.zipIdx.map C))).length := by
    rw [refsFrom_length, newDets]
    simp
  generalize hrefs : refsFrom 0 (newDets (frames.zipIdx.map C)) = refs at hshot ⊢ hlen
  obtain ⟨hz, hm⟩ := zip_zipIdx frames refs 0 hlen
  -- the references of the frames
  have hold : ∀ p ∈ (frames.zip refs).zipIdx, Holds h p.1.2 ((C (p.1.1, p.2)).1.getD []) := by
    intro p hp
    have := (hm p hp).2
    have h2 := refsFrom_holds label extra (newDets (frames.zipIdx.map C)) []
    simp only [List.length_nil, List.nil_append, ← hh, hrefs] at h2
    refine h2 (((C (p.1.1, p.2)).1.getD []), p.1.2) ?_
    rw [newDets, List.map_map, List.zip_map_left]
    exact List.mem_map.mpr ⟨_, this, rfl⟩
  -- the calls
  have hcalls : ((frames.zip refs).zipIdx.map fun p => (((C (p.1.1, p.2)).1.map fun _ => p.1.2, (C (p.1.1, p.2)).2) :
      Option (List Ref) × Int)) = (((frames.zipIdx.map C).zip refs).map fun c => (c.1.1.map fun _ => c.2, c.1.2)) := by
    rw [List.zip_map_left, List.map_map]
    clear hm hold hz hrefs hshot hcall hconv hd hh
    suffices key : ∀ (k : Nat) (frames : List α) (refs : List (List Ref)), frames.length = refs.length →
        ((frames.zip refs).zipIdx k).map (fun p => (((C (p.1.1, p.2)).1.map fun _ => p.1.2, (C (p.1.1, p.2)).2) :
          Option (List Ref) × Int)) = ((frames.zipIdx k).zip refs).map
            ((fun c : (Option (List (Det K L X)) × Int) × List Ref => ((c.1.1.map fun _ => c.2, c.1.2) :
              Option (List Ref) × Int)) ∘ Prod.map C id) by
      exact key 0 frames refs hlen
    intro k frames
    induction frames generalizing k with
    | nil => intro refs _; rfl
    | cons f fs ih =>
      intro refs hl
      match refs, hl with
      | r :: rs, hl =>
        rw [List.zip_cons_cons, List.zipIdx_cons, List.zipIdx_cons, List.zip_cons_cons, List.map_cons, List.map_cons,
          ih (k + 1) rs (by simpa using hl)]
        rfl
  rw [← hcalls] at hshot ⊢
  rw [demoLoop_track cfg ops J (fun p => ((C (p.1.1, p.2)).1.map fun _ => p.1.2, (C (p.1.1, p.2)).2))
    (fun p => P (p.1.1, p.2)) h (frames.zip refs) 0 st _ hJ (Inv.initial ⟨rfl, rfl, rfl⟩) (fun r => ⟨(h r).age, rfl⟩)
    (fun p hp st hst => hcall (p.1.1, p.2) (hm p hp).1 p.1.2 (hold p hp) st hst)
    (fun w' acts ht p hp st hst act hact h' hs =>
      hshot w' acts ht (p.1.1, p.2) (hm p hp).1 p.1.2 (hold p hp) st hst act hact h' hs)]
  congr 1
  funext r
  refine Prod.ext rfl ?_
  simp only
  conv_rhs => rw [← hz, List.zip_map_left, List.filterMap_map]
  rfl

/-! ### The calls -/

/-- facts about the calls of `trackCalls` -/
theorem trackCalls_induct {cfg : Cfg K L D F X}
    {P : Option (List Ref) → Int → Option (CoordTrans K) → World K L D F X → Prop} {Q : Det K L X → Prop}
    {E : (Ref → Det K L X) → (Ref → Det K L X) → Prop}
    {R : Ref → Prop} (hage : ∀ d a, Q d → Q { d with age := a }) {w0 : World K L D F X} (h0 : w0.Initial)
    (calls : List (Option (List Ref) × Int)) :
    ∀ (w : World K L D F X),
    (∀ c ∈ calls, ∀ w : World K L D F X, (∀ r, R r → Q (w.heap r)) → P c.1 c.2 none w) →
    Reaches cfg E P w0 w → (∀ r, R r → Q (w.heap r)) →
    (∀ w' acts, trackCalls cfg w calls = some (w', acts) → acts.length = calls.length ∧ Reaches cfg E P w0 w' ∧
      ∀ act ∈ acts, ∃ w1, Reaches cfg E P w0 w1 ∧ act = activeObjects w1) ∧
    ((∀ w, Reaches cfg E P w0 w → ∀ c ∈ calls, P c.1 c.2 none w →
      ∃ act, (update cfg w c.1 c.2 none).2 = .ok act) → ∃ r, trackCalls cfg w calls = some r) := by
  induction calls with
  | nil =>
    intro w _ hw _
    refine ⟨fun w' acts h => ?_, fun _ => ⟨_, rfl⟩⟩
    cases h
    exact ⟨rfl, hw, by simp⟩
  | cons c cs ih =>
    intro w hP hw hq
    have hI := (hw.inv (Inv.initial h0)).1
    have hc := hP c (List.mem_cons_self ..) w hq
    have hw' : Reaches cfg E P w0 (update cfg w c.1 c.2 none).1 := .call _ _ _ hw hc
    have next : ∀ act, (update cfg w c.1 c.2 none).2 = .ok act → _ := fun act ha =>
      ih (update cfg w c.1 c.2 none).1 (fun d hd => hP d (List.mem_cons_of_mem _ hd)) hw'
        (fun r hr => heap_keeps hage (fun c e => by cases e) hI (Prod.ext rfl ha) r (hq r hr))
    constructor
    · intro w' acts h
      unfold trackCalls at h
      split at h
      · cases h
      · rename_i w1 act he
        obtain rfl : (update cfg w c.1 c.2 none).1 = w1 := by rw [he]
        have ha : (update cfg w c.1 c.2 none).2 = .ok act := by rw [he]
        obtain ⟨⟨w2, acts2⟩, h2, e⟩ := Option.map_eq_some_iff.mp h
        cases e
        obtain ⟨i1, i2, i4⟩ := (next act ha).1 _ _ h2
        refine ⟨by simp [i1], i2, ?_⟩
        intro a hm
        rcases List.mem_cons.mp hm with rfl | hm
        · exact ⟨_, hw', (update_ok hI.nodup he).1⟩
        · exact i4 a hm
    · intro hs
      obtain ⟨act, ha⟩ := hs w hw c (List.mem_cons_self ..) hc
      obtain ⟨r, hr⟩ := (next act ha).2 fun w hw d hd => hs w hw d (List.mem_cons_of_mem _ hd)
      refine ⟨(r.1, act :: r.2), ?_⟩
      have : update cfg w c.1 c.2 none = ((update cfg w c.1 c.2 none).1, .ok act) := Prod.ext rfl ha
      rw [trackCalls, this]
      simp only [hr, Option.map_some]

end

section
variable [Ring K] [LinearOrder K] [LinearOrder D] [OrderTop D] [Zero D] [DecidableEq L]

theorem demoCalls_refs {calls : List (Option (List (Det K L X)) × Int)} {c : Option (List Ref) × Int}
    (hc : c ∈ (calls.zip (refsFrom 0 (newDets calls))).map fun c => ((c.1.1.map fun _ => c.2, c.1.2) :
      Option (List Ref) × Int)) : ∀ r ∈ c.1.getD [], r < (newDets calls).flatten.length := by
  obtain ⟨⟨c, refs⟩, hm, rfl⟩ := List.mem_map.mp hc
  intro r hr
  have hr : r ∈ refs := by
    simp only at hr
    cases h : c.1 with
    | none => rw [h] at hr; cases hr
    | some l => rw [h] at hr; exact hr
  have := (refsFrom_get _ 0 refs (List.of_mem_zip hm).2 r hr).2
  rwa [Nat.zero_add] at this

/-- the objects of the calls: their shape, and their ids -/
theorem demoTrack_shape {cfg : Cfg K L D F X} {Ok : F → Prop} (hL : FilterLaws cfg.flt Ok) (label : L) (extra : X) (g : Nat)
    {s : Nat × Nat} {calls : List (Option (List (Det K L X)) × Int)} (hd : ∀ l ∈ newDets calls, ∀ d ∈ l, DetShaped s d) :
    (∀ w' acts, demoTrack cfg label extra g calls = some (w', acts) → acts.length = calls.length ∧
      ∀ act ∈ acts, ∀ o ∈ act, HasShape s (o.estimate cfg.flt) ∧ o.pointHits.length = s.1 ∧ ∃ i, o.id = some i) ∧
    (ShapedDist cfg.flt (fun _ => s) cfg.dist → cfg.reid = none → cfg.thr ≤ cfg.fill →
      ∃ r, demoTrack cfg label extra g calls = some r) := by
  have h0 : (⟨detHeap label extra (newDets calls).flatten, g, 0, 0, []⟩ : World K L D F X).Initial := ⟨rfl, rfl, rfl⟩
  have h := trackCalls_induct (cfg := cfg) (E := fun _ _ => True)
    (P := fun dets _ ct w => CallShaped (fun _ => s) (dets.getD []) ct w.heap ∧ ct = none) (Q := DetShaped s)
    (R := fun r => r < (newDets calls).flatten.length) (fun _ _ h => h) h0
    ((calls.zip (refsFrom 0 (newDets calls))).map fun c => (c.1.1.map fun _ => c.2, c.1.2)) _
    (fun c hc w hq => by
      have hq : ∀ r ∈ c.1.getD [], DetShaped s (w.heap r) := fun r hr => hq r (demoCalls_refs hc r hr)
      refine ⟨⟨⟨(fun c e => by cases e), fun r hr => ?_⟩, (fun c e => by cases e), fun r hr => (hq r hr).1⟩, rfl⟩
      obtain ⟨-, ⟨e1, e2, e3⟩, e4⟩ := hq r hr
      exact ⟨e1, e2, by rw [e3, e1, e2], fun x h => by rw [e4 x h, e1]⟩) (.refl _) (fun r hr => by
      obtain ⟨l, hl, hm⟩ := detHeap_mem (label := label) (extra := extra) hr
      exact hd l hl _ hm)
  refine ⟨fun w' acts ht => ?_, fun hD hre hfill => h.2 fun w hw c hc hP => ?_⟩
  · obtain ⟨h1, h2, h3⟩ := h.1 w' acts ht
    refine ⟨by simpa [refsFrom_length, newDets] using h1, fun act hact o ho => ?_⟩
    obtain ⟨w1, hw, rfl⟩ := h3 act hact
    obtain ⟨m1, m2, m3⟩ := mem_activeObjects.mp ho
    have hI := (hw.inv (Inv.initial h0)).1
    have hback : BackShaped (fun _ => s) o :=
      Reaches.objInv hw (Inv.initial h0) (fun dets period ct w hc =>
        ⟨_, hc.1.points, backShaped_inv cfg _ (dets.getD []) period ct hc.1.keeps⟩) (fun _ _ _ _ _ h => h)
        (by rw [h0.1]; simp) o m1
    have hpts : PointsOk cfg.flt Ok (fun _ => s) o :=
      WfReaches.pointsOk hL (fun _ _ _ => rfl) h0 (hw.mono (fun _ _ h => h) fun _ _ _ _ h => h.1.ok) o m1
    refine ⟨estimate_hasShape hL hpts hback, hpts.hits.trans hpts.n, ?_⟩
    rw [← Option.ne_none_iff_exists']
    intro e
    rw [(hI.initIff o m1).mpr e] at m2
    cases m2
  · exact C67_shaped hL (fun _ _ _ => rfl) hD hre hfill h0 (hw.mono (fun _ _ h => h) fun _ _ _ _ h => h.1) _ _ _ hP.1
      (Or.inl rfl)

/-- a detection of this shape with a score for each point -/
def DetRated (s : Nat × Nat) (d : Det K L X) : Prop :=
  HasShape s d.points ∧ HasShape s d.absPoints ∧ ∃ x, d.scores = some x ∧ x.length = s.1

theorem DetRated.shaped {s : Nat × Nat} {d : Det K L X} (h : DetRated s d) : DetShaped s d := by
  obtain ⟨h1, h2, x, e, hx⟩ := h
  exact ⟨h1, h2, fun y hy => by rw [e] at hy; cases hy; exact hx⟩

/-- the calls of a tracker with a distance that reads scores -/
theorem demoTrack_rated {cfg : Cfg K L D F X} {Ok : F → Prop} (hL : FilterLaws cfg.flt Ok) (label : L) (extra : X) (g : Nat)
    {s : Nat × Nat} {calls : List (Option (List (Det K L X)) × Int)} (hd : ∀ l ∈ newDets calls, ∀ d ∈ l, DetRated s d)
    {f : Det K L X → ObjView K L D F X → Option (Option D)} (hf : cfg.dist = .scalar f)
    (hD : ScoredDist cfg.flt (fun _ => s) f) (hre : cfg.reid = none) (hfill : cfg.thr ≤ cfg.fill) :
    ∃ r, demoTrack cfg label extra g calls = some r := by
  have h0 : (⟨detHeap label extra (newDets calls).flatten, g, 0, 0, []⟩ : World K L D F X).Initial := ⟨rfl, rfl, rfl⟩
  refine (trackCalls_induct (cfg := cfg) (E := ScoresKept)
    (P := fun dets _ ct w => CallShaped (fun _ => s) (dets.getD []) ct w.heap ∧
      ∀ r ∈ dets.getD [], HasScores (fun _ => s) (w.heap r)) (Q := DetRated s)
    (R := fun r => r < (newDets calls).flatten.length) (fun _ _ h => h) h0
    ((calls.zip (refsFrom 0 (newDets calls))).map fun c => (c.1.1.map fun _ => c.2, c.1.2)) _
    (fun c hc w hq => ?_) (.refl _) (fun r hr => by
      obtain ⟨l, hl, hm⟩ := detHeap_mem (label := label) (extra := extra) hr
      exact hd l hl _ hm)).2 fun w hw c hc hP => ?_
  · have hq : ∀ r ∈ c.1.getD [], DetRated s (w.heap r) := fun r hr => hq r (demoCalls_refs hc r hr)
    refine ⟨⟨⟨(fun c e => by cases e), fun r hr => ?_⟩, (fun c e => by cases e), fun r hr => (hq r hr).1⟩, fun r hr =>
      (hq r hr).2.2⟩
    obtain ⟨-, ⟨e1, e2, e3⟩, x, e4, e5⟩ := hq r hr
    exact ⟨e1, e2, by rw [e3, e1, e2], fun y h => by rw [e4] at h; cases h; rw [e5, e1]⟩
  · exact C67_scored hL hf hD hfill (fun g e => by rw [hre] at e; cases e) h0 hw _ _ _ hP.1 hP.2 (Or.inl rfl)

end

end Norfair.Props
