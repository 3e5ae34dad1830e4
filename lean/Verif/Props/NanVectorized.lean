import Verif.Props.TrackerIds
import Verif.Props.TrackerRounds
import Verif.Lemmas.Param
import Verif.Props.IouSucceeds

/-!
C05 for vectorized distances, and for the second round of matching.
-/

set_option linter.unusedSectionVars false

namespace Norfair.Props

open Norfair Norfair.Spec

variable {K L D F X : Type}

/-- every position among the elements with a property is the position of one of them -/
theorem exists_rank {A : Type} (l : List A) (q : A → Bool) {a : Nat} (ha : a < (l.filter q).length) :
    ∃ i c, l[i]? = some c ∧ q c = true ∧ (l.take i).countP q = a := by
  induction l generalizing a with
  | nil => simp at ha
  | cons x l ih =>
    by_cases hx : q x = true
    · cases a with
      | zero => exact ⟨0, x, rfl, hx, by simp⟩
      | succ a =>
        rw [List.filter_cons_of_pos hx, List.length_cons] at ha
        obtain ⟨i, c, h1, h2, h3⟩ := ih (by omega : a < (l.filter q).length)
        exact ⟨i + 1, c, by simpa using h1, h2, by simp [List.countP_cons, hx, h3]⟩
    · rw [List.filter_cons_of_neg hx] at ha
      obtain ⟨i, c, h1, h2, h3⟩ := ih ha
      exact ⟨i + 1, c, by simpa using h1, h2, by simp [List.countP_cons, hx, h3]⟩

section
variable [LinearOrder K] [Zero K] [LinearOrder D] [OrderTop D] [Zero D] [DecidableEq L]

/-- the points of the elements with a given text as label, one row each -/
def stackOf {A : Type} (txt : A → String) (pts : A → List K) (l : List A) (s : String) : List (List K) :=
  (l.filter fun a => decide (txt a = s)).map pts

theorem vectorizedDistances_none {C O : Type} {strC : C → String} {strO : O → String} {ptsC : C → List K}
    {ptsO : O → List K} {f : List (List K) → List (List K) → Option (Mat (Option D))} {objects : List O}
    {cands : List C} :
    vectorizedDistances strC strO ptsC ptsO f objects cands = none ↔
      ∃ s, (∃ c ∈ cands, strC c = s) ∧ (∃ o ∈ objects, strO o = s) ∧
        f (stackOf strC ptsC cands s) (stackOf strO ptsO objects s) = none := by
  unfold vectorizedDistances
  simp only
  split
  · rename_i h
    simp only [true_iff]
    simp only [List.any_eq_true, Bool.and_eq_true, decide_eq_true_eq, Option.isNone_iff_eq_none] at h
    obtain ⟨c, hc, o, ho, hs, hf⟩ := h
    exact ⟨strC c, ⟨c, hc, rfl⟩, ⟨o, ho, hs.symm⟩, hf⟩
  · rename_i h
    simp only [reduceCtorEq, false_iff]
    rintro ⟨_, ⟨c, hc, rfl⟩, ⟨o, ho, hs⟩, hf⟩
    apply h
    simp only [List.any_eq_true, Bool.and_eq_true, decide_eq_true_eq, Option.isNone_iff_eq_none]
    exact ⟨c, hc, o, ho, hs.symm, hf⟩

theorem vectorizedDistances_nan {C O : Type} {strC : C → String} {strO : O → String} {ptsC : C → List K}
    {ptsO : O → List K} {f : List (List K) → List (List K) → Option (Mat (Option D))} {objects : List O}
    {cands : List C} {M : Mat (Option D)}
    (h : vectorizedDistances strC strO ptsC ptsO f objects cands = some M) :
    M.hasNan = true ↔ ∃ s R, f (stackOf strC ptsC cands s) (stackOf strO ptsO objects s) = some R ∧
      ∃ i < (stackOf strC ptsC cands s).length, ∃ j < (stackOf strO ptsO objects s).length,
        R.val i j = none := by
  have hno : ∀ c ∈ cands, ∀ o ∈ objects, strC c = strO o →
      f (stackOf strC ptsC cands (strC c)) (stackOf strO ptsO objects (strC c)) ≠ none := by
    intro c hc o ho hl hf
    rw [vectorizedDistances_none.mpr ⟨_, ⟨c, hc, rfl⟩, ⟨o, ho, hl.symm⟩, hf⟩] at h
    cases h
  rw [hasNan_iff]
  unfold vectorizedDistances at h
  simp only at h
  split at h
  · cases h
  · cases h
    simp only
    constructor
    · rintro ⟨i, hi, j, hj, hv⟩
      rw [List.getElem?_eq_getElem hi, List.getElem?_eq_getElem hj] at hv
      simp only at hv
      split at hv
      · rename_i hs
        split at hv
        · rename_i R hR
          refine ⟨_, R, hR, _, ?_, _, ?_, hv⟩
          · rw [stackOf, List.length_map]
            exact countP_take_lt_filter cands _ (List.getElem?_eq_getElem hi) (by simp)
          · rw [stackOf, List.length_map]
            exact countP_take_lt_filter objects _ (List.getElem?_eq_getElem hj) (by simp [hs])
        · cases hv
      · cases hv
    · rintro ⟨s, R, hR, a, ha, b, hb, hv⟩
      rw [stackOf, List.length_map] at ha hb
      obtain ⟨i, c, hi, hc, ea⟩ := exists_rank _ _ ha
      obtain ⟨j, o, hj, ho, eb⟩ := exists_rank _ _ hb
      obtain ⟨hi', rfl⟩ := List.getElem?_eq_some_iff.mp hi
      obtain ⟨hj', rfl⟩ := List.getElem?_eq_some_iff.mp hj
      have hc' : strC cands[i] = s := by simpa using hc
      have ho' : strO objects[j] = s := by simpa using ho
      refine ⟨i, hi', j, hj', ?_⟩
      rw [List.getElem?_eq_getElem hi', List.getElem?_eq_getElem hj']
      simp only
      rw [if_pos (hc'.trans ho'.symm), hc']
      rw [stackOf, stackOf] at hR
      simp only [hR]
      rw [ea, eb]
      exact hv

/-- **C05** (each comparison of detections, vectorized distance) the NaN error is raised exactly if the function
raised for the stacks of no label and returned a NaN for those of some label; then nothing was changed. -/
theorem C05_vectorized_nan_iff {cfg : Cfg K L D F X} {str : L → String}
    {f : List (List K) → List (List K) → Option (Mat (Option D))} (hd : cfg.dist = .vectorized str f)
    (period : Int) (w : World K L D F X) (keys : List Nat) (dets : List Ref) :
    let cs := stackOf (fun r => str (w.heap r).label) (fun r => (w.heap r).points.data) dets
    let os := stackOf (fun o : Obj K L D F => str o.label) (fun o => (o.estimate cfg.flt).data) (w.objects keys)
    ((stageDet cfg period w keys dets).2 = .error .nan ↔
      (∀ s, cs s ≠ [] → os s ≠ [] → f (cs s) (os s) ≠ none) ∧
      ∃ s R, f (cs s) (os s) = some R ∧ ∃ i < (cs s).length, ∃ j < (os s).length, R.val i j = none) ∧
    ((stageDet cfg period w keys dets).2 = .error .nan → (stageDet cfg period w keys dets).1 = w) := by
  intro cs os
  have hne : ∀ {A : Type} (txt : A → String) (pts : A → List K) (l : List A) (s : String),
      stackOf txt pts l s ≠ [] ↔ ∃ a ∈ l, txt a = s := by
    intro A txt pts l s
    simp [stackOf, List.filter_eq_nil_iff]
  have hdd : detDistances cfg w.heap (w.objects keys) dets =
      vectorizedDistances (fun r => str (w.heap r).label) (fun o : Obj K L D F => str o.label)
        (fun r => (w.heap r).points.data) (fun o => (o.estimate cfg.flt).data) f (w.objects keys) dets := by
    unfold detDistances; rw [hd]
  unfold stageDet
  split
  · rename_i h0
    have : dets = [] := List.length_eq_zero_iff.mp h0
    subst this
    refine ⟨⟨fun h => by simp at h, ?_⟩, fun h => by simp at h⟩
    rintro ⟨_, s, R, _, i, hi, _⟩
    simp [cs, stackOf] at hi
  · split
    · rename_i hM
      rw [hdd, vectorizedDistances_none] at hM
      obtain ⟨s, h1, h2, hf⟩ := hM
      exact ⟨⟨fun h => by simp at h, fun h => absurd hf (h.1 s ((hne _ _ _ _).mpr h1) ((hne _ _ _ _).mpr h2))⟩,
        fun h => by simp at h⟩
    · rename_i M hM
      rw [hdd] at hM
      have hnan := vectorizedDistances_nan hM
      have hno : ∀ s, cs s ≠ [] → os s ≠ [] → f (cs s) (os s) ≠ none := by
        intro s h1 h2 hf
        rw [vectorizedDistances_none.mpr ⟨s, (hne _ _ _ _).mp h1, (hne _ _ _ _).mp h2, hf⟩] at hM
        cases hM
      split
      · rename_i hn
        exact ⟨⟨fun _ => ⟨hno, hnan.mp hn⟩, fun _ => rfl⟩, fun _ => rfl⟩
      · rename_i hn
        have hres : ∀ (a : World K L D F X × Except Err (StageOut Ref)), a.2 ≠ .error .nan →
            ((a.2 = .error .nan ↔ (∀ s, cs s ≠ [] → os s ≠ [] → f (cs s) (os s) ≠ none) ∧
              ∃ s R, f (cs s) (os s) = some R ∧
                ∃ i < (cs s).length, ∃ j < (os s).length, R.val i j = none) ∧
              (a.2 = .error .nan → a.1 = w)) := by
          intro a ha
          exact ⟨⟨fun h => absurd h ha, fun h => absurd (hnan.mpr h.2) hn⟩, fun h => absurd h ha⟩
        simp only
        split
        · exact hres _ (by simp)
        · split
          · apply hres
            intro h
            rcases hitLoop_err_kind _ _ _ _ _ _ _ _ _ h with h | h <;> cases h
          · exact hres _ (by simp)

/-- **C05** (second round of a whole call) if the distance of a detection and an alive initializing object with the
same label is NaN, then `update` raises, unless the detection goes to an initialized object in the first round. (The
first round may have set the `age`s of detections, so NaN is required for all values of these.) -/
theorem C05_nan_second_round {cfg : Cfg K L D F X} {f} (hf : cfg.dist = .scalar f) {w : World K L D F X}
    (hw : Reachable cfg w) {dets : List Ref} {period : Int} {ct : Option (CoordTrans K)} {r : Ref}
    (hr : r ∈ dets) {o : Obj K L D F} (ho : o ∈ w.objs) (hc : CanMatch cfg.reidMax o) (hi : o.isInit = true)
    (hl : (w.heap r).label = o.label)
    (hnan : ∀ h1 : Ref → Det K L X, (∀ r, ∃ a, h1 r = { startHeap w (some dets) ct r with age := a }) →
      f (h1 r) (((o.trackerStep cfg).updateCT ct).view h1) = some none) :
    (∃ e, (update cfg w (some dets) period ct).2 = .error e) ∨
    ∃ p ∈ w.objs, p.isInit = false ∧ ∃ p' ∈ (update cfg w (some dets) period ct).1.objs,
      p'.initId = p.initId ∧ p'.lastDet = r := by
  cases hu : update cfg w (some dets) period ct with
  | mk w' out =>
    cases out with
    | error e => exact .inl ⟨e, rfl⟩
    | ok act =>
      refine .inr ?_
      obtain ⟨h1, d1, d2, p1, p2, rest1, rest2, ha, R1, R2, old, news, e1, _, _, _, hin, _⟩ :=
        C64_two_greedy_rounds hf hw hu
      have hoc : (o.trackerStep cfg).updateCT ct ∈ compared cfg ct w.objs true :=
        List.mem_map.mpr ⟨o, List.mem_filter.mpr ⟨ho, by simp [hc, hi]⟩, rfl⟩
      obtain ⟨j, hj⟩ := List.mem_iff_getElem?.mp hoc
      have hlab : (h1 r).label = (w.heap r).label := by
        obtain ⟨a, e⟩ := ha r
        obtain ⟨b, e'⟩ := startHeap_fields w (some dets) ct r
        rw [e, e']
      by_cases hrest : r ∈ rest1
      · obtain ⟨i, hi'⟩ := List.mem_iff_getElem?.mp hrest
        have := R2.dist i j r _ hi' hj
        rcases this with ⟨_, h2⟩ | ⟨h2, _⟩
        · have h3 := hnan h1 ha
          rw [show ((o.trackerStep cfg).updateCT ct).view h1 = ⟨_, h1 _, _⟩ from rfl] at h3
          rw [h3] at h2
          cases h2
        · refine absurd ?_ h2
          rw [hlab, hl]
          cases ct <;> rfl
      · obtain ⟨i, hi'⟩ := List.mem_iff_getElem?.mp hr
        rw [R1.rest] at hrest
        have hmem : i ∈ p1.map Prod.fst := by
          by_contra hcon
          apply hrest
          unfold leftOver
          refine List.mem_filterMap.mpr ⟨i, ?_, ?_⟩
          · exact List.mem_range.mpr (List.getElem?_eq_some_iff.mp hi').1
          · rw [if_neg hcon]
            exact hi'
        obtain ⟨p, hp, rfl⟩ := List.mem_map.mp hmem
        obtain ⟨r', q, hr', hq, hout⟩ := R1.outcome p hp
        have hrr : r' = r := by
          rw [show (some dets).getD [] = dets from rfl] at hr'
          rw [hi'] at hr'
          exact (Option.some.inj hr').symm
        subst hrr
        have hq' : q ∈ compared cfg ct w.objs false := List.mem_of_getElem? hq
        obtain ⟨q0, hq0, rfl⟩ := List.mem_map.mp hq'
        obtain ⟨hq1, hq2⟩ := List.mem_filter.mp hq0
        obtain ⟨x, hx, hx'⟩ := List.mem_map.mp (hin _ hq')
        have hx2 : x ∈ w'.objs := by rw [e1]; exact List.mem_append_left _ hx
        refine ⟨q0, hq1, (of_decide_eq_true hq2).2, x, hx2, ?_, (hout x hx2 hx').1⟩
        rw [hx']
        cases ct <;> rfl

end

open Norfair.Toy

/-- C05: `iou` is NaN for the predicted box of the only object and detection 2; the stacks are not empty -/
example : mixCfg.dist = iouDistFn toString ∧
    (update mixCfg wMix2 (some [2]) 1 none).2 = .error .nan := ⟨rfl, C91_scores_needed.2.2.2⟩

/-- C05 (second round): detection 7 has the distance NaN to object 1, which is initializing -/
example : (∀ o ∈ (run nanCfg w0 [[0]]).objs, CanMatch nanCfg.reidMax o ∧ o.isInit = true) ∧
    (run nanCfg w0 [[0]]).objs.length = 1 ∧
    errOf (update nanCfg (run nanCfg w0 [[0]]) (some [7]) 1 none) = some .nan := by decide +kernel

/-- ... but it goes to object 1 with the usual distance if object 1 is initialized and only object 2 has the
distance NaN to it: no error -/
example :
    let c : TCfg := { cfg with dist := .scalar fun d o =>
      if d.points.data = [2] ∧ o.obj.isInit then some none else dist d o }
    (run c w0 [[0], [1, 50]]).objs.map (fun o => (o.initId, o.isInit)) = [(1, false), (2, true)] ∧
    returned (update c (run c w0 [[0], [1, 50]]) (some [2]) 1 none) = some [(1, some 1, 3)] := by decide +kernel

end Norfair.Props
