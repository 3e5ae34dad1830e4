import Verif.Props.Film
import Verif.Lemmas.Age

/-! C104: the calls that return an id have no gaps. -/

set_option linter.unusedSectionVars false

namespace Norfair.Spec

variable {K L D F X : Type}

/-- the call returned an object with the id `i` -/
def Reported (i : Nat) (f : Frame K L D F X) : Prop := ∃ act, f.out = .ok act ∧ ∃ o ∈ act, o.id = some i

end Norfair.Spec

namespace Norfair.Props

open Norfair Norfair.Spec Norfair.Toy

variable {K L D F X : Type}

section
variable [LinearOrder K] [Zero K] [LinearOrder D] [OrderTop D] [Zero D] [DecidableEq L]

/-- the states between two calls -/
theorem _root_.Norfair.Trace.between {cfg : Cfg K L D F X} {w0 w : World K L D F X} {fs : List (Frame K L D F X)}
    (h : Trace cfg w0 fs w) {a b : Nat} {f g : Frame K L D F X} (hf : fs[a]? = some f) (hg : fs[b]? = some g)
    (hab : a < b) : Reaches' cfg f.after g.before := by
  have h1 := (h.upTo hg).last.1
  refine (h1.frame f ?_).2.2.2
  exact List.mem_of_getElem? (i := a) (by rw [List.getElem?_take, if_pos hab]; exact hf)

/-- the object with this number will never be returned again: it is not there or not alive -/
def Lost (k : Nat) (w : World K L D F X) : Prop :=
  k ≤ w.initCount ∧ ∀ o ∈ w.objs, o.initId = k → o.hitCounter < 0

theorem lost_update {cfg : Cfg K L D F X} (hmax : cfg.reidMax = none) {w : World K L D F X} (hI : Inv w) {k : Nat}
    (h : Lost k w) (dets : Option (List Ref)) (period : Int) (ct : Option (CoordTrans K)) :
    Lost k (update cfg w dets period ct).1 := by
  by_cases hr : ct ≠ none ∧ dets = none
  · obtain ⟨h1, rfl⟩ := hr
    obtain ⟨c, rfl⟩ := Option.ne_none_iff_exists'.mp h1
    exact h
  · refine ⟨h.1.trans (update_inv hI dets period ct).2.initCount, fun o' ho' hk => ?_⟩
    rcases update_survivors hI dets period ct hr o' ho' with ⟨o, ho, e, _⟩ | ⟨hnew, _⟩
    · have hm := (survivors_sublist cfg w.objs).subset ho
      have hneg := h.2 o hm (e.trans hk)
      unfold survivors at ho
      rw [hmax] at ho
      have := (List.mem_filter.mp ho).2
      unfold Obj.hcPos at this
      have : 0 ≤ o.hitCounter := by simpa using this
      omega
    · have := h.1
      omega

theorem lost_reaches {cfg : Cfg K L D F X} (hmax : cfg.reidMax = none) {w w' : World K L D F X} (hI : Inv w) {k : Nat}
    (h : Lost k w) (hr : Reaches' cfg w w') : Lost k w' := by
  induction hr with
  | refl => exact h
  | call dets period ct hr _ ih => exact lost_update hmax (hr.inv hI).1 ih dets period ct
  | env heap g hr he _ ih => exact ih

theorem reported_iff {cfg : Cfg K L D F X} {w0 w : World K L D F X} (hw : Reachable cfg w0)
    {fs : List (Frame K L D F X)} (h : Trace cfg w0 fs w) {f : Frame K L D F X} (hf : f ∈ fs) (hs : Succeeds f)
    (i : Nat) : Reported i f ↔ ∃ o ∈ f.after.objs, o.id = some i ∧ o.isInit = false ∧ 0 ≤ o.hitCounter := by
  obtain ⟨h1, h2, h3, h4⟩ := h.frame f hf
  obtain ⟨act, hact⟩ := hs
  have hup : update cfg f.before f.dets f.period f.ct = (f.after, .ok act) := by rw [h2, ← hact, h3]
  obtain ⟨e, _⟩ := update_ok (hw.trans h1).inv.nodup hup
  unfold Reported
  constructor
  · rintro ⟨act', ha, o, ho, hi⟩
    obtain rfl : act = act' := by rw [hact] at ha; exact Except.ok.inj ha
    rw [e] at ho
    obtain ⟨m1, m2, m3⟩ := mem_activeObjects.mp ho
    exact ⟨o, m1, hi, m2, m3⟩
  · rintro ⟨o, m1, hi, m2, m3⟩
    exact ⟨act, hact, o, by rw [e]; exact mem_activeObjects.mpr ⟨m1, m2, m3⟩, hi⟩

/-- **C104** Without `reid_hit_counter_max`, an id that is returned by two calls is returned by all calls between them
(that do not raise). -/
theorem C104_no_gaps {cfg : Cfg K L D F X} (hmax : cfg.reidMax = none) {w0 w : World K L D F X}
    (hw : Reachable cfg w0) {fs : List (Frame K L D F X)} (h : Trace cfg w0 fs w) {a b c : Nat} (hab : a < b)
    (hbc : b < c) {f g e : Frame K L D F X} (hf : fs[a]? = some f) (hg : fs[b]? = some g) (he : fs[c]? = some e)
    {i : Nat} (h1 : Reported i f) (h3 : Reported i e) (hs : Succeeds g) : Reported i g := by
  have mf := List.mem_of_getElem? hf
  have mg := List.mem_of_getElem? hg
  have me := List.mem_of_getElem? he
  obtain ⟨o1, ho1, i1, n1, p1⟩ := (reported_iff hw h mf (h1.imp fun _ h => h.1) i).mp h1
  obtain ⟨o3, ho3, i3, n3, p3⟩ := (reported_iff hw h me (h3.imp fun _ h => h.1) i).mp h3
  obtain ⟨q1, q2, q3, q4⟩ := h.frame g mg
  have rf : Reachable cfg f.after := by
    obtain ⟨u1, u2, u3, u4⟩ := h.frame f mf
    rw [u2]; exact (hw.trans u1).trans (.call _ _ _ (.refl _) trivial)
  have rg : Reaches' cfg f.after g.after := by
    rw [q2]; exact .call _ _ _ (h.between hf hg hab) trivial
  have re : Reaches' cfg g.after e.after := by
    obtain ⟨u1, u2, u3, u4⟩ := h.frame e me
    rw [u2]; exact .call _ _ _ (h.between hg he hbc) trivial
  have hk := (C06_ids_unique rf (rg.trans' re) ho1 ho3 i1 i3).1
  have hle : o1.initId ≤ g.after.initCount := (rf.inv.bounded o1 ho1).2.trans (rg.inv rf.inv).2.initCount
  by_contra hn
  rw [reported_iff hw h mg hs] at hn
  have hlost : Lost o1.initId g.after := by
    refine ⟨hle, fun o ho ek => ?_⟩
    by_contra hpos
    have hst := C07_identity_stable rf rg ho1 ho ek.symm
    exact hn ⟨o, ho, hst.2.2.2.2.2.1 i i1, hst.2.2.2.2.1 n1, not_lt.mp hpos⟩
  have := (lost_reaches hmax (rg.inv rf.inv).1 hlost re).2 o3 ho3 hk.symm
  omega

end

/-- the ids that the call returned -/
def idsOf (f : Frame K L D F X) : Option (List (Option Nat)) := f.out.toOption.map (·.map (·.id))

theorem reported_of_idsOf {f : Frame K L D F X} {l : List (Option Nat)} (h : idsOf f = some l) (i : Nat) :
    Succeeds f ∧ (Reported i f ↔ some i ∈ l) := by
  unfold idsOf at h
  cases ho : f.out with
  | error e => rw [ho] at h; simp [Except.toOption] at h
  | ok act =>
    rw [ho] at h
    obtain rfl : act.map (·.id) = l := by simpa [Except.toOption] using h
    refine ⟨⟨act, ho⟩, ?_⟩
    unfold Reported
    rw [ho]
    constructor
    · rintro ⟨_, ha, o, h, e⟩
      cases ha
      exact List.mem_map.mpr ⟨o, h, e⟩
    · intro h
      obtain ⟨o, h, e⟩ := List.mem_map.mp h
      exact ⟨act, rfl, o, h, e⟩

/-- the run of the example: no detection in the calls 3, 5, 6, 7, 8 and 9 -/
def gapFrames := frames cfg w0 [[0], [1], [2], [], [3], [], [], [], [], []]

theorem gapFrames_ids : gapFrames.map idsOf =
    [some [], some [some 1], some [some 1], some [some 1], some [some 1], some [some 1], some [some 1], some [some 1],
      some [], some []] := by
  decide +kernel

/-- calls 1 and 7 return the id 1, so call 3 does, though it has no detection -/
example : ∃ g, gapFrames[3]? = some g ∧ g.dets = some [] ∧ Reported 1 g := by
  have hl : gapFrames.length = 10 := by simpa using congrArg List.length gapFrames_ids
  have key : ∀ (k : Nat) (hk : k < gapFrames.length), some (idsOf gapFrames[k]) = (gapFrames.map idsOf)[k]? := by
    intro k hk; simp [hk]
  have h1 := key 1 (by omega)
  have h3 := key 3 (by omega)
  have h7 := key 7 (by omega)
  rw [gapFrames_ids] at h1 h3 h7
  have t := fun k (hk : k < gapFrames.length) => List.getElem?_eq_getElem hk
  have h4 : (gapFrames[3]?.map (·.dets)) = some (some []) := by decide +kernel
  rw [t 3 (by omega)] at h4
  exact ⟨_, t 3 (by omega), Option.some.inj h4,
    C104_no_gaps (cfg := cfg) rfl (run_reachable cfg []) (run_trace cfg w0 _) (by decide : 1 < 3) (by decide : 3 < 7)
      (t 1 (by omega)) (t 3 (by omega)) (t 7 (by omega)) ((reported_of_idsOf (Option.some.inj h1) 1).2.mpr (by decide))
      ((reported_of_idsOf (Option.some.inj h7) 1).2.mpr (by decide)) (reported_of_idsOf (Option.some.inj h3) 1).1⟩

/-- **C104** With `reid_hit_counter_max` there may be gaps: here the id 1 is returned by the calls 1 to 3, 7 and 8, not
by the calls 4, 5 and 6. -/
theorem C104_reid_gap : (frames rcfg w0 [[0], [1], [], [], [], [], [50], [51], [52]]).map idsOf =
    [some [], some [some 1], some [some 1], some [some 1], some [], some [], some [], some [some 1], some [some 1]] := by
  decide +kernel

end Norfair.Props
