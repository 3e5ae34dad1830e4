import Verif.Model.Nms
import Mathlib.Tactic.Linarith
import Mathlib.Tactic.Positivity
import Mathlib.Tactic.Ring
import Mathlib.Tactic.NormNum
import Mathlib.Data.Rat.Defs
import Mathlib.Algebra.Order.Ring.Unbundled.Rat

/-!
Property theorems C118: non-maximum suppression.
-/

set_option linter.unusedSectionVars false

namespace Norfair.Spec

open Norfair

variable {K : Type} [Field K] [LinearOrder K]

/-- the length that two intervals have in common -/
def common (a1 a2 b1 b2 : K) : K := max 0 (min a2 b2 - max a1 b1)

/-- intersection over union of two boxes -/
def overlap (a b : YoloRow K) : K :=
  common a.x1 a.x2 b.x1 b.x2 * common a.y1 a.y2 b.y1 b.y2 /
    ((a.x2 - a.x1) * (a.y2 - a.y1) + (b.x2 - b.x1) * (b.y2 - b.y1) -
      common a.x1 a.x2 b.x1 b.x2 * common a.y1 a.y2 b.y1 b.y2)

/-- row `r` is prediction `p` taken for class `r.cls` -/
def IsRowOf (p : YoloPred K) (r : YoloRow K) : Prop :=
  r.x1 + r.x2 = 2 * p.cx ∧ r.y1 + r.y2 = 2 * p.cy ∧ r.x2 - r.x1 = p.w ∧ r.y2 - r.y1 = p.h ∧
    ∃ v, p.cls[r.cls]? = some v ∧ r.conf = v * p.obj

/-- a detection before suppression: the box of a prediction that has an object with a confidence over the threshold, with a
class over the threshold. Without `multi_label` the class is the first of the best ones. -/
def Candidate (thr : K) (multi : Bool) (classes : Option (List Nat)) (preds : List (YoloPred K)) (r : YoloRow K) : Prop :=
  ∃ p ∈ preds, thr < p.obj ∧ IsRowOf p r ∧ thr < r.conf ∧ (∀ l, classes = some l → r.cls ∈ l) ∧
    (multi = false → ∀ j v, p.cls[j]? = some v → v * p.obj ≤ r.conf ∧ (j < r.cls → v * p.obj < r.conf))

/-- the coordinates are in a range of 4096 pixels -/
def InRange (r : YoloRow K) (lo : K) : Prop :=
  (lo ≤ r.x1 ∧ r.x1 ≤ lo + 4096) ∧ (lo ≤ r.x2 ∧ r.x2 ≤ lo + 4096)

end Norfair.Spec

namespace Norfair.Props

open Norfair Norfair.Spec

theorem suppress_sublist {α : Type} (over : α → α → Bool) (l : List α) :
    ∀ kept, (suppress over kept l).Sublist l := by
  induction l with
  | nil => exact fun _ => .refl _
  | cons b l ih =>
    intro kept
    rw [suppress]
    split
    · exact (ih _).cons b
    · exact (ih _).cons_cons b

theorem suppress_kept {α : Type} (over : α → α → Bool) (l : List α) :
    ∀ kept, ∀ b ∈ suppress over kept l, ∀ a ∈ kept, over a b = false := by
  induction l with
  | nil => intro kept b hb; cases hb
  | cons c l ih =>
    intro kept b hb a ha
    rw [suppress] at hb
    split at hb
    · exact ih _ b hb a ha
    · rename_i h
      rcases List.mem_cons.mp hb with rfl | hb
      · simp only [List.any_eq_true, not_exists, not_and, Bool.not_eq_true] at h
        exact h a ha
      · exact ih _ b hb a (List.mem_append_left _ ha)

theorem suppress_apart {α : Type} (over : α → α → Bool) (l : List α) :
    ∀ kept, (suppress over kept l).Pairwise fun a b => over a b = false := by
  induction l with
  | nil => exact fun _ => .nil
  | cons c l ih =>
    intro kept
    rw [suppress]
    split
    · exact ih _
    · refine .cons (fun b hb => ?_) (ih _)
      exact suppress_kept over l _ b hb c (List.mem_append_right _ (List.mem_singleton.mpr rfl))

theorem suppress_complete {α : Type} (over : α → α → Bool) (le : α → α → Prop) (l : List α) :
    l.Pairwise le → ∀ kept, ∀ b ∈ l, b ∈ suppress over kept l ∨ (∃ a ∈ kept, over a b = true) ∨
      ∃ a ∈ suppress over kept l, over a b = true ∧ le a b := by
  induction l with
  | nil => intro _ kept b hb; cases hb
  | cons c l ih =>
    intro hp kept b hb
    obtain ⟨h1, h2⟩ := List.pairwise_cons.mp hp
    rw [suppress]
    split
    · rename_i h
      rcases List.mem_cons.mp hb with rfl | hb
      · obtain ⟨a, ha, hab⟩ := List.any_eq_true.mp h
        exact Or.inr (Or.inl ⟨a, ha, hab⟩)
      · exact ih h2 kept b hb
    · rcases List.mem_cons.mp hb with rfl | hb
      · exact Or.inl (List.mem_cons_self ..)
      · rcases ih h2 (kept ++ [c]) b hb with h | ⟨a, ha, hab⟩ | ⟨a, ha, hab⟩
        · exact Or.inl (List.mem_cons_of_mem _ h)
        · rcases List.mem_append.mp ha with ha | ha
          · exact Or.inr (Or.inl ⟨a, ha, hab⟩)
          · rw [List.mem_singleton.mp ha] at hab
            exact Or.inr (Or.inr ⟨c, List.mem_cons_self .., hab, h1 b hb⟩)
        · exact Or.inr (Or.inr ⟨a, List.mem_cons_of_mem _ ha, hab⟩)

theorem bestClass_spec {K : Type} [LinearOrder K] (l : List K) : ∀ j m, bestClass l = some (j, m) →
    l[j]? = some m ∧ ∀ i v, l[i]? = some v → v ≤ m ∧ (i < j → v < m) := by
  induction l with
  | nil => intro j m h; cases h
  | cons x l ih =>
    intro j m h
    rw [bestClass] at h
    rcases hb : bestClass l with _ | ⟨j', m'⟩
    · rw [hb] at h
      simp only [Option.some.injEq, Prod.mk.injEq] at h
      obtain ⟨rfl, rfl⟩ := h
      have hl : l = [] := by
        cases l with
        | nil => rfl
        | cons y l =>
          rw [bestClass] at hb
          split at hb
          · cases hb
          · split at hb <;> cases hb
      subst hl
      refine ⟨rfl, fun i v hi => ?_⟩
      cases i with
      | zero =>
        cases hi
        exact ⟨le_refl _, fun h => absurd h (lt_irrefl _)⟩
      | succ i => simp at hi
    · rw [hb] at h
      simp only at h
      obtain ⟨h1, h2⟩ := ih j' m' hb
      split at h
      · rename_i hle
        simp only [Option.some.injEq, Prod.mk.injEq] at h
        obtain ⟨rfl, rfl⟩ := h
        refine ⟨rfl, fun i v hi => ⟨?_, fun hlt => absurd hlt (Nat.not_lt_zero _)⟩⟩
        cases i with
        | zero => cases hi; exact le_refl _
        | succ i => exact (h2 i v (by simpa using hi)).1.trans hle
      · rename_i hle
        simp only [Option.some.injEq, Prod.mk.injEq] at h
        obtain ⟨rfl, rfl⟩ := h
        refine ⟨by simpa using h1, fun i v hi => ?_⟩
        cases i with
        | zero =>
          cases hi
          exact ⟨(not_le.mp hle).le, fun _ => not_le.mp hle⟩
        | succ i =>
          obtain ⟨a, b⟩ := h2 i v (by simpa using hi)
          exact ⟨a, fun h => b (by omega)⟩

theorem bestClass_unique {K : Type} [LinearOrder K] {l : List K} {j : Nat} {m : K} (h1 : l[j]? = some m)
    (h2 : ∀ i v, l[i]? = some v → v ≤ m ∧ (i < j → v < m)) : bestClass l = some (j, m) := by
  rcases hb : bestClass l with _ | ⟨j', m'⟩
  · cases l with
    | nil => simp at h1
    | cons y l =>
      rw [bestClass] at hb
      split at hb
      · cases hb
      · split at hb <;> cases hb
  · obtain ⟨a, b⟩ := bestClass_spec l j' m' hb
    have e : m' = m := le_antisymm (h2 j' m' a).1 (b j m h1).1
    subst e
    rcases lt_trichotomy j j' with h | h | h
    · exact absurd ((b j m' h1).2 h) (lt_irrefl _)
    · rw [h]
    · exact absurd ((h2 j' m' a).2 h) (lt_irrefl _)

section
variable {K : Type} [Field K] [LinearOrder K] [IsStrictOrderedRing K]

theorem row_spec (p : YoloPred K) (j : Nat) (v : K) (hv : p.cls[j]? = some v) : IsRowOf p (p.row j (v * p.obj)) := by
  refine ⟨?_, ?_, ?_, ?_, v, hv, rfl⟩ <;> · simp only [YoloPred.row]; ring

theorem row_unique {p : YoloPred K} {r : YoloRow K} (h : IsRowOf p r) : r = p.row r.cls r.conf := by
  obtain ⟨h1, h2, h3, h4, _⟩ := h
  obtain ⟨x1, y1, x2, y2, conf, cls⟩ := r
  simp only [YoloPred.row, YoloRow.mk.injEq, and_true] at *
  refine ⟨?_, ?_, ?_, ?_⟩ <;> linarith

theorem mem_candidateRows {thr : K} {multi : Bool} {nc : Nat} {classes : Option (List Nat)} {preds : List (YoloPred K)} {r : YoloRow K} :
    r ∈ candidateRows thr multi nc classes preds ↔ Candidate thr (multi && decide (1 < nc)) classes preds r := by
  have key : r ∈ (if multi && decide (1 < nc) then
      (preds.filter fun p => decide (thr < p.obj)).flatMap fun p =>
        p.confs.zipIdx.filterMap fun x => if thr < x.1 then some (p.row x.2 x.1) else none
    else
      (preds.filter fun p => decide (thr < p.obj)).filterMap fun p =>
        (bestClass p.confs).bind fun x => if thr < x.2 then some (p.row x.1 x.2) else none) ↔
      Candidate thr (multi && decide (1 < nc)) none preds r := by
    cases hm : multi && decide (1 < nc)
    · simp only [Bool.false_eq_true, if_false, List.mem_filterMap, List.mem_filter, decide_eq_true_eq]
      constructor
      · rintro ⟨p, ⟨hp, ho⟩, hb⟩
        rcases hbc : bestClass p.confs with _ | ⟨j, m⟩
        · rw [hbc] at hb; cases hb
        · rw [hbc, Option.bind_some] at hb
          split at hb
          · rename_i ht
            cases hb
            obtain ⟨h1, h2⟩ := bestClass_spec _ _ _ hbc
            unfold YoloPred.confs at h1 h2
            rw [List.getElem?_map] at h1
            obtain ⟨v, hv, rfl⟩ := Option.map_eq_some_iff.mp h1
            refine ⟨p, hp, ho, row_spec p j v hv, ht, fun l hl => (by cases hl), fun _ i u hu => ?_⟩
            exact h2 i (u * p.obj) (by rw [List.getElem?_map, hu]; rfl)
          · cases hb
      · rintro ⟨p, hp, ho, hr, ht, _, hbest⟩
        refine ⟨p, ⟨hp, ho⟩, ?_⟩
        obtain ⟨v, hv, hc⟩ := hr.2.2.2.2
        have : bestClass p.confs = some (r.cls, r.conf) := by
          refine bestClass_unique ?_ fun i u hu => ?_
          · unfold YoloPred.confs
            rw [List.getElem?_map, hv, hc]
            rfl
          · unfold YoloPred.confs at hu
            rw [List.getElem?_map] at hu
            obtain ⟨u', hu', rfl⟩ := Option.map_eq_some_iff.mp hu
            exact hbest rfl i u' hu'
        rw [this, Option.bind_some, if_pos ht, ← row_unique hr]
    · simp only [if_true, List.mem_flatMap, List.mem_filter, decide_eq_true_eq, List.mem_filterMap]
      constructor
      · rintro ⟨p, ⟨hp, ho⟩, ⟨c, j⟩, hx, hb⟩
        split at hb
        · rename_i ht
          cases hb
          rw [List.mk_mem_zipIdx_iff_getElem?] at hx
          unfold YoloPred.confs at hx
          rw [List.getElem?_map] at hx
          obtain ⟨v, hv, rfl⟩ := Option.map_eq_some_iff.mp hx
          exact ⟨p, hp, ho, row_spec p j v hv, ht, fun l hl => (by cases hl), fun h => (by cases h)⟩
        · cases hb
      · rintro ⟨p, hp, ho, hr, ht, _, _⟩
        obtain ⟨v, hv, hc⟩ := hr.2.2.2.2
        refine ⟨p, ⟨hp, ho⟩, (r.conf, r.cls), ?_, ?_⟩
        · rw [List.mk_mem_zipIdx_iff_getElem?]
          unfold YoloPred.confs
          rw [List.getElem?_map, hv, hc]
          rfl
        · rw [if_pos ht, ← row_unique hr]
  unfold candidateRows
  cases classes with
  | none => exact key
  | some l =>
    simp only [List.mem_filter, List.contains_iff_mem]
    rw [key]
    constructor
    · rintro ⟨⟨p, a, b, c, d, _, e⟩, hl⟩
      exact ⟨p, a, b, c, d, fun l' hl' => (by cases hl'; exact hl), e⟩
    · rintro ⟨p, a, b, c, d, hl, e⟩
      exact ⟨⟨p, a, b, c, d, fun l' hl' => (by cases hl'), e⟩, hl l rfl⟩

theorem byConf_sorted (rows : List (YoloRow K)) : (byConf rows).Pairwise fun a b => b.conf ≤ a.conf := by
  have : Std.Total (fun a b : YoloRow K => b.conf ≤ a.conf) := ⟨fun a b => le_total _ _⟩
  have : IsTrans (YoloRow K) (fun a b => b.conf ≤ a.conf) := ⟨fun a b c h1 h2 => h2.trans h1⟩
  exact List.pairwise_insertionSort _ rows

theorem mem_byConf {rows : List (YoloRow K)} {r : YoloRow K} : r ∈ byConf rows ↔ r ∈ rows := List.mem_insertionSort _

theorem candidateRows_length (thr : K) (multi : Bool) {nc : Nat} (classes : Option (List Nat)) {preds : List (YoloPred K)}
    (hnc : ∀ p ∈ preds, p.cls.length = nc) : (candidateRows thr multi nc classes preds).length ≤
      preds.length * (if multi && decide (1 < nc) then nc else 1) := by
  have hall : ∀ (n : Nat) (f : YoloPred K → List (YoloRow K)), (∀ p ∈ preds, (f p).length ≤ n) →
      ((preds.filter fun p => decide (thr < p.obj)).flatMap f).length ≤ preds.length * n := by
    intro n f
    clear hnc
    induction preds with
    | nil => simp
    | cons p l ih =>
      intro hf
      have h1 := ih fun q hq => hf q (List.mem_cons_of_mem _ hq)
      have h2 := hf p (List.mem_cons_self ..)
      rw [List.length_cons, Nat.add_mul, Nat.one_mul]
      by_cases hp : thr < p.obj
      · rw [List.filter_cons_of_pos (by simpa using hp), List.flatMap_cons, List.length_append]
        omega
      · rw [List.filter_cons_of_neg (by simpa using hp)]
        omega
  unfold candidateRows
  have key : (if multi && decide (1 < nc) then
      (preds.filter fun p => decide (thr < p.obj)).flatMap fun p =>
        p.confs.zipIdx.filterMap fun x => if thr < x.1 then some (p.row x.2 x.1) else none
    else
      (preds.filter fun p => decide (thr < p.obj)).filterMap fun p =>
        (bestClass p.confs).bind fun x => if thr < x.2 then some (p.row x.1 x.2) else none).length ≤
      preds.length * (if multi && decide (1 < nc) then nc else 1) := by
    by_cases hm : (multi && decide (1 < nc)) = true
    · rw [if_pos hm, if_pos hm]
      refine hall _ _ fun p hp => (List.length_filterMap_le _ _).trans ?_
      simp [YoloPred.confs, hnc p hp]
    · rw [if_neg hm, if_neg hm, List.filterMap_eq_flatMap_toList]
      refine hall _ _ fun p hp => ?_
      generalize (bestClass p.confs).bind _ = x
      cases x <;> simp
  cases classes with
  | none => exact key
  | some l => exact (List.length_filter_le _ _).trans key

theorem iou_eq (a b : YoloRow K) : a.iou b = overlap a b := rfl

theorem iou_moved (a b : YoloRow K) (c : K) : (a.moved c).iou (b.moved c) = overlap a b := by
  simp only [YoloRow.moved, YoloRow.iou, min_add_add_right, max_add_add_right, add_sub_add_right_eq_sub]
  rfl

theorem iou_other_class {lo : K} {a b : YoloRow K} (ha : InRange a lo) (hb : InRange b lo) (h : a.cls ≠ b.cls) :
    (a.moved (a.cls * 4096)).iou (b.moved (b.cls * 4096)) = 0 := by
  have key : max 0 (min (a.x2 + a.cls * 4096) (b.x2 + b.cls * 4096) - max (a.x1 + a.cls * 4096) (b.x1 + b.cls * 4096)) =
      (0 : K) := by
    apply max_eq_left
    rw [sub_nonpos]
    rcases Nat.lt_or_gt_of_ne h with h | h
    · have h1 : ((a.cls : K) + 1) ≤ b.cls := by exact_mod_cast h
      refine (min_le_left _ _).trans (le_trans ?_ (le_max_right _ _))
      linarith [ha.2.2, hb.1.1]
    · have h1 : ((b.cls : K) + 1) ≤ a.cls := by exact_mod_cast h
      refine (min_le_right _ _).trans (le_trans ?_ (le_max_left _ _))
      linarith [hb.2.2, ha.1.1]
  unfold YoloRow.iou YoloRow.moved
  simp only [key, zero_mul, zero_div]

/-- the detections before suppression, cut off at 30000 -/
theorem mem_cut {confThr : K} {multi : Bool} {nc : Nat} {classes : Option (List Nat)} {preds : List (YoloPred K)}
    {r : YoloRow K} (h : r ∈ byConf (if 30000 < (candidateRows confThr multi nc classes preds).length then
      (byConf (candidateRows confThr multi nc classes preds)).take 30000
      else candidateRows confThr multi nc classes preds)) : r ∈ candidateRows confThr multi nc classes preds := by
  rw [mem_byConf] at h
  split at h
  · exact mem_byConf.mp (List.mem_of_mem_take h)
  · exact h

/-- **C118** Every detection that is left is the box of a prediction with a class, all over the confidence threshold and of
the wanted classes; there are at most 300, in descending order of the confidence. -/
theorem C118_from_predictions (confThr iouThr : K) (classes : Option (List Nat)) (agnostic multi : Bool) (nc : Nat)
    (preds : List (YoloPred K)) :
    (∀ r ∈ nonMaxSuppression confThr iouThr classes agnostic multi nc preds,
      Candidate confThr (multi && decide (1 < nc)) classes preds r) ∧
    (nonMaxSuppression confThr iouThr classes agnostic multi nc preds).length ≤ 300 ∧
    (nonMaxSuppression confThr iouThr classes agnostic multi nc preds).Pairwise fun a b => b.conf ≤ a.conf := by
  refine ⟨fun r hr => ?_, List.length_take_le _ _, ?_⟩
  · have h1 := (suppress_sublist _ _ _).mem (List.mem_of_mem_take hr)
    exact mem_candidateRows.mp (mem_cut h1)
  · exact ((byConf_sorted _).sublist (suppress_sublist _ _ _)).sublist (List.take_sublist _ _)

/-- **C118** Two detections of the same class that are left (of any two classes if `agnostic`) do not overlap by more than
the threshold. -/
theorem C118_apart (confThr iouThr : K) (classes : Option (List Nat)) (agnostic multi : Bool) (nc : Nat)
    (preds : List (YoloPred K)) :
    (nonMaxSuppression confThr iouThr classes agnostic multi nc preds).Pairwise fun a b =>
      agnostic = true ∨ a.cls = b.cls → overlap a b ≤ iouThr := by
  refine ((suppress_apart _ _ []).sublist (List.take_sublist _ _)).imp ?_
  intro a b h hab
  simp only [decide_eq_false_iff_not, not_lt] at h
  cases agnostic with
  | true =>
    rw [← iou_moved a b 0]
    simpa using h
  | false =>
    have e : a.cls = b.cls := by simpa using hab
    rw [← iou_moved a b (a.cls * 4096)]
    rw [e] at h ⊢
    simpa using h

/-- **C118** (partial: if `agnostic` is not set, the boxes must lie in a range of 4096 pixels, see `C118_false`) Nothing
else is left out: a detection over the thresholds is left, or one of the same class with at least its confidence that
overlaps it by more than the threshold is left, or the 300 detections that are left all have at least its confidence. -/
theorem C118_complete_partial {confThr iouThr : K} (hiou : 0 ≤ iouThr) (classes : Option (List Nat))
    (agnostic multi : Bool) {nc : Nat} {preds : List (YoloPred K)} (hnc : ∀ p ∈ preds, p.cls.length = nc)
    (hmany : preds.length * (if multi && decide (1 < nc) then nc else 1) ≤ 30000) (lo : K)
    (hlo : agnostic = false → ∀ r, Candidate confThr (multi && decide (1 < nc)) classes preds r → InRange r lo)
    {r : YoloRow K} (hr : Candidate confThr (multi && decide (1 < nc)) classes preds r) :
    r ∈ nonMaxSuppression confThr iouThr classes agnostic multi nc preds ∨
    (∃ s ∈ nonMaxSuppression confThr iouThr classes agnostic multi nc preds,
      (agnostic = true ∨ s.cls = r.cls) ∧ r.conf ≤ s.conf ∧ iouThr < overlap s r) ∨
    ((nonMaxSuppression confThr iouThr classes agnostic multi nc preds).length = 300 ∧
      ∀ s ∈ nonMaxSuppression confThr iouThr classes agnostic multi nc preds, r.conf ≤ s.conf) := by
  have hlen : ¬ 30000 < (candidateRows confThr multi nc classes preds).length :=
    not_lt.mpr ((candidateRows_length confThr multi classes hnc).trans hmany)
  unfold nonMaxSuppression
  simp only [if_neg hlen]
  have hrow := mem_candidateRows.mpr hr
  have hcand : ∀ s ∈ candidateRows confThr multi nc classes preds, Candidate confThr (multi && decide (1 < nc)) classes preds s :=
    fun s hs => mem_candidateRows.mp hs
  generalize candidateRows confThr multi nc classes preds = rows at hrow hcand
  have hsort := byConf_sorted rows
  generalize hov : (fun a b : YoloRow K => decide (iouThr < (a.moved (if agnostic = true then 0 else (a.cls : K) * 4096)).iou
    (b.moved (if agnostic = true then 0 else (b.cls : K) * 4096)))) = over
  have hover : ∀ a ∈ rows, ∀ b ∈ rows, over a b = true → (agnostic = true ∨ a.cls = b.cls) ∧ iouThr < overlap a b := by
    intro a ha b hb h
    rw [← hov] at h
    simp only [decide_eq_true_eq] at h
    cases agnostic with
    | true =>
      refine ⟨Or.inl rfl, ?_⟩
      rw [← iou_moved a b 0]
      simpa using h
    | false =>
      simp only [Bool.false_eq_true, if_false] at h
      by_cases e : a.cls = b.cls
      · refine ⟨Or.inr e, ?_⟩
        rw [← iou_moved a b (b.cls * 4096)]
        rwa [e] at h
      · rw [iou_other_class (hlo rfl a (hcand a ha)) (hlo rfl b (hcand b hb)) e] at h
        exact absurd h (not_lt.mpr hiou)
  have hsub : ∀ a ∈ suppress over [] (byConf rows), a ∈ rows := fun a ha =>
    mem_byConf.mp ((suppress_sublist _ _ _).mem ha)
  have hkept := hsort.sublist (suppress_sublist over (byConf rows) [])
  have hbefore : ∀ a ∈ suppress over [] (byConf rows), a ∈ (suppress over [] (byConf rows)).take 300 ∨
      (((suppress over [] (byConf rows)).take 300).length = 300 ∧
        ∀ s ∈ (suppress over [] (byConf rows)).take 300, a.conf ≤ s.conf) := by
    intro a ha
    generalize suppress over [] (byConf rows) = l at ha hkept
    rw [← List.take_append_drop 300 l] at ha hkept
    rcases List.mem_append.mp ha with h | h
    · exact Or.inl h
    · refine Or.inr ⟨?_, fun s hs => (List.pairwise_append.mp hkept).2.2 s hs a h⟩
      have : 0 < (l.drop 300).length := List.length_pos_of_mem h
      simp only [List.length_drop] at this
      simp only [List.length_take]
      omega
  rcases suppress_complete over (fun a b => b.conf ≤ a.conf) _ hsort [] r (mem_byConf.mpr hrow) with h | ⟨_, h, _⟩ | ⟨a, ha, h1, h2⟩
  · rcases hbefore r h with h' | h'
    · exact Or.inl h'
    · exact Or.inr (Or.inr h')
  · cases h
  · rcases hbefore a ha with h' | ⟨h3, h4⟩
    · obtain ⟨h5, h6⟩ := hover a (hsub a ha) r hrow h1
      exact Or.inr (Or.inl ⟨a, h', h5, h2, h6⟩)
    · exact Or.inr (Or.inr ⟨h3, fun s hs => h2.trans (h4 s hs)⟩)

end

/-- two boxes without a common point, of different classes, in an image of more than 5100 pixels; the class offset of 4096
moves the second one onto the first one -/
def farBoxes : List (YoloPred ℚ) := [⟨5050, 5050, 100, 100, 1, [9 / 10, 0]⟩, ⟨954, 954, 100, 100, 1, [0, 8 / 10]⟩]

/-- **C118** (the whole claim is false) The second of two boxes of different classes that are 4000 pixels apart is left
out. -/
theorem C118_false : nonMaxSuppression (1 / 4 : ℚ) (9 / 20) none false false 2 farBoxes =
      [⟨5000, 5000, 5100, 5100, 9 / 10, 0⟩] ∧
    Candidate (1 / 4 : ℚ) false none farBoxes ⟨904, 904, 1004, 1004, 8 / 10, 1⟩ ∧
    overlap (⟨904, 904, 1004, 1004, 8 / 10, 1⟩ : YoloRow ℚ) ⟨5000, 5000, 5100, 5100, 9 / 10, 0⟩ = 0 := by
  refine ⟨by decide +kernel, ?_, by decide +kernel⟩
  have := mem_candidateRows (thr := (1 / 4 : ℚ)) (multi := false) (nc := 2) (classes := none) (preds := farBoxes)
    (r := ⟨904, 904, 1004, 1004, 8 / 10, 1⟩)
  exact this.mp (by decide +kernel)

/-- three boxes: the second overlaps the first and is of the same class, the third is of another class -/
def nearBoxes : List (YoloPred ℚ) :=
  [⟨50, 50, 100, 100, 1, [8 / 10, 0]⟩, ⟨50, 60, 100, 100, 1, [9 / 10, 1 / 10]⟩, ⟨50, 55, 100, 100, 1, [1 / 10, 1 / 2]⟩]

example : nonMaxSuppression (1 / 4 : ℚ) (9 / 20) none false false 2 nearBoxes =
    [⟨0, 10, 100, 110, 9 / 10, 0⟩, ⟨0, 5, 100, 105, 1 / 2, 1⟩] := by decide +kernel

/-- the hypotheses of `C118_complete_partial`: the first box is not left -/
example : ∃ s ∈ nonMaxSuppression (1 / 4 : ℚ) (9 / 20) none false false 2 nearBoxes,
    (false = true ∨ s.cls = 0) ∧ 8 / 10 ≤ s.conf ∧ 9 / 20 < overlap s ⟨0, 0, 100, 100, 8 / 10, 0⟩ := by
  have hc := fun r => mem_candidateRows (thr := (1 / 4 : ℚ)) (multi := false) (nc := 2) (classes := none) (preds := nearBoxes)
    (r := r)
  rcases C118_complete_partial (confThr := (1 / 4 : ℚ)) (iouThr := 9 / 20) (by norm_num) none false false (nc := 2)
    (preds := nearBoxes) (by decide +kernel) (by decide +kernel) 0
    (fun _ r hr => by
      have h : ∀ r ∈ candidateRows (1 / 4 : ℚ) false 2 none nearBoxes,
          (0 ≤ r.x1 ∧ r.x1 ≤ 0 + 4096) ∧ 0 ≤ r.x2 ∧ r.x2 ≤ 0 + 4096 := by decide +kernel
      exact h r ((hc r).mpr hr))
    (r := ⟨0, 0, 100, 100, 8 / 10, 0⟩) ((hc _).mp (by decide +kernel)) with h | h | ⟨h, _⟩
  · exact absurd h (by decide +kernel)
  · exact h
  · exact absurd h (by decide +kernel)

end Norfair.Props
