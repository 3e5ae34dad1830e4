import Verif.Spec.Distances
import Verif.Lemmas.Vectorized
import Verif.Props.Toy

/-! C27, C42, C43: the constructor of the tracker, vectorized distances, distances by name. -/

set_option linter.unusedSectionVars false

namespace Norfair.Props

open Norfair Norfair.Spec

variable {K L D F X : Type}

/-! ### C43 -/

/-- **C43** `get_distance_by_name` finds exactly the documented names, each with its function. -/
theorem C43_names (s : String) (d : Named) : getDistanceByName s = some d ↔ (s, d) ∈ documented := by
  by_cases h : s ∈ documented.map Prod.fst
  · simp only [documented, List.map_append, List.map_cons, List.map_nil, List.cons_append, List.nil_append,
      List.mem_cons, List.not_mem_nil, or_false] at h
    rcases h with h | h | h | h | h | h | h | h | h | h | h | h | h | h | h | h | h | h | h | h | h | h | h | h | h | h | h <;>
      subst h <;>
      simp [getDistanceByName, scalarTable, vectorizedTable, scipyNames, documented, List.lookup, eq_comm]
  · have h1 : (s, d) ∉ documented := fun hm => h (List.mem_map.mpr ⟨_, hm, rfl⟩)
    simp only [h1, iff_false]
    simp only [documented, List.map_append, List.map_cons, List.map_nil, List.cons_append, List.nil_append,
      List.mem_cons, List.not_mem_nil, or_false, not_or] at h
    have hb : ∀ t : String, s ≠ t → (s == t) = false := fun t ht => by simpa using ht
    simp [getDistanceByName, scalarTable, vectorizedTable, scipyNames, List.lookup, h, hb]

example : getDistanceByName "iou_opt" = some .iou ∧ getDistanceByName "IoU" = none := by decide +kernel

/-! ### C27 -/

section
variable (str : L → String)
  (cdist : String → List (List ℝ) → List (List ℝ) → Option (Mat (Option (WithTop ℝ))))

/-- **C27** `Tracker(...)` succeeds exactly for valid arguments. -/
theorem C27_valid_iff (a : TrackerArgs L F X) :
    (∃ cfg, mkTracker str cdist a = some cfg) ↔
      ValidDistance a.distance ∧ 0 ≤ a.pastDetectionsLength ∧
        ∀ d, a.initializationDelay = some d → 0 ≤ d ∧ d < a.hitCounterMax := by
  have hdist : (∃ x, a.distance.resolve a.filter str cdist = some x) ↔ ValidDistance a.distance := by
    cases a.distance with
    | name s =>
      simp only [ValidDistance, DistArg.resolve, Option.map_eq_some_iff]
      constructor
      · rintro ⟨x, n, hn, _⟩; exact ⟨n, (C43_names s n).mp hn⟩
      · rintro ⟨n, hn⟩; exact ⟨_, n, (C43_names s n).mpr hn, rfl⟩
    | callable f => simp [ValidDistance, DistArg.resolve]
    | other => simp [ValidDistance, DistArg.resolve]
  have hdelay : (∃ d, resolveDelay a.hitCounterMax a.initializationDelay = some d) ↔
      ∀ d, a.initializationDelay = some d → 0 ≤ d ∧ d < a.hitCounterMax := by
    cases a.initializationDelay with
    | none => simp [resolveDelay]
    | some d =>
      simp only [resolveDelay, Option.some.injEq, forall_eq']
      by_cases h : d < 0 ∨ d ≥ a.hitCounterMax
      · rw [if_pos h]; simp; omega
      · rw [if_neg h]; simp; omega
  rw [← hdist, ← hdelay]
  unfold mkTracker
  cases a.distance.resolve a.filter str cdist with
  | none => simp
  | some x =>
    by_cases h2 : 0 ≤ a.pastDetectionsLength
    · cases resolveDelay a.hitCounterMax a.initializationDelay with
      | none => simp
      | some d => simp [h2]
    · simp [h2]

/-- **C27** What a constructed tracker uses is what was passed; the default initialization delay is
`hit_counter_max / 2` rounded towards zero. -/
theorem C27_arguments {a : TrackerArgs L F X} {cfg : Cfg ℝ L (WithTop ℝ) F X}
    (h : mkTracker str cdist a = some cfg) :
    (cfg.hitCounterMax = a.hitCounterMax ∧ cfg.pwMax = a.pointwiseHitCounterMax ∧
      cfg.detThr = a.detectionThreshold ∧ cfg.thr = a.threshold ∧ cfg.reidThr = a.reidThreshold ∧
      cfg.reidMax = a.reidHitCounterMax ∧ (cfg.pastLen : Int) = a.pastDetectionsLength ∧
      cfg.reid = a.reidDistance ∧ cfg.flt = a.filter) ∧
    (∀ f, a.distance = .callable f → cfg.dist = .scalar f) ∧
    (∀ d, a.initializationDelay = some d → cfg.initDelay = d) ∧
    (a.initializationDelay = none → 0 ≤ a.hitCounterMax →
      2 * cfg.initDelay ≤ a.hitCounterMax ∧ a.hitCounterMax < 2 * cfg.initDelay + 2) ∧
    (a.initializationDelay = none → a.hitCounterMax ≤ 0 →
      a.hitCounterMax ≤ 2 * cfg.initDelay ∧ 2 * cfg.initDelay < a.hitCounterMax + 2) := by
  unfold mkTracker at h
  split at h
  · cases h
  · rename_i x hx
    split at h
    rotate_left
    · cases h
    · rename_i h2
      split at h
      · cases h
      · rename_i delay hdelay
        have hcfg := (Option.some.inj h).symm
        subst hcfg
        refine ⟨⟨rfl, rfl, rfl, rfl, rfl, rfl, by simp; omega, rfl, rfl⟩, ?_, ?_, ?_, ?_⟩
        · intro f hf
          rw [hf] at hx
          exact (Option.some.inj hx).symm
        · intro d hd
          rw [hd] at hdelay
          unfold resolveDelay at hdelay
          simp only at hdelay
          split at hdelay
          · cases hdelay
          · exact (Option.some.inj hdelay).symm
        · intro hd hp
          rw [hd] at hdelay
          have := Option.some.inj hdelay
          simp only
          rw [← this, Int.tdiv_eq_ediv_of_nonneg hp]
          omega
        · intro hd hp
          rw [hd] at hdelay
          have := Option.some.inj hdelay
          simp only
          have e : a.hitCounterMax.tdiv 2 = -((-a.hitCounterMax) / 2) := by
            rw [← Int.tdiv_eq_ediv_of_nonneg (by omega), Int.neg_tdiv]; omega
          rw [← this, e]
          omega

/-- **C27** The default delay is a valid one, if `hit_counter_max ≥ 1`. -/
theorem C27_default_valid {a : TrackerArgs L F X} {cfg : Cfg ℝ L (WithTop ℝ) F X}
    (h : mkTracker str cdist a = some cfg) (hd : a.initializationDelay = none) (hm : 1 ≤ a.hitCounterMax) :
    0 ≤ cfg.initDelay ∧ cfg.initDelay < cfg.hitCounterMax := by
  obtain ⟨⟨e, -⟩, -, -, h1, -⟩ := C27_arguments str cdist h
  have := h1 hd (by omega)
  omega

end

/-- a tracker without a filter that compares by `mean_euclidean` -/
def sampleArgs (hcm : Int) (delay : Option Int) : TrackerArgs String Unit Unit where
  distance := .name "mean_euclidean"
  threshold := 30
  hitCounterMax := hcm
  initializationDelay := delay
  filter := ⟨fun _ => (), fun _ => 0, id, fun f _ _ => f, fun _ => [], fun f _ => f⟩

example : ∃ cfg, mkTracker id (fun _ _ _ => none) (sampleArgs 15 (some 14)) = some cfg :=
  (C27_valid_iff _ _ _).mpr ⟨⟨.meanEuclidean, by decide +kernel⟩, by decide, by
    intro d hd; cases hd; decide⟩

example : ¬ ∃ cfg, mkTracker id (fun _ _ _ => none) (sampleArgs 15 (some 15)) = some cfg := by
  rw [C27_valid_iff]
  rintro ⟨-, -, h⟩
  exact absurd (h 15 rfl).2 (by decide)

/-- **C27** (the default is not checked) `hit_counter_max = 0` is accepted without a delay although the
delay it then uses, 0, is rejected when it is passed. -/
theorem C27_default_unchecked :
    (∃ cfg, mkTracker id (fun _ _ _ => none) (sampleArgs 0 none) = some cfg ∧ cfg.initDelay = 0) ∧
    ¬ ∃ cfg, mkTracker id (fun _ _ _ => none) (sampleArgs 0 (some 0)) = some cfg := by
  constructor
  · obtain ⟨cfg, h⟩ := (C27_valid_iff id (fun _ _ _ => none) (sampleArgs 0 none)).mpr
      ⟨⟨.meanEuclidean, by decide +kernel⟩, by decide, by intro d hd; cases hd⟩
    have h1 := (C27_arguments _ _ h).2.2.2.1 rfl (by decide)
    have h2 : (sampleArgs 0 none).hitCounterMax = 0 := rfl
    exact ⟨cfg, h, by omega⟩
  · rw [C27_valid_iff]
    rintro ⟨-, -, h⟩
    exact absurd (h 0 rfl).2 (by decide)

/-! ### C42 -/

/-- position of an element among those selected by a test -/
theorem filter_getElem?_countP {α : Type} (p : α → Bool) (l : List α) (i : Nat) (a : α)
    (h : l[i]? = some a) (hp : p a = true) : (l.filter p)[(l.take i).countP p]? = some a := by
  induction l generalizing i with
  | nil => simp at h
  | cons x xs ih =>
    cases i with
    | zero =>
      simp only [List.getElem?_cons_zero, Option.some.injEq] at h
      subst h
      simp [List.filter_cons, hp]
    | succ i =>
      simp only [List.getElem?_cons_succ] at h
      have := ih i h
      by_cases hx : p x = true
      · simp [List.filter_cons, hx, List.countP_cons, this]
      · simp [List.filter_cons, hx, List.countP_cons, this]

/-- **C42** A vectorized distance that computes the pairwise distance `g` fills the matrix like the scalar
distance `g`, whenever `str()` tells the labels apart (and numpy converts labels like `str()`). -/
theorem C42_agree [Top D] [DecidableEq L] {C O : Type} (str : L → String) (labC : C → L) (labO : O → L)
    (ptsC : C → List K) (ptsO : O → List K) (g : List K → List K → Option D) (objects : List O)
    (cands : List C)
    (hstr : ∀ c ∈ cands, ∀ o ∈ objects, str (labC c) = str (labO o) → labC c = labO o) :
    vectorizedGetDistances (List.map str) str labC labO ptsC ptsO (pairwise g) objects cands =
      scalarDistances labC labO (fun c o => some (g (ptsC c) (ptsO o))) objects cands := by
  rw [vectorizedGetDistances_eq]
  unfold vectorizedDistances scalarDistances
  simp only
  rw [if_neg, if_neg]
  · congr 2
    funext i j
    cases hi : cands[i]? with
    | none => rfl
    | some c =>
      cases hj : objects[j]? with
      | none => rfl
      | some o =>
        simp only
        by_cases hl : labC c = labO o
        · rw [if_pos (congrArg str hl), if_pos hl]
          simp only [pairwise, Option.getD_some]
          rw [List.getElem?_map, List.getElem?_map,
            filter_getElem?_countP (fun c' => decide (str (labC c') = str (labC c))) cands i c hi (by simp),
            filter_getElem?_countP (fun o' => decide (str (labO o') = str (labC c))) objects j o hj
              (by simp [hl])]
          rfl
        · rw [if_neg (fun h => hl (hstr c (List.mem_of_getElem? hi) o (List.mem_of_getElem? hj) h)), if_neg hl]
          rfl
  · simp only [List.any_eq_true, not_exists, not_and]
    intro c _ o _
    split <;> simp
  · simp only [pairwise, List.any_eq_true, not_exists, not_and]
    intro c _ o _
    simp

/-- integer labels and labels that are a float with fraction .5 -/
inductive NumLabel
  | int (n : Nat)
  | half (n : Nat)
deriving DecidableEq

/-- `str()` of these labels -/
def NumLabel.str : NumLabel → String
  | .int n => toString n
  | .half n => toString n ++ ".5"

/-- `np.array(labels).astype(str)` of these labels: if there is a float, the integers become floats -/
def NumLabel.arr (l : List NumLabel) : List String :=
  if l.all (fun x => match x with | .int _ => true | .half _ => false) then l.map NumLabel.str
  else l.map fun x => match x with | .int n => toString n ++ ".0" | .half n => toString n ++ ".5"

/-- distance of the first coordinates -/
def firstDist (a b : List Int) : Option (WithTop Int) := some ((|a.headD 0 - b.headD 0| : Int) : WithTop Int)

example : ∀ c ∈ [((1 : Nat), [(5 : Int)]), (2, [7])], ∀ o ∈ [((2 : Nat), [(8 : Int)]), (1, [1])],
    toString c.1 = toString o.1 → c.1 = o.1 := by decide +kernel

example : (vectorizedGetDistances (List.map toString) toString Prod.fst Prod.fst Prod.snd Prod.snd
    (pairwise firstDist) [((2 : Nat), [(8 : Int)]), (1, [1])] [(1, [5]), (2, [7])]).map
      (fun M => [M.val 0 0, M.val 0 1, M.val 1 0, M.val 1 1]) =
    some [some ⊤, some ((4 : Int) : WithTop Int), some ((1 : Int) : WithTop Int), some ⊤] := by decide +kernel

/-- **C42** (the restriction on labels is needed) Labels that `str()` does not tell apart are compared by a
vectorized distance and not by a scalar one. -/
theorem C42_conflated_labels :
    let str : Nat ⊕ String → String := Sum.elim toString id
    let f : Nat ⊕ String → List Int := fun _ => [0]
    (vectorizedGetDistances (List.map str) str id id f f (pairwise firstDist) [Sum.inl 1] [Sum.inr "1"]).map
      (fun M => M.val 0 0) = some (some ((0 : Int) : WithTop Int)) ∧
    (scalarDistances id id (fun c o => some (firstDist (f c) (f o))) [Sum.inl 1] [Sum.inr "1"]).map
      (fun M => M.val 0 0) = some (some ⊤) := by decide +kernel

/-- **C42** (the assumption on numpy is needed) With integer and float labels in one list numpy converts the
integers to floats before `str`: the vectorized distance raises, or silently drops a pair that the scalar
one compares. -/
theorem C42_mixed_labels :
    let f : NumLabel → List Int := fun _ => [0]
    (vectorizedGetDistances NumLabel.arr NumLabel.str id id f f (pairwise firstDist)
      [.int 1, .half 2] [.int 1, .half 2]).isNone = true ∧
    (vectorizedGetDistances NumLabel.arr NumLabel.str id id f f (pairwise firstDist)
      [.int 1, .half 2] [.int 1]).map (fun M => M.val 0 0) = some (some ⊤) ∧
    (scalarDistances id id (fun c o => some (firstDist (f c) (f o))) [.int 1, .half 2] [.int 1]).map
      (fun M => M.val 0 0) = some (some ((0 : Int) : WithTop Int)) := by decide +kernel

end Norfair.Props
